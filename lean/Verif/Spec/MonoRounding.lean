import Verif.Spec.FloatProblem

/-!
# Specification: monotone rounding

`MonoRounded F rep` lists facts about correctly rounded arithmetic: rounding is monotone and odd, and it does not change numbers of
the format.  They hold of IEEE 754 binary32 and binary64 in the default mode (and when rounding towards zero), including
underflow and overflow, for dot products summed in any order with or without fused operations, with `rep` true of every number of the
type.  (In a model of a format inside a larger type, `rep` tells which values are numbers of the format.)
-/

namespace Sglm.Spec
open Scalar
variable {F : Type}

structure MonoRounded (F : Type) [Scalar F] [LawfulCmp F] (rep : F → Prop) : Prop where
  rep_zero : rep zero
  rep_add : ∀ x y : F, rep (x +. y)
  rep_dot : ∀ x y : List F, rep (dot x y)
  abs : ∀ (x : F) r, Den x r → Den (Scalar.abs x) |r|
  ofNat : ∀ n : ℕ, 0 < n → ∀ s, Den (Scalar.ofNat n : F) s → 0 < s
  add_zero : ∀ x y : F, Den x 0 → Den y 0 → Den (x +. y) 0
  mul_zero : ∀ (x y : F) r, Den x r → Den y 0 → Den (x *. y) 0
  dot_zero : ∀ (n : ℕ) (x y : Fin n → F) (r : Fin n → ℝ), (∀ i, Den (x i) (r i)) → (∀ i, Den (y i) 0) →
    Den (Scalar.dot (List.ofFn x) (List.ofFn y)) 0
  /-- `0 - y` is exact. -/
  zero_sub : ∀ (x y : F) s, Den x 0 → rep y → Den y s → Den (x -. y) (-s)
  /-- A difference of the wrong sign does not occur. -/
  sub_nonpos : ∀ (x y : F) r s, Den x r → Den y s → r ≤ s → ∃ k, LawfulCmp.key (x -. y) = some k ∧ k ≤ 0
  /-- Dividing by the same positive number preserves the order of the magnitudes. -/
  div_mono : ∀ (x x' y : F) r r' s, Den x r → Den x' r' → Den y s → 0 < s → |r| ≤ r' →
    ∃ k k', LawfulCmp.key (Scalar.abs (x /. y)) = some k ∧ LawfulCmp.key (x' /. y) = some k' ∧ 0 ≤ k ∧ k ≤ k'

/-- `x_j · y` as computed from the stored entries of column `j`, in the order of storage. -/
def CSCData.colDotOf [Scalar F] {n p : ℕ} (A : CSCData n p) (x : Fin A.nnz → F) (y : Fin n → F) (j : Fin p) : F :=
  ((List.finRange A.nnz).filter fun k => decide (A.InCol j k)).foldl (fun acc k => acc +. x k *. y (A.row k)) zero

end Sglm.Spec
