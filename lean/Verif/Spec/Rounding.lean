import Verif.Cmp
import Mathlib.Algebra.BigOperators.Fin
import Mathlib.Analysis.SpecialFunctions.Log.Basic

/-!
# Specification: arithmetic with rounding errors

`Precise F e` lists what is assumed about the arithmetic of a floating point type: the results of the operations are
finite unless the exact result is huge (`> 1/e`), and have a relative or absolute error of about `e`.  The laws hold of
IEEE 754 binary64 with `e = 2⁻⁵⁰` and of binary32 with `e = 2⁻²¹` (every operation is correctly rounded with unit
roundoff `2⁻⁵³`, `2⁻²⁴`; results which underflow have an absolute error far below `e`; a dot product of `n` terms,
summed in any order, with or without fused operations, has error at most `γ_n ∑ |x_i y_i|` and `γ_n ≤ n e` if
`n e ≤ 1`).  Nothing else about the arithmetic is used.
-/

namespace Sglm.Spec
open Scalar

variable {F : Type} [Scalar F] [LawfulCmp F]

/-- `x` is finite, with value `r`. -/
def Den (x : F) (r : ℝ) : Prop := LawfulCmp.key x = some (r : EReal)

/-- `x` is `q` rounded: finite unless `q` is huge, and if finite then off by at most `δ`. -/
def Rounded (e : ℝ) (x : F) (q δ : ℝ) : Prop :=
  (|q| ≤ 1 / e → ∃ t, Den x t) ∧ ∀ t, Den x t → |t - q| ≤ δ

/-- Arithmetic of precision `e`. -/
structure Precise (F : Type) [Scalar F] [LawfulCmp F] (e : ℝ) : Prop where
  pos : 0 < e
  one : Den (Scalar.one : F) 1
  half : Den (lit 1 2 : F) (1 / 2)
  ofNat : ∀ n : ℕ, Rounded e (Scalar.ofNat n : F) n (e * n)
  neg : ∀ (x : F) r, Den x r → Den (-.x) (-r)
  abs : ∀ (x : F) r, Den x r → Den (Scalar.abs x) |r|
  signum_pos : ∀ (x : F) r, Den x r → 0 < r → Den (signum x) 1
  signum_neg : ∀ (x : F) r, Den x r → r < 0 → Den (signum x) (-1)
  add : ∀ (x y : F) r s, Den x r → Den y s → Rounded e (x +. y) (r + s) (e * |r + s|)
  sub : ∀ (x y : F) r s, Den x r → Den y s → Rounded e (x -. y) (r - s) (e * |r - s|)
  mul : ∀ (x y : F) r s, Den x r → Den y s → Rounded e (x *. y) (r * s) (e * (|r * s| + 1))
  mul_zero : ∀ (x y : F) r s, Den x r → Den y s → r * s = 0 → Den (x *. y) 0
  mul_sign : ∀ (x y : F) r s t, Den x r → Den y s → Den (x *. y) t → 0 ≤ t * (r * s)
  div : ∀ (x y : F) r s, Den x r → Den y s → s ≠ 0 → Rounded e (x /. y) (r / s) (e * (|r / s| + 1))
  div_zero : ∀ (x y : F) s, Den x 0 → Den y s → s ≠ 0 → Den (x /. y) 0
  div_sign : ∀ (x y : F) r s t, Den x r → Den y s → s ≠ 0 → Den (x /. y) t → 0 ≤ t * (r / s)
  dot : ∀ (n : ℕ) (x y : Fin n → F) (r s : Fin n → ℝ), (∀ i, Den (x i) (r i)) → (∀ i, Den (y i) (s i)) →
    n * e ≤ 1 →
    ((∑ i, |r i * s i|) ≤ 1 / e → ∃ t, Den (Scalar.dot (List.ofFn x) (List.ofFn y)) t) ∧
    ∀ t, Den (Scalar.dot (List.ofFn x) (List.ofFn y)) t → |t - ∑ i, r i * s i| ≤ n * e * ((∑ i, |r i * s i|) + 1)
  dot_zero : ∀ (n : ℕ) (x y : Fin n → F) (r s : Fin n → ℝ), (∀ i, Den (x i) (r i)) → (∀ i, Den (y i) (s i)) →
    (∀ i, r i * s i = 0) → Den (Scalar.dot (List.ofFn x) (List.ofFn y)) 0

/-- `x` is not a negative number (it may be `NaN`, an infinity or zero of either sign). -/
def NonNeg (x : F) : Prop := ∀ k, LawfulCmp.key x = some k → 0 ≤ k

/-- Non-finite values propagate, and the operations respect signs.  These laws hold of IEEE 754 arithmetic, for dot products
summed in any order, with or without fused operations. -/
structure Propagates (F : Type) [Scalar F] [LawfulCmp F] : Prop where
  abs_fin : ∀ (x : F) t, Den (Scalar.abs x) t → ∃ r, Den x r
  add_fin : ∀ (x y : F) t, Den (x +. y) t → ∃ r s, Den x r ∧ Den y s
  mul_fin : ∀ (x y : F) t, Den (x *. y) t → ∃ r s, Den x r ∧ Den y s
  abs_nonneg : ∀ x : F, NonNeg (Scalar.abs x)
  add_nonneg : ∀ x y : F, NonNeg x → NonNeg y → NonNeg (x +. y)
  mul_nonneg : ∀ x y : F, NonNeg x → NonNeg y → NonNeg (x *. y)
  div_nonneg : ∀ (x y : F) s, NonNeg x → Den y s → 0 < s → NonNeg (x /. y)
  dot_nonneg : ∀ x : List F, NonNeg (Scalar.dot x x)
  sub_nonneg : ∀ (x y : F) r s, Den x r → Den y s → s ≤ r → NonNeg (x -. y)

/-- Exponential and logarithm of precision `e`, used by the logistic loss.  IEEE 754 does not prescribe these functions; the laws hold
if the mathematical library has errors of a few units in the last place and its logarithm is not negative above one. -/
structure PreciseExp (F : Type) [Scalar F] [LawfulCmp F] (e : ℝ) : Prop where
  exp : ∀ (x : F) r, Den x r → Rounded e (Scalar.exp x) (Real.exp r) (e * (Real.exp r + 1))
  exp_nonneg : ∀ x : F, NonNeg (Scalar.exp x)
  ln : ∀ (x : F) r, Den x r → 0 < r → Rounded e (Scalar.ln x) (Real.log r) (e * (|Real.log r| + 1))
  ln_nonneg : ∀ x : F, NonNeg x → NonNeg (Scalar.ln (Scalar.one +. x))
  eConst : ∃ t, Den (Scalar.eConst : F) t ∧ |t - Real.exp 1| ≤ e * (Real.exp 1 + 1)

/-- `x` is the nearest number to `r` of a format of precision `e`; zero is represented exactly. -/
structure Stores (e : ℝ) (x : F) (r : ℝ) : Prop where
  near : ∃ t, Den x t ∧ |t - r| ≤ e * (|r| + 1)
  zero : r = 0 → Den x 0

end Sglm.Spec
