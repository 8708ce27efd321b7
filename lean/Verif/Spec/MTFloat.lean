import Verif.Spec.MTCheck
import Verif.Spec.FloatProblem

/-!
# Specification: runs of the multi-task Lasso in floating point
-/

namespace Sglm.Spec
open Scalar
variable {n p T : ℕ} {F : Type}

/-- What the block soft-thresholding of rows and the L21 norm need beyond `PreciseNorm`: a quotient of non-negative numbers is not
rounded from below one to above one, numbers other than one are not too close to one, sums are accurate, and non-finite values
propagate through sums, dot products and square roots.  The laws hold of IEEE 754 binary64 with `e = 2⁻⁵⁰`, `η = 2⁻¹⁰⁰⁰`, and of
binary32 with `e = 2⁻²¹`, `η = 2⁻¹²⁰`. -/
structure PreciseMT (F : Type) [Scalar F] [LawfulCmp F] (e η : ℝ) : Prop where
  norm : PreciseNorm F e η
  small : η ≤ e ^ 5
  gap : ∀ (x : F) r, Den x r → r ≠ 1 → e / 8 ≤ |1 - r|
  div_le_one : ∀ (x y : F) r s t, Den x r → Den y s → 0 ≤ r → r ≤ s → 0 < s → Den (x /. y) t → t ≤ 1
  sum : ∀ (n : ℕ) (x : Fin n → F) (r : Fin n → ℝ), (∀ i, Den (x i) (r i)) → n * e ≤ 1 →
    ((∑ i, |r i|) ≤ 1 / η → ∃ t, Den (Scalar.sum (List.ofFn x)) t) ∧
    ∀ t, Den (Scalar.sum (List.ofFn x)) t → |t - ∑ i, r i| ≤ n * e * ∑ i, |r i|
  sum_nonneg : ∀ l : List F, (∀ x ∈ l, NonNeg x) → NonNeg (Scalar.sum l)
  sum_fin : ∀ (l : List F) t, Den (Scalar.sum l) t → ∀ x ∈ l, ∃ r, Den x r
  dot_fin : ∀ (l : List F) t, Den (Scalar.dot l l) t → ∀ x ∈ l, ∃ r, Den x r
  sqrt_fin : ∀ (x : F) t, Den (Scalar.sqrt x) t → ∃ r, Den x r
  sqrt_nonneg : ∀ x : F, NonNeg (Scalar.sqrt x)

/-- The laws of rounded arithmetic used by the multi-task Lasso. -/
def MTLaws (F : Type) [Scalar F] [LawfulCmp F] (e : ℝ) : Prop := Precise F e ∧ Propagates F ∧ ∃ η, PreciseMT F e η

/-- `Solver::solve_multi_task` with floating point data, a fresh datafit object and the L21 penalty of strength `a`. -/
def solveMTOf [Scalar F] (srt : Argsort F) (cfg : Solver F) (D : Design n p) (x : D.Entries F) (y : Fin n → Fin T → F) (a : F) : M (Mat F) :=
  callMTOf D x y a fun ds df pn => cfg.solveMultiTask srt ds df pn

/-- The initial working set is not empty, and extrapolation (if used) finds enough stored coefficients. -/
structure SettingsOKMT (cfg : Solver F) (p T : ℕ) : Prop where
  ws : 0 < cfg.wsStartSize
  accel : cfg.useAcceleration = true → 0 < cfg.K ∧ cfg.K ≤ cfg.wsStartSize * T ∧ cfg.K ≤ p * T

/-- The call returns finite coefficients, whose values are `v`; the verbose run prints `m` iterations. -/
def RunsToMT [Scalar F] [LawfulCmp F] (srt : Argsort F) (cfg : Solver F) (D : Design n p) (x : D.Entries F) (y : Fin n → Fin T → F)
    (a : F) (v : Fin p → Euc T) (m : ℕ) : Prop :=
  ∃ w : Fin p → Fin T → F, (∀ j t, Den (w j t) ((v j).ofLp t)) ∧ solveMTOf srt cfg D x y a = .ok (matOf w) ∧
    ∃ st log, traceMTOf srt (cfg.setVerbose true) D x y a = .ok (st, log) ∧ st.W = matOf w ∧ iterationsPrinted log = m

/-- `MultiTaskLassoParams::fit` with floating point data. -/
def fitMTLassoOf [Scalar F] (srt : Argsort F) (ps : LassoParams F) (D : Design n p) (x : D.Entries F) (y : Fin n → Fin T → F) :
    M (Except (EstimatorError F) (Mat F)) :=
  match D, x with
  | .dense _, x => MultiTaskLasso.fit srt ps ⟨matOf x, Targets.two (matOf y)⟩
  | .csc A, x => MultiTaskLasso.fit srt ps ⟨A.toCSCOf x, Targets.two (matOf y)⟩

end Sglm.Spec
