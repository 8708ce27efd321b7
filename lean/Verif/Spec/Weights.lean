import Verif.Spec.Stability
import Mathlib.Data.Fintype.Card

/-!
# Specification: weights of samples and features, unpenalised features
-/

namespace Sglm.Spec
variable {n p q T m : ℕ}

/-- Least squares with the weight `s i` for sample `i`, and the penalty of feature `j` applied to `c j * w j`. -/
noncomputable def weightedObjective (s : Fin n → ℝ) (c : Fin p → ℝ) (X : Fin n → Fin p → ℝ) (y : Fin n → ℝ) (pen : Pen) (w : Fin p → ℝ) : ℝ :=
  (∑ i, s i * (y i - ∑ j, X i j * w j) ^ 2) / (2 * n) + ∑ j, pen.fn (c j * w j)

/-- The data which are handed to the library instead. -/
noncomputable def weightedDesign (s : Fin n → ℝ) (c : Fin p → ℝ) (X : Fin n → Fin p → ℝ) (i : Fin n) (j : Fin p) : ℝ := √(s i) * X i j / c j
noncomputable def weightedTargets (s : Fin n → ℝ) (y : Fin n → ℝ) (i : Fin n) : ℝ := √(s i) * y i

/-- Logistic regression with the penalty of feature `j` applied to `c j * w j`. -/
noncomputable def weightedLogistic (c : Fin p → ℝ) (X : Fin n → Fin p → ℝ) (y : Fin n → ℝ) (pen : Pen) (w : Fin p → ℝ) : ℝ :=
  logLoss y (fun i => ∑ j, X i j * w j) + ∑ j, pen.fn (c j * w j)

/-- Least squares with features `Z` (coefficients `g`) which are not penalised, besides those of `X`. -/
noncomputable def partialObjective (X : Fin n → Fin p → ℝ) (Z : Fin n → Fin q → ℝ) (y : Fin n → ℝ) (pen : Pen) (w : Fin p → ℝ)
    (g : Fin q → ℝ) : ℝ :=
  (∑ i, (y i - ∑ j, X i j * w j - ∑ k, Z i k * g k) ^ 2) / (2 * n) + ∑ j, pen.fn (w j)

/-- `A` are coefficients of least squares regressions of the columns of `X` on the columns of `Z`: the residuals are orthogonal to `Z`. -/
def LeastSquares {r : ℕ} (Z : Fin n → Fin q → ℝ) (X : Fin n → Fin r → ℝ) (A : Fin q → Fin r → ℝ) : Prop :=
  ∀ k j, ∑ i, Z i k * (X i j - ∑ l, Z i l * A l j) = 0

/-- Several tasks with the weight `s i` for sample `i` and the weight `c j` for feature `j` (multi-task Lasso). -/
noncomputable def weightedObjectiveMT (s : Fin n → ℝ) (c : Fin p → ℝ) (X : Fin n → Fin p → ℝ) (Y : Fin n → Fin T → ℝ) (α : ℝ)
    (W : Fin p → Euc T) : ℝ :=
  (∑ i, s i * ∑ t, (Y i t - ∑ j, X i j * (W j).ofLp t) ^ 2) / (2 * n) + ∑ j, α * ‖c j • W j‖

/-- Sample `i` counts `s i` times. -/
noncomputable def countedObjective (s : Fin n → ℕ) (X : Fin n → Fin p → ℝ) (y : Fin n → ℝ) (k : LossKind) (pen : Pen) (w : Fin p → ℝ) : ℝ :=
  (∑ i, s i * k.sample (y i) (∑ j, X i j * w j)) / (∑ i, s i : ℕ) + ∑ j, pen.fn (w j)

/-- `e` lists sample `i` as often as `s` says. -/
def Repeats (s : Fin n → ℕ) (e : Fin m → Fin n) : Prop := ∀ i, (Finset.univ.filter fun l => e l = i).card = s i

end Sglm.Spec
