import Verif.Spec.Stability

/-!
# Specification: predicted probabilities of logistic regression
-/

namespace Sglm.Spec
variable {n p : ℕ}

/-- Predicted probability of the label `1`, for the linear prediction `u`. -/
noncomputable def probability (u : ℝ) : ℝ := 1 / (1 + Real.exp (-u))

/-- Labels of logistic regression. -/
def Binary (y : Fin n → ℝ) : Prop := ∀ i, y i = 1 ∨ y i = -1

/-- How many labels `1` exceed their predicted probabilities, weighted by feature `j`: `∑ X_ij ([y_i = 1] - P_i) / n`. -/
noncomputable def excess (D : Design n p) (y : Fin n → ℝ) (w : Fin p → ℝ) (j : Fin p) : ℝ :=
  (∑ i, D.matrix i j * ((1 + y i) / 2 - probability (fit D.matrix w i))) / n

end Sglm.Spec
