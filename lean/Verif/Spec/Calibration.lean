import Verif.Spec.Quality

/-!
# Predicted probabilities
-/

namespace Sglm.Spec
variable {n p : ℕ}

/-- Probability of the class `1` predicted by a logistic regression with linear predictor `f`. -/
noncomputable def predictedProb (f : ℝ) : ℝ := 1 / (1 + Real.exp (-f))

open Classical in
/-- Column `j` is the indicator of the group `G` of samples (all samples: an intercept column). -/
def IsIndicator (D : Design n p) (j : Fin p) (G : Finset (Fin n)) : Prop := ∀ i, D.matrix i j = if i ∈ G then 1 else 0

/-- The `l1` penalty or the MCP, with strength `α`. -/
def HasStrength (α : ℝ) (pen : Pen) : Prop := pen = .l1 α ∨ ∃ γ, 0 < γ ∧ pen = .mcp α γ

end Sglm.Spec
