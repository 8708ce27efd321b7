import Verif.Spec.Quality

/-!
# Predictions of new samples
-/

namespace Sglm.Spec
variable {p T : ℕ}

/-- Linear predictor of a new sample `x`. -/
noncomputable def predicted (w : Fin p → ℝ) (x : Fin p → ℝ) : ℝ := ∑ j, x j * w j

/-- The same for several tasks. -/
noncomputable def predictedMT (W : Fin p → Euc T) (x : Fin p → ℝ) : Euc T := ∑ j, x j • W j

/-- No feature of the two samples differs by more than `δ`. -/
def Near (δ : ℝ) (x x' : Fin p → ℝ) : Prop := ∀ j, |x j - x' j| ≤ δ

end Sglm.Spec
