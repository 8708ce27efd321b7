import Verif.Spec.NoPenalty

/-!
# Soft margins
-/

namespace Sglm.Spec
variable {n p : ℕ}

/-- The linear classifier `u` has margin `m` on the samples (labels `±1`), up to the slacks `ξ i ≥ 0`. -/
def SoftMargin (D : Design n p) (y : Fin n → ℝ) (u : Fin p → ℝ) (m : ℝ) (ξ : Fin n → ℝ) : Prop :=
  ∀ i, 0 ≤ ξ i ∧ m - ξ i ≤ y i * fit D.matrix u i

end Sglm.Spec
