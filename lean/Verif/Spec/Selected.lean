import Verif.Spec.Quality

/-!
# Selected features
-/

namespace Sglm.Spec
variable {n p T : ℕ}

open Classical in
/-- The features with nonzero coefficient. -/
noncomputable def selected (v : Fin p → ℝ) : Finset (Fin p) := Finset.univ.filter fun j => v j ≠ 0

open Classical in
/-- The features with a nonzero row of coefficients. -/
noncomputable def selectedMT (V : Fin p → Euc T) : Finset (Fin p) := Finset.univ.filter fun j => V j ≠ 0

/-- `‖X w‖² ≤ n L ‖w‖²`: `L` bounds the largest eigenvalue of `Xᵀ X / n`. -/
def SpectralBound (D : Design n p) (L : ℝ) : Prop := ∀ w : Fin p → ℝ, ∑ i, fit D.matrix w i ^ 2 ≤ n * L * ∑ j, w j ^ 2

end Sglm.Spec
