import Verif.Spec.Quality

/-!
# Fits without penalty
-/

namespace Sglm.Spec
open Scalar
variable {n p : ℕ}

/-- Penalties of strength zero. -/
def Unpenalised : Pen → Prop
  | .l1 α => α = 0
  | .enet α ρ => α = 0 ∧ 0 ≤ ρ ∧ ρ ≤ 1
  | .mcp α γ => α = 0 ∧ 0 < γ
  | .l05 _ => False

/-- The direction `u` separates the two classes (labels `±1`) with margin `m`. -/
def Separates (D : Design n p) (y : Fin n → ℝ) (u : Fin p → ℝ) (m : ℝ) : Prop := ∀ i, m ≤ y i * fit D.matrix u i

/-- Training samples whose predicted class is not the right one. -/
noncomputable def misclassified (D : Design n p) (y : Fin n → ℝ) (v : Fin p → ℝ) : Finset (Fin n) :=
  open Classical in Finset.univ.filter fun i => y i * fit D.matrix v i ≤ 0

end Sglm.Spec
