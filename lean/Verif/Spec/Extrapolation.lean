import Verif.Spec.Problem

/-!
# Specification: Anderson extrapolation

`buf 0, …, buf K` are successive iterates restricted to a working set of `m` features.  The extrapolated point is an
affine combination of the first `K` of them; Anderson's weights minimise the same combination of the differences.
-/

namespace Sglm.Spec
variable {E : Type} [NormedAddCommGroup E] [InnerProductSpace ℝ E] {m p K : ℕ}

/-- `w` is the combination of the first `K` iterates with weights `c` on the working set, and zero elsewhere. -/
structure Extrapolated (ws : Fin m → Fin p) (buf : Fin (K + 1) → Fin m → E) (c : Fin K → ℝ) (w : Fin p → E) : Prop where
  sum_one : ∑ k, c k = 1
  inside : ∀ i, w (ws i) = ∑ k, c k • buf k.castSucc i
  outside : ∀ j, (∀ i, ws i ≠ j) → w j = 0

/-- Squared norm of the combination of differences of successive iterates. -/
noncomputable def residual (buf : Fin (K + 1) → Fin m → E) (c : Fin K → ℝ) : ℝ :=
  ∑ i, ‖∑ k, c k • (buf k.succ i - buf k.castSucc i)‖ ^ 2

/-- The weights of Anderson extrapolation. -/
def AndersonWeights (buf : Fin (K + 1) → Fin m → E) (c : Fin K → ℝ) : Prop :=
  ∀ c' : Fin K → ℝ, ∑ k, c' k = 1 → residual buf c ≤ residual buf c'

/-- The matrix of stored multi-task iterates: the rows of a working set side by side. -/
def flatIterates {T : ℕ} (buf : Fin (K + 1) → Fin m → Euc T) : Fin (K + 1) → Fin (m * T) → ℝ :=
  fun k c => (buf k c.divNat).ofLp c.modNat

end Sglm.Spec
