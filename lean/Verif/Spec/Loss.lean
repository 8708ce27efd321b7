import Verif.Spec.Data
import Mathlib.Analysis.Calculus.Deriv.Basic

/-!
# Specification: derivatives, norms and objectives
-/

namespace Sglm.Spec
variable {p T : ℕ}

/-- `d` is the partial derivative of `f` with respect to `w_j` at `w`. -/
def IsPartial (f : (Fin p → ℝ) → ℝ) (w : Fin p → ℝ) (j : Fin p) (d : ℝ) : Prop :=
  HasDerivAt (fun t => f (Function.update w j t)) d (w j)

/-- `d` is the partial derivative of `f` with respect to `W_{jt}` at `W`. -/
def IsPartialMT (f : (Fin p → Fin T → ℝ) → ℝ) (W : Fin p → Fin T → ℝ) (j : Fin p) (t : Fin T) (d : ℝ) :
    Prop :=
  HasDerivAt (fun s => f (Function.update W j (Function.update (W j) t s))) d (W j t)

/-- `∑ |w_j|`. -/
def l1 (w : Fin p → ℝ) : ℝ := ∑ j, |w j|

/-- Euclidean norm of a row. -/
noncomputable def nrm (v : Fin T → ℝ) : ℝ := Real.sqrt (∑ t, v t ^ 2)

/-- `∑ ‖W_j‖`. -/
noncomputable def l21 (W : Fin p → Fin T → ℝ) : ℝ := ∑ j, nrm (W j)

end Sglm.Spec
