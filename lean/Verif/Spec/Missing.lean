import Verif.Spec.FloatProblem
import Verif.XR

/-!
# Specification: features with missing values
-/

namespace Sglm.Spec
variable {n p : ℕ}

/-- The design in which the feature `j` is replaced by zeros. -/
noncomputable def blankFeature (j : Fin p) (x : Fin n → Fin p → XR) : Fin n → Fin p → XR := fun i k => if k = j then XR.fin 0 else x i k

/-- A value of the feature `j` is missing (NaN). -/
def MissingIn (j : Fin p) (x : Fin n → Fin p → XR) : Prop := ∃ i, x i j = XR.nan

end Sglm.Spec
