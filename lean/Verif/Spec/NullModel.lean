import Verif.Spec.ClosedForm
import Verif.Spec.Quality

/-!
# The penalty and the loss at zero
-/

namespace Sglm

namespace Spec
variable {n p T : ℕ}

/-- The gradient of the loss at zero is `-corr` for least squares and `-corr / 2` for logistic regression. -/
noncomputable def LossKind.atZero : LossKind → ℝ
  | .quadratic => 1
  | .logistic => 1 / 2

/-- Norm of the largest subgradient of the multi-task penalties at zero. -/
noncomputable def BPen.slope : BPen → ℝ
  | .l21 α => α
  | .enet α ρ => α * ρ
  | .mcp α _ => α

end Spec

end Sglm
