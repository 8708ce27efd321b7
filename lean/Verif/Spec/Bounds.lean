import Verif.Spec.Quality

/-!
# Specification: the pull of a penalty
-/

namespace Sglm.Spec

/-- `z` times the derivative of the penalty at `z`: the strength with which the penalty pulls the coefficient `z` towards zero
(zero for coefficients beyond `αγ` of the MCP). -/
noncomputable def Pen.pull : Pen → ℝ → ℝ
  | .l1 α => fun z => α * |z|
  | .enet α ρ => fun z => α * (ρ * |z| + (1 - ρ) * z ^ 2)
  | .mcp α γ => fun z => if |z| < α * γ then α * |z| - z ^ 2 / γ else 0
  | .l05 α => fun z => α * Real.sqrt |z| / 2

/-- The same for the rows of a multi-task model (Lasso and elastic net): the scalar product of a row and the gradient of the penalty. -/
noncomputable def BPen.pull {T : ℕ} : BPen → Euc T → ℝ
  | .l21 α => fun z => α * ‖z‖
  | .enet α ρ => fun z => α * (ρ * ‖z‖ + (1 - ρ) * ‖z‖ ^ 2)
  | .mcp α γ => fun z => if ‖z‖ < α * γ then α * ‖z‖ - ‖z‖ ^ 2 / γ else 0

end Sglm.Spec
