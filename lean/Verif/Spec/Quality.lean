import Verif.Spec.FloatProblem
import Verif.Spec.Run

/-!
# Specification: finished fits and correlations with the residual
-/

namespace Sglm.Spec
open Scalar
variable {n p T : ℕ}

/-- The call returns the coefficients `v`, and stops before `max_iterations`: the same call with `verbose` prints fewer iterations. -/
def Stops (srt : Argsort XR) (cfg : Solver XR) (D : Design n p) (y : Fin n → ℝ) (k : LossKind) (pen : Pen) (v : Fin p → ℝ) : Prop :=
  solve1 srt cfg D y k pen = .ok (vec v) ∧
    ∃ st log, trace1 srt (cfg.setVerbose true) D y k pen = .ok (st, log) ∧ iterationsPrinted log < cfg.maxIterations

/-- The same for several tasks. -/
def StopsMT (srt : Argsort XR) (cfg : Solver XR) (D : Design n p) (Y : Fin n → Fin T → ℝ) (pen : BPen) (V : Fin p → Euc T) : Prop :=
  solveMT srt cfg D Y pen = .ok (emat V) ∧
    ∃ st log, traceMT srt (cfg.setVerbose true) D Y pen = .ok (st, log) ∧ iterationsPrinted log < cfg.maxIterations

/-- Correlation of feature `j` with the residual of the coefficients `w`: `X_jᵀ (y - X w) / n`. -/
noncomputable def residCorr (D : Design n p) (y : Fin n → ℝ) (w : Fin p → ℝ) (j : Fin p) : ℝ :=
  (∑ i, D.matrix i j * (y i - fit D.matrix w i)) / n

/-- The same for several tasks. -/
noncomputable def residCorrMT (D : Design n p) (Y : Fin n → Fin T → ℝ) (W : Fin p → Euc T) (j : Fin p) : Euc T :=
  WithLp.toLp 2 fun t => (∑ i, D.matrix i j * (Y i t - fitMT D.matrix (fun j => (W j).ofLp) i t)) / n

/-- Strength of the `l1` part of a penalty: its slope at zero (`√` has no slope, the value is not used). -/
noncomputable def Pen.slope : Pen → ℝ
  | .l1 α => α
  | .enet α ρ => α * ρ
  | .mcp α _ => α
  | .l05 _ => 0

/-- Penalties whose strength `alpha` varies: Lasso, or elastic net with a given `l1_ratio`. -/
inductive Family where
  | lasso
  | enet (ρ : ℝ)

def Family.Valid : Family → Prop
  | .lasso => True
  | .enet ρ => 0 < ρ ∧ ρ ≤ 1

/-- The penalty of strength `α`. -/
def Family.pen : Family → ℝ → Pen
  | .lasso, α => .l1 α
  | .enet ρ, α => .enet α ρ

/-- The penalty without its strength. -/
noncomputable def Family.size : Family → ℝ → ℝ
  | .lasso, z => |z|
  | .enet ρ, z => ρ * |z| + (1 - ρ) * z ^ 2 / 2

/-- Part of the strength which belongs to the `l1` norm. -/
noncomputable def Family.ratio : Family → ℝ
  | .lasso => 1
  | .enet ρ => ρ

end Sglm.Spec
