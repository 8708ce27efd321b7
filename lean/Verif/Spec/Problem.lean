import Verif.Spec.Loss
import Verif.Model.Estimators

/-!
# Specification: the optimization problems and the calls which solve them

A problem is described by textbook data: a real design (stored densely or in CSC form), real targets, a loss
and a penalty.  `solve1` and `solveMT` are the calls of the public API which a user makes to solve it.
-/

namespace Sglm.Spec
variable {n p T : ℕ}

/-- A design matrix with real entries in one of the two storage formats. -/
inductive Design (n p : ℕ) where
  | dense (X : Fin n → Fin p → ℝ)
  | csc (A : CSCData n p)

/-- The matrix represented. -/
def Design.matrix : Design n p → Fin n → Fin p → ℝ
  | .dense X => X
  | .csc A => A.dense

/-- No position is stored twice. -/
def Design.Canonical : Design n p → Prop
  | .dense _ => True
  | .csc A => A.NoDup

/-- The single-task losses. -/
inductive LossKind where
  | quadratic
  | logistic

/-- The loss of a prediction. -/
noncomputable def LossKind.loss : LossKind → (Fin n → ℝ) → (Fin n → ℝ) → ℝ
  | .quadratic => quadLoss
  | .logistic => logLoss

/-- Labels for which the step sizes are documented: any for least squares, `[-1, 1]` for logistic regression. -/
def LossKind.LabelsOK : LossKind → (Fin n → ℝ) → Prop
  | .quadratic, _ => True
  | .logistic, y => ∀ i, |y i| ≤ 1

/-- The separable penalties. -/
inductive Pen where
  | l1 (α : ℝ)
  | enet (α ρ : ℝ)
  | mcp (α γ : ℝ)
  | l05 (α : ℝ)

/-- The penalty of one coefficient. -/
noncomputable def Pen.fn : Pen → ℝ → ℝ
  | .l1 α => fun z => α * |z|
  | .enet α ρ => Spec.enet α ρ
  | .mcp α γ => Spec.mcp α γ
  | .l05 α => fun z => α * Real.sqrt |z|

/-- Meaningful hyperparameters. -/
def Pen.Valid : Pen → Prop
  | .l1 α => 0 ≤ α
  | .enet α ρ => 0 ≤ α ∧ 0 ≤ ρ ∧ ρ ≤ 1
  | .mcp α γ => 0 ≤ α ∧ 0 < γ
  | .l05 α => 0 < α

/-- Convex penalties. -/
def Pen.Convex : Pen → Prop
  | .l1 _ | .enet _ _ => True
  | _ => False

/-- The objective: loss of the linear predictor plus penalty. -/
noncomputable def objective1 (D : Design n p) (y : Fin n → ℝ) (k : LossKind) (pen : Pen) (w : Fin p → ℝ) : ℝ :=
  k.loss y (fit D.matrix w) + ∑ j, pen.fn (w j)

/-- Lipschitz constant of the `j`-th partial derivative of the loss: `‖X_j‖² / n` for least squares, `‖X_j‖² / (4 n)`
for logistic regression with labels in `[-1, 1]`. -/
noncomputable def lipschitz (D : Design n p) (k : LossKind) (j : Fin p) : ℝ :=
  match k with
  | .quadratic => (∑ i, D.matrix i j ^ 2) / n
  | .logistic => (∑ i, D.matrix i j ^ 2) / (4 * n)

/-- The step size `1 / L_j` of every nonzero column is at most `γ` (needed for the MCP penalty only). -/
def Pen.StepOK (pen : Pen) (D : Design n p) (k : LossKind) : Prop :=
  match pen with
  | .mcp _ γ => ∀ j, lipschitz D k j ≠ 0 → 1 ≤ γ * lipschitz D k j
  | _ => True

/-- Modulus of strong convexity of a convex penalty: `α (1 - ρ)` for the elastic net. -/
noncomputable def Pen.modulus : Pen → ℝ
  | .enet α ρ => α * (1 - ρ)
  | _ => 0

/-- How far a penalty is from being convex: `pen.fn z + pen.concavity * z ^ 2 / 2` is convex (not used for the L0.5 penalty). -/
noncomputable def Pen.concavity : Pen → ℝ
  | .mcp _ γ => 1 / γ
  | _ => 0

/-- `c` is a lower bound of the curvature of the loss: for least squares, `c ‖d‖² ≤ ‖X d‖² / n` for all `d` (`c = 0` is always
possible; a positive `c` exists iff the columns of `X` are linearly independent); nothing is claimed of the logistic loss. -/
def Curvature (D : Design n p) (k : LossKind) (c : ℝ) : Prop :=
  match k with
  | .quadratic => ∀ d : Fin p → ℝ, c * ∑ j, d j ^ 2 ≤ (∑ i, fit D.matrix d i ^ 2) / n
  | .logistic => c = 0

/-- Give the penalty object to `run`. -/
noncomputable def callPen {α : Type} (pen : Pen) (run : ∀ {P : Type} [Penalty XR P], P → α) : α :=
  match pen with
  | .l1 a => run (L1.mk (XR.fin a))
  | .enet a ρ => run (L1PlusL2.mk (XR.fin a) (XR.fin ρ))
  | .mcp a γ => run (MCP.mk (XR.fin a) (XR.fin γ))
  | .l05 a => run (L05.mk (XR.fin a))

/-- Give the dataset, a fresh datafit object and the penalty object to `run`. -/
noncomputable def call1 {α : Type} (D : Design n p) (y : Fin n → ℝ) (k : LossKind) (pen : Pen)
    (run : ∀ {DM DF P : Type} [DesignMatrix XR DM] [Datafit XR DM DF] [Penalty XR P], Dataset DM XR → DF → P → α) :
    α :=
  callPen pen fun pn =>
    match D, k with
    | .dense X, .quadratic => run (denseDs X y) (Quadratic.new : Quadratic XR) pn
    | .dense X, .logistic => run (denseDs X y) (Logistic.new : Logistic XR) pn
    | .csc A, .quadratic => run (cscDs A y) (Quadratic.new : Quadratic XR) pn
    | .csc A, .logistic => run (cscDs A y) (Logistic.new : Logistic XR) pn

/-- Solve a single-task problem: `Solver::solve`. -/
noncomputable def solve1 (srt : Argsort XR) (cfg : Solver XR) (D : Design n p) (y : Fin n → ℝ) (k : LossKind)
    (pen : Pen) : M (List XR) :=
  call1 D y k pen fun ds df pn => cfg.solve srt ds df pn

/-- The same run, returning also the final model fit and the printed lines. -/
noncomputable def trace1 (srt : Argsort XR) (cfg : Solver XR) (D : Design n p) (y : Fin n → ℝ) (k : LossKind)
    (pen : Pen) : M (CDState XR × List (Event XR)) :=
  call1 D y k pen fun ds df pn => do
    let (st, _, log) ← coordinateDescent srt ds df pn cfg
    pure (st, log)

/-- One coordinate update of the solver. -/
noncomputable def update1 (D : Design n p) (y : Fin n → ℝ) (k : LossKind) (pen : Pen) (st : CDState XR) (j : ℕ) :
    M (CDState XR) :=
  call1 D y k pen fun ds df pn => do
    let df ← Datafit.init df ds
    cdStep ds df pn st j

/-- One epoch of the solver: updates along the working set, then the acceleration step (if enabled) with buffer
`lastK`. -/
noncomputable def epoch1 (cfg : Solver XR) (D : Design n p) (y : Fin n → ℝ) (k : LossKind) (pen : Pen) (ws : List ℕ)
    (e : ℕ) (lastK : Mat XR) (st : CDState XR) : M (Mat XR × CDState XR) :=
  call1 D y k pen fun ds df pn => do
    let df ← Datafit.init df ds
    let st ← cdEpoch ds df pn ws st
    if cfg.useAcceleration then (fun r => (r.1, r.2.1)) <$> andersonAccel ds df pn lastK st ws e cfg.K false []
    else pure (lastK, st)

/-- The block penalties. -/
inductive BPen where
  | l21 (α : ℝ)
  | enet (α ρ : ℝ)
  | mcp (α γ : ℝ)

/-- The penalty of one row of coefficients. -/
noncomputable def BPen.fn : BPen → Euc T → ℝ
  | .l21 α => fun z => α * ‖z‖
  | .enet α ρ => Spec.enet α ρ
  | .mcp α γ => Spec.mcp α γ

/-- Meaningful hyperparameters.  With `α = 0` (or `ρ = 0`) block soft thresholding produces NaN, see C05. -/
def BPen.Valid : BPen → Prop
  | .l21 α => 0 < α
  | .enet α ρ => 0 < α ∧ 0 < ρ ∧ ρ ≤ 1
  | .mcp α γ => 0 ≤ α ∧ 0 < γ

/-- Convex penalties. -/
def BPen.Convex : BPen → Prop
  | .mcp _ _ => False
  | _ => True

/-- The step size `1 / L_j` of every nonzero column is at most `γ` (needed for the MCP penalty only). -/
def BPen.StepOK (pen : BPen) (D : Design n p) : Prop :=
  match pen with
  | .mcp _ γ => ∀ j, lipschitz D .quadratic j ≠ 0 → 1 ≤ γ * lipschitz D .quadratic j
  | _ => True

/-- The multi-task objective. -/
noncomputable def objectiveMT (D : Design n p) (Y : Fin n → Fin T → ℝ) (pen : BPen) (W : Fin p → Euc T) : ℝ :=
  mtLoss Y (fitMT D.matrix (fun j => (W j).ofLp)) + ∑ j, pen.fn (W j)

/-- Give the dataset, a fresh datafit object and the penalty object to `run`. -/
noncomputable def callMT {α : Type} (D : Design n p) (Y : Fin n → Fin T → ℝ) (pen : BPen)
    (run : ∀ {DM DF P : Type} [DesignMatrix XR DM] [MTDatafit XR DM DF] [MTPenalty XR P], Dataset DM XR → DF → P → α) :
    α :=
  match D, pen with
  | .dense X, .l21 a => run (denseDsMT X Y) (QuadraticMT.new : QuadraticMT XR) (L21.mk (XR.fin a))
  | .dense X, .enet a ρ => run (denseDsMT X Y) (QuadraticMT.new : QuadraticMT XR) (BlockL1PlusL2.mk (XR.fin a) (XR.fin ρ))
  | .dense X, .mcp a γ => run (denseDsMT X Y) (QuadraticMT.new : QuadraticMT XR) (BlockMCP.mk (XR.fin a) (XR.fin γ))
  | .csc A, .l21 a => run (cscDsMT A Y) (QuadraticMT.new : QuadraticMT XR) (L21.mk (XR.fin a))
  | .csc A, .enet a ρ => run (cscDsMT A Y) (QuadraticMT.new : QuadraticMT XR) (BlockL1PlusL2.mk (XR.fin a) (XR.fin ρ))
  | .csc A, .mcp a γ => run (cscDsMT A Y) (QuadraticMT.new : QuadraticMT XR) (BlockMCP.mk (XR.fin a) (XR.fin γ))

/-- Solve a multi-task problem: `Solver::solve_multi_task`. -/
noncomputable def solveMT (srt : Argsort XR) (cfg : Solver XR) (D : Design n p) (Y : Fin n → Fin T → ℝ)
    (pen : BPen) : M (Mat XR) :=
  callMT D Y pen fun ds df pn => cfg.solveMultiTask srt ds df pn

/-- The same run, returning also the final model fit and the printed lines. -/
noncomputable def traceMT (srt : Argsort XR) (cfg : Solver XR) (D : Design n p) (Y : Fin n → Fin T → ℝ)
    (pen : BPen) : M (BCDState XR × List (Event XR)) :=
  callMT D Y pen fun ds df pn => do
    let (st, _, log) ← MT.blockCoordinateDescent srt ds df pn cfg
    pure (st, log)

/-- One block update of the solver. -/
noncomputable def updateMT (D : Design n p) (Y : Fin n → Fin T → ℝ) (pen : BPen) (st : BCDState XR) (j : ℕ) :
    M (BCDState XR) :=
  callMT D Y pen fun ds df pn => do
    let df ← MTDatafit.init df ds
    MT.bcdStep ds df pn st j

/-- One epoch of the solver: updates along the working set, then the acceleration step (if enabled) with buffer
`lastK`. -/
noncomputable def epochMT (cfg : Solver XR) (D : Design n p) (Y : Fin n → Fin T → ℝ) (pen : BPen) (ws : List ℕ)
    (e : ℕ) (lastK : Mat XR) (st : BCDState XR) : M (Mat XR × BCDState XR) :=
  callMT D Y pen fun ds df pn => do
    let df ← MTDatafit.init df ds
    let st ← MT.bcdEpoch ds df pn ws st
    if cfg.useAcceleration then (fun r => (r.1, r.2.1)) <$> MT.andersonAccel ds df pn lastK st ws e cfg.K false []
    else pure (lastK, st)

end Sglm.Spec
