import Verif.Spec.FloatProblem

/-!
# Specification: calls with the MCP penalty and floating point data
-/

namespace Sglm.Spec
variable {F : Type} {n p : ℕ}

/-- Give the dataset and a fresh datafit object to `run`. -/
def callData [Scalar F] {α : Type} (D : Design n p) (x : D.Entries F) (y : Fin n → F) (k : LossKind)
    (run : ∀ {DM DF : Type} [DesignMatrix F DM] [Datafit F DM DF], Dataset DM F → DF → α) : α :=
  match D, x, k with
  | .dense _, x, .quadratic => run (⟨matOf x, Targets.one (List.ofFn y)⟩ : Dataset (Mat F) F) (Quadratic.new : Quadratic F)
  | .dense _, x, .logistic => run (⟨matOf x, Targets.one (List.ofFn y)⟩ : Dataset (Mat F) F) (Logistic.new : Logistic F)
  | .csc A, x, .quadratic => run (⟨A.toCSCOf x, Targets.one (List.ofFn y)⟩ : Dataset (CSC F) F) (Quadratic.new : Quadratic F)
  | .csc A, x, .logistic => run (⟨A.toCSCOf x, Targets.one (List.ofFn y)⟩ : Dataset (CSC F) F) (Logistic.new : Logistic F)

/-- `Solver::solve` with the penalty `MCP::new(a, g)`. -/
def solveMCPOf [Scalar F] (srt : Argsort F) (cfg : Solver F) (D : Design n p) (x : D.Entries F) (y : Fin n → F) (k : LossKind)
    (a g : F) : M (List F) :=
  callData D x y k fun ds df => cfg.solve srt ds df (MCP.mk a g)

/-- The same run, returning also the printed lines. -/
def traceMCPOf [Scalar F] (srt : Argsort F) (cfg : Solver F) (D : Design n p) (x : D.Entries F) (y : Fin n → F) (k : LossKind)
    (a g : F) : M (CDState F × List (Event F)) :=
  callData D x y k fun ds df => do
    let (st, _, log) ← coordinateDescent srt ds df (MCP.mk a g) cfg
    pure (st, log)

/-- The call returns finite coefficients, whose values are `v`; the verbose run prints `m` iterations. -/
def RunsToMCP [Scalar F] [LawfulCmp F] (srt : Argsort F) (cfg : Solver F) (D : Design n p) (x : D.Entries F) (y : Fin n → F)
    (k : LossKind) (a g : F) (v : Fin p → ℝ) (m : ℕ) : Prop :=
  ∃ w : Fin p → F, (∀ j, Den (w j) (v j)) ∧ solveMCPOf srt cfg D x y k a g = .ok (List.ofFn w) ∧
    ∃ st log, traceMCPOf srt (cfg.setVerbose true) D x y k a g = .ok (st, log) ∧ st.w = List.ofFn w ∧ iterationsPrinted log = m

/-- `MCParams::fit` with floating point data. -/
def fitMCPOf [Scalar F] (srt : Argsort F) (ps : MCParams F) (D : Design n p) (x : D.Entries F) (y : Fin n → F) :
    M (Except (EstimatorError F) (List F)) :=
  match D, x with
  | .dense _, x => MCPEstimator.fit srt ps ⟨matOf x, Targets.one (List.ofFn y)⟩
  | .csc A, x => MCPEstimator.fit srt ps ⟨A.toCSCOf x, Targets.one (List.ofFn y)⟩

end Sglm.Spec
