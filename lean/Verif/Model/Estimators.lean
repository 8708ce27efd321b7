import Verif.Model.SolverBCD

/-!
# `/repo/src/estimators`

The six estimators.  In Rust each estimator has its own `…Params`/`…ValidParams` pair of structures, with
`…Params` a newtype around `…ValidParams`; the model uses one structure per estimator for both.
-/

namespace Sglm
open Scalar

/-- `EstimatorError`, `/repo/src/estimators/error.rs` lines 8-21.  The offending value is cast to `f32`
in the error; the model keeps the value itself. -/
inductive EstimatorError (F : Type) where
  | invalidRegularization (v : F)
  | invalidGamma (v : F)
  | invalidTolerance (v : F)
  | invalidK (v : Nat)
  | invalidWSSize (v : Nat)
  | invalidL1Ratio (v : F)

/-- `LassoParams`, `/repo/src/estimators/hyperparams.rs` lines 7-16 and 62; also
`MultiTaskLassoParams`, lines 182-191 and 237, which has the same fields. -/
structure LassoParams (F : Type) where
  alpha : F
  maxIterations : Nat
  maxEpochs : Nat
  wsStartSize : Nat
  tolerance : F
  K : Nat
  useAcceleration : Bool
  verbose : Bool

/-- `MCParams`, `/repo/src/estimators/hyperparams.rs` lines 357-367 and 416; also `BlockMCParams`,
lines 547-557 and 607. -/
structure MCParams (F : Type) where
  alpha : F
  gamma : F
  maxIterations : Nat
  maxEpochs : Nat
  wsStartSize : Nat
  tolerance : F
  K : Nat
  useAcceleration : Bool
  verbose : Bool

/-- `ElasticNetParams`, `/repo/src/estimators/hyperparams.rs` lines 736-746 and 796; also
`MultiTaskElasticNetParams`, lines 929-939 and 989. -/
structure ElasticNetParams (F : Type) where
  alpha : F
  l1Ratio : F
  maxIterations : Nat
  maxEpochs : Nat
  wsStartSize : Nat
  tolerance : F
  K : Nat
  useAcceleration : Bool
  verbose : Bool

section
variable {F : Type} [Scalar F]

/-- `LassoParams::new`, `/repo/src/estimators/hyperparams.rs` lines 73-84 (and 248-259 for
`MultiTaskLassoParams`). -/
def LassoParams.new : LassoParams F := ⟨one, 50, 1000, 10, lit 1 1000000, 5, true, true⟩
/-- `MCParams::new`, `/repo/src/estimators/hyperparams.rs` lines 427-439 (and 618-630 for
`BlockMCParams`). -/
def MCParams.new : MCParams F := ⟨one, lit 3 1, 50, 1000, 10, lit 1 1000000, 5, true, true⟩
/-- `ElasticNetParams::new`, `/repo/src/estimators/hyperparams.rs` lines 807-819 (and 1000-1012 for
`MultiTaskElasticNetParams`). -/
def ElasticNetParams.new : ElasticNetParams F :=
  ⟨one, lit 1 2, 50, 1000, 10, lit 1 1000000, 5, true, true⟩
end

section Setters
variable {F : Type}
/-! Setters, `/repo/src/estimators/hyperparams.rs` lines 89-148 (Lasso), 264-323 (MultiTaskLasso). -/
namespace LassoParams
/-- lines 89-92 -/
def setAlpha (p : LassoParams F) (v : F) : LassoParams F := { p with alpha := v }
/-- lines 97-100 -/
def setMaxIterations (p : LassoParams F) (v : Nat) : LassoParams F := { p with maxIterations := v }
/-- lines 105-108 -/
def setMaxEpochs (p : LassoParams F) (v : Nat) : LassoParams F := { p with maxEpochs := v }
/-- lines 113-116 -/
def setWsStartSize (p : LassoParams F) (v : Nat) : LassoParams F := { p with wsStartSize := v }
/-- lines 121-124 -/
def setTolerance (p : LassoParams F) (v : F) : LassoParams F := { p with tolerance := v }
/-- lines 129-132 -/
def setK (p : LassoParams F) (v : Nat) : LassoParams F := { p with K := v }
/-- lines 137-140 -/
def setUseAcceleration (p : LassoParams F) (v : Bool) : LassoParams F :=
  { p with useAcceleration := v }
/-- lines 145-148 -/
def setVerbose (p : LassoParams F) (v : Bool) : LassoParams F := { p with verbose := v }
end LassoParams
/-! Setters, `/repo/src/estimators/hyperparams.rs` lines 444-510 (MCP), 635-701 (BlockMCP). -/
namespace MCParams
/-- lines 444-447 -/
def setAlpha (p : MCParams F) (v : F) : MCParams F := { p with alpha := v }
/-- lines 451-454 -/
def setGamma (p : MCParams F) (v : F) : MCParams F := { p with gamma := v }
/-- lines 459-462 -/
def setMaxIterations (p : MCParams F) (v : Nat) : MCParams F := { p with maxIterations := v }
/-- lines 467-470 -/
def setMaxEpochs (p : MCParams F) (v : Nat) : MCParams F := { p with maxEpochs := v }
/-- lines 475-478 -/
def setWsStartSize (p : MCParams F) (v : Nat) : MCParams F := { p with wsStartSize := v }
/-- lines 483-486 -/
def setTolerance (p : MCParams F) (v : F) : MCParams F := { p with tolerance := v }
/-- lines 491-494 -/
def setK (p : MCParams F) (v : Nat) : MCParams F := { p with K := v }
/-- lines 499-502 -/
def setUseAcceleration (p : MCParams F) (v : Bool) : MCParams F := { p with useAcceleration := v }
/-- lines 507-510 -/
def setVerbose (p : MCParams F) (v : Bool) : MCParams F := { p with verbose := v }
end MCParams
/-! Setters, `/repo/src/estimators/hyperparams.rs` lines 824-890 (ElasticNet), 1017-1083
(MultiTaskElasticNet). -/
namespace ElasticNetParams
/-- lines 824-827 -/
def setAlpha (p : ElasticNetParams F) (v : F) : ElasticNetParams F := { p with alpha := v }
/-- lines 831-834 -/
def setL1Ratio (p : ElasticNetParams F) (v : F) : ElasticNetParams F := { p with l1Ratio := v }
/-- lines 839-842 -/
def setMaxIterations (p : ElasticNetParams F) (v : Nat) : ElasticNetParams F :=
  { p with maxIterations := v }
/-- lines 847-850 -/
def setMaxEpochs (p : ElasticNetParams F) (v : Nat) : ElasticNetParams F := { p with maxEpochs := v }
/-- lines 855-858 -/
def setWsStartSize (p : ElasticNetParams F) (v : Nat) : ElasticNetParams F :=
  { p with wsStartSize := v }
/-- lines 863-866 -/
def setTolerance (p : ElasticNetParams F) (v : F) : ElasticNetParams F := { p with tolerance := v }
/-- lines 871-874 -/
def setK (p : ElasticNetParams F) (v : Nat) : ElasticNetParams F := { p with K := v }
/-- lines 879-882 -/
def setUseAcceleration (p : ElasticNetParams F) (v : Bool) : ElasticNetParams F :=
  { p with useAcceleration := v }
/-- lines 887-890 -/
def setVerbose (p : ElasticNetParams F) (v : Bool) : ElasticNetParams F := { p with verbose := v }
end ElasticNetParams
end Setters

section
variable {F : Type} [Scalar F]

/-- The checks shared by all estimators after the penalty-specific ones: tolerance, `K`, working set
size (e.g. `/repo/src/estimators/hyperparams.rs` lines 161-171). -/
def checkTail {α : Type} (tolerance : F) (K ws : Nat) (ok : α) : Except (EstimatorError F) α :=
  if signBit tolerance then .error (.invalidTolerance tolerance)
  else if K ≤ 0 then .error (.invalidK K)
  else if ws ≤ 0 then .error (.invalidWSSize ws)
  else .ok ok

/-- `check_ref`, `/repo/src/estimators/hyperparams.rs` lines 156-172 (Lasso) and 331-347
(MultiTaskLasso). -/
def LassoParams.checkRef (p : LassoParams F) : Except (EstimatorError F) (LassoParams F) :=
  if signBit p.alpha then .error (.invalidRegularization p.alpha)
  else checkTail p.tolerance p.K p.wsStartSize p

/-- `check`, `/repo/src/estimators/hyperparams.rs` lines 174-177 and 349-352. -/
def LassoParams.check (p : LassoParams F) : Except (EstimatorError F) (LassoParams F) := do
  let _ ← p.checkRef
  pure p

/-- `MCParams::check_ref`, `/repo/src/estimators/hyperparams.rs` lines 518-536. -/
def MCParams.checkRef (p : MCParams F) : Except (EstimatorError F) (MCParams F) :=
  if signBit p.alpha then .error (.invalidRegularization p.alpha)
  else if p.gamma <. one then .error (.invalidGamma p.gamma)
  else checkTail p.tolerance p.K p.wsStartSize p

/-- `MCParams::check`, `/repo/src/estimators/hyperparams.rs` lines 538-541. -/
def MCParams.check (p : MCParams F) : Except (EstimatorError F) (MCParams F) := do
  let _ ← p.checkRef
  pure p

/-- `BlockMCParams::check_ref`, `/repo/src/estimators/hyperparams.rs` lines 709-725: no test of
`gamma`. -/
def MCParams.checkRefBlock (p : MCParams F) : Except (EstimatorError F) (MCParams F) :=
  if signBit p.alpha then .error (.invalidRegularization p.alpha)
  else checkTail p.tolerance p.K p.wsStartSize p

/-- `BlockMCParams::check`, `/repo/src/estimators/hyperparams.rs` lines 727-730. -/
def MCParams.checkBlock (p : MCParams F) : Except (EstimatorError F) (MCParams F) := do
  let _ ← p.checkRefBlock
  pure p

/-- `check_ref`, `/repo/src/estimators/hyperparams.rs` lines 898-918 (ElasticNet) and 1091-1111
(MultiTaskElasticNet). -/
def ElasticNetParams.checkRef (p : ElasticNetParams F) :
    Except (EstimatorError F) (ElasticNetParams F) :=
  if signBit p.alpha then .error (.invalidRegularization p.alpha)
  else if (one <. p.l1Ratio) || (p.l1Ratio <. zero) then .error (.invalidL1Ratio p.l1Ratio)
  else checkTail p.tolerance p.K p.wsStartSize p

/-- `check`, `/repo/src/estimators/hyperparams.rs` lines 920-923 and 1113-1116. -/
def ElasticNetParams.check (p : ElasticNetParams F) :
    Except (EstimatorError F) (ElasticNetParams F) := do
  let _ ← p.checkRef
  pure p

/-! ## Fitting

A fit either panics (outer `M`) or returns a `Result` (inner `Except`). -/

/-- The solver settings passed by the estimators to the solver. -/
def LassoParams.solver (p : LassoParams F) : Solver F :=
  ⟨p.wsStartSize, p.maxIterations, p.maxEpochs, p.tolerance, p.K, p.useAcceleration, p.verbose⟩
/-- The solver settings passed by the estimators to the solver. -/
def MCParams.solver (p : MCParams F) : Solver F :=
  ⟨p.wsStartSize, p.maxIterations, p.maxEpochs, p.tolerance, p.K, p.useAcceleration, p.verbose⟩
/-- The solver settings passed by the estimators to the solver. -/
def ElasticNetParams.solver (p : ElasticNetParams F) : Solver F :=
  ⟨p.wsStartSize, p.maxIterations, p.maxEpochs, p.tolerance, p.K, p.useAcceleration, p.verbose⟩

variable {DM : Type} [DesignMatrix F DM]

/-- `LassoValidParams::fit`, `/repo/src/estimators/estimators.rs` lines 53-70 (dense) and 84-101
(sparse). -/
def Lasso.fitValid [Datafit F DM (Quadratic F)] (srt : Argsort F) (p : LassoParams F)
    (ds : Dataset DM F) : M (Except (EstimatorError F) (List F)) := do
  let (st, _, _) ← coordinateDescent srt ds (Quadratic.new : Quadratic F) (L1.mk p.alpha) p.solver
  pure (.ok st.w)

/-- `MCPValidParams::fit`, `/repo/src/estimators/estimators.rs` lines 221-238 and 252-269. -/
def MCPEstimator.fitValid [Datafit F DM (Quadratic F)] (srt : Argsort F) (p : MCParams F)
    (ds : Dataset DM F) : M (Except (EstimatorError F) (List F)) := do
  let (st, _, _) ←
    coordinateDescent srt ds (Quadratic.new : Quadratic F) (MCP.mk p.alpha p.gamma) p.solver
  pure (.ok st.w)

/-- `ElasticNetValidParams::fit`, `/repo/src/estimators/estimators.rs` lines 390-407 and 421-438. -/
def ElasticNet.fitValid [Datafit F DM (Quadratic F)] (srt : Argsort F) (p : ElasticNetParams F)
    (ds : Dataset DM F) : M (Except (EstimatorError F) (List F)) := do
  let (st, _, _) ←
    coordinateDescent srt ds (Quadratic.new : Quadratic F) (L1PlusL2.mk p.alpha p.l1Ratio) p.solver
  pure (.ok st.w)

/-- `MultiTaskLassoValidParams::fit`, `/repo/src/estimators/estimators.rs` lines 137-153 and
167-184. -/
def MultiTaskLasso.fitValid [MTDatafit F DM (QuadraticMT F)] (srt : Argsort F) (p : LassoParams F)
    (ds : Dataset DM F) : M (Except (EstimatorError F) (Mat F)) := do
  let (st, _, _) ←
    MT.blockCoordinateDescent srt ds (QuadraticMT.new : QuadraticMT F) (L21.mk p.alpha) p.solver
  pure (.ok st.W)

/-- `BlockMCPValidParams::fit`, `/repo/src/estimators/estimators.rs` lines 307-324 and 338-355. -/
def BlockMCPEstimator.fitValid [MTDatafit F DM (QuadraticMT F)] (srt : Argsort F) (p : MCParams F)
    (ds : Dataset DM F) : M (Except (EstimatorError F) (Mat F)) := do
  let (st, _, _) ←
    MT.blockCoordinateDescent srt ds (QuadraticMT.new : QuadraticMT F)
      (BlockMCP.mk p.alpha p.gamma) p.solver
  pure (.ok st.W)

/-- `MultiTaskElasticNetValidParams::fit`, `/repo/src/estimators/estimators.rs` lines 474-491 and
505-522. -/
def MultiTaskElasticNet.fitValid [MTDatafit F DM (QuadraticMT F)] (srt : Argsort F)
    (p : ElasticNetParams F) (ds : Dataset DM F) : M (Except (EstimatorError F) (Mat F)) := do
  let (st, _, _) ←
    MT.blockCoordinateDescent srt ds (QuadraticMT.new : QuadraticMT F)
      (BlockL1PlusL2.mk p.alpha p.l1Ratio) p.solver
  pure (.ok st.W)

/-- `Fit for P: ParamGuard`, `/repo/src/estimators/param_guard.rs` lines 46-49: check, then fit the
checked parameters. -/
def guardedFit {Params R : Type} (checkRef : Params → Except (EstimatorError F) Params)
    (fitValid : Params → M (Except (EstimatorError F) R)) (p : Params) :
    M (Except (EstimatorError F) R) :=
  match checkRef p with
  | .error e => pure (.error e)
  | .ok checked => fitValid checked

/-- `LassoParams::fit`. -/
def Lasso.fit [Datafit F DM (Quadratic F)] (srt : Argsort F) (p : LassoParams F)
    (ds : Dataset DM F) : M (Except (EstimatorError F) (List F)) :=
  guardedFit LassoParams.checkRef (fun p => Lasso.fitValid srt p ds) p

/-- `MCParams::fit`. -/
def MCPEstimator.fit [Datafit F DM (Quadratic F)] (srt : Argsort F) (p : MCParams F)
    (ds : Dataset DM F) : M (Except (EstimatorError F) (List F)) :=
  guardedFit MCParams.checkRef (fun p => MCPEstimator.fitValid srt p ds) p

/-- `ElasticNetParams::fit`. -/
def ElasticNet.fit [Datafit F DM (Quadratic F)] (srt : Argsort F) (p : ElasticNetParams F)
    (ds : Dataset DM F) : M (Except (EstimatorError F) (List F)) :=
  guardedFit ElasticNetParams.checkRef (fun p => ElasticNet.fitValid srt p ds) p

/-- `MultiTaskLassoParams::fit`. -/
def MultiTaskLasso.fit [MTDatafit F DM (QuadraticMT F)] (srt : Argsort F) (p : LassoParams F)
    (ds : Dataset DM F) : M (Except (EstimatorError F) (Mat F)) :=
  guardedFit LassoParams.checkRef (fun p => MultiTaskLasso.fitValid srt p ds) p

/-- `BlockMCParams::fit`. -/
def BlockMCPEstimator.fit [MTDatafit F DM (QuadraticMT F)] (srt : Argsort F) (p : MCParams F)
    (ds : Dataset DM F) : M (Except (EstimatorError F) (Mat F)) :=
  guardedFit MCParams.checkRefBlock (fun p => BlockMCPEstimator.fitValid srt p ds) p

/-- `MultiTaskElasticNetParams::fit`. -/
def MultiTaskElasticNet.fit [MTDatafit F DM (QuadraticMT F)] (srt : Argsort F)
    (p : ElasticNetParams F) (ds : Dataset DM F) : M (Except (EstimatorError F) (Mat F)) :=
  guardedFit ElasticNetParams.checkRef (fun p => MultiTaskElasticNet.fitValid srt p ds) p

end
end Sglm
