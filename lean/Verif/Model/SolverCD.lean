import Verif.Model.Datafits
import Verif.Model.Penalties

/-!
# `/repo/src/solvers/anderson_cd/mod.rs` and `/repo/src/solvers/impl_solver.rs`
-/

namespace Sglm
open Scalar

/-- What the solvers print when `verbose` is set. -/
inductive Event (F : Type) where
  /-- `KKT max violation: {}` -/
  | kkt (v : F)
  /-- `Iteration {}, {} features in subproblem.` -/
  | iteration (t size : Nat)
  /-- `[ACCEL] p_obj {} :: p_obj_acc {}` -/
  | accel (p_obj p_obj_acc : F)
  /-- singular extrapolation matrix -/
  | singular
  /-- `epoch: {} :: obj: {} :: kkt: {}` -/
  | epoch (e : Nat) (obj kkt : F)
  /-- `Early exit.` -/
  | earlyExit

/-- `if verbose { println!(..) }`. -/
def say {F : Type} (verbose : Bool) (e : Event F) (log : List (Event F)) : List (Event F) :=
  if verbose then log ++ [e] else log

/-- `Solver`, `/repo/src/solvers/mod.rs` lines 26-41, and the parameters of `coordinate_descent`. -/
structure Solver (F : Type) where
  wsStartSize : Nat
  maxIterations : Nat
  maxEpochs : Nat
  tolerance : F
  K : Nat
  useAcceleration : Bool
  verbose : Bool

namespace Solver
variable {F : Type}
/-- `Default for Solver`, `/repo/src/solvers/impl_solver.rs` lines 15-27 (and `new`, 31-33). -/
def new [Scalar F] : Solver F := ⟨10, 50, 1000, lit 1 100000000, 5, true, true⟩
/-- `/repo/src/solvers/impl_solver.rs` lines 37-40. -/
def setWsStartSize (s : Solver F) (v : Nat) : Solver F := { s with wsStartSize := v }
/-- `/repo/src/solvers/impl_solver.rs` lines 45-48. -/
def setMaxIterations (s : Solver F) (v : Nat) : Solver F := { s with maxIterations := v }
/-- `/repo/src/solvers/impl_solver.rs` lines 55-58. -/
def setMaxEpochs (s : Solver F) (v : Nat) : Solver F := { s with maxEpochs := v }
/-- `/repo/src/solvers/impl_solver.rs` lines 62-65. -/
def setTolerance (s : Solver F) (v : F) : Solver F := { s with tolerance := v }
/-- `/repo/src/solvers/impl_solver.rs` lines 70-73. -/
def setK (s : Solver F) (v : Nat) : Solver F := { s with K := v }
/-- `/repo/src/solvers/impl_solver.rs` lines 77-80. -/
def setUseAcceleration (s : Solver F) (v : Bool) : Solver F := { s with useAcceleration := v }
/-- `/repo/src/solvers/impl_solver.rs` lines 85-88. -/
def setVerbose (s : Solver F) (v : Bool) : Solver F := { s with verbose := v }
end Solver

/-- Mutable state of `coordinate_descent`: `w`, `Xw`. -/
structure CDState (F : Type) where
  w : List F
  Xw : List F

section
variable {F DM DF P : Type} [Scalar F]

/-- `construct_grad`, `/repo/src/solvers/anderson_cd/mod.rs` lines 15-32. -/
def constructGrad [Datafit F DM DF] (ds : Dataset DM F) (Xw : List F) (ws : List Nat) (df : DF) :
    M (List F) :=
  ws.mapM (fun j => Datafit.gradientJ df ds Xw j)

/-- `opt_cond_violation`, `/repo/src/solvers/anderson_cd/mod.rs` lines 38-56. -/
def optCondViolation [Datafit F DM DF] [Penalty F P] (ds : Dataset DM F) (w Xw : List F)
    (ws : List Nat) (df : DF) (pen : P) : M (List F × F) := do
  let grad_ws ← constructGrad ds Xw ws df
  Penalty.subdiffDistance pen w grad_ws ws

/-- Lines 72-77 of `/repo/src/solvers/anderson_cd/mod.rs`: count the non-zero weights and set their
violation to infinity. -/
def markSupport (kkt w : List F) : M (List F × Nat) :=
  (List.range w.length).foldlM (fun (acc : List F × Nat) j => do
    let wj ← getM w j
    if !(wj ==. zero) then do
      let kkt' ← setM acc.1 j inf
      pure (kkt', acc.2 + 1)
    else pure acc) (kkt, 0)

/-- `construct_ws_from_kkt`, `/repo/src/solvers/anderson_cd/mod.rs` lines 62-91. -/
def constructWs (srt : Argsort F) (kkt w : List F) (ws_start_size : Nat) : M (List Nat × Nat) := do
  let n_features := w.length
  let (kkt, nnz) ← markSupport kkt w
  let ws_size := max ws_start_size (min (2 * nnz) n_features)
  let sorted ← srt kkt
  let sorted := sorted.take ws_size
  if sorted.length = ws_size then pure (sorted, ws_size) else throw .shape

/-- Lines 124-126 of `/repo/src/solvers/anderson_cd/mod.rs`:
`last_K_w[[epoch % (K + 1), idx]] = w[j]` for `(idx, j)` in `ws`. -/
def storeIterate (lastK : Mat F) (w : List F) (ws : List Nat) (k : Nat) : M (Mat F) :=
  (ws.zipIdx).foldlM (fun A (ji : Nat × Nat) => do
    let wj ← getM w ji.1
    A.set2 k ji.2 wj) lastK

/-- Lines 134-147 of `/repo/src/solvers/anderson_cd/mod.rs` (and 145-158 of
`/repo/src/solvers/anderson_bcd/mod.rs`): differences of consecutive stored iterates, as a
`K × width` matrix.  The buffer `U` is overwritten before each use, so it is not part of the state. -/
def diffMatrix (lastK : Mat F) (K width : Nat) : M (Mat F) := do
  let rows ← ((lastK.rows.take K).zip (lastK.rows.drop 1)).mapM
    (fun rr => bop Scalar.sub rr.2 rr.1)
  Mat.fromShapeVec K width rows.flatten

/-- Lines 155-165 of `/repo/src/solvers/anderson_cd/mod.rs` (and 166-176 of
`/repo/src/solvers/anderson_bcd/mod.rs`): `c = z / z.sum()` and the combination of the first `K`
stored iterates with weights `c`. -/
def extrapolate (lastK : Mat F) (z : List F) (K width : Nat) : M (List F) := do
  let s := sum z
  let c := z.map (fun x => x /. s)
  let rows := ((lastK.rows.take K).zip c).map (fun rc => rc.1.map (fun x => x *. rc.2))
  rows.foldlM (fun acc r => bop Scalar.add acc r) (List.replicate width zero)

/-- Lines 166-170 of `/repo/src/solvers/anderson_cd/mod.rs`: scatter onto the working set. -/
def scatter (n_features : Nat) (pt : List F) (ws : List Nat) : M (List F) :=
  (pt.zip ws).foldlM (fun acc (vj : F × Nat) => setM acc vj.2 vj.1)
    (List.replicate n_features zero)

/-- Objective value `datafit.value(dataset, Xw) + penalty.value(w)`, lines 179, 180 and 334 of
`/repo/src/solvers/anderson_cd/mod.rs`. -/
def objective [Datafit F DM DF] [Penalty F P] (ds : Dataset DM F) (df : DF) (pen : P)
    (w Xw : List F) : M F := do
  let a ← Datafit.value df ds Xw
  let b ← Penalty.value pen w
  pure (a +. b)

/-- `anderson_accel`, `/repo/src/solvers/anderson_cd/mod.rs` lines 101-205.  Line 150 computes
`U.t().dot(U)`. -/
def andersonAccel [DesignMatrix F DM] [Datafit F DM DF] [Penalty F P] (ds : Dataset DM F) (df : DF)
    (pen : P) (lastK : Mat F) (st : CDState F) (ws : List Nat) (epoch K : Nat) (verbose : Bool)
    (log : List (Event F)) : M (Mat F × CDState F × List (Event F)) := do
  let n_samples := ds.targets.nSamples
  let n_features ← DesignMatrix.nFeatures ds.designMatrix
  let lastK ← storeIterate lastK st.w ws (epoch % (K + 1))
  if epoch % (K + 1) = K then
    let U ← diffMatrix lastK K ws.length
    let C ← tMulMat U U
    match ← solveLinSys C (List.replicate K one) with
    | some z =>
      let pt ← extrapolate lastK z K ws.length
      let w_acc ← scatter n_features pt ws
      let Xw_acc ← DesignMatrix.extrapolatedFit ds.designMatrix ws w_acc n_samples
      let p_obj ← objective ds df pen st.w st.Xw
      let p_obj_acc ← objective ds df pen w_acc Xw_acc
      if p_obj_acc <. p_obj then
        pure (lastK, ⟨w_acc, Xw_acc⟩, say verbose (.accel p_obj p_obj_acc) log)
      else pure (lastK, st, log)
    | none => pure (lastK, st, say verbose .singular log)
  else pure (lastK, st, log)

/-- One coordinate update, `/repo/src/solvers/anderson_cd/mod.rs` lines 298-311. -/
def cdStep [DesignMatrix F DM] [Datafit F DM DF] [Penalty F P] (ds : Dataset DM F) (df : DF)
    (pen : P) (st : CDState F) (j : Nat) : M (CDState F) := do
  let lj ← getM (Datafit.stepSize (DM := DM) df) j
  if lj ==. zero then pure st
  else
    let old_w_j ← getM st.w j
    let grad_j ← Datafit.gradientJ df ds st.Xw j
    let new_w_j ← Penalty.prox pen (old_w_j -. grad_j /. lj) (one /. lj)
    let w ← setM st.w j new_w_j
    let diff := new_w_j -. old_w_j
    if !(diff ==. zero) then
      let Xw ← DesignMatrix.updateModelFit ds.designMatrix st.Xw diff j
      pure ⟨w, Xw⟩
    else pure ⟨w, st.Xw⟩

/-- One pass over the working set, `/repo/src/solvers/anderson_cd/mod.rs` lines 297-312. -/
def cdEpoch [DesignMatrix F DM] [Datafit F DM DF] [Penalty F P] (ds : Dataset DM F) (df : DF)
    (pen : P) (ws : List Nat) (st : CDState F) : M (CDState F) :=
  ws.foldlM (cdStep ds df pen) st

/-- The periodic stopping test of the inner loop, `/repo/src/solvers/anderson_cd/mod.rs`
lines 333-362: returns whether to `break`. -/
def innerCheck [Datafit F DM DF] [Penalty F P] (ds : Dataset DM F) (df : DF) (pen : P)
    (cfg : Solver F) (n_features : Nat) (ws : List Nat) (ws_size : Nat) (kkt_max : F) (epoch : Nat)
    (st : CDState F) (log : List (Event F)) : M (Bool × List (Event F)) :=
  if epoch > 0 ∧ epoch % 10 = 0 then do
    let p_obj ← objective ds df pen st.w st.Xw
    let (_, kkt_ws_max) ← optCondViolation ds st.w st.Xw ws df pen
    let log := say cfg.verbose (.epoch epoch p_obj kkt_ws_max) log
    if ws_size = n_features then
      pure (kkt_ws_max <=. cfg.tolerance, log)
    else if kkt_ws_max <. lit 3 10 *. kkt_max then
      pure (true, say cfg.verbose .earlyExit log)
    else pure (false, log)
  else pure (false, log)

/-- Inner loop, `/repo/src/solvers/anderson_cd/mod.rs` lines 293-363; the first argument is the number
of remaining epochs. -/
def innerLoop [DesignMatrix F DM] [Datafit F DM DF] [Penalty F P] (ds : Dataset DM F) (df : DF)
    (pen : P) (cfg : Solver F) (n_features : Nat) (ws : List Nat) (ws_size : Nat) (kkt_max : F) :
    (remaining epoch : Nat) → Mat F → CDState F → List (Event F) →
      M (CDState F × List (Event F))
  | 0, _, _, st, log => pure (st, log)
  | r + 1, epoch, lastK, st, log => do
    let st ← cdEpoch ds df pen ws st
    let (lastK, st, log) ←
      if cfg.useAcceleration then
        andersonAccel ds df pen lastK st ws epoch cfg.K cfg.verbose log
      else pure (lastK, st, log)
    let (stop, log) ← innerCheck ds df pen cfg n_features ws ws_size kkt_max epoch st log
    if stop then pure (st, log)
    else innerLoop ds df pen cfg n_features ws ws_size kkt_max r (epoch + 1) lastK st log

/-- Outer loop, `/repo/src/solvers/anderson_cd/mod.rs` lines 265-364; the first argument is the number
of remaining iterations. -/
def outerLoop [DesignMatrix F DM] [Datafit F DM DF] [Penalty F P] (srt : Argsort F)
    (ds : Dataset DM F) (df : DF) (pen : P) (cfg : Solver F) (n_features ws_start_size : Nat) :
    (remaining t : Nat) → CDState F → List (Event F) → M (CDState F × List (Event F))
  | 0, _, st, log => pure (st, log)
  | r + 1, t, st, log => do
    let (kkt, kkt_max) ← optCondViolation ds st.w st.Xw (List.range n_features) df pen
    let log := say cfg.verbose (.kkt kkt_max) log
    if kkt_max <=. cfg.tolerance then pure (st, log)
    else do
      let (ws, ws_size) ← constructWs srt kkt st.w ws_start_size
      let lastK := Mat.zeros (cfg.K + 1) ws_size
      let log := say cfg.verbose (.iteration (t + 1) ws_size) log
      let (st, log) ←
        innerLoop ds df pen cfg n_features ws ws_size kkt_max cfg.maxEpochs 0 lastK st log
      outerLoop srt ds df pen cfg n_features ws_start_size r (t + 1) st log

/-- `coordinate_descent`, `/repo/src/solvers/anderson_cd/mod.rs` lines 226-367.  Also returns the final
model fit, the updated datafit object and the printed lines. -/
def coordinateDescent [DesignMatrix F DM] [Datafit F DM DF] [Penalty F P] (srt : Argsort F)
    (ds : Dataset DM F) (df : DF) (pen : P) (cfg : Solver F) :
    M (CDState F × DF × List (Event F)) := do
  let n_samples := ds.targets.nSamples
  let n_features ← DesignMatrix.nFeatures ds.designMatrix
  let df ← Datafit.init df ds
  let ws_start_size := if cfg.wsStartSize > n_features then n_features else cfg.wsStartSize
  let st : CDState F := ⟨List.replicate n_features zero, List.replicate n_samples zero⟩
  let (st, log) ←
    outerLoop srt ds df pen cfg n_features ws_start_size cfg.maxIterations 0 st []
  pure (st, df, log)

/-- `Solver::solve`, `/repo/src/solvers/impl_solver.rs` lines 101-121 (the `Result` is always `Ok`). -/
def Solver.solve [DesignMatrix F DM] [Datafit F DM DF] [Penalty F P] (srt : Argsort F)
    (cfg : Solver F) (ds : Dataset DM F) (df : DF) (pen : P) : M (List F) := do
  let (st, _, _) ← coordinateDescent srt ds df pen cfg
  pure st.w

end
end Sglm
