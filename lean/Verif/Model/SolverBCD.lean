import Verif.Model.SolverCD

/-!
# `/repo/src/solvers/anderson_bcd/mod.rs`
-/

namespace Sglm
open Scalar

/-- Mutable state of `block_coordinate_descent`: `W`, `XW`. -/
structure BCDState (F : Type) where
  W : Mat F
  XW : Mat F

namespace MT
section
variable {F DM DF P : Type} [Scalar F]

/-- `construct_grad`, `/repo/src/solvers/anderson_bcd/mod.rs` lines 16-38. -/
def constructGrad [MTDatafit F DM DF] (ds : Dataset DM F) (XW : Mat F) (ws : List Nat) (df : DF) :
    M (Mat F) := do
  let rows ← ws.mapM (fun j => MTDatafit.gradientJ df ds XW j)
  Mat.fromShapeVec ws.length ds.targets.nTasks rows.flatten

/-- `opt_cond_violation`, `/repo/src/solvers/anderson_bcd/mod.rs` lines 44-62. -/
def optCondViolation [MTDatafit F DM DF] [MTPenalty F P] (ds : Dataset DM F) (W XW : Mat F)
    (ws : List Nat) (df : DF) (pen : P) : M (List F × F) := do
  let grad_ws ← constructGrad ds XW ws df
  MTPenalty.subdiffDistance pen W grad_ws ws

/-- Lines 80-85 of `/repo/src/solvers/anderson_bcd/mod.rs`. -/
def markSupport (kkt : List F) (W : Mat F) : M (List F × Nat) :=
  (List.range W.nrows).foldlM (fun (acc : List F × Nat) j => do
    let Wj ← W.rowM j
    if anyNonzero Wj then do
      let kkt' ← setM acc.1 j inf
      pure (kkt', acc.2 + 1)
    else pure acc) (kkt, 0)

/-- `construct_ws_from_kkt`, `/repo/src/solvers/anderson_bcd/mod.rs` lines 67-99. -/
def constructWs (srt : Argsort F) (kkt : List F) (W : Mat F) (ws_start_size : Nat) :
    M (List Nat × Nat) := do
  let n_features := W.nrows
  let (kkt, nnz) ← markSupport kkt W
  let ws_size := max ws_start_size (min (2 * nnz) n_features)
  let sorted ← srt kkt
  let sorted := sorted.take ws_size
  if sorted.length = ws_size then pure (sorted, ws_size) else throw .shape

/-- Lines 128-137 of `/repo/src/solvers/anderson_bcd/mod.rs`: row `k` of the buffer is assigned the
flattened rows of `W` in the working set.  (`assign` would broadcast a length-1 vector; with the
buffers of the solver the lengths agree.) -/
def storeIterate (lastK : Mat F) (W : Mat F) (ws : List Nat) (k : Nat) : M (Mat F) := do
  let rows ← ws.mapM (fun j => W.rowM j)
  let flat := rows.flatten
  if flat.length = lastK.ncols then do
    let rows' ← setM lastK.rows k flat
    pure { lastK with rows := rows' }
  else throw .shape

/-- Lines 177-184 of `/repo/src/solvers/anderson_bcd/mod.rs`: reshape to `(ws.len(), n_tasks)` and
scatter the rows. -/
def scatter (n_features n_tasks : Nat) (pt : List F) (ws : List Nat) : M (Mat F) := do
  let A ← Mat.fromShapeVec ws.length n_tasks pt
  (A.rows.zip ws).foldlM (fun (acc : Mat F) (rj : List F × Nat) => do
    let rows' ← setM acc.rows rj.2 rj.1
    pure { acc with rows := rows' }) (Mat.zeros n_features n_tasks)

/-- Objective value, lines 191, 192 and 348 of `/repo/src/solvers/anderson_bcd/mod.rs`. -/
def objective [MTDatafit F DM DF] [MTPenalty F P] (ds : Dataset DM F) (df : DF) (pen : P)
    (W XW : Mat F) : M F := do
  let a ← MTDatafit.value df ds XW
  let b ← MTPenalty.value pen W
  pure (a +. b)

/-- `anderson_accel`, `/repo/src/solvers/anderson_bcd/mod.rs` lines 104-217.  Line 161 computes
`U.t().dot(U)`. -/
def andersonAccel [DesignMatrix F DM] [MTDatafit F DM DF] [MTPenalty F P] (ds : Dataset DM F)
    (df : DF) (pen : P) (lastK : Mat F) (st : BCDState F) (ws : List Nat) (epoch K : Nat)
    (verbose : Bool) (log : List (Event F)) : M (Mat F × BCDState F × List (Event F)) := do
  let n_samples := ds.targets.nSamples
  let n_features ← DesignMatrix.nFeatures ds.designMatrix
  let n_tasks := ds.targets.nTasks
  let lastK ← storeIterate lastK st.W ws (epoch % (K + 1))
  if epoch % (K + 1) = K then
    let U ← diffMatrix lastK K (ws.length * n_tasks)
    let C ← tMulMat U U
    match ← solveLinSys C (List.replicate K one) with
    | some z =>
      let pt ← extrapolate lastK z K (ws.length * n_tasks)
      let W_acc ← scatter n_features n_tasks pt ws
      let XW_acc ← DesignMatrix.extrapolatedFitMT ds.designMatrix ws W_acc n_samples n_tasks
      let p_obj ← objective ds df pen st.W st.XW
      let p_obj_acc ← objective ds df pen W_acc XW_acc
      if p_obj_acc <. p_obj then
        pure (lastK, ⟨W_acc, XW_acc⟩, say verbose (.accel p_obj p_obj_acc) log)
      else pure (lastK, st, log)
    | none => pure (lastK, st, say verbose .singular log)
  else pure (lastK, st, log)

/-- One block update, `/repo/src/solvers/anderson_bcd/mod.rs` lines 294-325. -/
def bcdStep [DesignMatrix F DM] [MTDatafit F DM DF] [MTPenalty F P] (ds : Dataset DM F) (df : DF)
    (pen : P) (st : BCDState F) (j : Nat) : M (BCDState F) := do
  let n_tasks := ds.targets.nTasks
  let lj ← getM (MTDatafit.stepSize (DM := DM) df) j
  if lj ==. zero then pure st
  else
    let old_W_j ← st.W.rowM j
    let grad_j ← MTDatafit.gradientJ df ds st.XW j
    let step ← bop Scalar.sub old_W_j (grad_j.map (fun x => x /. lj))
    let upd ← MTPenalty.prox pen step (one /. lj)
    let W ← (List.range n_tasks).foldlM (fun (A : Mat F) t => do
      let u ← getM upd t
      A.set2 j t u) st.W
    let diff ← (old_W_j.zipIdx).mapM (fun (ot : F × Nat) => do
      let w ← W.get2 j ot.2
      pure (w -. ot.1))
    if anyNonzero diff then
      let XW ← DesignMatrix.updateModelFitMT ds.designMatrix st.XW diff j
      pure ⟨W, XW⟩
    else pure ⟨W, st.XW⟩

/-- One pass over the working set, `/repo/src/solvers/anderson_bcd/mod.rs` lines 293-326. -/
def bcdEpoch [DesignMatrix F DM] [MTDatafit F DM DF] [MTPenalty F P] (ds : Dataset DM F) (df : DF)
    (pen : P) (ws : List Nat) (st : BCDState F) : M (BCDState F) :=
  ws.foldlM (bcdStep ds df pen) st

/-- The periodic stopping test of the inner loop, `/repo/src/solvers/anderson_bcd/mod.rs`
lines 347-373. -/
def innerCheck [MTDatafit F DM DF] [MTPenalty F P] (ds : Dataset DM F) (df : DF) (pen : P)
    (cfg : Solver F) (n_features : Nat) (ws : List Nat) (ws_size : Nat) (kkt_max : F) (epoch : Nat)
    (st : BCDState F) (log : List (Event F)) : M (Bool × List (Event F)) :=
  if epoch > 0 ∧ epoch % 10 = 0 then do
    let p_obj ← objective ds df pen st.W st.XW
    let (_, kkt_ws_max) ← optCondViolation ds st.W st.XW ws df pen
    let log := say cfg.verbose (.epoch epoch p_obj kkt_ws_max) log
    if ws_size = n_features then
      pure (kkt_ws_max <=. cfg.tolerance, log)
    else if kkt_ws_max <. lit 3 10 *. kkt_max then
      pure (true, say cfg.verbose .earlyExit log)
    else pure (false, log)
  else pure (false, log)

/-- Inner loop, `/repo/src/solvers/anderson_bcd/mod.rs` lines 289-374. -/
def innerLoop [DesignMatrix F DM] [MTDatafit F DM DF] [MTPenalty F P] (ds : Dataset DM F) (df : DF)
    (pen : P) (cfg : Solver F) (n_features : Nat) (ws : List Nat) (ws_size : Nat) (kkt_max : F) :
    (remaining epoch : Nat) → Mat F → BCDState F → List (Event F) →
      M (BCDState F × List (Event F))
  | 0, _, _, st, log => pure (st, log)
  | r + 1, epoch, lastK, st, log => do
    let st ← bcdEpoch ds df pen ws st
    let (lastK, st, log) ←
      if cfg.useAcceleration then
        andersonAccel ds df pen lastK st ws epoch cfg.K cfg.verbose log
      else pure (lastK, st, log)
    let (stop, log) ← innerCheck ds df pen cfg n_features ws ws_size kkt_max epoch st log
    if stop then pure (st, log)
    else innerLoop ds df pen cfg n_features ws ws_size kkt_max r (epoch + 1) lastK st log

/-- Outer loop, `/repo/src/solvers/anderson_bcd/mod.rs` lines 261-375. -/
def outerLoop [DesignMatrix F DM] [MTDatafit F DM DF] [MTPenalty F P] (srt : Argsort F)
    (ds : Dataset DM F) (df : DF) (pen : P) (cfg : Solver F) (n_features ws_start_size : Nat) :
    (remaining t : Nat) → BCDState F → List (Event F) → M (BCDState F × List (Event F))
  | 0, _, st, log => pure (st, log)
  | r + 1, t, st, log => do
    let (kkt, kkt_max) ← optCondViolation ds st.W st.XW (List.range n_features) df pen
    let log := say cfg.verbose (.kkt kkt_max) log
    if kkt_max <=. cfg.tolerance then pure (st, log)
    else do
      let (ws, ws_size) ← constructWs srt kkt st.W ws_start_size
      let lastK := Mat.zeros (cfg.K + 1) (ws_size * ds.targets.nTasks)
      let log := say cfg.verbose (.iteration (t + 1) ws_size) log
      let (st, log) ←
        innerLoop ds df pen cfg n_features ws ws_size kkt_max cfg.maxEpochs 0 lastK st log
      outerLoop srt ds df pen cfg n_features ws_start_size r (t + 1) st log

/-- `block_coordinate_descent`, `/repo/src/solvers/anderson_bcd/mod.rs` lines 221-378. -/
def blockCoordinateDescent [DesignMatrix F DM] [MTDatafit F DM DF] [MTPenalty F P] (srt : Argsort F)
    (ds : Dataset DM F) (df : DF) (pen : P) (cfg : Solver F) :
    M (BCDState F × DF × List (Event F)) := do
  let n_samples := ds.targets.nSamples
  let n_features ← DesignMatrix.nFeatures ds.designMatrix
  let n_tasks := ds.targets.nTasks
  let df ← MTDatafit.init df ds
  let ws_start_size := if cfg.wsStartSize > n_features then n_features else cfg.wsStartSize
  let st : BCDState F := ⟨Mat.zeros n_features n_tasks, Mat.zeros n_samples n_tasks⟩
  let (st, log) ←
    outerLoop srt ds df pen cfg n_features ws_start_size cfg.maxIterations 0 st []
  pure (st, df, log)

end
end MT

/-- `Solver::solve_multi_task`, `/repo/src/solvers/impl_solver.rs` lines 134-154. -/
def Solver.solveMultiTask {F DM DF P : Type} [Scalar F] [DesignMatrix F DM] [MTDatafit F DM DF]
    [MTPenalty F P] (srt : Argsort F) (cfg : Solver F) (ds : Dataset DM F) (df : DF) (pen : P) :
    M (Mat F) := do
  let (st, _, _) ← MT.blockCoordinateDescent srt ds df pen cfg
  pure st.W

end Sglm
