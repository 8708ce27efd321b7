import Verif.Proofs.AccelPanic
import Verif.Proofs.Length
import Verif.Proofs.Runs
import Verif.Proofs.CmpXR
import Verif.Tests.IntScalar

/-!
# C24, C25, C26, C44, C46: shapes, panics, zero columns

Everything here holds for every scalar type: `f32`, `f64`, with NaN and infinities anywhere in the data.
-/

set_option linter.unusedSectionVars false

namespace Sglm
open Scalar Spec

/-! ## C24: one coefficient per feature -/

section
variable {F DM DF P : Type} [Scalar F] [DesignMatrix F DM]

/-- Whatever the dataset, datafit and penalty (user-defined ones included), a successful `solve` returns one coefficient
per feature. -/
theorem C24_solve_length [Datafit F DM DF] [Penalty F P] (srt : Argsort F) (cfg : Solver F) (ds : Dataset DM F)
    (df : DF) (pen : P) (w : List F) (h : cfg.solve srt ds df pen = .ok w) :
    DesignMatrix.nFeatures (F := F) ds.designMatrix = .ok w.length := by
  unfold Solver.solve at h
  cases hc : coordinateDescent srt ds df pen cfg with
  | error e => rw [hc] at h; cases h
  | ok r =>
    obtain ⟨st, df1, log⟩ := r
    rw [hc] at h
    injection h with h
    subst h
    obtain ⟨nf, k, hnf, -, hrun, -⟩ := cd_run hc
    have := (hoare_length srt ds df1 pen cfg hnf (ws0CD cfg nf)).outer cfg.maxIterations
      (initCD ds.targets.nSamples nf) (by simp [initCD])
    have h2 := (Tri.elim_ok this hrun).1
    rw [hnf]
    exact congrArg Except.ok h2.symm

/-- A successful `solve_multi_task` returns an `n_features × n_tasks` array. -/
theorem C24_solve_shape_mt [MTDatafit F DM DF] [MTPenalty F P] (srt : Argsort F) (cfg : Solver F)
    (ds : Dataset DM F) (df : DF) (pen : P) (W : Mat F) (h : cfg.solveMultiTask srt ds df pen = .ok W) :
    DesignMatrix.nFeatures (F := F) ds.designMatrix = .ok W.rows.length ∧
      W.ncols = ds.targets.nTasks ∧ ∀ x ∈ W.rows, x.length = ds.targets.nTasks := by
  unfold Solver.solveMultiTask at h
  cases hc : MT.blockCoordinateDescent srt ds df pen cfg with
  | error e => rw [hc] at h; cases h
  | ok r =>
    obtain ⟨st, df1, log⟩ := r
    rw [hc] at h
    injection h with h
    subst h
    obtain ⟨nf, k, hnf, -, hrun, -⟩ := MT.bcd_run hc
    have := (MT.hoare_length srt ds df1 pen cfg hnf rfl (ws0CD cfg nf)).outer cfg.maxIterations
      (MT.initBCD ds.targets.nSamples nf ds.targets.nTasks) Shaped.zeros
    have h2 := (Tri.elim_ok this hrun).1
    rw [hnf, h2.1]
    exact ⟨rfl, h2.2⟩

end

section
open Test
open Sglm.Test (ds dsMT isort)

example : ∃ w : List Int, Solver.solve isort cfg ds (Quadratic.new : Quadratic Int) (L1.mk (1 : Int)) = .ok w ∧
    w.length = 2 := by
  refine ⟨_, rfl, rfl⟩

example (w : List Int)
    (h : Solver.solve isort cfg ds (Quadratic.new : Quadratic Int) (L1.mk (1 : Int)) = .ok w) :
    Except.ok w.length = Except.ok (ε := Panic) 2 :=
  (C24_solve_length _ _ _ _ _ w h).symm

example : ∃ W : Mat Int, Solver.solveMultiTask isort cfg dsMT (QuadraticMT.new : QuadraticMT Int)
    (L21.mk (1 : Int)) = .ok W ∧ W.rows.length = 2 ∧ W.ncols = 2 := by
  refine ⟨_, rfl, rfl, rfl⟩

end

/-! ## C25, C26: panics -/

/-- A computation that either succeeds or panics when comparing NaN scores. -/
def OnlyNaNPanics {α : Type} (m : M α) : Prop := ∀ e, m = .error e → e = .nanCompare

theorem OnlyNaNPanics.of_tri {α : Type} {m : M α} {Q : α → Prop} (h : Tri (· = .nanCompare) m Q) :
    OnlyNaNPanics m := by
  intro e he
  rw [he] at h
  exact h

section
variable {F : Type} [Scalar F] {n p t : ℕ}

/-- The statement of C25 for a design matrix, a datafit, and the four separable penalties. -/
def SafeForPenalties {DM DF : Type} [DesignMatrix F DM] [Datafit F DM DF] (srt : Argsort F) (cfg : Solver F)
    (ds : Dataset DM F) (df : DF) : Prop :=
  (∀ a : F, OnlyNaNPanics (cfg.solve srt ds df (L1.mk a))) ∧
  (∀ a r : F, OnlyNaNPanics (cfg.solve srt ds df (L1PlusL2.mk a r))) ∧
  (∀ a g : F, OnlyNaNPanics (cfg.solve srt ds df (MCP.mk a g))) ∧
  (∀ a : F, OnlyNaNPanics (cfg.solve srt ds df (L05.mk a)))

/-- The statement of C25 for the multi-task solver and the three block penalties. -/
def SafeForBlockPenalties {DM DF : Type} [DesignMatrix F DM] [MTDatafit F DM DF] (srt : Argsort F)
    (cfg : Solver F) (ds : Dataset DM F) (df : DF) : Prop :=
  (∀ a : F, OnlyNaNPanics (cfg.solveMultiTask srt ds df (L21.mk a))) ∧
  (∀ a r : F, OnlyNaNPanics (cfg.solveMultiTask srt ds df (BlockL1PlusL2.mk a r))) ∧
  (∀ a g : F, OnlyNaNPanics (cfg.solveMultiTask srt ds df (BlockMCP.mk a g)))

theorem safe_all {DM DF : Type} [DesignMatrix F DM] [Datafit F DM DF] {srt : Argsort F} {cfg : Solver F}
    {ds : Dataset DM F} {df : DF}
    (h : ∀ {P : Type} [Penalty F P] (pen : P), SafePen pen →
      Tri (· = .nanCompare) (cfg.solve srt ds df pen) (fun w => w.length = p)) :
    SafeForPenalties srt cfg ds df :=
  ⟨fun _ => .of_tri (h _ (safe_L1 _)), fun _ _ => .of_tri (h _ (safe_L1PlusL2 _)),
    fun _ _ => .of_tri (h _ (safe_MCP _)), fun _ => .of_tri (h _ (safe_L05 _))⟩

theorem safe_all_mt {DM DF : Type} [DesignMatrix F DM] [MTDatafit F DM DF] {srt : Argsort F} {cfg : Solver F}
    {ds : Dataset DM F} {df : DF}
    (h : ∀ {P : Type} [MTPenalty F P] (pen : P), MT.SafePen pen →
      Tri (· = .nanCompare) (cfg.solveMultiTask srt ds df pen) (fun W => Shaped W p t)) :
    SafeForBlockPenalties srt cfg ds df :=
  ⟨fun _ => .of_tri (h _ (MT.safe_L21 _)), fun _ _ => .of_tri (h _ (MT.safe_BlockL1PlusL2 _)),
    fun _ _ => .of_tri (h _ (MT.safe_BlockMCP _))⟩

/-- When the accelerated solver has enough coordinates to extrapolate: `0 < K ≤ min(ws_start_size, p) * t`. -/
def RoomToExtrapolate (cfg : Solver F) (p t : ℕ) : Prop :=
  cfg.useAcceleration = true → 0 < cfg.K ∧ cfg.K ≤ cfg.wsStartSize * t ∧ cfg.K ≤ p * t

theorem room_single {cfg : Solver F} (h : RoomToExtrapolate cfg p 1) : cfg.useAcceleration = true →
    0 < cfg.K ∧ cfg.K ≤ cfg.wsStartSize ∧ cfg.K ≤ p := fun hu => by
  have := h hu
  omega

theorem no_panic_of_room {srt : Argsort F} (hs : ArgsortSpec srt) (cfg : Solver F)
    (hr : RoomToExtrapolate cfg p 1) (T : Targets F) (hT : ShapedTargets T n 1) :
    (∀ (X : Mat F) (df : Quadratic F), Shaped X n p → SafeForPenalties srt cfg ⟨X, T⟩ df) ∧
    (∀ (X : CSC F) (df : Quadratic F), ShapedCSC X n p → SafeForPenalties srt cfg ⟨X, T⟩ df) ∧
    (∀ (X : Mat F) (df : Logistic F), Shaped X n p → SafeForPenalties srt cfg ⟨X, T⟩ df) ∧
    (∀ (X : CSC F) (df : Logistic F), ShapedCSC X n p → SafeForPenalties srt cfg ⟨X, T⟩ df) := by
  refine ⟨fun X df hX => safe_all (p := p) fun pen hp => ?_, fun X df hX => safe_all (p := p) fun pen hp => ?_,
    fun X df hX => safe_all (p := p) fun pen hp => ?_, fun X df hX => safe_all (p := p) fun pen hp => ?_⟩
  · exact solve_safe hs cfg df hT.nSamples (congrArg Except.ok hX.2.1) (quad_dense_safe hX hT df) hp (room_single hr)
  · exact solve_safe hs cfg df hT.nSamples (ShapedCSC.nFeatures hX) (quad_csc_safe hX hT df) hp (room_single hr)
  · exact solve_safe hs cfg df hT.nSamples (congrArg Except.ok hX.2.1) (log_dense_safe hX hT df) hp (room_single hr)
  · exact solve_safe hs cfg df hT.nSamples (ShapedCSC.nFeatures hX) (log_csc_safe hX hT df) hp (room_single hr)

theorem no_panic_of_room_mt {srt : Argsort F} (hs : ArgsortSpec srt) (cfg : Solver F)
    (hr : RoomToExtrapolate cfg p t) (T : Targets F) (hT : ShapedTargets T n t) :
    (∀ (X : Mat F) (df : QuadraticMT F), Shaped X n p → SafeForBlockPenalties srt cfg ⟨X, T⟩ df) ∧
    (∀ (X : CSC F) (df : QuadraticMT F), ShapedCSC X n p → SafeForBlockPenalties srt cfg ⟨X, T⟩ df) := by
  refine ⟨fun X df hX => safe_all_mt (p := p) (t := t) fun pen hp => ?_,
    fun X df hX => safe_all_mt (p := p) (t := t) fun pen hp => ?_⟩
  · exact MT.solve_safe hs cfg df hT.nSamples hT.nTasks (congrArg Except.ok hX.2.1) (MT.quad_dense_safe hX hT df) hp hr
  · exact MT.solve_safe hs cfg df hT.nSamples hT.nTasks (ShapedCSC.nFeatures hX) (MT.quad_csc_safe hX hT df) hp hr

/-- Without acceleration, on data of consistent shapes, `solve` does not panic except when comparing NaN. -/
theorem C25_no_panic {srt : Argsort F} (hs : ArgsortSpec srt) (cfg : Solver F)
    (hu : cfg.useAcceleration = false) (T : Targets F) (hT : ShapedTargets T n 1) :
    (∀ (X : Mat F) (df : Quadratic F), Shaped X n p → SafeForPenalties srt cfg ⟨X, T⟩ df) ∧
    (∀ (X : CSC F) (df : Quadratic F), ShapedCSC X n p → SafeForPenalties srt cfg ⟨X, T⟩ df) ∧
    (∀ (X : Mat F) (df : Logistic F), Shaped X n p → SafeForPenalties srt cfg ⟨X, T⟩ df) ∧
    (∀ (X : CSC F) (df : Logistic F), ShapedCSC X n p → SafeForPenalties srt cfg ⟨X, T⟩ df) :=
  no_panic_of_room hs cfg (fun h => by rw [hu] at h; cases h) T hT

/-- The same for the multi-task solver. -/
theorem C25_no_panic_mt {srt : Argsort F} (hs : ArgsortSpec srt) (cfg : Solver F)
    (hu : cfg.useAcceleration = false) (T : Targets F) (hT : ShapedTargets T n t) :
    (∀ (X : Mat F) (df : QuadraticMT F), Shaped X n p → SafeForBlockPenalties srt cfg ⟨X, T⟩ df) ∧
    (∀ (X : CSC F) (df : QuadraticMT F), ShapedCSC X n p → SafeForBlockPenalties srt cfg ⟨X, T⟩ df) :=
  no_panic_of_room_mt hs cfg (fun h => by rw [hu] at h; cases h) T hT

/-- C26 as stated: with acceleration, a run on data of consistent shapes does not panic except when comparing NaN. -/
def C26_full (F : Type) [Scalar F] : Prop :=
  ∀ (srt : Argsort F), ArgsortSpec srt → ∀ (cfg : Solver F), cfg.useAcceleration = true → 0 < cfg.K →
    ∀ (n p : ℕ) (X : Mat F) (T : Targets F) (df : Quadratic F), Shaped X n p → ShapedTargets T n 1 →
      SafeForPenalties srt cfg ⟨X, T⟩ df

/-- Missing from the full statement: problems with fewer than `K` features (or `ws_start_size < K`). -/
theorem C26_enough_features_partial {srt : Argsort F} (hs : ArgsortSpec srt) (cfg : Solver F)
    (hK : 0 < cfg.K) (hws : cfg.K ≤ cfg.wsStartSize) (hp : cfg.K ≤ p)
    (T : Targets F) (hT : ShapedTargets T n 1) :
    (∀ (X : Mat F) (df : Quadratic F), Shaped X n p → SafeForPenalties srt cfg ⟨X, T⟩ df) ∧
    (∀ (X : CSC F) (df : Quadratic F), ShapedCSC X n p → SafeForPenalties srt cfg ⟨X, T⟩ df) ∧
    (∀ (X : Mat F) (df : Logistic F), Shaped X n p → SafeForPenalties srt cfg ⟨X, T⟩ df) ∧
    (∀ (X : CSC F) (df : Logistic F), ShapedCSC X n p → SafeForPenalties srt cfg ⟨X, T⟩ df) :=
  no_panic_of_room hs cfg (fun _ => by omega) T hT

/-- Missing from the full statement: problems with fewer than `K` coefficients. -/
theorem C26_enough_features_mt_partial {srt : Argsort F} (hs : ArgsortSpec srt) (cfg : Solver F)
    (hK : 0 < cfg.K) (hws : cfg.K ≤ cfg.wsStartSize * t) (hp : cfg.K ≤ p * t)
    (T : Targets F) (hT : ShapedTargets T n t) :
    (∀ (X : Mat F) (df : QuadraticMT F), Shaped X n p → SafeForBlockPenalties srt cfg ⟨X, T⟩ df) ∧
    (∀ (X : CSC F) (df : QuadraticMT F), ShapedCSC X n p → SafeForBlockPenalties srt cfg ⟨X, T⟩ df) :=
  no_panic_of_room_mt hs cfg (fun _ => ⟨hK, hws, hp⟩) T hT

/-- The bug: *every* accelerated least-squares run on fewer than `K` features panics (`K ≤ 10`, the default is 5), unless
the zero vector already passes the stopping test (or a score is NaN).  `df'` is the initialized datafit. -/
theorem C26_few_features_panic {P : Type} [Penalty F P] {srt : Argsort F} (hs : ArgsortSpec srt) (cfg : Solver F)
    (pen : P) (hpen : SafePen pen) (hu : cfg.useAcceleration = true) (hp : p < cfg.K) (hK : cfg.K ≤ 10)
    (he : cfg.K < cfg.maxEpochs) (hi : 0 < cfg.maxIterations)
    (X : Mat F) (T : Targets F) (df df' : Quadratic F) (hX : Shaped X n p) (hT : ShapedTargets T n 1)
    (hdf : Datafit.init df (⟨X, T⟩ : Dataset (Mat F) F) = .ok df') (kkt : List F) (km : F)
    (h0 : optCondViolation ⟨X, T⟩ (List.replicate p zero) (List.replicate n zero) (List.range p) df' pen =
      .ok (kkt, km)) (hkm : (km <=. cfg.tolerance) = false) :
    ∃ e, cfg.solve srt ⟨X, T⟩ df pen = .error e ∧ (e = .index ∨ e = .nanCompare) := by
  have hsafe := Tri.elim_ok (quad_dense_safe hX hT df) hdf
  have := solve_panics hs cfg df hT.nSamples (congrArg Except.ok hX.2.1) hdf hsafe hpen hu hp hK he hi h0 hkm
  cases hr : cfg.solve srt ⟨X, T⟩ df pen with
  | ok w => rw [hr] at this; exact this.elim
  | error e => rw [hr] at this; exact ⟨e, rfl, this⟩

end

section
open Test
open Sglm.Test (ds dsMT isort)

theorem isort_spec : ArgsortSpec isort := by
  refine ⟨fun l _ => ⟨_, rfl, List.perm_insertionSort _ _, ?_⟩, fun l _ ⟨x, _, hx⟩ => ?_⟩
  · have : ((List.range l.length).insertionSort (fun i j => l.getD j 0 ≤ l.getD i 0)).Pairwise
        (fun i j => l.getD j 0 ≤ l.getD i 0) :=
      haveI : Std.Total (fun i j : ℕ => l.getD j 0 ≤ l.getD i 0) := ⟨fun i j => by omega⟩
      haveI : IsTrans ℕ (fun i j : ℕ => l.getD j 0 ≤ l.getD i 0) := ⟨fun i j k h1 h2 => by omega⟩
      List.pairwise_insertionSort _ _
    refine this.imp fun {i j} h a b ha hb => ?_
    rw [List.getD_eq_getElem?_getD, List.getD_eq_getElem?_getD, ha, hb] at h
    show decide (a < b) = false
    simpa using h
  · exfalso
    have : isNaN x = false := by
      show (!decide (x = x)) = false
      simp
    rw [this] at hx
    cases hx

-- two features, `K = 5`: the run panics
example : Solver.solve isort { cfg with useAcceleration := true, K := 5, maxEpochs := 20 } ds
    (Quadratic.new : Quadratic Int) (L1.mk (1 : Int)) = .error .index := by
  decide +kernel

example : ∃ e, Solver.solve isort { cfg with useAcceleration := true, K := 5, maxEpochs := 20 } ds
    (Quadratic.new : Quadratic Int) (L1.mk (1 : Int)) = .error e ∧ (e = .index ∨ e = .nanCompare) :=
  C26_few_features_panic (n := 2) (p := 2) isort_spec _ (L1.mk (1 : Int)) (safe_L1 _) rfl (by decide) (by decide)
    (by decide) (by decide) _ _ _ _ (by simp [Shaped]) shaped_one rfl _ _ rfl rfl

/-- The full statement is false. -/
theorem C26_false : ¬ C26_full Int := by
  intro h
  have := (h isort isort_spec { cfg with useAcceleration := true, K := 5, maxEpochs := 20 } rfl (by decide) 2 2
    ds.designMatrix ds.targets Quadratic.new (by simp [Shaped, ds]) shaped_one).1 1 .index (by decide +kernel)
  cases this

-- enough features: `K = 2`
example : OnlyNaNPanics (Solver.solve isort { cfg with useAcceleration := true, K := 2, maxEpochs := 20 } ds
    (Quadratic.new : Quadratic Int) (MCP.mk (1 : Int) 3)) :=
  ((C26_enough_features_partial (p := 2) isort_spec _ (by decide) (by decide) (by decide) _ shaped_one).1 _ _
    (by simp [Shaped])).2.2.1 1 3

-- NaN and infinite entries are fine
example : OnlyNaNPanics (Solver.solve argsortIns ⟨10, 50, 1000, XR.fin 0, 5, false, true⟩
    ⟨(⟨2, [[XR.nan, XR.pinf], [XR.fin 1, XR.fin 2]]⟩ : Mat XR), Targets.one [XR.fin 1, XR.ninf]⟩
    (Logistic.new : Logistic XR) (L05.mk (XR.fin 1))) :=
  ((C25_no_panic (n := 2) (p := 2) argsortIns_spec _ rfl _ shaped_one).2.2.1 _ _ (by simp [Shaped])).2.2.2 _

example : OnlyNaNPanics (Solver.solveMultiTask argsortIns ⟨10, 50, 1000, XR.fin 0, 4, true, true⟩
    ⟨(⟨[XR.fin 1, XR.fin 2, XR.nan], [0, 1, 1], [0, 2, 3]⟩ : CSC XR),
      Targets.two ⟨2, [[XR.fin 1, XR.fin 2], [XR.fin 3, XR.fin 4]]⟩⟩
    (QuadraticMT.new : QuadraticMT XR) (BlockMCP.mk (XR.fin 1) (XR.fin 3))) :=
  ((C26_enough_features_mt_partial (n := 2) (p := 2) (t := 2) argsortIns_spec _ (by decide) (by decide)
    (by decide) _
    (shaped_two (by simp [Shaped]))).2 _ _ ⟨rfl, by
      intro j a b ha hb k h1 h2
      rcases j with _ | _ | j <;> simp at ha hb <;> subst ha hb <;> simp <;> omega, by
      intro i hi; simp at hi; omega⟩).2.2 _ _

end

/-! ## C44: features with zero step size

The step size of a feature is zero exactly when its column is zero (C17, C18). -/

section
variable {F DM DF P : Type} [Scalar F] [DesignMatrix F DM]

/-- Without acceleration, in any floating point format: a feature whose step size compares equal to zero has coefficient
zero in every result. -/
theorem C44_zero_step [Datafit F DM DF] [Penalty F P] (srt : Argsort F) (cfg : Solver F)
    (hu : cfg.useAcceleration = false) (ds : Dataset DM F) (df df' : DF) (pen : P) (w : List F)
    (hdf : Datafit.init df ds = .ok df') (h : cfg.solve srt ds df pen = .ok w) (j : ℕ) (l : F)
    (hl : (Datafit.stepSize (DM := DM) df')[j]? = some l) (hl0 : (l ==. zero) = true) (hj : j < w.length) :
    w[j]? = some zero := by
  unfold Solver.solve at h
  cases hc : coordinateDescent srt ds df pen cfg with
  | error e => rw [hc] at h; cases h
  | ok r =>
    obtain ⟨st, df1, log⟩ := r
    rw [hc] at h
    injection h with h
    subst h
    obtain ⟨nf, k, hnf, hi, hrun, -⟩ := cd_run hc
    rw [hdf] at hi
    injection hi with hi
    subst hi
    have := (hoare_keep srt ds df' pen cfg hu nf (ws0CD cfg nf)).outer cfg.maxIterations
      (initCD ds.targets.nSamples nf) ⟨by simp [initCD], fun i l _ _ hi => by
        simp [initCD, hi]⟩
    have h2 := (Tri.elim_ok this hrun).1
    exact h2.2 j l hl hl0 (by rw [← h2.1]; exact hj)

/-- The same for the multi-task solver. -/
theorem C44_zero_step_mt [MTDatafit F DM DF] [MTPenalty F P] (srt : Argsort F) (cfg : Solver F)
    (hu : cfg.useAcceleration = false) (ds : Dataset DM F) (df df' : DF) (pen : P) (W : Mat F)
    (hdf : MTDatafit.init df ds = .ok df') (h : cfg.solveMultiTask srt ds df pen = .ok W) (j : ℕ) (l : F)
    (hl : (MTDatafit.stepSize (DM := DM) df')[j]? = some l) (hl0 : (l ==. zero) = true) (hj : j < W.rows.length) :
    W.rows[j]? = some (List.replicate ds.targets.nTasks zero) := by
  unfold Solver.solveMultiTask at h
  cases hc : MT.blockCoordinateDescent srt ds df pen cfg with
  | error e => rw [hc] at h; cases h
  | ok r =>
    obtain ⟨st, df1, log⟩ := r
    rw [hc] at h
    injection h with h
    subst h
    obtain ⟨nf, k, hnf, hi, hrun, -⟩ := MT.bcd_run hc
    rw [hdf] at hi
    injection hi with hi
    subst hi
    have := (MT.hoare_keep srt ds df' pen cfg hu nf ds.targets.nTasks (ws0CD cfg nf)).outer cfg.maxIterations
      (MT.initBCD ds.targets.nSamples nf ds.targets.nTasks) ⟨Shaped.zeros, fun i l _ _ hi => by
        simp [MT.initBCD, Mat.zeros, hi]⟩
    have h2 := (Tri.elim_ok this hrun).1
    exact h2.2 j l hl hl0 (by rw [← h2.1.1]; exact hj)

end

section
open Test
open Sglm.Test (isort)

/-- Second column zero. -/
def dsZ : Dataset (Mat Int) Int := ⟨⟨3, [[1, 0, 1], [1, 0, -1]]⟩, Targets.one [20, -40]⟩

example (w : List Int) (hw : 1 < w.length)
    (h : Solver.solve isort cfg dsZ (Quadratic.new : Quadratic Int) (L1.mk (1 : Int)) = .ok w) :
    w[1]? = some 0 :=
  C44_zero_step isort cfg rfl dsZ Quadratic.new _ (L1.mk (1 : Int)) w rfl h 1 0 rfl rfl hw

example : Solver.solve isort cfg dsZ (Quadratic.new : Quadratic Int) (L1.mk (1 : Int)) = .ok [-9, 0, 29] := by
  decide +kernel

end

/-! ## C46: mismatched shapes -/

section
variable {F P : Type} [Scalar F] {n p : ℕ}

/-- Least squares, dense design with `n` rows and a different number of targets. -/
theorem C46_quadratic [Penalty F P] (srt : Argsort F) (cfg : Solver F) (X : Mat F) (hX : Shaped X n p)
    (y : List F) (hy : n ≠ y.length) (df : Quadratic F) (pen : P) :
    cfg.solve srt ⟨X, Targets.one y⟩ df pen = .error .shape := by
  have hinit : Datafit.init df (⟨X, Targets.one y⟩ : Dataset (Mat F) F) = .error .shape := by
    show Quadratic.initDense _ = _
    unfold Quadratic.initDense
    obtain ⟨y', h1, h2⟩ := Tri.exists_ok (single_safe (T := Targets.one y) shaped_one)
    dsimp only
    rw [h1]
    show (do
      let Xty ← tMulVec X y'
      let l ← colSqNorms X _
      pure (Quadratic.mk l Xty)) = _
    have : tMulVec X y' = .error .shape := by
      unfold tMulVec
      rw [if_pos (by unfold Mat.nrows; rw [hX.1, h2]; exact hy)]
      rfl
    rw [this]
    rfl
  rw [solve_eq]
  unfold runCD
  rw [hinit]
  rfl

/-- Multi-task least squares. -/
theorem C46_multitask [MTPenalty F P] (srt : Argsort F) (cfg : Solver F) (X Y : Mat F)
    (h : X.nrows ≠ Y.nrows) (df : QuadraticMT F) (pen : P) :
    cfg.solveMultiTask srt ⟨X, Targets.two Y⟩ df pen = .error .shape := by
  have hinit : MTDatafit.init df (⟨X, Targets.two Y⟩ : Dataset (Mat F) F) = .error .shape := by
    show QuadraticMT.initDense _ = _
    unfold QuadraticMT.initDense
    have : tMulMat X Y = .error .shape := by
      unfold tMulMat
      rw [if_pos h]
      rfl
    show (do
      let XtY ← tMulMat X Y
      let l ← colSqNorms X _
      pure (QuadraticMT.mk l XtY)) = _
    rw [this]
    rfl
  rw [MT.solve_eq]
  unfold MT.runBCD
  rw [hinit]
  rfl

/-- Logistic regression; the shapes are compared by the first gradient, so at least one feature and one iteration are
needed. -/
theorem C46_logistic [Penalty F P] (srt : Argsort F) (cfg : Solver F) (hi : 0 < cfg.maxIterations)
    (X : Mat F) (hX : Shaped X n p) (hp : 0 < p)
    (y : List F) (hy : n ≠ y.length) (df : Logistic F) (pen : P) :
    cfg.solve srt ⟨X, Targets.one y⟩ df pen = .error .shape := by
  obtain ⟨l, h1, -⟩ := Tri.exists_ok (colSqNorms_safe hX (ofNat (4 * (Targets.one y).nSamples)))
  have hinit : Datafit.init df (⟨X, Targets.one y⟩ : Dataset (Mat F) F) = .ok ⟨l⟩ := by
    show Logistic.initDense _ = _
    unfold Logistic.initDense
    dsimp only
    rw [h1]
    rfl
  rw [solve_eq]
  unfold runCD
  rw [hinit]
  show (do
    let q ← (skelCD srt ⟨X, Targets.one y⟩ (Logistic.mk l) pen cfg X.ncols (ws0CD cfg X.ncols)).outer
      cfg.maxIterations (initCD (Targets.one y).nSamples X.ncols)
    pure q.1.w) = _
  obtain ⟨r, hr⟩ : ∃ r, cfg.maxIterations = r + 1 := ⟨cfg.maxIterations - 1, by omega⟩
  rw [hr]
  have hg : ∀ Xw : List F, Xw.length = y.length →
      Logistic.gradDense (⟨X, Targets.one y⟩ : Dataset (Mat F) F) Xw 0 = .error .shape := by
    intro Xw hXw
    unfold Logistic.gradDense
    obtain ⟨y', h1, h2⟩ := Tri.exists_ok (single_safe (T := Targets.one y) shaped_one)
    obtain ⟨c, h3, h4⟩ := Tri.exists_ok (hX.colM (E := fun _ => False) hp)
    dsimp only
    rw [h1, h3]
    show (do
      let d ← dotM c (List.zipWith (fun y_i xw_i => y_i *. sigmoid ((-.y_i) *. xw_i)) y' Xw)
      pure ((-.d) /. ofNat Xw.length)) = _
    unfold dotM
    rw [if_neg (by rw [List.length_zipWith, h2, hXw, h4, Nat.min_self]; exact hy)]
    rfl
  have hv : (skelCD srt (⟨X, Targets.one y⟩ : Dataset (Mat F) F) (Logistic.mk l) pen cfg X.ncols
      (ws0CD cfg X.ncols)).viol (initCD (Targets.one y).nSamples X.ncols) = .error .shape := by
    show optCondViolation _ _ _ (List.range X.ncols) _ _ = _
    unfold optCondViolation constructGrad
    rw [hX.2.1]
    obtain ⟨m, rfl⟩ : ∃ m, p = m + 1 := ⟨p - 1, by omega⟩
    rw [List.range_succ_eq_map, List.mapM_cons]
    show (do
      let b ← Logistic.gradDense (⟨X, Targets.one y⟩ : Dataset (Mat F) F) _ 0
      _) >>= _ = _
    rw [hg _ (by simp [initCD, Targets.one])]
    rfl
  unfold Skel.outer
  rw [hv]
  rfl

end

section
open Test

example : Solver.solve argsortIns ⟨10, 50, 1000, XR.fin 0, 5, true, true⟩
    ⟨(⟨2, [[XR.fin 1, XR.fin 2]]⟩ : Mat XR), Targets.one [XR.fin 1, XR.fin 2]⟩
    (Quadratic.new : Quadratic XR) (L1.mk (XR.fin 1)) = .error .shape :=
  C46_quadratic (n := 1) (p := 2) _ _ _ (by simp [Shaped]) _ (by decide) _ _

example : Solver.solveMultiTask argsortIns ⟨10, 50, 1000, XR.fin 0, 5, true, true⟩
    ⟨(⟨2, [[XR.fin 1, XR.fin 2]]⟩ : Mat XR), Targets.two ⟨1, [[XR.fin 1], [XR.fin 2]]⟩⟩
    (QuadraticMT.new : QuadraticMT XR) (L21.mk (XR.fin 1)) = .error .shape :=
  C46_multitask _ _ _ _ (by decide) _ _

example : Solver.solve argsortIns ⟨10, 50, 1000, XR.fin 0, 5, true, true⟩
    ⟨(⟨2, [[XR.fin 1, XR.fin 2]]⟩ : Mat XR), Targets.one [XR.fin 1, XR.fin (-1)]⟩
    (Logistic.new : Logistic XR) (L1.mk (XR.fin 1)) = .error .shape :=
  C46_logistic (n := 1) (p := 2) _ _ (by decide) _ (by simp [Shaped]) (by decide) _ (by decide) _ _

end
end Sglm
