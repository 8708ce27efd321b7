import Verif.Proofs.Runs
import Verif.Spec.Run
import Verif.Tests.IntScalar

/-!
# Runs of the solvers, for every floating point format

Nothing is assumed about the arithmetic in this file: the statements hold for `f32`, `f64` with all rounding errors,
NaN and infinities, for every datafit, penalty and design matrix type unless one is named.
-/

namespace Sglm
open Scalar Spec

section
variable {F DM DF P : Type} [Scalar F] [DesignMatrix F DM]

/-! ## C35: `verbose` only affects printing -/

/-- Single-task solver: the coefficients (or the panic) do not depend on `verbose`. -/
theorem C35_verbose_result [Datafit F DM DF] [Penalty F P] (srt : Argsort F) (cfg : Solver F)
    (ds : Dataset DM F) (df : DF) (pen : P) (v : Bool) :
    (cfg.setVerbose v).solve srt ds df pen = cfg.solve srt ds df pen := by
  rw [solve_eq, solve_eq]; rfl

/-- Single-task solver: nothing is printed with `verbose = false`. -/
theorem C35_silent [Datafit F DM DF] [Penalty F P] (srt : Argsort F) (cfg : Solver F)
    (ds : Dataset DM F) (df : DF) (pen : P) (st : CDState F) (df' : DF) (log : List (Event F))
    (h : coordinateDescent srt ds df pen (cfg.setVerbose false) = .ok (st, df', log)) : log = [] := by
  have := cd_rel srt ds df pen (cfg.setVerbose false)
  rw [h] at this
  revert this
  cases runCD srt ds df pen (cfg.setVerbose false) with
  | error e => exact False.elim
  | ok q => exact fun ⟨_, _, h3⟩ => h3 rfl

/-- Multi-task solver: the coefficients (or the panic) do not depend on `verbose`. -/
theorem C35_verbose_result_mt [MTDatafit F DM DF] [MTPenalty F P] (srt : Argsort F) (cfg : Solver F)
    (ds : Dataset DM F) (df : DF) (pen : P) (v : Bool) :
    (cfg.setVerbose v).solveMultiTask srt ds df pen = cfg.solveMultiTask srt ds df pen := by
  rw [MT.solve_eq, MT.solve_eq]; rfl

/-- Multi-task solver: nothing is printed with `verbose = false`. -/
theorem C35_silent_mt [MTDatafit F DM DF] [MTPenalty F P] (srt : Argsort F) (cfg : Solver F)
    (ds : Dataset DM F) (df : DF) (pen : P) (st : BCDState F) (df' : DF) (log : List (Event F))
    (h : MT.blockCoordinateDescent srt ds df pen (cfg.setVerbose false) = .ok (st, df', log)) :
    log = [] := by
  have := MT.bcd_rel srt ds df pen (cfg.setVerbose false)
  rw [h] at this
  revert this
  cases MT.runBCD srt ds df pen (cfg.setVerbose false) with
  | error e => exact False.elim
  | ok q => exact fun ⟨_, _, h3⟩ => h3 rfl

section
open Test

-- With `verbose = true` lines are printed (two `KKT max violation` lines and one `Iteration` line).
example : ((coordinateDescent isort ds (Quadratic.new : Quadratic Int) (L1.mk (1 : Int)) cfg).map
    fun r => (r.1.w, r.2.2.length)) = .ok ([-9, 29], 3) := by decide +kernel

example : ((MT.blockCoordinateDescent isort dsMT (QuadraticMT.new : QuadraticMT Int) (L21.mk (1 : Int)) cfg).map
    fun r => (r.1.W.rows.length, r.2.2.length)) = .ok (2, 3) := by decide +kernel

end

/-! ## C33: more iterations do not change a converged result -/

/-- If the point `st` reached with `max_iterations = m` has violation at most the tolerance, then every larger
`max_iterations` returns the same coefficients. -/
theorem C33_converged_stable [Datafit F DM DF] [Penalty F P] (srt : Argsort F) (cfg : Solver F)
    (ds : Dataset DM F) (df df1 : DF) (pen : P) (m m' : Nat) (hm : m ≤ m') (st : CDState F)
    (log : List (Event F)) (nf : Nat) (kkt : List F) (v : F)
    (hrun : coordinateDescent srt ds df pen (cfg.setMaxIterations m) = .ok (st, df1, log))
    (hnf : DesignMatrix.nFeatures (F := F) ds.designMatrix = .ok nf)
    (hv : optCondViolation ds st.w st.Xw (List.range nf) df1 pen = .ok (kkt, v))
    (htol : (v <=. cfg.tolerance) = true) :
    (cfg.setMaxIterations m').solve srt ds df pen = .ok st.w := by
  obtain ⟨d, rfl⟩ := Nat.exists_eq_add_of_le hm
  obtain ⟨nf', k, hnf', hdf, hk, -⟩ := cd_run hrun
  obtain rfl : nf' = nf := by rw [hnf] at hnf'; injection hnf' with h; exact h.symm
  rw [solve_eq]
  unfold runCD
  rw [hnf, hdf]
  have hk' : (skelCD srt ds df1 pen cfg nf' (ws0CD cfg nf')).outer m
      (initCD ds.targets.nSamples nf') = .ok (st, k) := hk
  show (fun q : CDState F × Nat => q.1.w) <$>
    (skelCD srt ds df1 pen cfg nf' (ws0CD cfg nf')).outer (m + d) (initCD ds.targets.nSamples nf') = _
  rw [Skel.outer_add, hk']
  simp only [bind, Except.bind]
  rw [Skel.outer_done _ _ _ kkt v hv htol]
  rfl

/-- One more permitted iteration is one more turn of the outer loop, started at the previous result. -/
theorem C33_one_more [Datafit F DM DF] [Penalty F P] (srt : Argsort F) (cfg : Solver F)
    (ds : Dataset DM F) (df df1 : DF) (pen : P) (m nf : Nat) (st : CDState F) (log : List (Event F))
    (hrun : coordinateDescent srt ds df pen (cfg.setMaxIterations m) = .ok (st, df1, log))
    (hnf : DesignMatrix.nFeatures (F := F) ds.designMatrix = .ok nf) :
    (cfg.setMaxIterations (m + 1)).solve srt ds df pen =
      (outerLoop srt ds df1 pen cfg nf (min cfg.wsStartSize nf) 1 m st []).map (fun r => r.1.w) := by
  obtain ⟨nf', k, hnf', hdf, hk, -⟩ := cd_run hrun
  obtain rfl : nf' = nf := by rw [hnf] at hnf'; injection hnf' with h; exact h.symm
  rw [solve_eq]
  unfold runCD
  rw [hnf, hdf]
  have hk' : (skelCD srt ds df1 pen cfg nf' (ws0CD cfg nf')).outer m
      (initCD ds.targets.nSamples nf') = .ok (st, k) := hk
  show (fun q : CDState F × Nat => q.1.w) <$>
    (skelCD srt ds df1 pen cfg nf' (ws0CD cfg nf')).outer (m + 1) (initCD ds.targets.nSamples nf') = _
  rw [Skel.outer_add, hk']
  have hrel2 := outer_rel srt ds df1 pen cfg nf' (ws0CD cfg nf') 1 m st []
  show _ = (outerLoop srt ds df1 pen cfg nf' (ws0CD cfg nf') 1 m st []).map (fun r => r.1.w)
  simp only [bind, Except.bind]
  revert hrel2
  cases outerLoop srt ds df1 pen cfg nf' (ws0CD cfg nf') 1 m st [] <;>
    cases (skelCD srt ds df1 pen cfg nf' (ws0CD cfg nf')).outer 1 st
  · intro h; exact congrArg Except.error h.symm
  · intro h; exact h.elim
  · intro h; exact h.elim
  · intro h; exact congrArg (fun s => Except.ok (CDState.w s)) h.1.symm

section
open Test

example : (cfg.setMaxIterations 7).solve isort ds (Quadratic.new : Quadratic Int) (L1.mk (1 : Int)) =
    .ok [-9, 29] :=
  C33_converged_stable isort cfg ds Quadratic.new _ (L1.mk 1) 1 7 (by decide) ⟨[-9, 29], [20, -38]⟩ _ 2 _ _
    rfl rfl rfl rfl

example : (cfg.setMaxIterations (0 + 1)).solve isort ds (Quadratic.new : Quadratic Int) (L1.mk (1 : Int)) =
    .ok [-9, 29] :=
  C33_one_more isort cfg ds Quadratic.new (Quadratic.mk [1, 1] [-20, 60]) (L1.mk (1 : Int)) 0 2 ⟨[0, 0], [0, 0]⟩ _ rfl rfl

end

/-! ## C30 (exit part): stopping early means the criterion holds -/

/-- If fewer than `max_iterations` iterations were printed, the score of the returned point, taken over
all features, is at most the tolerance. -/
theorem C30_exit [Datafit F DM DF] [Penalty F P] (srt : Argsort F) (cfg : Solver F)
    (ds : Dataset DM F) (df df1 : DF) (pen : P) (st : CDState F) (log : List (Event F))
    (hrun : coordinateDescent srt ds df pen (cfg.setVerbose true) = .ok (st, df1, log))
    (hit : iterationsPrinted log < cfg.maxIterations) :
    ∃ nf kkt v, DesignMatrix.nFeatures (F := F) ds.designMatrix = .ok nf ∧
      optCondViolation ds st.w st.Xw (List.range nf) df1 pen = .ok (kkt, v) ∧
      (v <=. cfg.tolerance) = true := by
  obtain ⟨nf, k, hnf, hdf, hk, hl⟩ := cd_run hrun
  obtain ⟨kkt, v, h1, h2⟩ := (Skel.outer_exit _ _ _ _ _ hk).2 (by rw [← hl rfl]; exact hit)
  exact ⟨nf, kkt, v, hnf, h1, h2⟩

section
open Test

example : ∃ nf kkt v, DesignMatrix.nFeatures (F := Int) ds.designMatrix = .ok nf ∧
    optCondViolation ds [-9, 29] [20, -38] (List.range nf) (Quadratic.mk [1, 1] [-20, 60]) (L1.mk (1 : Int)) =
      .ok (kkt, v) ∧ (v <=. cfg.tolerance) = true :=
  C30_exit isort cfg ds Quadratic.new _ (L1.mk 1) ⟨[-9, 29], [20, -38]⟩ _ rfl (by decide +kernel)

end

/-- Multi-task: if the point `st` reached with `max_iterations = m` has violation at most the tolerance, then every larger
`max_iterations` returns the same coefficients. -/
theorem C33_converged_stable_mt [MTDatafit F DM DF] [MTPenalty F P] (srt : Argsort F) (cfg : Solver F)
    (ds : Dataset DM F) (df df1 : DF) (pen : P) (m m' : Nat) (hm : m ≤ m') (st : BCDState F)
    (log : List (Event F)) (nf : Nat) (kkt : List F) (v : F)
    (hrun : MT.blockCoordinateDescent srt ds df pen (cfg.setMaxIterations m) = .ok (st, df1, log))
    (hnf : DesignMatrix.nFeatures (F := F) ds.designMatrix = .ok nf)
    (hv : MT.optCondViolation ds st.W st.XW (List.range nf) df1 pen = .ok (kkt, v))
    (htol : (v <=. cfg.tolerance) = true) :
    (cfg.setMaxIterations m').solveMultiTask srt ds df pen = .ok st.W := by
  obtain ⟨d, rfl⟩ := Nat.exists_eq_add_of_le hm
  obtain ⟨nf', k, hnf', hdf, hk, -⟩ := MT.bcd_run hrun
  obtain rfl : nf' = nf := by rw [hnf] at hnf'; injection hnf' with h; exact h.symm
  rw [MT.solve_eq]
  unfold MT.runBCD
  rw [hnf, hdf]
  have hk' : (MT.skelBCD srt ds df1 pen cfg nf' (ws0CD cfg nf')).outer m
      (MT.initBCD ds.targets.nSamples nf' ds.targets.nTasks) = .ok (st, k) := hk
  show (fun q : BCDState F × Nat => q.1.W) <$>
    (MT.skelBCD srt ds df1 pen cfg nf' (ws0CD cfg nf')).outer (m + d) (MT.initBCD ds.targets.nSamples nf' ds.targets.nTasks) = _
  rw [Skel.outer_add, hk']
  simp only [bind, Except.bind]
  rw [Skel.outer_done _ _ _ kkt v hv htol]
  rfl

/-- Multi-task: one more permitted iteration is one more turn of the outer loop, started at the previous result. -/
theorem C33_one_more_mt [MTDatafit F DM DF] [MTPenalty F P] (srt : Argsort F) (cfg : Solver F)
    (ds : Dataset DM F) (df df1 : DF) (pen : P) (m nf : Nat) (st : BCDState F) (log : List (Event F))
    (hrun : MT.blockCoordinateDescent srt ds df pen (cfg.setMaxIterations m) = .ok (st, df1, log))
    (hnf : DesignMatrix.nFeatures (F := F) ds.designMatrix = .ok nf) :
    (cfg.setMaxIterations (m + 1)).solveMultiTask srt ds df pen =
      (MT.outerLoop srt ds df1 pen cfg nf (min cfg.wsStartSize nf) 1 m st []).map (fun r => r.1.W) := by
  obtain ⟨nf', k, hnf', hdf, hk, -⟩ := MT.bcd_run hrun
  obtain rfl : nf' = nf := by rw [hnf] at hnf'; injection hnf' with h; exact h.symm
  rw [MT.solve_eq]
  unfold MT.runBCD
  rw [hnf, hdf]
  have hk' : (MT.skelBCD srt ds df1 pen cfg nf' (ws0CD cfg nf')).outer m
      (MT.initBCD ds.targets.nSamples nf' ds.targets.nTasks) = .ok (st, k) := hk
  show (fun q : BCDState F × Nat => q.1.W) <$>
    (MT.skelBCD srt ds df1 pen cfg nf' (ws0CD cfg nf')).outer (m + 1) (MT.initBCD ds.targets.nSamples nf' ds.targets.nTasks) = _
  rw [Skel.outer_add, hk']
  have hrel2 := MT.outer_rel srt ds df1 pen cfg nf' (ws0CD cfg nf') 1 m st []
  show _ = (MT.outerLoop srt ds df1 pen cfg nf' (ws0CD cfg nf') 1 m st []).map (fun r => r.1.W)
  simp only [bind, Except.bind]
  revert hrel2
  cases MT.outerLoop srt ds df1 pen cfg nf' (ws0CD cfg nf') 1 m st [] <;>
    cases (MT.skelBCD srt ds df1 pen cfg nf' (ws0CD cfg nf')).outer 1 st
  · intro h; exact congrArg Except.error h.symm
  · intro h; exact h.elim
  · intro h; exact h.elim
  · intro h; exact congrArg (fun s => Except.ok (BCDState.W s)) h.1.symm

/-- Multi-task: if fewer than `max_iterations` iterations were printed, the score of the returned point, taken over
all features, is at most the tolerance. -/
theorem C30_exit_mt [MTDatafit F DM DF] [MTPenalty F P] (srt : Argsort F) (cfg : Solver F)
    (ds : Dataset DM F) (df df1 : DF) (pen : P) (st : BCDState F) (log : List (Event F))
    (hrun : MT.blockCoordinateDescent srt ds df pen (cfg.setVerbose true) = .ok (st, df1, log))
    (hit : iterationsPrinted log < cfg.maxIterations) :
    ∃ nf kkt v, DesignMatrix.nFeatures (F := F) ds.designMatrix = .ok nf ∧
      MT.optCondViolation ds st.W st.XW (List.range nf) df1 pen = .ok (kkt, v) ∧
      (v <=. cfg.tolerance) = true := by
  obtain ⟨nf, k, hnf, hdf, hk, hl⟩ := MT.bcd_run hrun
  obtain ⟨kkt, v, h1, h2⟩ := (Skel.outer_exit _ _ _ _ _ hk).2 (by rw [← hl rfl]; exact hit)
  exact ⟨nf, kkt, v, hnf, h1, h2⟩

section
open Test

example : (cfg.setMaxIterations 7).solveMultiTask isort dsMT (QuadraticMT.new : QuadraticMT Int)
    (L21.mk (1 : Int)) = .ok ⟨2, [[-10, 1], [30, -1]]⟩ :=
  C33_converged_stable_mt isort cfg dsMT QuadraticMT.new _ (L21.mk 1) 1 7 (by decide)
    ⟨⟨2, [[-10, 1], [30, -1]]⟩, ⟨2, [[20, 0], [-40, 2]]⟩⟩ _ 2 _ _ rfl rfl rfl rfl

example : (cfg.setMaxIterations (0 + 1)).solveMultiTask isort dsMT (QuadraticMT.new : QuadraticMT Int)
    (L21.mk (1 : Int)) = .ok ⟨2, [[-10, 1], [30, -1]]⟩ :=
  C33_one_more_mt isort cfg dsMT QuadraticMT.new (QuadraticMT.mk [1, 1] ⟨2, [[-20, 2], [60, -2]]⟩)
    (L21.mk (1 : Int)) 0 2 ⟨Mat.zeros 2 2, Mat.zeros 2 2⟩ _ rfl rfl

example : ∃ nf kkt v, DesignMatrix.nFeatures (F := Int) dsMT.designMatrix = .ok nf ∧
    MT.optCondViolation dsMT ⟨2, [[-10, 1], [30, -1]]⟩ ⟨2, [[20, 0], [-40, 2]]⟩ (List.range nf)
      (QuadraticMT.mk [1, 1] ⟨2, [[-20, 2], [60, -2]]⟩) (L21.mk (1 : Int)) =
      .ok (kkt, v) ∧ (v <=. cfg.tolerance) = true :=
  C30_exit_mt isort cfg dsMT QuadraticMT.new _ (L21.mk 1)
    ⟨⟨2, [[-10, 1], [30, -1]]⟩, ⟨2, [[20, 0], [-40, 2]]⟩⟩ _ rfl (by decide +kernel)

end

end

/-! ## C36: a datafit object can be reused -/

section
variable {F P : Type} [Scalar F]

/-- Quadratic datafit: the result does not depend on the state of the datafit object passed in, for dense and
sparse designs. -/
theorem C36_quadratic [Penalty F P] (srt : Argsort F) (cfg : Solver F) (df df' : Quadratic F) (pen : P) :
    (∀ ds : Dataset (Mat F) F, cfg.solve srt ds df pen = cfg.solve srt ds df' pen) ∧
    (∀ ds : Dataset (CSC F) F, cfg.solve srt ds df pen = cfg.solve srt ds df' pen) :=
  ⟨fun _ => rfl, fun _ => rfl⟩

/-- Logistic datafit. -/
theorem C36_logistic [Penalty F P] (srt : Argsort F) (cfg : Solver F) (df df' : Logistic F) (pen : P) :
    (∀ ds : Dataset (Mat F) F, cfg.solve srt ds df pen = cfg.solve srt ds df' pen) ∧
    (∀ ds : Dataset (CSC F) F, cfg.solve srt ds df pen = cfg.solve srt ds df' pen) :=
  ⟨fun _ => rfl, fun _ => rfl⟩

/-- Multi-task quadratic datafit. -/
theorem C36_multitask [MTPenalty F P] (srt : Argsort F) (cfg : Solver F) (df df' : QuadraticMT F) (pen : P) :
    (∀ ds : Dataset (Mat F) F, cfg.solveMultiTask srt ds df pen = cfg.solveMultiTask srt ds df' pen) ∧
    (∀ ds : Dataset (CSC F) F, cfg.solveMultiTask srt ds df pen = cfg.solveMultiTask srt ds df' pen) :=
  ⟨fun _ => rfl, fun _ => rfl⟩

section
open Test

-- A datafit object used before on another dataset.
example : cfg.solve isort ds (Quadratic.mk [7, 7, 7] [1] : Quadratic Int) (L1.mk (1 : Int)) = .ok [-9, 29] :=
  (C36_quadratic isort cfg _ Quadratic.new (L1.mk (1 : Int))).1 ds

end

end

/-! ## C29: an extrapolated point is accepted only if it strictly decreases the objective -/

section
variable {F DM DF P : Type} [Scalar F] [DesignMatrix F DM]

theorem C29_accept [Datafit F DM DF] [Penalty F P] (ds : Dataset DM F) (df : DF) (pen : P)
    (lastK lastK' : Mat F) (st st' : CDState F) (ws : List Nat) (epoch K : Nat) (verbose : Bool)
    (log log' : List (Event F))
    (h : andersonAccel ds df pen lastK st ws epoch K verbose log = .ok (lastK', st', log')) :
    st' = st ∨ ∃ d p d' p', Datafit.value df ds st.Xw = .ok d ∧ Penalty.value pen st.w = .ok p ∧
      Datafit.value df ds st'.Xw = .ok d' ∧ Penalty.value pen st'.w = .ok p' ∧
      ((d' +. p') <. (d +. p)) = true := by
  have key : Tri (fun _ => True) (andersonAccel ds df pen lastK st ws epoch K verbose log)
      (fun r => r.2.1 = st ∨ ∃ d p d' p', Datafit.value df ds st.Xw = .ok d ∧
        Penalty.value pen st.w = .ok p ∧
        Datafit.value df ds r.2.1.Xw = .ok d' ∧ Penalty.value pen r.2.1.w = .ok p' ∧
        ((d' +. p') <. (d +. p)) = true) := by
    unfold andersonAccel objective
    refine Tri.bind Tri.triv fun nf _ => ?_
    refine Tri.bind Tri.triv fun b _ => ?_
    split
    · refine Tri.bind Tri.triv fun U _ => ?_
      refine Tri.bind Tri.triv fun C _ => ?_
      refine Tri.bind Tri.triv fun z _ => ?_
      cases z with
      | none => exact Or.inl rfl
      | some z =>
        refine Tri.bind Tri.triv fun pt _ => ?_
        refine Tri.bind Tri.triv fun wa _ => ?_
        refine Tri.bind Tri.triv fun Xwa _ => ?_
        simp only [bind_assoc, pure_bind]
        refine Tri.bind_eq Tri.triv fun d hd _ => ?_
        refine Tri.bind_eq Tri.triv fun p hp _ => ?_
        refine Tri.bind_eq Tri.triv fun d' hd' _ => ?_
        refine Tri.bind_eq Tri.triv fun p' hp' _ => ?_
        split
        · rename_i hlt
          exact Or.inr ⟨d, p, d', p', hd, hp, hd', hp', hlt⟩
        · exact Or.inl rfl
    · exact Or.inl rfl
  rw [h] at key
  exact key

theorem C29_accept_mt [MTDatafit F DM DF] [MTPenalty F P] (ds : Dataset DM F) (df : DF) (pen : P)
    (lastK lastK' : Mat F) (st st' : BCDState F) (ws : List Nat) (epoch K : Nat) (verbose : Bool)
    (log log' : List (Event F))
    (h : MT.andersonAccel ds df pen lastK st ws epoch K verbose log = .ok (lastK', st', log')) :
    st' = st ∨ ∃ d p d' p', MTDatafit.value df ds st.XW = .ok d ∧ MTPenalty.value pen st.W = .ok p ∧
      MTDatafit.value df ds st'.XW = .ok d' ∧ MTPenalty.value pen st'.W = .ok p' ∧
      ((d' +. p') <. (d +. p)) = true := by
  have key : Tri (fun _ => True) (MT.andersonAccel ds df pen lastK st ws epoch K verbose log)
      (fun r => r.2.1 = st ∨ ∃ d p d' p', MTDatafit.value df ds st.XW = .ok d ∧
        MTPenalty.value pen st.W = .ok p ∧
        MTDatafit.value df ds r.2.1.XW = .ok d' ∧ MTPenalty.value pen r.2.1.W = .ok p' ∧
        ((d' +. p') <. (d +. p)) = true) := by
    unfold MT.andersonAccel MT.objective
    refine Tri.bind Tri.triv fun nf _ => ?_
    refine Tri.bind Tri.triv fun b _ => ?_
    split
    · refine Tri.bind Tri.triv fun U _ => ?_
      refine Tri.bind Tri.triv fun C _ => ?_
      refine Tri.bind Tri.triv fun z _ => ?_
      cases z with
      | none => exact Or.inl rfl
      | some z =>
        refine Tri.bind Tri.triv fun pt _ => ?_
        refine Tri.bind Tri.triv fun wa _ => ?_
        refine Tri.bind Tri.triv fun Xwa _ => ?_
        simp only [bind_assoc, pure_bind]
        refine Tri.bind_eq Tri.triv fun d hd _ => ?_
        refine Tri.bind_eq Tri.triv fun p hp _ => ?_
        refine Tri.bind_eq Tri.triv fun d' hd' _ => ?_
        refine Tri.bind_eq Tri.triv fun p' hp' _ => ?_
        split
        · rename_i hlt
          exact Or.inr ⟨d, p, d', p', hd, hp, hd', hp', hlt⟩
        · exact Or.inl rfl
    · exact Or.inl rfl
  rw [h] at key
  exact key

section
open Test

-- An extrapolation which is accepted.
example : ((andersonAccel ds (Quadratic.mk [1, 1] [-20, 60]) (L1.mk (1 : Int)) ⟨1, [[7], [0]]⟩
    ⟨[0, 6], [6, -6]⟩ [1] 1 1 false []).map fun r => (r.2.1.w, r.2.1.Xw)) = .ok ([0, 7], [7, -7]) := by
  decide +kernel

-- An extrapolation which is rejected.
example : ((andersonAccel ds (Quadratic.mk [1, 1] [-20, 60]) (L1.mk (1 : Int)) ⟨1, [[5], [0]]⟩
    ⟨[0, 6], [6, -6]⟩ [1] 1 1 false []).map fun r => (r.2.1.w, r.2.1.Xw)) = .ok ([0, 6], [6, -6]) := by
  decide +kernel

example : ∃ d p d' p', Datafit.value (Quadratic.mk [1, 1] [-20, 60]) ds [6, -6] = .ok d ∧
    Penalty.value (L1.mk (1 : Int)) [0, 6] = .ok p ∧
    Datafit.value (Quadratic.mk [1, 1] [-20, 60]) ds [7, -7] = .ok d' ∧
    Penalty.value (L1.mk (1 : Int)) [0, 7] = .ok p' ∧ ((d' +. p') <. (d +. p)) = true :=
  (C29_accept ds (Quadratic.mk [1, 1] [-20, 60]) (L1.mk (1 : Int)) ⟨1, [[7], [0]]⟩ _
    ⟨[0, 6], [6, -6]⟩ ⟨[0, 7], [7, -7]⟩ [1] 1 1 false [] _ rfl).resolve_left (by simp)

example : ((MT.andersonAccel dsMT (QuadraticMT.mk [1, 1] ⟨2, [[-20, 2], [60, -2]]⟩) (L21.mk (1 : Int))
    ⟨2, [[7, 0], [0, 0]]⟩ ⟨⟨2, [[0, 0], [6, 0]]⟩, ⟨2, [[6, 0], [-6, 0]]⟩⟩ [1] 1 1 false []).map
    fun r => (r.2.1.W.rows, r.2.1.XW.rows)) = .ok ([[0, 0], [7, 0]], [[7, 0], [-7, 0]]) := by
  decide +kernel

end

end
end Sglm
