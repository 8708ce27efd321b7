import Verif.Proofs.Quiet
import Verif.Props.Safe
import Verif.Proofs.IEEELaws
import Verif.Proofs.Problem

/-!
# C25, C26: NaN in the data does not make a fit panic either

For every number format with the comparison rules of IEEE floats: exact arithmetic, `f32`, `f64`.
-/

set_option linter.unusedSectionVars false

namespace Sglm
open Scalar Spec

section
variable {F : Type} [Scalar F] {n p t : ℕ}

/-- A computation that returns a value. -/
def Answers {α : Type} (m : M α) : Prop := ∃ r, m = .ok r

theorem Answers.of_ok {α : Type} {m : M α} {Q : α → Prop} (h : Ok m Q) : Answers m := by
  obtain ⟨r, hr, -⟩ := Tri.exists_ok h
  exact ⟨r, hr⟩

/-- A solver run with any of the four separable penalties, whatever their parameters, returns. -/
def AnswersForPenalties {DM DF : Type} [DesignMatrix F DM] [Datafit F DM DF] (srt : Argsort F) (cfg : Solver F)
    (ds : Dataset DM F) (df : DF) : Prop :=
  (∀ a : F, Answers (cfg.solve srt ds df (L1.mk a))) ∧
  (∀ a r : F, Answers (cfg.solve srt ds df (L1PlusL2.mk a r))) ∧
  (∀ a g : F, Answers (cfg.solve srt ds df (MCP.mk a g))) ∧
  (∀ a : F, Answers (cfg.solve srt ds df (L05.mk a)))

/-- A multi-task solver run with any of the three block penalties, whatever their parameters, returns. -/
def AnswersForBlockPenalties {DM DF : Type} [DesignMatrix F DM] [MTDatafit F DM DF] (srt : Argsort F)
    (cfg : Solver F) (ds : Dataset DM F) (df : DF) : Prop :=
  (∀ a : F, Answers (cfg.solveMultiTask srt ds df (L21.mk a))) ∧
  (∀ a r : F, Answers (cfg.solveMultiTask srt ds df (BlockL1PlusL2.mk a r))) ∧
  (∀ a g : F, Answers (cfg.solveMultiTask srt ds df (BlockMCP.mk a g)))

variable [LawfulCmp F]

theorem quiet_all {DM DF : Type} [DesignMatrix F DM] [Datafit F DM DF] {srt : Argsort F} {cfg : Solver F}
    {ds : Dataset DM F} {df : DF}
    (h : ∀ {P : Type} [Penalty F P] (pen : P), SafePen pen → QuietPen (F := F) pen →
      Ok (cfg.solve srt ds df pen) (fun w => w.length = p)) :
    AnswersForPenalties srt cfg ds df :=
  ⟨fun _ => .of_ok (h _ (safe_L1 _) (quiet_L1 _)), fun _ _ => .of_ok (h _ (safe_L1PlusL2 _) (quiet_L1PlusL2 _)),
    fun _ _ => .of_ok (h _ (safe_MCP _) (quiet_MCP _)), fun _ => .of_ok (h _ (safe_L05 _) (quiet_L05 _))⟩

theorem quiet_all_mt {DM DF : Type} [DesignMatrix F DM] [MTDatafit F DM DF] {srt : Argsort F} {cfg : Solver F}
    {ds : Dataset DM F} {df : DF}
    (h : ∀ {P : Type} [MTPenalty F P] (pen : P), MT.SafePen pen → MT.QuietPen (F := F) pen →
      Ok (cfg.solveMultiTask srt ds df pen) (fun W => Shaped W p t)) :
    AnswersForBlockPenalties srt cfg ds df :=
  ⟨fun _ => .of_ok (h _ (MT.safe_L21 _) (MT.quiet_L21 _)),
    fun _ _ => .of_ok (h _ (MT.safe_BlockL1PlusL2 _) (MT.quiet_BlockL1PlusL2 _)),
    fun _ _ => .of_ok (h _ (MT.safe_BlockMCP _) (MT.quiet_BlockMCP _))⟩

theorem answers_of_room {srt : Argsort F} (hs : ArgsortSpec srt) (cfg : Solver F)
    (hr : RoomToExtrapolate cfg p 1) (T : Targets F) (hT : ShapedTargets T n 1) :
    (∀ (X : Mat F) (df : Quadratic F), Shaped X n p → AnswersForPenalties srt cfg ⟨X, T⟩ df) ∧
    (∀ (X : CSC F) (df : Quadratic F), ShapedCSC X n p → AnswersForPenalties srt cfg ⟨X, T⟩ df) ∧
    (∀ (X : Mat F) (df : Logistic F), Shaped X n p → AnswersForPenalties srt cfg ⟨X, T⟩ df) ∧
    (∀ (X : CSC F) (df : Logistic F), ShapedCSC X n p → AnswersForPenalties srt cfg ⟨X, T⟩ df) := by
  refine ⟨fun X df hX => quiet_all (p := p) fun pen hp hq => ?_, fun X df hX => quiet_all (p := p) fun pen hp hq => ?_,
    fun X df hX => quiet_all (p := p) fun pen hp hq => ?_, fun X df hX => quiet_all (p := p) fun pen hp hq => ?_⟩
  · exact solve_quiet hs cfg df hT.nSamples (congrArg Except.ok hX.2.1) (quad_dense_safe hX hT df) hp hq
      (room_single hr)
  · exact solve_quiet hs cfg df hT.nSamples (ShapedCSC.nFeatures hX) (quad_csc_safe hX hT df) hp hq (room_single hr)
  · exact solve_quiet hs cfg df hT.nSamples (congrArg Except.ok hX.2.1) (log_dense_safe hX hT df) hp hq
      (room_single hr)
  · exact solve_quiet hs cfg df hT.nSamples (ShapedCSC.nFeatures hX) (log_csc_safe hX hT df) hp hq (room_single hr)

theorem answers_of_room_mt {srt : Argsort F} (hs : ArgsortSpec srt) (cfg : Solver F)
    (hr : RoomToExtrapolate cfg p t) (T : Targets F) (hT : ShapedTargets T n t) :
    (∀ (X : Mat F) (df : QuadraticMT F), Shaped X n p → AnswersForBlockPenalties srt cfg ⟨X, T⟩ df) ∧
    (∀ (X : CSC F) (df : QuadraticMT F), ShapedCSC X n p → AnswersForBlockPenalties srt cfg ⟨X, T⟩ df) := by
  refine ⟨fun X df hX => quiet_all_mt (p := p) (t := t) fun pen hp hq => ?_,
    fun X df hX => quiet_all_mt (p := p) (t := t) fun pen hp hq => ?_⟩
  · exact MT.solve_quiet hs cfg df hT.nSamples hT.nTasks (congrArg Except.ok hX.2.1) (MT.quad_dense_safe hX hT df)
      hp hq hr
  · exact MT.solve_quiet hs cfg df hT.nSamples hT.nTasks (ShapedCSC.nFeatures hX) (MT.quad_csc_safe hX hT df) hp hq hr

/-- Without acceleration, on data of consistent shapes, `solve` always returns: whatever the entries of the data, the
parameters of the penalty and the settings are, NaN and infinities included. -/
theorem C25_never {srt : Argsort F} (hs : ArgsortSpec srt) (cfg : Solver F)
    (hu : cfg.useAcceleration = false) (T : Targets F) (hT : ShapedTargets T n 1) :
    (∀ (X : Mat F) (df : Quadratic F), Shaped X n p → AnswersForPenalties srt cfg ⟨X, T⟩ df) ∧
    (∀ (X : CSC F) (df : Quadratic F), ShapedCSC X n p → AnswersForPenalties srt cfg ⟨X, T⟩ df) ∧
    (∀ (X : Mat F) (df : Logistic F), Shaped X n p → AnswersForPenalties srt cfg ⟨X, T⟩ df) ∧
    (∀ (X : CSC F) (df : Logistic F), ShapedCSC X n p → AnswersForPenalties srt cfg ⟨X, T⟩ df) :=
  answers_of_room hs cfg (fun h => by rw [hu] at h; cases h) T hT

/-- The same for the multi-task solver. -/
theorem C25_never_mt {srt : Argsort F} (hs : ArgsortSpec srt) (cfg : Solver F)
    (hu : cfg.useAcceleration = false) (T : Targets F) (hT : ShapedTargets T n t) :
    (∀ (X : Mat F) (df : QuadraticMT F), Shaped X n p → AnswersForBlockPenalties srt cfg ⟨X, T⟩ df) ∧
    (∀ (X : CSC F) (df : QuadraticMT F), ShapedCSC X n p → AnswersForBlockPenalties srt cfg ⟨X, T⟩ df) :=
  answers_of_room_mt hs cfg (fun h => by rw [hu] at h; cases h) T hT

/-- With acceleration.  Missing from the full statement: problems with fewer than `K` features (or
`ws_start_size < K`). -/
theorem C26_never_partial {srt : Argsort F} (hs : ArgsortSpec srt) (cfg : Solver F)
    (hK : 0 < cfg.K) (hws : cfg.K ≤ cfg.wsStartSize) (hp : cfg.K ≤ p)
    (T : Targets F) (hT : ShapedTargets T n 1) :
    (∀ (X : Mat F) (df : Quadratic F), Shaped X n p → AnswersForPenalties srt cfg ⟨X, T⟩ df) ∧
    (∀ (X : CSC F) (df : Quadratic F), ShapedCSC X n p → AnswersForPenalties srt cfg ⟨X, T⟩ df) ∧
    (∀ (X : Mat F) (df : Logistic F), Shaped X n p → AnswersForPenalties srt cfg ⟨X, T⟩ df) ∧
    (∀ (X : CSC F) (df : Logistic F), ShapedCSC X n p → AnswersForPenalties srt cfg ⟨X, T⟩ df) :=
  answers_of_room hs cfg (fun _ => by omega) T hT

/-- With acceleration, several tasks.  Missing from the full statement: problems with fewer than `K` coefficients. -/
theorem C26_never_mt_partial {srt : Argsort F} (hs : ArgsortSpec srt) (cfg : Solver F)
    (hK : 0 < cfg.K) (hws : cfg.K ≤ cfg.wsStartSize * t) (hp : cfg.K ≤ p * t)
    (T : Targets F) (hT : ShapedTargets T n t) :
    (∀ (X : Mat F) (df : QuadraticMT F), Shaped X n p → AnswersForBlockPenalties srt cfg ⟨X, T⟩ df) ∧
    (∀ (X : CSC F) (df : QuadraticMT F), ShapedCSC X n p → AnswersForBlockPenalties srt cfg ⟨X, T⟩ df) :=
  answers_of_room_mt hs cfg (fun _ => ⟨hK, hws, hp⟩) T hT

/-! ### Estimators -/

theorem answers_ok {A E : Type} {m : M A} (h : Answers m) : Answers ((Except.ok <$> m : M (Except E A))) := by
  obtain ⟨r, hr⟩ := h
  exact ⟨.ok r, by rw [hr]; rfl⟩

theorem guardedFit_answers {A Ps : Type} {check : Ps → Except (EstimatorError F) Ps}
    {fv : Ps → M (Except (EstimatorError F) A)} {ps : Ps} (hq : ∀ q, check ps = .ok q → q = ps)
    (h : Answers (fv ps)) : Answers (guardedFit check fv ps) := by
  unfold guardedFit
  split
  · exact ⟨_, rfl⟩
  · rename_i q hc
    rw [hq q hc]; exact h

omit [LawfulCmp F] in
theorem checkTail_same {A : Type} {tol : F} {K ws : ℕ} {a q : A} (h : checkTail tol K ws a = .ok q) : q = a := by
  unfold checkTail at h
  repeat' split at h
  all_goals first | exact (Except.ok.inj h).symm | cases h

omit [LawfulCmp F] in
theorem lasso_check_eq {ps q : LassoParams F} (h : ps.checkRef = .ok q) : q = ps := by
  unfold LassoParams.checkRef at h
  split at h
  · cases h
  · exact checkTail_same h

omit [LawfulCmp F] in
theorem mcp_check_eq {ps q : MCParams F} (h : ps.checkRef = .ok q) : q = ps := by
  unfold MCParams.checkRef at h
  repeat' split at h
  all_goals first | exact checkTail_same h | cases h

omit [LawfulCmp F] in
theorem block_mcp_check_eq {ps q : MCParams F} (h : ps.checkRefBlock = .ok q) : q = ps := by
  unfold MCParams.checkRefBlock at h
  split at h
  · cases h
  · exact checkTail_same h

omit [LawfulCmp F] in
theorem enet_check_eq {ps q : ElasticNetParams F} (h : ps.checkRef = .ok q) : q = ps := by
  unfold ElasticNetParams.checkRef at h
  repeat' split at h
  all_goals first | exact checkTail_same h | cases h

theorem fit_answers {DM : Type} [DesignMatrix F DM] [Datafit F DM (Quadratic F)] {srt : Argsort F} {ds : Dataset DM F}
    (h : ∀ cfg : Solver F, cfg.useAcceleration = false →
      AnswersForPenalties srt cfg ds (Quadratic.new : Quadratic F)) :
    (∀ ps : LassoParams F, ps.useAcceleration = false → Answers (Lasso.fit srt ps ds)) ∧
    (∀ ps : ElasticNetParams F, ps.useAcceleration = false → Answers (ElasticNet.fit srt ps ds)) ∧
    (∀ ps : MCParams F, ps.useAcceleration = false → Answers (MCPEstimator.fit srt ps ds)) := by
  refine ⟨fun ps hu => guardedFit_answers (fun q => lasso_check_eq) ?_,
    fun ps hu => guardedFit_answers (fun q => enet_check_eq) ?_,
    fun ps hu => guardedFit_answers (fun q => mcp_check_eq) ?_⟩
  · unfold Lasso.fitValid
    rw [fitCD_eq]
    exact answers_ok ((h ps.solver hu).1 _)
  · unfold ElasticNet.fitValid
    rw [fitCD_eq]
    exact answers_ok ((h ps.solver hu).2.1 _ _)
  · unfold MCPEstimator.fitValid
    rw [fitCD_eq]
    exact answers_ok ((h ps.solver hu).2.2.1 _ _)

theorem fit_answers_mt {DM : Type} [DesignMatrix F DM] [MTDatafit F DM (QuadraticMT F)] {srt : Argsort F}
    {ds : Dataset DM F} (h : ∀ cfg : Solver F, cfg.useAcceleration = false →
      AnswersForBlockPenalties srt cfg ds (QuadraticMT.new : QuadraticMT F)) :
    (∀ ps : LassoParams F, ps.useAcceleration = false → Answers (MultiTaskLasso.fit srt ps ds)) ∧
    (∀ ps : ElasticNetParams F, ps.useAcceleration = false → Answers (MultiTaskElasticNet.fit srt ps ds)) ∧
    (∀ ps : MCParams F, ps.useAcceleration = false → Answers (BlockMCPEstimator.fit srt ps ds)) := by
  refine ⟨fun ps hu => guardedFit_answers (fun q => lasso_check_eq) ?_,
    fun ps hu => guardedFit_answers (fun q => enet_check_eq) ?_,
    fun ps hu => guardedFit_answers (fun q => block_mcp_check_eq) ?_⟩
  · unfold MultiTaskLasso.fitValid
    rw [fitBCD_eq]
    exact answers_ok ((h ps.solver hu).1 _)
  · unfold MultiTaskElasticNet.fitValid
    rw [fitBCD_eq]
    exact answers_ok ((h ps.solver hu).2.1 _ _)
  · unfold BlockMCPEstimator.fitValid
    rw [fitBCD_eq]
    exact answers_ok ((h ps.solver hu).2.2 _ _)

/-- The estimators: on data of consistent shapes, without acceleration, `fit` returns (a result or a parameter error),
whatever the entries of the data. -/
theorem C25_estimators {srt : Argsort F} (hs : ArgsortSpec srt) (T : Targets F) (hT : ShapedTargets T n 1) :
    (∀ X : Mat F, Shaped X n p →
      (∀ ps : LassoParams F, ps.useAcceleration = false → Answers (Lasso.fit srt ps ⟨X, T⟩)) ∧
      (∀ ps : ElasticNetParams F, ps.useAcceleration = false → Answers (ElasticNet.fit srt ps ⟨X, T⟩)) ∧
      (∀ ps : MCParams F, ps.useAcceleration = false → Answers (MCPEstimator.fit srt ps ⟨X, T⟩))) ∧
    (∀ X : CSC F, ShapedCSC X n p →
      (∀ ps : LassoParams F, ps.useAcceleration = false → Answers (Lasso.fit srt ps ⟨X, T⟩)) ∧
      (∀ ps : ElasticNetParams F, ps.useAcceleration = false → Answers (ElasticNet.fit srt ps ⟨X, T⟩)) ∧
      (∀ ps : MCParams F, ps.useAcceleration = false → Answers (MCPEstimator.fit srt ps ⟨X, T⟩))) :=
  ⟨fun X hX => fit_answers fun cfg hu => (C25_never hs cfg hu T hT).1 X _ hX,
    fun X hX => fit_answers fun cfg hu => (C25_never hs cfg hu T hT).2.1 X _ hX⟩

/-- The multi-task estimators. -/
theorem C25_estimators_mt {srt : Argsort F} (hs : ArgsortSpec srt) (T : Targets F) (hT : ShapedTargets T n t) :
    (∀ X : Mat F, Shaped X n p →
      (∀ ps : LassoParams F, ps.useAcceleration = false → Answers (MultiTaskLasso.fit srt ps ⟨X, T⟩)) ∧
      (∀ ps : ElasticNetParams F, ps.useAcceleration = false → Answers (MultiTaskElasticNet.fit srt ps ⟨X, T⟩)) ∧
      (∀ ps : MCParams F, ps.useAcceleration = false → Answers (BlockMCPEstimator.fit srt ps ⟨X, T⟩))) ∧
    (∀ X : CSC F, ShapedCSC X n p →
      (∀ ps : LassoParams F, ps.useAcceleration = false → Answers (MultiTaskLasso.fit srt ps ⟨X, T⟩)) ∧
      (∀ ps : ElasticNetParams F, ps.useAcceleration = false → Answers (MultiTaskElasticNet.fit srt ps ⟨X, T⟩)) ∧
      (∀ ps : MCParams F, ps.useAcceleration = false → Answers (BlockMCPEstimator.fit srt ps ⟨X, T⟩))) :=
  ⟨fun X hX => fit_answers_mt fun cfg hu => (C25_never_mt hs cfg hu T hT).1 X _ hX,
    fun X hX => fit_answers_mt fun cfg hu => (C25_never_mt hs cfg hu T hT).2 X _ hX⟩

end

section
open Test

-- NaN and infinite entries, a NaN tolerance
example : Answers (Solver.solve argsortIns ⟨10, 50, 1000, XR.nan, 5, false, true⟩
    ⟨(⟨2, [[XR.nan, XR.pinf], [XR.fin 1, XR.fin 2]]⟩ : Mat XR), Targets.one [XR.fin 1, XR.ninf]⟩
    (Logistic.new : Logistic XR) (MCP.mk (XR.fin 1) (XR.fin 3))) :=
  ((C25_never (n := 2) (p := 2) argsortIns_spec _ rfl _ shaped_one).2.2.1 _ _ (by simp [Shaped])).2.2.1 _ _

-- any float format
example {f : Format} {S : Summation f} (srt : Argsort (IEEE f S)) (hs : ArgsortSpec srt) (cfg : Solver (IEEE f S))
    (hu : cfg.useAcceleration = false) (a b c d : IEEE f S) :
    Answers (cfg.solve srt ⟨(⟨1, [[a], [b]]⟩ : Mat (IEEE f S)), Targets.one [c, d]⟩
      (Quadratic.new : Quadratic (IEEE f S)) (L1PlusL2.mk a b)) :=
  ((C25_never (n := 2) (p := 1) hs _ hu _ shaped_one).1 _ _ (by simp [Shaped])).2.1 _ _

-- an estimator on a data set with a missing value
example : Answers (ElasticNet.fit argsortIns ((ElasticNetParams.new : ElasticNetParams XR).setUseAcceleration false)
    ⟨(⟨2, [[XR.nan, XR.fin 3], [XR.fin 1, XR.fin 2]]⟩ : Mat XR), Targets.one [XR.fin 1, XR.fin 2]⟩) :=
  ((C25_estimators (n := 2) (p := 2) argsortIns_spec _ shaped_one).1 _ (by simp [Shaped])).2.1 _ rfl

-- accelerated, sparse, two tasks
example : Answers (Solver.solveMultiTask argsortIns ⟨10, 50, 1000, XR.fin 0, 4, true, true⟩
    ⟨(⟨[XR.fin 1, XR.fin 2, XR.nan], [0, 1, 1], [0, 2, 3]⟩ : CSC XR),
      Targets.two ⟨2, [[XR.fin 1, XR.fin 2], [XR.fin 3, XR.fin 4]]⟩⟩
    (QuadraticMT.new : QuadraticMT XR) (BlockMCP.mk (XR.fin 1) (XR.fin 3))) :=
  ((C26_never_mt_partial (n := 2) (p := 2) (t := 2) argsortIns_spec _ (by decide) (by decide)
    (by decide) _
    (shaped_two (by simp [Shaped]))).2 _ _ ⟨rfl, by
      intro j a b ha hb k h1 h2
      rcases j with _ | _ | j <;> simp at ha hb <;> subst ha hb <;> simp <;> omega, by
      intro i hi; simp at hi; omega⟩).2.2 _ _

end
end Sglm
