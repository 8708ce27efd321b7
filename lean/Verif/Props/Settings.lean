import Verif.Proofs.Settings
import Verif.Props.Safe

/-!
# C96: settings without effect

Everything here holds for every scalar type: `f32`, `f64`, with NaN and infinities anywhere in the data.
-/

set_option linter.unusedSectionVars false

namespace Sglm
open Scalar Spec

section
variable {F DM DF P : Type} [Scalar F] [DesignMatrix F DM]

/-- `K` has no effect without acceleration, and `ws_start_size` has none beyond the number of features: the calls return the same
coefficients (or panic in the same way), leave the datafit in the same state, and print the same lines.  For any design matrix, datafit
and penalty, user-defined ones included. -/
theorem C96_same [Datafit F DM DF] [Penalty F P] (srt : Argsort F) (ds : Dataset DM F) (df : DF) (pen : P) {p : ℕ}
    (hp : DesignMatrix.nFeatures (F := F) ds.designMatrix = .ok p) {c c' : Solver F} (h : SameEffect p c c') :
    coordinateDescent srt ds df pen c = coordinateDescent srt ds df pen c' := cd_same srt ds df pen hp h

/-- The same for the multi-task solver. -/
theorem C96_same_mt [MTDatafit F DM DF] [MTPenalty F P] (srt : Argsort F) (ds : Dataset DM F) (df : DF) (pen : P) {p : ℕ}
    (hp : DesignMatrix.nFeatures (F := F) ds.designMatrix = .ok p) {c c' : Solver F} (h : SameEffect p c c') :
    MT.blockCoordinateDescent srt ds df pen c = MT.blockCoordinateDescent srt ds df pen c' := MT.bcd_same srt ds df pen hp h

theorem sameEffect_K (p : ℕ) (c : Solver F) (hu : c.useAcceleration = false) (k : ℕ) : SameEffect p (c.setK k) c :=
  ⟨rfl, rfl, rfl, rfl, rfl, rfl, fun h => by
    have : (c.setK k).useAcceleration = c.useAcceleration := rfl
    rw [this, hu] at h; cases h⟩

theorem sameEffect_ws (p : ℕ) (c : Solver F) (m : ℕ) (h1 : p ≤ c.wsStartSize) (h2 : p ≤ m) : SameEffect p (c.setWsStartSize m) c :=
  ⟨rfl, rfl, rfl, rfl, rfl, by show min m p = _; omega, fun _ => rfl⟩

/-- The solver without acceleration, as the user sees it: `K` may be anything, also zero. -/
theorem C96_K [Datafit F DM DF] [Penalty F P] (srt : Argsort F) (ds : Dataset DM F) (df : DF) (pen : P) (c : Solver F)
    (hu : c.useAcceleration = false) (k : ℕ) : (c.setK k).solve srt ds df pen = c.solve srt ds df pen := by
  unfold Solver.solve
  cases hp : DesignMatrix.nFeatures (F := F) ds.designMatrix with
  | error e => unfold coordinateDescent; rw [hp]; rfl
  | ok p => rw [C96_same srt ds df pen hp (sameEffect_K p c hu k)]

/-- The same for the multi-task solver. -/
theorem C96_K_mt [MTDatafit F DM DF] [MTPenalty F P] (srt : Argsort F) (ds : Dataset DM F) (df : DF) (pen : P) (c : Solver F)
    (hu : c.useAcceleration = false) (k : ℕ) : (c.setK k).solveMultiTask srt ds df pen = c.solveMultiTask srt ds df pen := by
  unfold Solver.solveMultiTask
  cases hp : DesignMatrix.nFeatures (F := F) ds.designMatrix with
  | error e => unfold MT.blockCoordinateDescent; rw [hp]; rfl
  | ok p => rw [C96_same_mt srt ds df pen hp (sameEffect_K p c hu k)]

/-- A working set size beyond the number of features is the number of features. -/
theorem C96_working_set [Datafit F DM DF] [Penalty F P] (srt : Argsort F) (ds : Dataset DM F) (df : DF) (pen : P) (c : Solver F) {p : ℕ}
    (hp : DesignMatrix.nFeatures (F := F) ds.designMatrix = .ok p) (hw : p ≤ c.wsStartSize) :
    c.solve srt ds df pen = (c.setWsStartSize p).solve srt ds df pen := by
  unfold Solver.solve
  rw [C96_same srt ds df pen hp (sameEffect_ws p c p hw le_rfl)]

/-- The same for the multi-task solver. -/
theorem C96_working_set_mt [MTDatafit F DM DF] [MTPenalty F P] (srt : Argsort F) (ds : Dataset DM F) (df : DF) (pen : P) (c : Solver F)
    {p : ℕ} (hp : DesignMatrix.nFeatures (F := F) ds.designMatrix = .ok p) (hw : p ≤ c.wsStartSize) :
    c.solveMultiTask srt ds df pen = (c.setWsStartSize p).solveMultiTask srt ds df pen := by
  unfold Solver.solveMultiTask
  rw [C96_same_mt srt ds df pen hp (sameEffect_ws p c p hw le_rfl)]

/-- Without iterations, or without epochs, all coefficients are (positive) zeros. -/
theorem C96_no_updates [Datafit F DM DF] [Penalty F P] (srt : Argsort F) (ds : Dataset DM F) (df : DF) (pen : P) (c : Solver F)
    (h : NeverUpdates c) (w : List F) (hr : c.solve srt ds df pen = .ok w) : ∀ x ∈ w, x = zero := by
  rw [solve_still srt c df h w hr]
  exact fun x hx => (List.mem_replicate.mp hx).2

/-- The same for the multi-task solver. -/
theorem C96_no_updates_mt [MTDatafit F DM DF] [MTPenalty F P] (srt : Argsort F) (ds : Dataset DM F) (df : DF) (pen : P) (c : Solver F)
    (h : NeverUpdates c) (W : Mat F) (hr : c.solveMultiTask srt ds df pen = .ok W) : ∀ r ∈ W.rows, ∀ x ∈ r, x = zero := by
  rw [MT.solve_still srt c df h W hr]
  exact fun r hr x hx => by
    have h1 := (List.mem_replicate.mp hr).2
    rw [h1] at hx
    exact (List.mem_replicate.mp hx).2

end

/-! ## Acceleration without extrapolation -/

section
variable {F : Type} [Scalar F] {n p t : ℕ}

/-- The solver returns the same with both settings, for the four separable penalties. -/
def SameForPenalties {DM DF : Type} [DesignMatrix F DM] [Datafit F DM DF] (srt : Argsort F) (c c' : Solver F)
    (ds : Dataset DM F) (df : DF) : Prop :=
  (∀ a : F, c.solve srt ds df (L1.mk a) = c'.solve srt ds df (L1.mk a)) ∧
  (∀ a r : F, c.solve srt ds df (L1PlusL2.mk a r) = c'.solve srt ds df (L1PlusL2.mk a r)) ∧
  (∀ a g : F, c.solve srt ds df (MCP.mk a g) = c'.solve srt ds df (MCP.mk a g)) ∧
  (∀ a : F, c.solve srt ds df (L05.mk a) = c'.solve srt ds df (L05.mk a))

/-- The solver returns the same with both settings, for the three block penalties. -/
def SameForBlockPenalties {DM DF : Type} [DesignMatrix F DM] [MTDatafit F DM DF] (srt : Argsort F) (c c' : Solver F)
    (ds : Dataset DM F) (df : DF) : Prop :=
  (∀ a : F, c.solveMultiTask srt ds df (L21.mk a) = c'.solveMultiTask srt ds df (L21.mk a)) ∧
  (∀ a r : F, c.solveMultiTask srt ds df (BlockL1PlusL2.mk a r) = c'.solveMultiTask srt ds df (BlockL1PlusL2.mk a r)) ∧
  (∀ a g : F, c.solveMultiTask srt ds df (BlockMCP.mk a g) = c'.solveMultiTask srt ds df (BlockMCP.mk a g))

theorem same_all {DM DF : Type} [DesignMatrix F DM] [Datafit F DM DF] {srt : Argsort F} {c c' : Solver F} {ds : Dataset DM F} {df : DF}
    (h : ∀ {P : Type} [Penalty F P] (pen : P), SafePen pen → c.solve srt ds df pen = c'.solve srt ds df pen) :
    SameForPenalties srt c c' ds df :=
  ⟨fun _ => h _ (safe_L1 _), fun _ _ => h _ (safe_L1PlusL2 _), fun _ _ => h _ (safe_MCP _), fun _ => h _ (safe_L05 _)⟩

theorem same_all_mt {DM DF : Type} [DesignMatrix F DM] [MTDatafit F DM DF] {srt : Argsort F} {c c' : Solver F} {ds : Dataset DM F}
    {df : DF} (h : ∀ {P : Type} [MTPenalty F P] (pen : P), MT.SafePen pen → c.solveMultiTask srt ds df pen = c'.solveMultiTask srt ds df pen) :
    SameForBlockPenalties srt c c' ds df :=
  ⟨fun _ => h _ (MT.safe_L21 _), fun _ _ => h _ (MT.safe_BlockL1PlusL2 _), fun _ _ => h _ (MT.safe_BlockMCP _)⟩

/-- With at most `K` epochs per iteration acceleration has no effect, on data of consistent shapes. -/
theorem C96_acceleration {srt : Argsort F} (hs : ArgsortSpec srt) (cfg : Solver F) (h : cfg.maxEpochs ≤ cfg.K) (T : Targets F)
    (hT : ShapedTargets T n 1) :
    (∀ (X : Mat F) (df : Quadratic F), Shaped X n p → SameForPenalties srt cfg (cfg.setUseAcceleration false) ⟨X, T⟩ df) ∧
    (∀ (X : CSC F) (df : Quadratic F), ShapedCSC X n p → SameForPenalties srt cfg (cfg.setUseAcceleration false) ⟨X, T⟩ df) ∧
    (∀ (X : Mat F) (df : Logistic F), Shaped X n p → SameForPenalties srt cfg (cfg.setUseAcceleration false) ⟨X, T⟩ df) ∧
    (∀ (X : CSC F) (df : Logistic F), ShapedCSC X n p → SameForPenalties srt cfg (cfg.setUseAcceleration false) ⟨X, T⟩ df) := by
  refine ⟨fun X df hX => same_all fun pen hp => ?_, fun X df hX => same_all fun pen hp => ?_,
    fun X df hX => same_all fun pen hp => ?_, fun X df hX => same_all fun pen hp => ?_⟩
  · exact solve_idle hs cfg df hT.nSamples (congrArg Except.ok hX.2.1) (quad_dense_safe hX hT df) hp h
  · exact solve_idle hs cfg df hT.nSamples (ShapedCSC.nFeatures hX) (quad_csc_safe hX hT df) hp h
  · exact solve_idle hs cfg df hT.nSamples (congrArg Except.ok hX.2.1) (log_dense_safe hX hT df) hp h
  · exact solve_idle hs cfg df hT.nSamples (ShapedCSC.nFeatures hX) (log_csc_safe hX hT df) hp h

/-- The same for the multi-task solver. -/
theorem C96_acceleration_mt {srt : Argsort F} (hs : ArgsortSpec srt) (cfg : Solver F) (h : cfg.maxEpochs ≤ cfg.K) (T : Targets F)
    (hT : ShapedTargets T n t) :
    (∀ (X : Mat F) (df : QuadraticMT F), Shaped X n p → SameForBlockPenalties srt cfg (cfg.setUseAcceleration false) ⟨X, T⟩ df) ∧
    (∀ (X : CSC F) (df : QuadraticMT F), ShapedCSC X n p → SameForBlockPenalties srt cfg (cfg.setUseAcceleration false) ⟨X, T⟩ df) := by
  refine ⟨fun X df hX => same_all_mt fun pen hp => ?_, fun X df hX => same_all_mt fun pen hp => ?_⟩
  · exact MT.solve_idle hs cfg df hT.nSamples hT.nTasks (congrArg Except.ok hX.2.1) (MT.quad_dense_safe hX hT df) hp h
  · exact MT.solve_idle hs cfg df hT.nSamples hT.nTasks (ShapedCSC.nFeatures hX) (MT.quad_csc_safe hX hT df) hp h

/-- In particular runs with at most `K` epochs do not have the defect of C26: they do not panic, however few features there are. -/
theorem C96_no_panic {srt : Argsort F} (hs : ArgsortSpec srt) (cfg : Solver F) (h : NeverExtrapolates cfg) (T : Targets F)
    (hT : ShapedTargets T n 1) :
    (∀ (X : Mat F) (df : Quadratic F), Shaped X n p → SafeForPenalties srt cfg ⟨X, T⟩ df) ∧
    (∀ (X : CSC F) (df : Quadratic F), ShapedCSC X n p → SafeForPenalties srt cfg ⟨X, T⟩ df) ∧
    (∀ (X : Mat F) (df : Logistic F), Shaped X n p → SafeForPenalties srt cfg ⟨X, T⟩ df) ∧
    (∀ (X : CSC F) (df : Logistic F), ShapedCSC X n p → SafeForPenalties srt cfg ⟨X, T⟩ df) := by
  have key : ∀ {DM DF : Type} [DesignMatrix F DM] [Datafit F DM DF] {ds : Dataset DM F} {df : DF},
      SameForPenalties srt cfg (cfg.setUseAcceleration false) ds df → SafeForPenalties srt (cfg.setUseAcceleration false) ds df →
      SafeForPenalties srt cfg ds df := fun h1 h2 =>
    ⟨fun a => by rw [h1.1]; exact h2.1 a, fun a r => by rw [h1.2.1]; exact h2.2.1 a r,
      fun a g => by rw [h1.2.2.1]; exact h2.2.2.1 a g, fun a => by rw [h1.2.2.2]; exact h2.2.2.2 a⟩
  rcases h with h | h
  · exact C25_no_panic hs cfg h T hT
  · obtain ⟨a1, a2, a3, a4⟩ := C96_acceleration (p := p) hs cfg h T hT
    obtain ⟨b1, b2, b3, b4⟩ := C25_no_panic (p := p) hs (cfg.setUseAcceleration false) rfl T hT
    exact ⟨fun X df hX => key (a1 X df hX) (b1 X df hX), fun X df hX => key (a2 X df hX) (b2 X df hX),
      fun X df hX => key (a3 X df hX) (b3 X df hX), fun X df hX => key (a4 X df hX) (b4 X df hX)⟩

/-- The same for the multi-task solver. -/
theorem C96_no_panic_mt {srt : Argsort F} (hs : ArgsortSpec srt) (cfg : Solver F) (h : NeverExtrapolates cfg) (T : Targets F)
    (hT : ShapedTargets T n t) :
    (∀ (X : Mat F) (df : QuadraticMT F), Shaped X n p → SafeForBlockPenalties srt cfg ⟨X, T⟩ df) ∧
    (∀ (X : CSC F) (df : QuadraticMT F), ShapedCSC X n p → SafeForBlockPenalties srt cfg ⟨X, T⟩ df) := by
  have key : ∀ {DM DF : Type} [DesignMatrix F DM] [MTDatafit F DM DF] {ds : Dataset DM F} {df : DF},
      SameForBlockPenalties srt cfg (cfg.setUseAcceleration false) ds df →
      SafeForBlockPenalties srt (cfg.setUseAcceleration false) ds df → SafeForBlockPenalties srt cfg ds df := fun h1 h2 =>
    ⟨fun a => by rw [h1.1]; exact h2.1 a, fun a r => by rw [h1.2.1]; exact h2.2.1 a r,
      fun a g => by rw [h1.2.2]; exact h2.2.2 a g⟩
  rcases h with h | h
  · exact C25_no_panic_mt hs cfg h T hT
  · obtain ⟨a1, a2⟩ := C96_acceleration_mt (p := p) hs cfg h T hT
    obtain ⟨b1, b2⟩ := C25_no_panic_mt (p := p) hs (cfg.setUseAcceleration false) rfl T hT
    exact ⟨fun X df hX => key (a1 X df hX) (b1 X df hX), fun X df hX => key (a2 X df hX) (b2 X df hX)⟩

end

/-! ## Estimators -/

section
variable {F DM : Type} [Scalar F] [DesignMatrix F DM]

theorem checkTail_congr {α : Type} {τ : F} {K K' ws ws' : ℕ} {a a' : α} (hK : 0 < K) (hK' : 0 < K') (hw : 0 < ws) (hw' : 0 < ws') :
    (∃ e, (checkTail τ K ws a : Except (EstimatorError F) α) = .error e ∧ (checkTail τ K' ws' a' : Except (EstimatorError F) α) = .error e) ∨
    ((checkTail τ K ws a : Except (EstimatorError F) α) = .ok a ∧ (checkTail τ K' ws' a' : Except (EstimatorError F) α) = .ok a') := by
  unfold checkTail
  split
  · exact Or.inl ⟨_, rfl, rfl⟩
  · rw [if_neg (by omega), if_neg (by omega), if_neg (by omega), if_neg (by omega)]
    exact Or.inr ⟨rfl, rfl⟩

/-- The two parameter sets are both rejected, with the same error, or both accepted. -/
def SameCheck {Ps : Type} (c : Ps → Except (EstimatorError F) Ps) (p q : Ps) : Prop :=
  (∃ e, c p = .error e ∧ c q = .error e) ∨ (c p = .ok p ∧ c q = .ok q)

theorem guardedFit_same {Ps R : Type} {c : Ps → Except (EstimatorError F) Ps} {f : Ps → M (Except (EstimatorError F) R)} {p q : Ps}
    (h : SameCheck c p q) (hf : f p = f q) : guardedFit c f p = guardedFit c f q := by
  unfold guardedFit
  rcases h with ⟨e, h1, h2⟩ | ⟨h1, h2⟩
  · rw [h1, h2]
  · rw [h1, h2]; exact hf

theorem LassoParams.check_same {p : LassoParams F} {K ws : ℕ} (h1 : 0 < p.K) (h2 : 0 < K) (h3 : 0 < p.wsStartSize) (h4 : 0 < ws) :
    SameCheck LassoParams.checkRef ((p.setK K).setWsStartSize ws) p := by
  unfold SameCheck LassoParams.checkRef LassoParams.setK LassoParams.setWsStartSize
  dsimp only
  split
  · exact Or.inl ⟨_, rfl, rfl⟩
  · exact checkTail_congr h2 h1 h4 h3

theorem ElasticNetParams.check_same {p : ElasticNetParams F} {K ws : ℕ} (h1 : 0 < p.K) (h2 : 0 < K) (h3 : 0 < p.wsStartSize)
    (h4 : 0 < ws) : SameCheck ElasticNetParams.checkRef ((p.setK K).setWsStartSize ws) p := by
  unfold SameCheck ElasticNetParams.checkRef ElasticNetParams.setK ElasticNetParams.setWsStartSize
  dsimp only
  split
  · exact Or.inl ⟨_, rfl, rfl⟩
  · split
    · exact Or.inl ⟨_, rfl, rfl⟩
    · exact checkTail_congr h2 h1 h4 h3

theorem MCParams.check_same {p : MCParams F} {K ws : ℕ} (h1 : 0 < p.K) (h2 : 0 < K) (h3 : 0 < p.wsStartSize) (h4 : 0 < ws) :
    SameCheck MCParams.checkRef ((p.setK K).setWsStartSize ws) p := by
  unfold SameCheck MCParams.checkRef MCParams.setK MCParams.setWsStartSize
  dsimp only
  split
  · exact Or.inl ⟨_, rfl, rfl⟩
  · split
    · exact Or.inl ⟨_, rfl, rfl⟩
    · exact checkTail_congr h2 h1 h4 h3

theorem MCParams.checkBlock_same {p : MCParams F} {K ws : ℕ} (h1 : 0 < p.K) (h2 : 0 < K) (h3 : 0 < p.wsStartSize) (h4 : 0 < ws) :
    SameCheck MCParams.checkRefBlock ((p.setK K).setWsStartSize ws) p := by
  unfold SameCheck MCParams.checkRefBlock MCParams.setK MCParams.setWsStartSize
  dsimp only
  split
  · exact Or.inl ⟨_, rfl, rfl⟩
  · exact checkTail_congr h2 h1 h4 h3

/-- The six estimators: without acceleration every positive `K` gives the same fit, and so does every working set size not below the
number of features. -/
theorem C96_estimators [Datafit F DM (Quadratic F)] [MTDatafit F DM (QuadraticMT F)] (srt : Argsort F) (ds : Dataset DM F) {p : ℕ}
    (hp : DesignMatrix.nFeatures (F := F) ds.designMatrix = .ok p) (hp0 : 0 < p) (K ws : ℕ) (hK : 0 < K) (hws : p ≤ ws) :
    (∀ ps : LassoParams F, 0 < ps.K → p ≤ ps.wsStartSize → ps.useAcceleration = false →
      Lasso.fit srt ((ps.setK K).setWsStartSize ws) ds = Lasso.fit srt ps ds) ∧
    (∀ ps : ElasticNetParams F, 0 < ps.K → p ≤ ps.wsStartSize → ps.useAcceleration = false →
      ElasticNet.fit srt ((ps.setK K).setWsStartSize ws) ds = ElasticNet.fit srt ps ds) ∧
    (∀ ps : MCParams F, 0 < ps.K → p ≤ ps.wsStartSize → ps.useAcceleration = false →
      MCPEstimator.fit srt ((ps.setK K).setWsStartSize ws) ds = MCPEstimator.fit srt ps ds) ∧
    (∀ ps : LassoParams F, 0 < ps.K → p ≤ ps.wsStartSize → ps.useAcceleration = false →
      MultiTaskLasso.fit srt ((ps.setK K).setWsStartSize ws) ds = MultiTaskLasso.fit srt ps ds) ∧
    (∀ ps : ElasticNetParams F, 0 < ps.K → p ≤ ps.wsStartSize → ps.useAcceleration = false →
      MultiTaskElasticNet.fit srt ((ps.setK K).setWsStartSize ws) ds = MultiTaskElasticNet.fit srt ps ds) ∧
    (∀ ps : MCParams F, 0 < ps.K → p ≤ ps.wsStartSize → ps.useAcceleration = false →
      BlockMCPEstimator.fit srt ((ps.setK K).setWsStartSize ws) ds = BlockMCPEstimator.fit srt ps ds) := by
  have key : ∀ c : Solver F, p ≤ c.wsStartSize → c.useAcceleration = false → SameEffect p ((c.setK K).setWsStartSize ws) c :=
    fun c h1 h2 => ⟨rfl, rfl, rfl, rfl, rfl, by show min ws p = _; omega, fun h => by
      have : ((c.setK K).setWsStartSize ws).useAcceleration = c.useAcceleration := rfl
      rw [this, h2] at h; cases h⟩
  refine ⟨fun ps h1 h2 h3 => guardedFit_same (LassoParams.check_same h1 hK (by omega) (by omega)) ?_,
    fun ps h1 h2 h3 => guardedFit_same (ElasticNetParams.check_same h1 hK (by omega) (by omega)) ?_,
    fun ps h1 h2 h3 => guardedFit_same (MCParams.check_same h1 hK (by omega) (by omega)) ?_,
    fun ps h1 h2 h3 => guardedFit_same (LassoParams.check_same h1 hK (by omega) (by omega)) ?_,
    fun ps h1 h2 h3 => guardedFit_same (ElasticNetParams.check_same h1 hK (by omega) (by omega)) ?_,
    fun ps h1 h2 h3 => guardedFit_same (MCParams.checkBlock_same h1 hK (by omega) (by omega)) ?_⟩
  · unfold Lasso.fitValid
    rw [← C96_same srt ds _ _ hp (key ps.solver h2 h3)]; rfl
  · unfold ElasticNet.fitValid
    rw [← C96_same srt ds _ _ hp (key ps.solver h2 h3)]; rfl
  · unfold MCPEstimator.fitValid
    rw [← C96_same srt ds _ _ hp (key ps.solver h2 h3)]; rfl
  · unfold MultiTaskLasso.fitValid
    rw [← C96_same_mt srt ds _ _ hp (key ps.solver h2 h3)]; rfl
  · unfold MultiTaskElasticNet.fitValid
    rw [← C96_same_mt srt ds _ _ hp (key ps.solver h2 h3)]; rfl
  · unfold BlockMCPEstimator.fitValid
    rw [← C96_same_mt srt ds _ _ hp (key ps.solver h2 h3)]; rfl

end

/-! ## Examples -/

section
open Test
open Sglm.Test (ds dsMT isort)

-- `K = 1` and `K = 100`, `ws_start_size = 2` and `10`
example : Solver.solve isort ((cfg.setK 100).setWsStartSize 2) ds (Quadratic.new : Quadratic Int) (L1.mk (1 : Int)) = .ok [-9, 29] := by
  have h := C96_same isort ds (Quadratic.new : Quadratic Int) (L1.mk (1 : Int)) (p := 2) rfl (c := (cfg.setK 100).setWsStartSize 2) (c' := cfg)
    ⟨rfl, rfl, rfl, rfl, rfl, rfl, fun h => by cases h⟩
  unfold Solver.solve
  rw [h]
  decide +kernel

-- three epochs and `K = 5`, although there are only two features
example : OnlyNaNPanics (Solver.solve isort { cfg with useAcceleration := true, K := 5 } ds (Quadratic.new : Quadratic Int) (L1.mk (1 : Int))) :=
  ((C96_no_panic (n := 2) (p := 2) isort_spec _ (Or.inr (by decide)) _ shaped_one).1 _ _ (by simp [Shaped])).1 1

example : Solver.solve isort { cfg with useAcceleration := true, K := 5 } ds (Quadratic.new : Quadratic Int) (L1.mk (1 : Int)) =
    .ok [-9, 29] := by
  rw [((C96_acceleration (n := 2) (p := 2) isort_spec { cfg with useAcceleration := true, K := 5 } (by decide) _ shaped_one).1 _ _
    ⟨rfl, rfl, by decide⟩).1 1]
  decide +kernel

-- no epochs
example (w : List Int) (h : Solver.solve isort { cfg with maxEpochs := 0 } ds (Quadratic.new : Quadratic Int) (L1.mk (1 : Int)) = .ok w) :
    ∀ x ∈ w, x = 0 := C96_no_updates isort ds _ _ _ (Or.inr rfl) w h

example : Solver.solve isort { cfg with maxEpochs := 0 } ds (Quadratic.new : Quadratic Int) (L1.mk (1 : Int)) = .ok [0, 0] := by
  decide +kernel

end

end Sglm
