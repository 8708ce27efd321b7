import Verif.Proofs.FewFeatures
import Verif.Props.NeverPanics

/-!
# C26: accelerated fits with working sets smaller than `K`

For all scalar types in which comparisons behave (exact numbers, all float formats), all data, NaN and infinities included: a fit with fewer
than `K` features, or with `ws_start_size < K`, returns the null model or panics.  With the default settings (`K = 5`), this is every fit on
at most 4 features.
-/

namespace Sglm
open Scalar Spec
variable {F : Type} [Scalar F] {n p t : ℕ}

/-- The call returns `z` or panics (index out of bounds). -/
def NullOrPanics {α : Type} (m : M α) (z : α) : Prop := m = .ok z ∨ m = .error .index

theorem NullOrPanics.of_tri {α : Type} {m : M α} {z : α} (h : Tri (· = .index) m (fun r => r = z)) : NullOrPanics m z := by
  cases m with
  | ok r => exact Or.inl (congrArg Except.ok h)
  | error e => exact Or.inr (congrArg Except.error h)

/-- Solver runs with the four separable penalties. -/
def NullOrPanicsAll {DM DF : Type} [DesignMatrix F DM] [Datafit F DM DF] (srt : Argsort F) (cfg : Solver F)
    (ds : Dataset DM F) (df : DF) (p : ℕ) : Prop :=
  (∀ a : F, NullOrPanics (cfg.solve srt ds df (L1.mk a)) (List.replicate p zero)) ∧
  (∀ a r : F, NullOrPanics (cfg.solve srt ds df (L1PlusL2.mk a r)) (List.replicate p zero)) ∧
  (∀ a g : F, NullOrPanics (cfg.solve srt ds df (MCP.mk a g)) (List.replicate p zero)) ∧
  (∀ a : F, NullOrPanics (cfg.solve srt ds df (L05.mk a)) (List.replicate p zero))

/-- Multi-task solver runs with the three block penalties. -/
def NullOrPanicsBlock {DM DF : Type} [DesignMatrix F DM] [MTDatafit F DM DF] (srt : Argsort F) (cfg : Solver F)
    (ds : Dataset DM F) (df : DF) (p t : ℕ) : Prop :=
  (∀ a : F, NullOrPanics (cfg.solveMultiTask srt ds df (L21.mk a)) (Mat.zeros p t)) ∧
  (∀ a r : F, NullOrPanics (cfg.solveMultiTask srt ds df (BlockL1PlusL2.mk a r)) (Mat.zeros p t)) ∧
  (∀ a g : F, NullOrPanics (cfg.solveMultiTask srt ds df (BlockMCP.mk a g)) (Mat.zeros p t))

variable [LawfulCmp F]

theorem null_all {DM DF : Type} [DesignMatrix F DM] [Datafit F DM DF] {srt : Argsort F} (hs : ArgsortSpec srt) (cfg : Solver F)
    {ds : Dataset DM F} {df : DF} (hn : ds.targets.nSamples = n) (hnf : DesignMatrix.nFeatures (F := F) ds.designMatrix = .ok p)
    (hi : Ok (Datafit.init df ds) (fun df => SafeFit ds df n p)) (hu : cfg.useAcceleration = true) (hK : min cfg.wsStartSize p < cfg.K)
    (hK10 : cfg.K ≤ 10) (he : cfg.K < cfg.maxEpochs) : NullOrPanicsAll srt cfg ds df p := by
  obtain ⟨df', h1, h2⟩ := Tri.exists_ok hi
  exact ⟨fun _ => .of_tri (solve_zero_or_index hs cfg df hn hnf h1 h2 (safe_L1 _) (quiet_L1 _) hu hK hK10 he),
    fun _ _ => .of_tri (solve_zero_or_index hs cfg df hn hnf h1 h2 (safe_L1PlusL2 _) (quiet_L1PlusL2 _) hu hK hK10 he),
    fun _ _ => .of_tri (solve_zero_or_index hs cfg df hn hnf h1 h2 (safe_MCP _) (quiet_MCP _) hu hK hK10 he),
    fun _ => .of_tri (solve_zero_or_index hs cfg df hn hnf h1 h2 (safe_L05 _) (quiet_L05 _) hu hK hK10 he)⟩

theorem null_block {DM DF : Type} [DesignMatrix F DM] [MTDatafit F DM DF] {srt : Argsort F} (hs : ArgsortSpec srt) (cfg : Solver F)
    {ds : Dataset DM F} {df : DF} (hn : ds.targets.nSamples = n) (ht : ds.targets.nTasks = t)
    (hnf : DesignMatrix.nFeatures (F := F) ds.designMatrix = .ok p)
    (hi : Ok (MTDatafit.init df ds) (fun df => MT.SafeFit ds df n p t)) (hu : cfg.useAcceleration = true) (hK : min cfg.wsStartSize p * t < cfg.K)
    (hK10 : cfg.K ≤ 10) (he : cfg.K < cfg.maxEpochs) : NullOrPanicsBlock srt cfg ds df p t := by
  obtain ⟨df', h1, h2⟩ := Tri.exists_ok hi
  exact ⟨fun _ => .of_tri (MT.solve_zero_or_index hs cfg df hn ht hnf h1 h2 (MT.safe_L21 _) (MT.quiet_L21 _) hu hK hK10 he),
    fun _ _ => .of_tri (MT.solve_zero_or_index hs cfg df hn ht hnf h1 h2 (MT.safe_BlockL1PlusL2 _) (MT.quiet_BlockL1PlusL2 _) hu hK hK10 he),
    fun _ _ => .of_tri (MT.solve_zero_or_index hs cfg df hn ht hnf h1 h2 (MT.safe_BlockMCP _) (MT.quiet_BlockMCP _) hu hK hK10 he)⟩

/-- Accelerated runs with `ws_start_size < K` or fewer than `K` features.  (Otherwise, runs return: `C26_never_partial`.) -/
theorem C26_few_features {srt : Argsort F} (hs : ArgsortSpec srt) (cfg : Solver F) (hu : cfg.useAcceleration = true)
    (hK : min cfg.wsStartSize p < cfg.K) (hK10 : cfg.K ≤ 10) (he : cfg.K < cfg.maxEpochs) (T : Targets F) (hT : ShapedTargets T n 1) :
    (∀ (X : Mat F) (df : Quadratic F), Shaped X n p → NullOrPanicsAll srt cfg ⟨X, T⟩ df p) ∧
    (∀ (X : CSC F) (df : Quadratic F), ShapedCSC X n p → NullOrPanicsAll srt cfg ⟨X, T⟩ df p) ∧
    (∀ (X : Mat F) (df : Logistic F), Shaped X n p → NullOrPanicsAll srt cfg ⟨X, T⟩ df p) ∧
    (∀ (X : CSC F) (df : Logistic F), ShapedCSC X n p → NullOrPanicsAll srt cfg ⟨X, T⟩ df p) :=
  ⟨fun _ df hX => null_all hs cfg hT.nSamples (congrArg Except.ok hX.2.1) (quad_dense_safe hX hT df) hu hK hK10 he,
    fun _ df hX => null_all hs cfg hT.nSamples (ShapedCSC.nFeatures hX) (quad_csc_safe hX hT df) hu hK hK10 he,
    fun _ df hX => null_all hs cfg hT.nSamples (congrArg Except.ok hX.2.1) (log_dense_safe hX hT df) hu hK hK10 he,
    fun _ df hX => null_all hs cfg hT.nSamples (ShapedCSC.nFeatures hX) (log_csc_safe hX hT df) hu hK hK10 he⟩

/-- Several tasks: fewer than `K` coefficients in the first working set.  (Otherwise, runs return: `C26_never_mt_partial`.) -/
theorem C26_few_features_mt {srt : Argsort F} (hs : ArgsortSpec srt) (cfg : Solver F) (hu : cfg.useAcceleration = true)
    (hK : min cfg.wsStartSize p * t < cfg.K) (hK10 : cfg.K ≤ 10) (he : cfg.K < cfg.maxEpochs) (T : Targets F) (hT : ShapedTargets T n t) :
    (∀ (X : Mat F) (df : QuadraticMT F), Shaped X n p → NullOrPanicsBlock srt cfg ⟨X, T⟩ df p t) ∧
    (∀ (X : CSC F) (df : QuadraticMT F), ShapedCSC X n p → NullOrPanicsBlock srt cfg ⟨X, T⟩ df p t) :=
  ⟨fun _ df hX => null_block hs cfg hT.nSamples hT.nTasks (congrArg Except.ok hX.2.1) (MT.quad_dense_safe hX hT df) hu hK hK10 he,
    fun _ df hX => null_block hs cfg hT.nSamples hT.nTasks (ShapedCSC.nFeatures hX) (MT.quad_csc_safe hX hT df) hu hK hK10 he⟩

/-- The default Lasso (whatever `alpha` and `tolerance`) on at most 4 features, dense or sparse: the null model, a parameter error, or a
panic. -/
theorem C26_default_lasso {srt : Argsort F} (hs : ArgsortSpec srt) (T : Targets F) (hT : ShapedTargets T n 1) (hp : p ≤ 4) (a tol : F) :
    let ps : LassoParams F := { (LassoParams.new : LassoParams F) with alpha := a, tolerance := tol }
    (∀ X : Mat F, Shaped X n p → NullOrPanics (Lasso.fit srt ps ⟨X, T⟩) (.ok (List.replicate p zero)) ∨
      ∃ e, Lasso.fit srt ps (⟨X, T⟩ : Dataset (Mat F) F) = .ok (.error e)) ∧
    (∀ X : CSC F, ShapedCSC X n p → NullOrPanics (Lasso.fit srt ps ⟨X, T⟩) (.ok (List.replicate p zero)) ∨
      ∃ e, Lasso.fit srt ps (⟨X, T⟩ : Dataset (CSC F) F) = .ok (.error e)) := by
  intro ps
  have key : ∀ {DM : Type} [DesignMatrix F DM] [Datafit F DM (Quadratic F)] (ds : Dataset DM F),
      NullOrPanicsAll srt ps.solver ds (Quadratic.new : Quadratic F) p →
      NullOrPanics (Lasso.fit srt ps ds) (.ok (List.replicate p zero)) ∨ ∃ e, Lasso.fit srt ps ds = .ok (.error e) := by
    intro DM _ _ ds h
    unfold Lasso.fit guardedFit
    split
    · exact Or.inr ⟨_, rfl⟩
    · rename_i q hc
      left
      rw [lasso_check_eq hc]
      show NullOrPanics (Lasso.fitValid srt ps ds) _
      unfold Lasso.fitValid
      rw [fitCD_eq]
      rcases h.1 ps.alpha with h | h
      · exact Or.inl (by rw [h]; rfl)
      · exact Or.inr (by rw [h]; rfl)
  have hc := C26_few_features hs ps.solver rfl (lt_of_le_of_lt (min_le_right _ _) (show p < 5 by omega)) (show 5 ≤ 10 by decide) (show 5 < 1000 by decide) T hT
  exact ⟨fun X hX => key _ (hc.1 X _ hX), fun X hX => key _ (hc.2.1 X _ hX)⟩

/-! ## Examples -/

-- two features with missing and infinite values, logistic regression with MCP
example (cfg : Solver XR) (hu : cfg.useAcceleration = true) (hK : cfg.K = 5) (he : cfg.maxEpochs = 1000) :
    NullOrPanics (cfg.solve argsortIns (⟨⟨2, [[XR.nan, XR.fin 1], [XR.fin 2, XR.pinf]]⟩, Targets.one [XR.fin 1, XR.fin (-1)]⟩ : Dataset (Mat XR) XR)
      (Logistic.new : Logistic XR) (MCP.mk (XR.fin 1) (XR.fin 3))) [XR.fin 0, XR.fin 0] :=
  ((C26_few_features (n := 2) (p := 2) argsortIns_spec cfg hu (lt_of_le_of_lt (min_le_right _ _) (by omega)) (by omega) (by omega) _ shaped_one).2.2.1 _ _ (by simp [Shaped])).2.2.1 _ _

-- 20 features, but `ws_start_size = 3`
example (cfg : Solver XR) (hu : cfg.useAcceleration = true) (hK : cfg.K = 5) (hw : cfg.wsStartSize = 3) (he : cfg.maxEpochs = 1000) (X : Mat XR)
    (hX : Shaped X 4 20) (a : XR) :
    NullOrPanics (cfg.solve argsortIns (⟨X, Targets.one [XR.fin 1, XR.fin 2, XR.fin 3, XR.fin 4]⟩ : Dataset (Mat XR) XR) (Quadratic.new : Quadratic XR)
      (L1.mk a)) (List.replicate 20 (XR.fin 0)) :=
  ((C26_few_features (n := 4) (p := 20) argsortIns_spec cfg hu (by rw [hw, hK]; decide) (by omega) (by omega) _ shaped_one).1 _ _ hX).1 _

example {f : Format} {S : Summation f} (srt : Argsort (IEEE f S)) (hs : ArgsortSpec srt) (a tol : IEEE f S) (x y : IEEE f S) :
    NullOrPanics (Lasso.fit srt { (LassoParams.new : LassoParams (IEEE f S)) with alpha := a, tolerance := tol } (⟨⟨1, [[x]]⟩, Targets.one [y]⟩ : Dataset (Mat (IEEE f S)) (IEEE f S)))
      (.ok [zero]) ∨
    ∃ e, Lasso.fit srt { (LassoParams.new : LassoParams (IEEE f S)) with alpha := a, tolerance := tol } (⟨⟨1, [[x]]⟩, Targets.one [y]⟩ : Dataset (Mat (IEEE f S)) (IEEE f S)) =
      .ok (.error e) :=
  (C26_default_lasso (n := 1) (p := 1) hs _ shaped_one (by decide) a tol).1 _ (by simp [Shaped])

end Sglm
