import Verif.Proofs.MissingMT
import Verif.Props.Predictions
import Verif.Props.Misc

/-!
# C111: features with missing values
-/

namespace Sglm
open Scalar Spec
variable {n p : ℕ}

/-- The full statement: a feature with a missing value has no effect on the elastic net fit. -/
def C111_full : Prop :=
  ∀ (srt : Argsort XR), ArgsortSpec srt → ∀ {n p : ℕ} (x : Fin n → Fin p → XR) (j : Fin p), MissingIn j x → ∀ (y : Fin n → XR) (α ρ : ℝ), 0 ≤ α →
    0 ≤ ρ → ρ ≤ 1 → ∀ cfg : Solver XR, cfg.useAcceleration = false →
    cfg.solve srt (⟨matOf x, Targets.one (List.ofFn y)⟩ : Dataset (Mat XR) XR) (Quadratic.new : Quadratic XR) (L1PlusL2.mk (XR.fin α) (XR.fin ρ)) =
      cfg.solve srt (⟨matOf (blankFeature j x), Targets.one (List.ofFn y)⟩ : Dataset (Mat XR) XR) (Quadratic.new : Quadratic XR)
        (L1PlusL2.mk (XR.fin α) (XR.fin ρ))

/-- The statement holds for the L1 penalty: the fit is the one of the data in which the feature is replaced by zeros, and its coefficient is 0.
No assumption on the other data (they may contain NaN and infinities too). -/
theorem C111_lasso_partial (srt : Argsort XR) (x : Fin n → Fin p → XR) (j : Fin p) (h : MissingIn j x) (y : Fin n → XR) {α : ℝ} (hα : 0 ≤ α)
    (cfg : Solver XR) (hu : cfg.useAcceleration = false) :
    cfg.solve srt (⟨matOf x, Targets.one (List.ofFn y)⟩ : Dataset (Mat XR) XR) (Quadratic.new : Quadratic XR) (L1.mk (XR.fin α)) =
      cfg.solve srt (⟨matOf (blankFeature j x), Targets.one (List.ofFn y)⟩ : Dataset (Mat XR) XR) (Quadratic.new : Quadratic XR)
        (L1.mk (XR.fin α)) := by
  obtain ⟨df, df', h1, h2, h3⟩ := quad_sameBut h y hα
  exact (h3.solve (df0 := (Quadratic.new : Quadratic XR)) (df0' := (Quadratic.new : Quadratic XR)) j.2 rfl rfl h1 h2 (one_nSamplesOf y)
    (one_nSamplesOf y) srt cfg hu).1

/-- The same for sparse logistic regression. -/
theorem C111_logistic_partial (srt : Argsort XR) (x : Fin n → Fin p → XR) (j : Fin p) (h : MissingIn j x) (y : Fin n → XR) {α : ℝ} (hα : 0 ≤ α)
    (cfg : Solver XR) (hu : cfg.useAcceleration = false) :
    cfg.solve srt (⟨matOf x, Targets.one (List.ofFn y)⟩ : Dataset (Mat XR) XR) (Logistic.new : Logistic XR) (L1.mk (XR.fin α)) =
      cfg.solve srt (⟨matOf (blankFeature j x), Targets.one (List.ofFn y)⟩ : Dataset (Mat XR) XR) (Logistic.new : Logistic XR)
        (L1.mk (XR.fin α)) := by
  obtain ⟨df, df', h1, h2, h3⟩ := log_sameBut h y hα
  exact (h3.solve (df0 := (Logistic.new : Logistic XR)) (df0' := (Logistic.new : Logistic XR)) j.2 rfl rfl h1 h2 (one_nSamplesOf y)
    (one_nSamplesOf y) srt cfg hu).1

/-- The Lasso estimator, with its checks. -/
theorem C111_estimator_partial (srt : Argsort XR) (x : Fin n → Fin p → XR) (j : Fin p) (h : MissingIn j x) (y : Fin n → XR)
    (ps : LassoParams XR) {α : ℝ} (ha : ps.alpha = XR.fin α) (hu : ps.useAcceleration = false) :
    Lasso.fit srt ps (⟨matOf x, Targets.one (List.ofFn y)⟩ : Dataset (Mat XR) XR) =
      Lasso.fit srt ps (⟨matOf (blankFeature j x), Targets.one (List.ofFn y)⟩ : Dataset (Mat XR) XR) := by
  unfold Lasso.fit guardedFit
  cases hc : ps.checkRef with
  | error e => rfl
  | ok q =>
    obtain ⟨rfl, h2⟩ := LassoParams.checkRef_ok hc
    have hα : 0 ≤ α := by
      rw [ha] at h2
      exact not_lt.mp (of_decide_eq_false h2)
    dsimp only
    unfold Lasso.fitValid
    rw [fitCD_eq, fitCD_eq, ha, C111_lasso_partial srt x j h y hα q.solver hu]

/-- With acceleration or without: the coefficient of a feature with a missing value is exactly 0 for the L1 penalty, whatever the other data. -/
theorem C111_zero (srt : Argsort XR) (x : Fin n → Fin p → XR) (j : Fin p) (h : MissingIn j x) (y : Fin n → XR) {α : ℝ} (hα : 0 ≤ α)
    (cfg : Solver XR) {w : List XR}
    (hw : cfg.solve srt (⟨matOf x, Targets.one (List.ofFn y)⟩ : Dataset (Mat XR) XR) (Quadratic.new : Quadratic XR) (L1.mk (XR.fin α)) = .ok w) :
    w[(j : ℕ)]? = some (XR.fin 0) := by
  obtain ⟨df, df', h1, -, h3⟩ := quad_sameBut h y hα
  exact h3.zero h (fun Xw hl hX => quad_value_nan _ y hl hX) (df0 := (Quadratic.new : Quadratic XR)) h1 (one_nSamplesOf y) srt cfg hw

/-- The same for sparse logistic regression. -/
theorem C111_zero_logistic (srt : Argsort XR) (x : Fin n → Fin p → XR) (j : Fin p) (h : MissingIn j x) (y : Fin n → XR) {α : ℝ} (hα : 0 ≤ α)
    (cfg : Solver XR) {w : List XR}
    (hw : cfg.solve srt (⟨matOf x, Targets.one (List.ofFn y)⟩ : Dataset (Mat XR) XR) (Logistic.new : Logistic XR) (L1.mk (XR.fin α)) = .ok w) :
    w[(j : ℕ)]? = some (XR.fin 0) := by
  obtain ⟨df, df', h1, -, h3⟩ := log_sameBut h y hα
  exact h3.zero h (fun Xw hl hX => log_value_nan _ y hl hX) (df0 := (Logistic.new : Logistic XR)) h1 (one_nSamplesOf y) srt cfg hw

theorem enet_prox_nan (a r : XR) : L1PlusL2.prox (L1PlusL2.mk a r) XR.nan XR.nan = XR.nan := by
  unfold L1PlusL2.prox
  show XR.div _ (XR.add _ (XR.mul (XR.mul XR.nan _) a)) = XR.nan
  have e : ∀ b, XR.mul XR.nan b = XR.nan := fun b => by cases b <;> rfl
  rw [e, e, XR.add_nan]
  generalize (softThresholding XR.nan _ : XR) = q
  cases q <;> rfl

theorem mcp_prox_nan (a g : XR) : MCP.prox (MCP.mk a g) XR.nan XR.nan = XR.nan := by
  unfold MCP.prox
  dsimp only
  rw [if_neg (by show ¬ XR.le XR.nan _ = true; exact Bool.false_ne_true), if_neg]
  · show XR.div (XR.mul XR.nan _) _ = XR.nan
    have e : ∀ b, XR.mul XR.nan b = XR.nan := fun b => by cases b <;> rfl
    rw [e, XR.nan_div]
  · have e : ∀ q, XR.lt q XR.nan = false := fun q => by cases q <;> rfl
    show ¬ XR.lt _ XR.nan = true
    rw [e]
    exact Bool.false_ne_true

/-- Elastic net (also with `l1_ratio = 1`, the Lasso): unless every coefficient is zero, the coefficient of a feature with a missing value is NaN,
if the working set starts with all features. -/
theorem C111_enet_nan {srt : Argsort XR} (hs : ArgsortSpec srt) (x : Fin n → Fin p → XR) (j : Fin p) (h : MissingIn j x) (y : Fin n → XR) (a r : XR)
    (cfg : Solver XR) (hu : cfg.useAcceleration = false) (hp : p ≤ cfg.wsStartSize) (hm : 0 < cfg.maxIterations) (he : 0 < cfg.maxEpochs)
    {w : List XR}
    (hw : cfg.solve srt (⟨matOf x, Targets.one (List.ofFn y)⟩ : Dataset (Mat XR) XR) (Quadratic.new : Quadratic XR) (L1PlusL2.mk a r) = .ok w) :
    w = List.replicate p (XR.fin 0) ∨ w[(j : ℕ)]? = some XR.nan :=
  poison_quad (pen := L1PlusL2.mk a r) rfl (congrArg Except.ok (enet_prox_nan a r)) hs h y cfg hu hp hm he hw

/-- The same for the minimax concave penalty. -/
theorem C111_mcp_nan {srt : Argsort XR} (hs : ArgsortSpec srt) (x : Fin n → Fin p → XR) (j : Fin p) (h : MissingIn j x) (y : Fin n → XR) (a g : XR)
    (cfg : Solver XR) (hu : cfg.useAcceleration = false) (hp : p ≤ cfg.wsStartSize) (hm : 0 < cfg.maxIterations) (he : 0 < cfg.maxEpochs)
    {w : List XR}
    (hw : cfg.solve srt (⟨matOf x, Targets.one (List.ofFn y)⟩ : Dataset (Mat XR) XR) (Quadratic.new : Quadratic XR) (MCP.mk a g) = .ok w) :
    w = List.replicate p (XR.fin 0) ∨ w[(j : ℕ)]? = some XR.nan :=
  poison_quad (pen := MCP.mk a g) rfl (congrArg Except.ok (mcp_prox_nan a g)) hs h y cfg hu hp hm he hw

/-- The multi-task Lasso, unlike the Lasso: unless every coefficient is zero, those of a feature with a missing value are NaN. -/
theorem C111_mtlasso_nan {srt : Argsort XR} (hs : ArgsortSpec srt) {T : ℕ} (x : Fin n → Fin p → XR) (j : Fin p) (h : MissingIn j x)
    (y : Fin n → Fin T → XR) (a : XR) (cfg : Solver XR) (hu : cfg.useAcceleration = false) (hp : p ≤ cfg.wsStartSize)
    (hm : 0 < cfg.maxIterations) (he : 0 < cfg.maxEpochs) {W : Mat XR}
    (hw : cfg.solveMultiTask srt (⟨matOf x, Targets.two (matOf y)⟩ : Dataset (Mat XR) XR) (QuadraticMT.new : QuadraticMT XR) (L21.mk a) = .ok W) :
    W = Mat.zeros p T ∨ W.rows[(j : ℕ)]? = some (List.replicate T XR.nan) :=
  MT.poison_quad (pen := L21.mk a) (MT.safe_L21 _) (congrArg Except.ok (l21_prox_nan a T)) hs h y cfg hu hp hm he hw

/-- The same for the multi-task elastic net. -/
theorem C111_mtenet_nan {srt : Argsort XR} (hs : ArgsortSpec srt) {T : ℕ} (x : Fin n → Fin p → XR) (j : Fin p) (h : MissingIn j x)
    (y : Fin n → Fin T → XR) (a r : XR) (cfg : Solver XR) (hu : cfg.useAcceleration = false) (hp : p ≤ cfg.wsStartSize)
    (hm : 0 < cfg.maxIterations) (he : 0 < cfg.maxEpochs) {W : Mat XR}
    (hw : cfg.solveMultiTask srt (⟨matOf x, Targets.two (matOf y)⟩ : Dataset (Mat XR) XR) (QuadraticMT.new : QuadraticMT XR)
      (BlockL1PlusL2.mk a r) = .ok W) :
    W = Mat.zeros p T ∨ W.rows[(j : ℕ)]? = some (List.replicate T XR.nan) :=
  MT.poison_quad (pen := BlockL1PlusL2.mk a r) (MT.safe_BlockL1PlusL2 _) (congrArg Except.ok (blockEnet_prox_nan a r T)) hs h y cfg hu hp hm he hw

/-- The same for the block minimax concave penalty. -/
theorem C111_mtmcp_nan {srt : Argsort XR} (hs : ArgsortSpec srt) {T : ℕ} (x : Fin n → Fin p → XR) (j : Fin p) (h : MissingIn j x)
    (y : Fin n → Fin T → XR) (a g : XR) (cfg : Solver XR) (hu : cfg.useAcceleration = false) (hp : p ≤ cfg.wsStartSize)
    (hm : 0 < cfg.maxIterations) (he : 0 < cfg.maxEpochs) {W : Mat XR}
    (hw : cfg.solveMultiTask srt (⟨matOf x, Targets.two (matOf y)⟩ : Dataset (Mat XR) XR) (QuadraticMT.new : QuadraticMT XR)
      (BlockMCP.mk a g) = .ok W) :
    W = Mat.zeros p T ∨ W.rows[(j : ℕ)]? = some (List.replicate T XR.nan) :=
  MT.poison_quad (pen := BlockMCP.mk a g) (MT.safe_BlockMCP _) (congrArg Except.ok (blockMCP_prox_nan a g T)) hs h y cfg hu hp hm he hw

/-- One sample with the features 1 and NaN. -/
noncomputable def holeX : Fin 1 → Fin 2 → XR := fun _ => ![XR.fin 1, XR.nan]

theorem hole_missing : MissingIn 1 holeX := ⟨0, rfl⟩

theorem hole_blank : matOf (blankFeature 1 holeX) = (denseDs (fun _ : Fin 1 => ![(1 : ℝ), 0]) fun _ => 5).designMatrix := by
  unfold matOf blankFeature holeX
  simp [denseDs, mat, vec, List.ofFn_succ]

/-- Features 1 and NaN, target 5, `alpha = 1`, `l1_ratio = 1/2`: the fit of the data with zeros instead of NaN has a non-zero real first coefficient,
while the fit of the data themselves has a NaN coefficient. -/
theorem C111_false : ¬ C111_full := by
  intro H
  have hv : (Pen.enet 1 (1 / 2)).Valid := by norm_num [Pen.Valid]
  obtain ⟨N, h1⟩ := stops_exists one_pos (.dense fun _ : Fin 1 => ![(1 : ℝ), 0]) trivial (fun _ => 5) .quadratic trivial (.enet 1 (1 / 2)) hv
    (by norm_num [Pen.Convex]) (by norm_num [Pen.fn, enet]) 1 one_pos
  obtain ⟨v, h2⟩ := h1 2 two_pos
  set cfg : Solver XR := ⟨2, N, 50, XR.fin 1, 5, false, true⟩ with hcfg
  have h3 : cfg.solve argsortIns (⟨matOf (blankFeature 1 holeX), Targets.one (List.ofFn fun _ : Fin 1 => XR.fin 5)⟩ : Dataset (Mat XR) XR)
      (Quadratic.new : Quadratic XR) (L1PlusL2.mk (XR.fin 1) (XR.fin (1 / 2))) = .ok (vec v) := by
    rw [hole_blank]
    exact h2.1
  have h4 := H argsortIns argsortIns_spec holeX 1 hole_missing (fun _ => XR.fin 5) 1 (1 / 2) zero_le_one (by norm_num) (by norm_num) cfg rfl
  rw [h3] at h4
  have hc := (stops_cert argsortIns_spec one_pos hv (by norm_num [Pen.Convex]) rfl h2).2 ![3, 0]
  have hne : v ≠ fun _ => 0 := by
    rintro rfl
    simp [objective1, LossKind.loss, quadLoss, fit, Design.matrix, Pen.fn, enet, Fin.sum_univ_two] at hc
    norm_num at hc
  have hN : 0 < N := Nat.lt_of_le_of_lt (Nat.zero_le _) h2.2.choose_spec.choose_spec.2
  rcases C111_enet_nan argsortIns_spec holeX 1 hole_missing _ _ _ cfg rfl le_rfl hN (by norm_num [hcfg]) h4 with h5 | h5
  · refine hne (vec_injective ?_)
    rw [h5]
    rfl
  · simp [vec] at h5

/-! ## Examples -/

/-- The Lasso fit of the same data is the one of the features 1 and 0: real, and solved to the tolerance. -/
example : ∃ v : Fin 2 → ℝ, (⟨2, 50, 100, XR.fin 1, 5, false, true⟩ : Solver XR).solve argsortIns
    (⟨matOf holeX, Targets.one (List.ofFn fun _ : Fin 1 => XR.fin 5)⟩ : Dataset (Mat XR) XR) (Quadratic.new : Quadratic XR) (L1.mk (XR.fin 1)) =
      .ok (vec v) ∧ v 1 = 0 := by
  obtain ⟨v, hv⟩ := C25_finite argsortIns_spec one_pos (.dense fun _ : Fin 1 => ![(1 : ℝ), 0]) (fun _ => 5) .quadratic (.l1 1)
    (show (Pen.l1 1).Valid from zero_le_one) ⟨2, 50, 100, XR.fin 1, 5, false, true⟩ rfl
  refine ⟨v, ?_, C44_zero_column argsortIns_spec one_pos _ _ _ _ (show (Pen.l1 1).Valid from zero_le_one) _ 1 (fun _ => rfl) v hv⟩
  rw [C111_lasso_partial argsortIns holeX 1 hole_missing _ zero_le_one _ rfl, hole_blank]
  exact hv

/-- The estimator. -/
example : Lasso.fit argsortIns ⟨XR.fin 1, 50, 1000, 10, XR.fin (1 / 1000), 5, false, false⟩
    (⟨matOf holeX, Targets.one (List.ofFn fun _ : Fin 1 => XR.fin 5)⟩ : Dataset (Mat XR) XR) =
      Lasso.fit argsortIns ⟨XR.fin 1, 50, 1000, 10, XR.fin (1 / 1000), 5, false, false⟩
        (⟨matOf (blankFeature 1 holeX), Targets.one (List.ofFn fun _ : Fin 1 => XR.fin 5)⟩ : Dataset (Mat XR) XR) :=
  C111_estimator_partial argsortIns holeX 1 hole_missing _ _ rfl rfl

/-- Logistic regression. -/
example : (⟨2, 50, 100, XR.fin (1 / 10), 5, false, true⟩ : Solver XR).solve argsortIns
    (⟨matOf holeX, Targets.one (List.ofFn fun _ : Fin 1 => XR.fin 1)⟩ : Dataset (Mat XR) XR) (Logistic.new : Logistic XR) (L1.mk (XR.fin (1 / 10))) =
      (⟨2, 50, 100, XR.fin (1 / 10), 5, false, true⟩ : Solver XR).solve argsortIns
        (⟨matOf (blankFeature 1 holeX), Targets.one (List.ofFn fun _ : Fin 1 => XR.fin 1)⟩ : Dataset (Mat XR) XR) (Logistic.new : Logistic XR)
        (L1.mk (XR.fin (1 / 10))) :=
  C111_logistic_partial argsortIns holeX 1 hole_missing _ (by norm_num) _ rfl

/-- Accelerated. -/
example (w : List XR) (h : (⟨2, 50, 100, XR.fin (1 / 10), 1, true, true⟩ : Solver XR).solve argsortIns
    (⟨matOf holeX, Targets.one (List.ofFn fun _ : Fin 1 => XR.fin 5)⟩ : Dataset (Mat XR) XR) (Quadratic.new : Quadratic XR) (L1.mk (XR.fin 1)) =
      .ok w) : w[1]? = some (XR.fin 0) :=
  C111_zero argsortIns holeX 1 hole_missing _ zero_le_one _ h

/-- Minimax concave penalty. -/
example (w : List XR) (h : (⟨2, 50, 100, XR.fin (1 / 10), 5, false, true⟩ : Solver XR).solve argsortIns
    (⟨matOf holeX, Targets.one (List.ofFn fun _ : Fin 1 => XR.fin 5)⟩ : Dataset (Mat XR) XR) (Quadratic.new : Quadratic XR)
      (MCP.mk (XR.fin 1) (XR.fin 3)) = .ok w) : w = List.replicate 2 (XR.fin 0) ∨ w[1]? = some XR.nan :=
  C111_mcp_nan argsortIns_spec holeX 1 hole_missing _ _ _ _ rfl le_rfl (by norm_num) (by norm_num) h

/-- Two tasks. -/
example (W : Mat XR) (h : (⟨2, 50, 100, XR.fin (1 / 10), 5, false, true⟩ : Solver XR).solveMultiTask argsortIns
    (⟨matOf holeX, Targets.two (matOf fun _ : Fin 1 => ![XR.fin 5, XR.fin (-4)])⟩ : Dataset (Mat XR) XR) (QuadraticMT.new : QuadraticMT XR)
      (L21.mk (XR.fin 1)) = .ok W) : W = Mat.zeros 2 2 ∨ W.rows[1]? = some [XR.nan, XR.nan] :=
  C111_mtlasso_nan argsortIns_spec holeX 1 hole_missing _ _ _ rfl le_rfl (by norm_num) (by norm_num) h

end Sglm
