import Verif.Proofs.Python
import Verif.Props.Safe
import Verif.Props.Certificate
import Verif.Props.Api

/-!
# The Python package (C48, C51 - C56)
-/

namespace Sglm
open Scalar Spec

/-! ## C48 -/

/-- A Python `float`. -/
def pyFloat (r : ℝ) : PyArg XR := .float (XR.fin r)

/-- The full statement of C48 for finite float arguments: the constructors accept exactly the documented domains. -/
def C48_full : Prop :=
  (∀ a g : ℝ, (∃ q, Py.mcpInit (pyFloat a) (pyFloat g) = .ok q) ↔ 0 ≤ a ∧ 1 ≤ g) ∧
  (∀ a r : ℝ, (∃ q, Py.elasticNetInit (pyFloat a) (pyFloat r) = .ok q) ↔ 0 ≤ a ∧ 0 ≤ r ∧ r ≤ 1)

theorem checkAlpha_float {a : ℝ} (h : 0 ≤ a) : Py.checkAlpha (pyFloat a) = .ok (XR.fin a) := by
  have h0 : ¬ ((XR.fin a <. zero) = true) := by
    show ¬ (decide (a < 0) = true); rw [decide_eq_true_iff]; linarith
  show (if XR.fin a <. zero then (.error (.valueError "alpha") : Except PyExc XR) else .ok (XR.fin a)) = _
  rw [if_neg h0]

theorem checkAlpha_float_neg {a : ℝ} (h : a < 0) : Py.checkAlpha (pyFloat a) = .error (.valueError "alpha") := by
  have h0 : (XR.fin a <. zero) = true := by
    show decide (a < 0) = true; rw [decide_eq_true_iff]; exact h
  show (if XR.fin a <. zero then (.error (.valueError "alpha") : Except PyExc XR) else .ok (XR.fin a)) = _
  rw [if_pos h0]

/-- **C48 (partial).** What the constructors accept on finite floats: `Lasso` the documented domain;
`MCPRegressor` and `BlockMCPRegressor` exactly `alpha ≥ 1`, for every `gamma`; the elastic nets exactly `0 ≤ alpha ≤ 1`, for every
`l1_ratio`.  Missing: the documented domain of `gamma` and `l1_ratio`. -/
theorem C48_python_init_partial (a b : ℝ) :
    ((∃ q, Py.lassoInit (pyFloat a) = .ok q) ↔ 0 ≤ a) ∧
    ((∃ q, Py.mcpInit (pyFloat a) (pyFloat b) = .ok q) ↔ 1 ≤ a) ∧
    ((∃ q, Py.elasticNetInit (pyFloat a) (pyFloat b) = .ok q) ↔ 0 ≤ a ∧ a ≤ 1) := by
  have h1 : (XR.fin a <. one) = decide (a < 1) := rfl
  have h2 : (one <. XR.fin a) = decide (1 < a) := rfl
  rcases lt_or_ge a 0 with h | h
  · have hc := checkAlpha_float_neg h
    refine ⟨⟨fun ⟨q, hq⟩ => ?_, fun h' => by linarith⟩, ⟨fun ⟨q, hq⟩ => ?_, fun h' => by linarith⟩,
      ⟨fun ⟨q, hq⟩ => ?_, fun h' => by linarith⟩⟩
    · unfold Py.lassoInit at hq; rw [hc] at hq; cases hq
    · unfold Py.mcpInit at hq; rw [hc] at hq; cases hq
    · unfold Py.elasticNetInit at hq; rw [hc] at hq; cases hq
  · have hc := checkAlpha_float h
    refine ⟨⟨fun _ => h, fun _ => ⟨_, hc⟩⟩, ?_, ?_⟩
    · unfold Py.mcpInit
      rw [hc]
      dsimp only [bind, Except.bind, pyFloat]
      rw [h1]
      by_cases h' : a < 1
      · rw [decide_eq_true h', if_pos rfl]
        exact ⟨fun ⟨q, hq⟩ => Except.noConfusion rfl rfl (heq_of_eq hq), fun h3 => by linarith⟩
      · rw [decide_eq_false h', if_neg (by decide)]
        exact ⟨fun _ => by linarith, fun _ => ⟨_, rfl⟩⟩
    · have h0 : (XR.fin a <. zero) = false := by show decide (a < 0) = false; rw [decide_eq_false_iff_not]; linarith
      unfold Py.elasticNetInit
      rw [hc]
      dsimp only [bind, Except.bind, pyFloat]
      rw [h0, Bool.false_or, h2]
      by_cases h' : 1 < a
      · rw [decide_eq_true h', if_pos rfl]
        exact ⟨fun ⟨q, hq⟩ => Except.noConfusion rfl rfl (heq_of_eq hq), fun h3 => by linarith⟩
      · rw [decide_eq_false h', if_neg (by decide)]
        exact ⟨fun _ => ⟨h, by linarith⟩, fun _ => ⟨_, rfl⟩⟩

/-- **C48 is false of the code**: `MCPRegressor(alpha=0.5, gamma=3.0)` is rejected. -/
theorem C48_false : ¬ C48_full := by
  intro h
  have := ((C48_python_init_partial (1/2) 3).2.1).mp ((h.1 _ _).mpr ⟨by norm_num, by norm_num⟩)
  norm_num at this

/-- `ElasticNet(alpha=2.0, l1_ratio=0.5)` is rejected and `ElasticNet(alpha=0.5, l1_ratio=7.0)` and
`MCPRegressor(alpha=1.0, gamma=0.5)` are accepted. -/
theorem C48_witnesses :
    (¬ ∃ q, Py.elasticNetInit (pyFloat 2) (pyFloat (1/2)) = .ok q) ∧
    (∃ q, Py.elasticNetInit (pyFloat (1/2)) (pyFloat 7) = .ok q) ∧
    (∃ q, Py.mcpInit (pyFloat 1) (pyFloat (1/2)) = .ok q) := by
  refine ⟨fun h => ?_, ?_, ?_⟩
  · have := ((C48_python_init_partial 2 (1/2)).2.2).mp h
    norm_num at this
  · exact ((C48_python_init_partial (1/2) 7).2.2).mpr (by norm_num)
  · exact ((C48_python_init_partial 1 (1/2)).2.1).mpr (by norm_num)

/-! ## C51: a Python fit is the Rust fit -/

section
variable {F : Type} [Scalar F]

theorem kept_of_ne {dt : DType} (h : dt ≠ .f32) : dt.kept = .f64 := by cases dt <;> first | rfl | exact absurd rfl h

omit [Scalar F] in
theorem seen1_of {E : Type} (r : M (Except E (List F))) :
    Seen1 r (do let w ← Py.unwrapped r; pure (.one w) : Except PyExc (PyCoef F)) := by
  rcases r with e | (e | w) <;> rfl

omit [Scalar F] in
theorem seenMT_of {E : Type} (r : M (Except E (Mat F))) (h : ∀ W, r = .ok (.ok W) → ∃ a b, Shaped W a b) :
    SeenMT r (do
      let W ← Py.unwrapped r
      match W.tM with
      | .ok V => pure (.two V)
      | .error _ => .error .panicException : Except PyExc (PyCoef F)) := by
  rcases r with e | (e | W)
  · rfl
  · rfl
  · obtain ⟨a, b, hW⟩ := h W rfl
    obtain ⟨V, h1, h2⟩ := shaped_tM hW
    refine ⟨V, h2, ?_⟩
    show (match W.tM with
      | .ok V => pure (.two V)
      | .error _ => .error .panicException : Except PyExc (PyCoef F)) = _
    rw [h1]; rfl

theorem fitSingle_dense {E : Type} {s : PySettings F} {c : Py.Checked F} (hc : Py.validateParams s = .ok c)
    {dt : DType} (hdt : dt ≠ .f32) {A : Mat F} (hX : GoodDesign (.dense dt A)) {y : List F}
    (hy : GoodTargets (.one y)) (f : Py.Checked F → Mat F → List F → M (Except E (List F)))
    (g : Py.Checked F → CSC F → List F → M (Except E (List F))) :
    Py.fitSingle s (.dense dt A) (.one y) f g = (do let w ← Py.unwrapped (f c A y); pure (.one w)) := by
  unfold Py.fitSingle
  rw [hc]
  dsimp only [bind, Except.bind]
  rw [Py.checkDesign_good hX trivial]
  dsimp only
  rw [Py.checkTargets_good hy]
  dsimp only [pyKept]
  rw [kept_of_ne hdt]
  rfl

theorem fitSingle_sparse {E : Type} {s : PySettings F} {c : Py.Checked F} (hc : Py.validateParams s = .ok c)
    {dt : DType} (hdt : dt ≠ .f32) {A : CSC F} {k : ℕ} (hX : GoodDesign (.sparse dt true k A)) {y : List F}
    (hy : GoodTargets (.one y)) (f : Py.Checked F → Mat F → List F → M (Except E (List F)))
    (g : Py.Checked F → CSC F → List F → M (Except E (List F))) :
    Py.fitSingle s (.sparse dt true k A) (.one y) f g = (do let w ← Py.unwrapped (g c A y); pure (.one w)) := by
  unfold Py.fitSingle
  rw [hc]
  dsimp only [bind, Except.bind]
  rw [Py.checkDesign_good hX rfl]
  dsimp only
  rw [Py.checkTargets_good hy]
  dsimp only [pyKept]
  rw [kept_of_ne hdt]
  rfl

theorem fitMulti_dense {E : Type} {s : PySettings F} {c : Py.Checked F} (hc : Py.validateParams s = .ok c)
    {dt : DType} (hdt : dt ≠ .f32) {A : Mat F} (hX : GoodDesign (.dense dt A)) {Y : Mat F}
    (hy : GoodTargets (.two Y)) (hn : A.nrows = Y.nrows) (f : Py.Checked F → Mat F → Mat F → M (Except E (Mat F)))
    (g : Py.Checked F → CSC F → Mat F → M (Except E (Mat F))) :
    Py.fitMulti s (.dense dt A) (.two Y) f g = (do
      let W ← Py.unwrapped (f c A Y)
      match W.tM with
      | .ok V => pure (.two V)
      | .error _ => .error .panicException) := by
  unfold Py.fitMulti
  rw [hc]
  dsimp only [bind, Except.bind]
  rw [Py.checkDesign_good hX trivial]
  dsimp only
  rw [Py.checkTargets_good hy]
  dsimp only
  rw [if_neg (show ¬ ((pyKept (.dense dt A)).nSamples ≠ Y.nrows) from not_not.mpr hn)]
  dsimp only [pyKept]
  rw [kept_of_ne hdt]
  rfl

theorem fitMulti_sparse {E : Type} {s : PySettings F} {c : Py.Checked F} (hc : Py.validateParams s = .ok c)
    {dt : DType} (hdt : dt ≠ .f32) {A : CSC F} {Y : Mat F} (hX : GoodDesign (.sparse dt true Y.nrows A))
    (hy : GoodTargets (.two Y)) (f : Py.Checked F → Mat F → Mat F → M (Except E (Mat F)))
    (g : Py.Checked F → CSC F → Mat F → M (Except E (Mat F))) :
    Py.fitMulti s (.sparse dt true Y.nrows A) (.two Y) f g = (do
      let W ← Py.unwrapped (g c A Y)
      match W.tM with
      | .ok V => pure (.two V)
      | .error _ => .error .panicException) := by
  unfold Py.fitMulti
  rw [hc]
  dsimp only [bind, Except.bind]
  rw [Py.checkDesign_good hX rfl]
  dsimp only
  rw [Py.checkTargets_good hy]
  dsimp only
  rw [if_neg (show ¬ ((pyKept (.sparse dt true Y.nrows A)).nSamples ≠ Y.nrows) from not_not.mpr rfl)]
  dsimp only [pyKept]
  rw [kept_of_ne hdt]
  rfl

theorem lassoInit_ok {a : F} (ha : (a <. zero) = false) : Py.lassoInit (.float a) = .ok a := by
  show (if a <. zero then (.error (.valueError "alpha") : Except PyExc F) else .ok a) = _
  rw [ha]; rfl

theorem mcpInit_ok {a : F} (ha : (a <. zero) = false) (ha' : (a <. one) = false) (g : F) :
    Py.mcpInit (.float a) (.float g) = .ok (a, g) := by
  unfold Py.mcpInit
  rw [show Py.checkAlpha (.float a) = .ok a from lassoInit_ok ha]
  show (if a <. one then (.error (.valueError "gamma") : Except PyExc (F × F)) else .ok (a, g)) = _
  rw [ha']; rfl

theorem elasticNetInit_ok {a : F} (ha : (a <. zero) = false) (ha' : (one <. a) = false) (r : F) :
    Py.elasticNetInit (.float a) (.float r) = .ok (a, r) := by
  unfold Py.elasticNetInit
  rw [show Py.checkAlpha (.float a) = .ok a from lassoInit_ok ha]
  show (if (a <. zero) || (one <. a) then (.error (.valueError "l1_ratio") : Except PyExc (F × F)) else .ok (a, r)) = _
  rw [ha, ha']; rfl

/-- **C51, single-task.** On finite, non-empty `float64` (or convertible) data, with settings and hyperparameters which
the constructor accepts, `Lasso`, `MCPRegressor` and `ElasticNet` of the Python package give the coefficients of the
Rust estimator of the same name with the same hyperparameters on the same data, and raise a `PanicException` exactly
when the Rust estimator panics or returns an error. -/
theorem C51_single (srt : Argsort F) (mi me p0 K : ℕ) (tol : F) (ht : (tol <. zero) = false) (accel verbose : Bool)
    (a b : F) (ha : (a <. zero) = false) (dt : DType) (hdt : dt ≠ .f32) (y : List F) (hy : GoodTargets (.one y)) :
    (∀ A : Mat F, GoodDesign (.dense dt A) →
      Seen1 (Lasso.fit srt ⟨a, mi, me, p0, tol, K, accel, verbose⟩ ⟨A, Targets.one y⟩)
        (pyLasso srt (.float a) (pySettings mi me p0 K tol accel verbose) (.dense dt A) (.one y)) ∧
      ((a <. one) = false →
        Seen1 (MCPEstimator.fit srt ⟨a, b, mi, me, p0, tol, K, accel, verbose⟩ ⟨A, Targets.one y⟩)
          (pyMCP srt (.float a) (.float b) (pySettings mi me p0 K tol accel verbose) (.dense dt A) (.one y))) ∧
      ((one <. a) = false →
        Seen1 (ElasticNet.fit srt ⟨a, b, mi, me, p0, tol, K, accel, verbose⟩ ⟨A, Targets.one y⟩)
          (pyElasticNet srt (.float a) (.float b) (pySettings mi me p0 K tol accel verbose) (.dense dt A)
            (.one y)))) ∧
    (∀ (A : CSC F) (k : ℕ), GoodDesign (.sparse dt true k A) →
      Seen1 (Lasso.fit srt ⟨a, mi, me, p0, tol, K, accel, verbose⟩ ⟨A, Targets.one y⟩)
        (pyLasso srt (.float a) (pySettings mi me p0 K tol accel verbose) (.sparse dt true k A) (.one y)) ∧
      ((a <. one) = false →
        Seen1 (MCPEstimator.fit srt ⟨a, b, mi, me, p0, tol, K, accel, verbose⟩ ⟨A, Targets.one y⟩)
          (pyMCP srt (.float a) (.float b) (pySettings mi me p0 K tol accel verbose) (.sparse dt true k A) (.one y))) ∧
      ((one <. a) = false →
        Seen1 (ElasticNet.fit srt ⟨a, b, mi, me, p0, tol, K, accel, verbose⟩ ⟨A, Targets.one y⟩)
          (pyElasticNet srt (.float a) (.float b) (pySettings mi me p0 K tol accel verbose) (.sparse dt true k A)
            (.one y)))) := by
  have hv := Py.validate_ok mi me p0 K ht accel verbose
  refine ⟨fun A hA => ⟨?_, fun h => ?_, fun h => ?_⟩, fun A k hA => ⟨?_, fun h => ?_, fun h => ?_⟩⟩
  · unfold pyLasso
    rw [lassoInit_ok ha]
    dsimp only [bind, Except.bind]
    unfold Py.lassoFit
    rw [fitSingle_dense hv hdt hA hy]
    exact seen1_of _
  · unfold pyMCP
    rw [mcpInit_ok ha h]
    dsimp only [bind, Except.bind]
    unfold Py.mcpFit
    rw [fitSingle_dense hv hdt hA hy]
    exact seen1_of _
  · unfold pyElasticNet
    rw [elasticNetInit_ok ha h]
    dsimp only [bind, Except.bind]
    unfold Py.elasticNetFit
    rw [fitSingle_dense hv hdt hA hy]
    exact seen1_of _
  · unfold pyLasso
    rw [lassoInit_ok ha]
    dsimp only [bind, Except.bind]
    unfold Py.lassoFit
    rw [fitSingle_sparse hv hdt hA hy]
    exact seen1_of _
  · unfold pyMCP
    rw [mcpInit_ok ha h]
    dsimp only [bind, Except.bind]
    unfold Py.mcpFit
    rw [fitSingle_sparse hv hdt hA hy]
    exact seen1_of _
  · unfold pyElasticNet
    rw [elasticNetInit_ok ha h]
    dsimp only [bind, Except.bind]
    unfold Py.elasticNetFit
    rw [fitSingle_sparse hv hdt hA hy]
    exact seen1_of _

/-- Multi-task fits return rectangular coefficients. -/
theorem fit_shaped {DM Params P : Type} [DesignMatrix F DM] [MTDatafit F DM (QuadraticMT F)] [MTPenalty F P]
    (srt : Argsort F) (ds : Dataset DM F) (pen : Params → P) (cfg : Params → Solver F)
    (chk : Params → Except (EstimatorError F) Params) (p : Params) (W : Mat F)
    (h : guardedFit chk (fun p => do
      let (st, _, _) ← MT.blockCoordinateDescent srt ds (QuadraticMT.new : QuadraticMT F) (pen p) (cfg p)
      pure (.ok st.W)) p = .ok (.ok W)) : ∃ a b, Shaped W a b := by
  unfold guardedFit at h
  cases hc : chk p with
  | error e => rw [hc] at h; cases h
  | ok q =>
    rw [hc] at h
    dsimp only at h
    cases hb : MT.blockCoordinateDescent srt ds (QuadraticMT.new : QuadraticMT F) (pen q) (cfg q) with
    | error e => rw [hb] at h; cases h
    | ok r =>
      obtain ⟨st, d, l⟩ := r
      rw [hb] at h
      have h' : st.W = W := by
        injection h with h
        injection h
      have hs : (cfg q).solveMultiTask srt ds (QuadraticMT.new : QuadraticMT F) (pen q) = .ok W := by
        unfold Solver.solveMultiTask
        rw [hb, ← h']; rfl
      obtain ⟨-, h2, h3⟩ := C24_solve_shape_mt srt (cfg q) ds _ (pen q) W hs
      exact ⟨_, _, rfl, h2, h3⟩

/-- **C51, multi-task.** The same for `MultiTaskLasso`, `BlockMCPRegressor` and `MultiTaskElasticNet`; `coef_` is the
transpose of the Rust coefficients (one row per task). -/
theorem C51_multi (srt : Argsort F) (mi me p0 K : ℕ) (tol : F) (ht : (tol <. zero) = false) (accel verbose : Bool)
    (a b : F) (ha : (a <. zero) = false) (dt : DType) (hdt : dt ≠ .f32) (Y : Mat F) (hy : GoodTargets (.two Y)) :
    (∀ A : Mat F, GoodDesign (.dense dt A) → A.nrows = Y.nrows →
      SeenMT (MultiTaskLasso.fit srt ⟨a, mi, me, p0, tol, K, accel, verbose⟩ ⟨A, Targets.two Y⟩)
        (pyMTLasso srt (.float a) (pySettings mi me p0 K tol accel verbose) (.dense dt A) (.two Y)) ∧
      ((a <. one) = false →
        SeenMT (BlockMCPEstimator.fit srt ⟨a, b, mi, me, p0, tol, K, accel, verbose⟩ ⟨A, Targets.two Y⟩)
          (pyBlockMCP srt (.float a) (.float b) (pySettings mi me p0 K tol accel verbose) (.dense dt A) (.two Y))) ∧
      ((one <. a) = false →
        SeenMT (MultiTaskElasticNet.fit srt ⟨a, b, mi, me, p0, tol, K, accel, verbose⟩ ⟨A, Targets.two Y⟩)
          (pyMTElasticNet srt (.float a) (.float b) (pySettings mi me p0 K tol accel verbose) (.dense dt A)
            (.two Y)))) ∧
    (∀ A : CSC F, GoodDesign (.sparse dt true Y.nrows A) →
      SeenMT (MultiTaskLasso.fit srt ⟨a, mi, me, p0, tol, K, accel, verbose⟩ ⟨A, Targets.two Y⟩)
        (pyMTLasso srt (.float a) (pySettings mi me p0 K tol accel verbose) (.sparse dt true Y.nrows A) (.two Y)) ∧
      ((a <. one) = false →
        SeenMT (BlockMCPEstimator.fit srt ⟨a, b, mi, me, p0, tol, K, accel, verbose⟩ ⟨A, Targets.two Y⟩)
          (pyBlockMCP srt (.float a) (.float b) (pySettings mi me p0 K tol accel verbose) (.sparse dt true Y.nrows A)
            (.two Y))) ∧
      ((one <. a) = false →
        SeenMT (MultiTaskElasticNet.fit srt ⟨a, b, mi, me, p0, tol, K, accel, verbose⟩ ⟨A, Targets.two Y⟩)
          (pyMTElasticNet srt (.float a) (.float b) (pySettings mi me p0 K tol accel verbose) (.sparse dt true Y.nrows A)
            (.two Y)))) := by
  have hv := Py.validate_ok mi me p0 K ht accel verbose
  refine ⟨fun A hA hn => ⟨?_, fun h => ?_, fun h => ?_⟩, fun A hA => ⟨?_, fun h => ?_, fun h => ?_⟩⟩
  · unfold pyMTLasso
    rw [lassoInit_ok ha]
    dsimp only [bind, Except.bind]
    unfold Py.multiTaskLassoFit
    rw [fitMulti_dense hv hdt hA hy hn]
    exact seenMT_of _ fun W hW => fit_shaped srt _ (fun p : LassoParams F => L21.mk p.alpha) (·.solver) _ _ W hW
  · unfold pyBlockMCP
    rw [mcpInit_ok ha h]
    dsimp only [bind, Except.bind]
    unfold Py.blockMcpFit
    rw [fitMulti_dense hv hdt hA hy hn]
    exact seenMT_of _ fun W hW => fit_shaped srt _ (fun p : MCParams F => BlockMCP.mk p.alpha p.gamma) (·.solver) _ _ W hW
  · unfold pyMTElasticNet
    rw [elasticNetInit_ok ha h]
    dsimp only [bind, Except.bind]
    unfold Py.multiTaskElasticNetFit
    rw [fitMulti_dense hv hdt hA hy hn]
    exact seenMT_of _ fun W hW =>
      fit_shaped srt _ (fun p : ElasticNetParams F => BlockL1PlusL2.mk p.alpha p.l1Ratio) (·.solver) _ _ W hW
  · unfold pyMTLasso
    rw [lassoInit_ok ha]
    dsimp only [bind, Except.bind]
    unfold Py.multiTaskLassoFit
    rw [fitMulti_sparse hv hdt hA hy]
    exact seenMT_of _ fun W hW => fit_shaped srt _ (fun p : LassoParams F => L21.mk p.alpha) (·.solver) _ _ W hW
  · unfold pyBlockMCP
    rw [mcpInit_ok ha h]
    dsimp only [bind, Except.bind]
    unfold Py.blockMcpFit
    rw [fitMulti_sparse hv hdt hA hy]
    exact seenMT_of _ fun W hW => fit_shaped srt _ (fun p : MCParams F => BlockMCP.mk p.alpha p.gamma) (·.solver) _ _ W hW
  · unfold pyMTElasticNet
    rw [elasticNetInit_ok ha h]
    dsimp only [bind, Except.bind]
    unfold Py.multiTaskElasticNetFit
    rw [fitMulti_sparse hv hdt hA hy]
    exact seenMT_of _ fun W hW =>
      fit_shaped srt _ (fun p : ElasticNetParams F => BlockL1PlusL2.mk p.alpha p.l1Ratio) (·.solver) _ _ W hW

end

/-! Examples for C51. -/

section
open Test

/-- Two samples, one feature. -/
noncomputable def pyX : PyDesign XR := .dense .f64 (mat fun (i : Fin 2) (_ : Fin 1) => (i : ℝ))
/-- Targets. -/
noncomputable def pyY : PyTargets XR := .one (vec fun i : Fin 2 => 2 * (i : ℝ))

theorem finiteVal_fin (r : ℝ) : FiniteVal (XR.fin r) := by
  constructor
  · show (!(decide (r = r))) = false
    rw [decide_eq_true rfl]; rfl
  · rfl

theorem goodTargets_vec {n : ℕ} (hn : 0 < n) (y : Fin n → ℝ) : GoodTargets (.one (vec y)) := by
  refine ⟨fun x hx => ?_, ?_⟩
  · obtain ⟨i, rfl⟩ := (List.mem_ofFn' _ _).mp (show x ∈ vec y from hx)
    exact finiteVal_fin _
  · show 0 < (vec y).length
    simpa [vec] using hn

theorem goodDesign_mat {n p : ℕ} (hn : 0 < n) (hp : 0 < p) (dt : DType) (X : Fin n → Fin p → ℝ) :
    GoodDesign (.dense dt (mat X)) := by
  refine ⟨fun x hx => ?_, ?_, hp⟩
  · obtain ⟨r, hr, hx⟩ := List.mem_flatten.mp (show x ∈ (mat X).rows.flatten from hx)
    obtain ⟨i, rfl⟩ := (List.mem_ofFn' _ _).mp (show r ∈ (mat X).rows from hr)
    obtain ⟨j, rfl⟩ := (List.mem_ofFn' _ _).mp hx
    exact finiteVal_fin _
  · show 0 < (mat X).rows.length
    simpa [mat] using hn

theorem goodTargets_mat {n t : ℕ} (hn : 0 < n) (ht : 0 < t) (Y : Fin n → Fin t → ℝ) : GoodTargets (.two (mat Y)) := by
  obtain ⟨h1, h2⟩ := goodDesign_mat hn ht .f64 Y
  exact ⟨h1, h2⟩

example : (XR.fin 1 <. (zero : XR)) = false ∧ (XR.fin 1 <. (one : XR)) = false ∧
    GoodDesign pyX ∧ GoodTargets pyY :=
  ⟨by show decide ((1:ℝ) < 0) = false; rw [decide_eq_false_iff_not]; norm_num,
    by show decide ((1:ℝ) < 1) = false; rw [decide_eq_false_iff_not]; norm_num,
    goodDesign_mat (by omega) (by omega) _ _, goodTargets_vec (by omega) _⟩

end

/-! ## Inversion: when a Python fit gives coefficients -/

section
variable {F : Type} [Scalar F]

omit [Scalar F] in
theorem callWrapper_ok {E R : Type} {X : PyDesign F} {f : Mat F → M (Except E R)} {g : CSC F → M (Except E R)} {r : R}
    (h : Py.callWrapper (pyKept X) f g = .ok r) :
    (∃ dt A, dt ≠ .f32 ∧ X = .dense dt A ∧ f A = .ok (.ok r)) ∨
      (∃ dt n A, dt ≠ .f32 ∧ X = .sparse dt true n A ∧ g A = .ok (.ok r)) := by
  have key : ∀ m : M (Except E R), Py.unwrapped m = .ok r → m = .ok (.ok r) := by
    intro m hm
    rcases m with e | (e | w)
    · cases hm
    · cases hm
    · injection hm with hm; rw [hm]
  cases X with
  | dense dt A =>
    cases dt with
    | f32 => cases h
    | f64 => exact .inl ⟨_, A, by decide, rfl, key _ h⟩
    | other => exact .inl ⟨_, A, by decide, rfl, key _ h⟩
  | sparse dt i n A =>
    cases i with
    | false => cases dt <;> cases h
    | true =>
      cases dt with
      | f32 => cases h
      | f64 => exact .inr ⟨_, n, A, by decide, rfl, key _ h⟩
      | other => exact .inr ⟨_, n, A, by decide, rfl, key _ h⟩

theorem fitSingle_ok {E : Type} {s : PySettings F} {X : PyDesign F} {y : PyTargets F}
    {f : Py.Checked F → Mat F → List F → M (Except E (List F))}
    {g : Py.Checked F → CSC F → List F → M (Except E (List F))} {r : PyCoef F} (h : Py.fitSingle s X y f g = .ok r) :
    ∃ c y' w, Py.validateParams s = .ok c ∧ GoodDesign X ∧ GoodTargets y ∧ y = .one y' ∧ r = .one w ∧
      ((∃ dt A, dt ≠ .f32 ∧ X = .dense dt A ∧ f c A y' = .ok (.ok w)) ∨
        (∃ dt n A, dt ≠ .f32 ∧ X = .sparse dt true n A ∧ g c A y' = .ok (.ok w))) := by
  unfold Py.fitSingle at h
  cases hc : Py.validateParams s with
  | error e => rw [hc] at h; cases h
  | ok c =>
    rw [hc] at h
    dsimp only [bind, Except.bind] at h
    rcases Py.checkDesign_cases false X with ⟨h1, h2, h3⟩ | ⟨h1, h3⟩
    · rw [h3] at h
      dsimp only at h
      rcases Py.checkTargets_cases y with ⟨h4, h5⟩ | ⟨h4, h5⟩
      · rw [h5] at h
        dsimp only at h
        cases y with
        | two Y => cases h
        | one y =>
          dsimp only at h
          cases hw : Py.callWrapper (pyKept X) (fun A => f c A y) (fun A => g c A y) with
          | error e => rw [hw] at h; cases h
          | ok w =>
            rw [hw] at h
            injection h with h
            exact ⟨c, y, w, rfl, h1, h4, rfl, h.symm, callWrapper_ok hw⟩
      · rw [h5] at h; cases h
    · rw [h3] at h; cases h

theorem fitMulti_ok {E : Type} {s : PySettings F} {X : PyDesign F} {y : PyTargets F}
    {f : Py.Checked F → Mat F → Mat F → M (Except E (Mat F))}
    {g : Py.Checked F → CSC F → Mat F → M (Except E (Mat F))} {r : PyCoef F} (h : Py.fitMulti s X y f g = .ok r) :
    ∃ c Y W, Py.validateParams s = .ok c ∧ GoodDesign X ∧ GoodTargets y ∧ y = .two Y ∧ X.nSamples = Y.nrows ∧
      ((∃ dt A, dt ≠ .f32 ∧ X = .dense dt A ∧ f c A Y = .ok (.ok W)) ∨
        (∃ dt n A, dt ≠ .f32 ∧ X = .sparse dt true n A ∧ g c A Y = .ok (.ok W))) := by
  unfold Py.fitMulti at h
  cases hc : Py.validateParams s with
  | error e => rw [hc] at h; cases h
  | ok c =>
    rw [hc] at h
    dsimp only [bind, Except.bind] at h
    rcases Py.checkDesign_cases true X with ⟨h1, h2, h3⟩ | ⟨h1, h3⟩
    · rw [h3] at h
      dsimp only at h
      rcases Py.checkTargets_cases y with ⟨h4, h5⟩ | ⟨h4, h5⟩
      · rw [h5] at h
        dsimp only at h
        cases y with
        | one Y => cases h
        | two Y =>
          dsimp only at h
          by_cases hn : (pyKept X).nSamples ≠ Y.nrows
          · rw [if_pos hn] at h; cases h
          · rw [if_neg hn] at h
            have hn' : X.nSamples = Y.nrows := by
              rw [← not_not.mp hn]; cases X <;> rfl
            cases hw : Py.callWrapper (pyKept X) (fun A => f c A Y) (fun A => g c A Y) with
            | error e => rw [hw] at h; cases h
            | ok W => exact ⟨c, Y, W, rfl, h1, h4, rfl, hn', callWrapper_ok hw⟩
      · rw [h5] at h; cases h
    · rw [h3] at h; cases h

/-- Before the Rust code is called only `ValueError`s occur; bad data never get further. -/
theorem fitSingle_bad {E : Type} (s : PySettings F) (X : PyDesign F) (y : PyTargets F)
    (f : Py.Checked F → Mat F → List F → M (Except E (List F)))
    (g : Py.Checked F → CSC F → List F → M (Except E (List F))) (h : ¬ (GoodDesign X ∧ GoodTargets y)) :
    ∃ what, Py.fitSingle s X y f g = .error (.valueError what) := by
  unfold Py.fitSingle
  rcases Py.validate_error s with ⟨c, hc⟩ | ⟨w, hc⟩
  · rw [hc]
    dsimp only [bind, Except.bind]
    rcases Py.checkDesign_cases false X with ⟨h1, h2, h3⟩ | ⟨h1, h3⟩
    · rw [h3]
      dsimp only
      rcases Py.checkTargets_cases y with ⟨h4, h5⟩ | ⟨h4, h5⟩
      · exact absurd ⟨h1, h4⟩ h
      · rw [h5]; exact ⟨_, rfl⟩
    · rw [h3]; exact ⟨_, rfl⟩
  · rw [hc]; exact ⟨_, rfl⟩

theorem fitMulti_bad {E : Type} (s : PySettings F) (X : PyDesign F) (y : PyTargets F)
    (f : Py.Checked F → Mat F → Mat F → M (Except E (Mat F)))
    (g : Py.Checked F → CSC F → Mat F → M (Except E (Mat F))) (h : ¬ (GoodDesign X ∧ GoodTargets y)) :
    ∃ what, Py.fitMulti s X y f g = .error (.valueError what) := by
  unfold Py.fitMulti
  rcases Py.validate_error s with ⟨c, hc⟩ | ⟨w, hc⟩
  · rw [hc]
    dsimp only [bind, Except.bind]
    rcases Py.checkDesign_cases true X with ⟨h1, h2, h3⟩ | ⟨h1, h3⟩
    · rw [h3]
      dsimp only
      rcases Py.checkTargets_cases y with ⟨h4, h5⟩ | ⟨h4, h5⟩
      · exact absurd ⟨h1, h4⟩ h
      · rw [h5]; exact ⟨_, rfl⟩
    · rw [h3]; exact ⟨_, rfl⟩
  · rw [hc]; exact ⟨_, rfl⟩

theorem checkAlpha_cases (a : PyArg F) :
    (∃ x, a = .float x ∧ (x <. zero) = false ∧ Py.checkAlpha a = .ok x) ∨
      Py.checkAlpha a = .error (.valueError "alpha") := by
  cases a with
  | float x =>
    cases h : (x <. zero) with
    | true => right; unfold Py.checkAlpha; dsimp only; rw [h]; rfl
    | false => exact .inl ⟨x, rfl, h, lassoInit_ok h⟩
  | _ => exact .inr rfl

theorem mcpInit_cases (a g : PyArg F) :
    (∃ x z, a = .float x ∧ g = .float z ∧ (x <. zero) = false ∧ (x <. one) = false ∧ Py.mcpInit a g = .ok (x, z)) ∨
      ∃ what, Py.mcpInit a g = .error (.valueError what) := by
  rcases checkAlpha_cases a with ⟨x, rfl, h1, h2⟩ | h2
  · cases g with
    | float z =>
      cases h : (x <. one) with
      | true => right; unfold Py.mcpInit; rw [h2]; dsimp only [bind, Except.bind]; rw [h]; exact ⟨_, rfl⟩
      | false => exact .inl ⟨x, z, rfl, rfl, h1, h, mcpInit_ok h1 h z⟩
    | _ => right; unfold Py.mcpInit; rw [h2]; exact ⟨_, rfl⟩
  · right; unfold Py.mcpInit; rw [h2]; exact ⟨_, rfl⟩

theorem elasticNetInit_cases (a g : PyArg F) :
    (∃ x z, a = .float x ∧ g = .float z ∧ (x <. zero) = false ∧ (one <. x) = false ∧
        Py.elasticNetInit a g = .ok (x, z)) ∨
      ∃ what, Py.elasticNetInit a g = .error (.valueError what) := by
  rcases checkAlpha_cases a with ⟨x, rfl, h1, h2⟩ | h2
  · cases g with
    | float z =>
      cases h : (one <. x) with
      | true => right; unfold Py.elasticNetInit; rw [h2]; dsimp only [bind, Except.bind]; rw [h, h1]; exact ⟨_, rfl⟩
      | false => exact .inl ⟨x, z, rfl, rfl, h1, h, elasticNetInit_ok h1 h z⟩
    | _ => right; unfold Py.elasticNetInit; rw [h2]; exact ⟨_, rfl⟩
  · right; unfold Py.elasticNetInit; rw [h2]; exact ⟨_, rfl⟩

/-- A script is a `ValueError` of the constructor or one of the six fits. -/
theorem run_cases (srt : Argsort F) (k : PyScript F) (s : PySettings F) (X : PyDesign F) (y : PyTargets F) :
    (∃ what, k.run srt s X y = .error (.valueError what)) ∨
    (k.Single ∧ ((∃ a, k.run srt s X y = Py.lassoFit srt a s X y) ∨ (∃ a b, k.run srt s X y = Py.mcpFit srt a b s X y) ∨
      (∃ a b, k.run srt s X y = Py.elasticNetFit srt a b s X y))) ∨
    (¬ k.Single ∧ ((∃ a, k.run srt s X y = Py.multiTaskLassoFit srt a s X y) ∨
      (∃ a b, k.run srt s X y = Py.blockMcpFit srt a b s X y) ∨
      (∃ a b, k.run srt s X y = Py.multiTaskElasticNetFit srt a b s X y))) := by
  cases k with
  | lasso a =>
    rcases checkAlpha_cases a with ⟨x, -, -, h⟩ | h
    · exact .inr (.inl ⟨trivial, .inl ⟨x, by show pyLasso srt a s X y = _; unfold pyLasso Py.lassoInit; rw [h]; rfl⟩⟩)
    · exact .inl ⟨_, by show pyLasso srt a s X y = _; unfold pyLasso Py.lassoInit; rw [h]; rfl⟩
  | mcp a g =>
    rcases mcpInit_cases a g with ⟨x, z, -, -, -, -, h⟩ | ⟨w, h⟩
    · exact .inr (.inl ⟨trivial, .inr (.inl ⟨x, z, by show pyMCP srt a g s X y = _; unfold pyMCP; rw [h]; rfl⟩)⟩)
    · exact .inl ⟨_, by show pyMCP srt a g s X y = _; unfold pyMCP; rw [h]; rfl⟩
  | elasticNet a g =>
    rcases elasticNetInit_cases a g with ⟨x, z, -, -, -, -, h⟩ | ⟨w, h⟩
    · exact .inr (.inl ⟨trivial, .inr (.inr ⟨x, z, by
        show pyElasticNet srt a g s X y = _; unfold pyElasticNet; rw [h]; rfl⟩)⟩)
    · exact .inl ⟨_, by show pyElasticNet srt a g s X y = _; unfold pyElasticNet; rw [h]; rfl⟩
  | mtLasso a =>
    rcases checkAlpha_cases a with ⟨x, -, -, h⟩ | h
    · exact .inr (.inr ⟨id, .inl ⟨x, by show pyMTLasso srt a s X y = _; unfold pyMTLasso Py.lassoInit; rw [h]; rfl⟩⟩)
    · exact .inl ⟨_, by show pyMTLasso srt a s X y = _; unfold pyMTLasso Py.lassoInit; rw [h]; rfl⟩
  | blockMCP a g =>
    rcases mcpInit_cases a g with ⟨x, z, -, -, -, -, h⟩ | ⟨w, h⟩
    · exact .inr (.inr ⟨id, .inr (.inl ⟨x, z, by show pyBlockMCP srt a g s X y = _; unfold pyBlockMCP; rw [h]; rfl⟩)⟩)
    · exact .inl ⟨_, by show pyBlockMCP srt a g s X y = _; unfold pyBlockMCP; rw [h]; rfl⟩
  | mtElasticNet a g =>
    rcases elasticNetInit_cases a g with ⟨x, z, -, -, -, -, h⟩ | ⟨w, h⟩
    · exact .inr (.inr ⟨id, .inr (.inr ⟨x, z, by
        show pyMTElasticNet srt a g s X y = _; unfold pyMTElasticNet; rw [h]; rfl⟩)⟩)
    · exact .inl ⟨_, by show pyMTElasticNet srt a g s X y = _; unfold pyMTElasticNet; rw [h]; rfl⟩

end

/-! ## C52: predictions -/

/-- The full statement of C52: `predict` of a fitted single-task estimator is the matrix product. -/
def C52_full : Prop :=
  ∀ (n p : ℕ) (X : Fin n → Fin p → ℝ) (w : Fin p → ℝ),
    Py.predict (some (.one (vec w))) (mat X) = .ok (.one (vec fun i => ∑ j, X i j * w j))

/-- **C52 (partial).** What `predict` does: without a fit it raises the "must be fitted" exception; with a single
non-zero coefficient it is the product; with a single zero coefficient it claims that the estimator is not fitted;
with two or more coefficients it raises a `ValueError`.  Missing: everything but the case of one non-zero coefficient. -/
theorem C52_predict_partial {n p : ℕ} (X : Fin n → Fin p → ℝ) (w : Fin p → ℝ) :
    (Py.predict none (mat X) = .error .notFitted) ∧
    (p = 1 → (∃ j, w j ≠ 0) →
      Py.predict (some (.one (vec w))) (mat X) = .ok (.one (vec fun i => ∑ j, X i j * w j))) ∧
    (p = 1 → (∀ j, w j = 0) → Py.predict (some (.one (vec w))) (mat X) = .error .notFitted) ∧
    (2 ≤ p → Py.predict (some (.one (vec w))) (mat X) = .error (.valueError "truth value")) := by
  refine ⟨rfl, fun hp hw => ?_, fun hp hw => ?_, fun hp => ?_⟩
  · subst hp
    obtain ⟨j, hj⟩ := hw
    have hj0 : w 0 ≠ 0 := by rwa [Subsingleton.elim j 0] at hj
    have hv : vec w = [XR.fin (w 0)] := by simp [vec]
    have ht : Py.truth (some (.one (vec w))) = .ok true := by
      rw [hv]
      show Except.ok (!(decide (w 0 = 0))) = _
      rw [decide_eq_false hj0]; rfl
    unfold Py.predict
    rw [ht]
    show Py.matmulT (mat X) (.one (vec w)) = _
    unfold Py.matmulT
    dsimp only
    rw [if_pos (by simp [mat, vec])]
    congr 2
    show (List.ofFn fun i => vec (X i)).map (fun r => dot r (vec w)) = _
    rw [List.map_ofFn]
    refine List.ofFn_inj.mpr (funext fun i => ?_)
    exact dot_vec _ _
  · subst hp
    have hv : vec w = [XR.fin (w 0)] := by simp [vec]
    have ht : Py.truth (some (.one (vec w))) = .ok false := by
      rw [hv]
      show Except.ok (!(decide (w 0 = 0))) = _
      rw [decide_eq_true (hw 0)]; rfl
    unfold Py.predict
    rw [ht]; rfl
  · obtain ⟨q, rfl⟩ : ∃ q, p = q + 2 := ⟨p - 2, by omega⟩
    unfold Py.predict
    have ht : Py.truth (some (.one (vec w))) = .error (.valueError "truth value") := by
      have hv : ∃ a b t, vec w = a :: b :: t := by
        unfold vec; rw [List.ofFn_succ, List.ofFn_succ]; exact ⟨_, _, _, rfl⟩
      obtain ⟨a, b, t, hv⟩ := hv
      rw [hv]; rfl
    rw [ht]; rfl

/-- A design whose number of columns differs from the number of coefficients is never accepted. -/
theorem C52_columns {F : Type} [Scalar F] (c : PyCoef F) (X : Mat F)
    (h : match c with | .one w => X.ncols ≠ w.length | .two V => X.ncols ≠ V.ncols) (r : PyCoef F) :
    Py.predict (some c) X ≠ .ok r := by
  unfold Py.predict
  intro h1
  cases ht : Py.truth (some c) with
  | error e => rw [ht] at h1; cases h1
  | ok t =>
    rw [ht] at h1
    cases t with
    | false => cases h1
    | true =>
      change Py.matmulT X c = _ at h1
      unfold Py.matmulT at h1
      cases c with
      | one w => dsimp only at h h1; rw [if_neg h] at h1; cases h1
      | two V => dsimp only at h h1; rw [if_neg h] at h1; cases h1

example : (mat ![![1, 2], ![3, 4]] : Mat XR).ncols ≠ (vec ![(2 : ℝ)]).length := by decide

/-- **C52 is false of the code.** -/
theorem C52_false : ¬ C52_full := by
  intro h
  have h1 := h 1 2 (fun _ _ => 1) (fun _ => 1)
  rw [(C52_predict_partial (fun (_ : Fin 1) (_ : Fin 2) => (1:ℝ)) (fun _ => 1)).2.2.2 le_rfl] at h1
  cases h1

example : ∃ j : Fin 1, (fun _ : Fin 1 => (2:ℝ)) j ≠ 0 := ⟨0, by norm_num⟩

section
variable {F : Type} [Scalar F]

theorem fit1_solve {DM Params P : Type} [DesignMatrix F DM] [Datafit F DM (Quadratic F)] [Penalty F P]
    (srt : Argsort F) (ds : Dataset DM F) (pen : Params → P) (cfg : Params → Solver F)
    (chk : Params → Except (EstimatorError F) Params) (p : Params) (w : List F)
    (h : guardedFit chk (fun p => do
      let (st, _, _) ← coordinateDescent srt ds (Quadratic.new : Quadratic F) (pen p) (cfg p)
      pure (.ok st.w)) p = .ok (.ok w)) :
    ∃ q, chk p = .ok q ∧ (cfg q).solve srt ds (Quadratic.new : Quadratic F) (pen q) = .ok w := by
  unfold guardedFit at h
  cases hc : chk p with
  | error e => rw [hc] at h; cases h
  | ok q =>
    rw [hc] at h
    dsimp only at h
    rw [fitCD_eq] at h
    refine ⟨q, rfl, ?_⟩
    cases hs : (cfg q).solve srt ds (Quadratic.new : Quadratic F) (pen q) with
    | error e => rw [hs] at h; cases h
    | ok w' =>
      rw [hs] at h
      injection h with h
      injection h with h
      rw [h]

omit [Scalar F] in
theorem fitMT_check {Params R : Type} (chk : Params → Except (EstimatorError F) Params)
    (f : Params → M (Except (EstimatorError F) R)) (p : Params) (w : R) (h : guardedFit chk f p = .ok (.ok w)) :
    ∃ q, chk p = .ok q := by
  unfold guardedFit at h
  cases hc : chk p with
  | error e => rw [hc] at h; cases h
  | ok q => exact ⟨q, rfl⟩

/-- A successful single-task Python fit on dense data is a run of the solver on them. -/
theorem single_dense_ok {srt : Argsort F} {k : PyScript F} (hk : k.Single) {s : PySettings F} {dt : DType} {A : Mat F}
    {y : PyTargets F} {c : PyCoef F} (h : k.run srt s (.dense dt A) y = .ok c) :
    ∃ y' w, y = .one y' ∧ c = .one w ∧
      ((∃ cfg : Solver F, ∃ a : F, cfg.solve srt ⟨A, Targets.one y'⟩ (Quadratic.new : Quadratic F) (L1.mk a) = .ok w) ∨
       (∃ cfg : Solver F, ∃ a b : F, cfg.solve srt ⟨A, Targets.one y'⟩ (Quadratic.new : Quadratic F) (MCP.mk a b) = .ok w) ∨
       (∃ cfg : Solver F, ∃ a b : F,
         cfg.solve srt ⟨A, Targets.one y'⟩ (Quadratic.new : Quadratic F) (L1PlusL2.mk a b) = .ok w)) := by
  rcases run_cases srt k s (.dense dt A) y with ⟨e, h'⟩ | ⟨-, ⟨a, h'⟩ | ⟨a, b, h'⟩ | ⟨a, b, h'⟩⟩ | ⟨h', -⟩
  · rw [h'] at h; cases h
  · rw [h'] at h
    obtain ⟨c', y', w, -, -, -, hy, hr, ⟨_, A', -, hX, hf⟩ | ⟨_, _, _, -, hX, -⟩⟩ := fitSingle_ok h
    · injection hX with _ hX
      subst hX
      obtain ⟨q, -, hq⟩ := fit1_solve srt _ (fun p : LassoParams F => L1.mk p.alpha) (·.solver) _ _ w hf
      exact ⟨y', w, hy, hr, .inl ⟨_, _, hq⟩⟩
    · cases hX
  · rw [h'] at h
    obtain ⟨c', y', w, -, -, -, hy, hr, ⟨_, A', -, hX, hf⟩ | ⟨_, _, _, -, hX, -⟩⟩ := fitSingle_ok h
    · injection hX with _ hX
      subst hX
      obtain ⟨q, -, hq⟩ := fit1_solve srt _ (fun p : MCParams F => MCP.mk p.alpha p.gamma) (·.solver) _ _ w hf
      exact ⟨y', w, hy, hr, .inr (.inl ⟨_, _, _, hq⟩)⟩
    · cases hX
  · rw [h'] at h
    obtain ⟨c', y', w, -, -, -, hy, hr, ⟨_, A', -, hX, hf⟩ | ⟨_, _, _, -, hX, -⟩⟩ := fitSingle_ok h
    · injection hX with _ hX
      subst hX
      obtain ⟨q, -, hq⟩ :=
        fit1_solve srt _ (fun p : ElasticNetParams F => L1PlusL2.mk p.alpha p.l1Ratio) (·.solver) _ _ w hf
      exact ⟨y', w, hy, hr, .inr (.inr ⟨_, _, _, hq⟩)⟩
    · cases hX
  · exact absurd hk h'

/-- After every successful single-task fit on a dense design with at least two features, `predict` raises
`ValueError`, whatever the data. -/
theorem C52_after_fit {srt : Argsort F} {k : PyScript F} (hk : k.Single) {s : PySettings F} {dt : DType} {A : Mat F}
    (hA : 2 ≤ A.ncols) {y : PyTargets F} {c : PyCoef F} (h : k.run srt s (.dense dt A) y = .ok c) (X : Mat F) :
    Py.predict (some c) X = .error (.valueError "truth value") := by
  obtain ⟨y', w, -, rfl, h'⟩ := single_dense_ok hk h
  have hl : A.ncols = w.length := by
    rcases h' with ⟨cfg, a, h'⟩ | ⟨cfg, a, b, h'⟩ | ⟨cfg, a, b, h'⟩ <;>
    · have := C24_solve_length srt cfg _ _ _ w h'
      injection this
  rw [hl] at hA
  have hw : ∃ a b t, w = a :: b :: t := by
    match w, hA with
    | a :: b :: t, _ => exact ⟨a, b, t, rfl⟩
  obtain ⟨a, b, t, rfl⟩ := hw
  rfl

end

/-! ## C53: invalid hyperparameters -/

/-- The full statement of C53 (for `Lasso`): hyperparameters which the Rust estimator rejects raise a `ValueError`. -/
def C53_full : Prop :=
  ∀ (srt : Argsort XR) (a tol : XR) (mi me p0 K : ℕ) (accel verbose : Bool) (X : Mat XR) (y : List XR),
    GoodDesign (.dense .f64 X) → GoodTargets (.one y) →
    (∃ e, LassoParams.check (⟨a, mi, me, p0, tol, K, accel, verbose⟩ : LassoParams XR) = .error e) →
    ∃ what, pyLasso srt (.float a) (pySettings mi me p0 K tol accel verbose) (.dense .f64 X) (.one y) =
      .error (.valueError what)

section
variable {F : Type} [Scalar F]

/-- **C53 (partial), 1.** Settings of the wrong type or below zero raise a `ValueError`, for every estimator and all
data. -/
theorem C53_types_partial (srt : Argsort F) (k : PyScript F) (s : PySettings F) (X : PyDesign F) (y : PyTargets F)
    (h : ¬ (NonNegInt s.maxIter ∧ NonNegInt s.maxEpochs ∧ NonNegInt s.p0 ∧ NonNegInt s.K ∧ NonNegFloat s.tol)) :
    ∃ what, k.run srt s X y = .error (.valueError what) := by
  have hi : ∀ (nm : String) (a : PyArg F) (r : ℕ), Py.checkInt nm a = .ok r → NonNegInt a := by
    intro nm a r hr
    cases a with
    | int z =>
      unfold Py.checkInt at hr
      dsimp only at hr
      by_cases hz : z < 0
      · rw [if_pos hz] at hr; cases hr
      · exact not_lt.mp hz
    | _ => cases hr
  have hf : ∀ (nm : String) (a : PyArg F) (r : F), Py.checkFloat nm a = .ok r → NonNegFloat a := by
    intro nm a r hr
    cases a with
    | float z =>
      show (z <. zero) = false
      unfold Py.checkFloat at hr
      dsimp only at hr
      cases hz : (z <. zero) with
      | true => rw [hz] at hr; cases hr
      | false => rfl
    | _ => cases hr
  have hv : ∃ what, Py.validateParams s = .error (.valueError what) := by
    rcases Py.validate_error s with ⟨c, hc⟩ | h'
    · exfalso
      apply h
      unfold Py.validateParams at hc
      cases h1 : Py.checkInt "K" s.K with
      | error e => rw [h1] at hc; cases hc
      | ok a1 =>
        cases h2 : Py.checkInt "p0" s.p0 with
        | error e => rw [h1, h2] at hc; cases hc
        | ok a2 =>
          cases h3 : Py.checkFloat "tol" s.tol with
          | error e => rw [h1, h2, h3] at hc; cases hc
          | ok a3 =>
            cases h4 : Py.checkInt "max_iter" s.maxIter with
            | error e => rw [h1, h2, h3, h4] at hc; cases hc
            | ok a4 =>
              cases h5 : Py.checkInt "max_epochs" s.maxEpochs with
              | error e => rw [h1, h2, h3, h4, h5] at hc; cases hc
              | ok a5 => exact ⟨hi _ _ _ h4, hi _ _ _ h5, hi _ _ _ h2, hi _ _ _ h1, hf _ _ _ h3⟩
    · exact h'
  obtain ⟨what, hv⟩ := hv
  have h1 : ∀ {E : Type} (f : Py.Checked F → Mat F → List F → M (Except E (List F))) g,
      Py.fitSingle s X y f g = .error (.valueError what) := by
    intro E f g; unfold Py.fitSingle; rw [hv]; rfl
  have h2 : ∀ {E : Type} (f : Py.Checked F → Mat F → Mat F → M (Except E (Mat F))) g,
      Py.fitMulti s X y f g = .error (.valueError what) := by
    intro E f g; unfold Py.fitMulti; rw [hv]; rfl
  rcases run_cases srt k s X y with h' | ⟨-, ⟨a, h'⟩ | ⟨a, b, h'⟩ | ⟨a, b, h'⟩⟩ | ⟨-, ⟨a, h'⟩ | ⟨a, b, h'⟩ | ⟨a, b, h'⟩⟩
  · exact h'
  all_goals rw [h']
  · exact ⟨_, h1 _ _⟩
  · exact ⟨_, h1 _ _⟩
  · exact ⟨_, h1 _ _⟩
  · exact ⟨_, h2 _ _⟩
  · exact ⟨_, h2 _ _⟩
  · exact ⟨_, h2 _ _⟩

/-- **C53 (partial), 2.** Coefficients are only obtained for hyperparameters which the Rust estimator accepts.  Missing:
the rejection is reported as a `PanicException` (`C53_panic`), not as a `ValueError`. -/
theorem C53_only_valid_partial (srt : Argsort F) (mi me p0 K : ℕ) (tol : F) (ht : (tol <. zero) = false)
    (accel verbose : Bool) (a b : F) (X : PyDesign F) (y : PyTargets F) (c : PyCoef F) :
    (pyLasso srt (.float a) (pySettings mi me p0 K tol accel verbose) X y = .ok c →
      ∃ q, (⟨a, mi, me, p0, tol, K, accel, verbose⟩ : LassoParams F).checkRef = .ok q) ∧
    (pyMTLasso srt (.float a) (pySettings mi me p0 K tol accel verbose) X y = .ok c →
      ∃ q, (⟨a, mi, me, p0, tol, K, accel, verbose⟩ : LassoParams F).checkRef = .ok q) ∧
    (pyMCP srt (.float a) (.float b) (pySettings mi me p0 K tol accel verbose) X y = .ok c →
      ∃ q, (⟨a, b, mi, me, p0, tol, K, accel, verbose⟩ : MCParams F).checkRef = .ok q) ∧
    (pyBlockMCP srt (.float a) (.float b) (pySettings mi me p0 K tol accel verbose) X y = .ok c →
      ∃ q, (⟨a, b, mi, me, p0, tol, K, accel, verbose⟩ : MCParams F).checkRefBlock = .ok q) ∧
    (pyElasticNet srt (.float a) (.float b) (pySettings mi me p0 K tol accel verbose) X y = .ok c →
      ∃ q, (⟨a, b, mi, me, p0, tol, K, accel, verbose⟩ : ElasticNetParams F).checkRef = .ok q) ∧
    (pyMTElasticNet srt (.float a) (.float b) (pySettings mi me p0 K tol accel verbose) X y = .ok c →
      ∃ q, (⟨a, b, mi, me, p0, tol, K, accel, verbose⟩ : ElasticNetParams F).checkRef = .ok q) := by
  have hv := Py.validate_ok mi me p0 K ht accel verbose
  have inv : ∀ {A B E : Type} (m : Except E A) (f : A → Except E B) (r : B),
      (m >>= f) = .ok r → ∃ x, m = .ok x ∧ f x = .ok r := by
    intro A B E m f r h
    cases m with
    | error e => cases h
    | ok x => exact ⟨x, rfl, h⟩
  refine ⟨fun h => ?_, fun h => ?_, fun h => ?_, fun h => ?_, fun h => ?_, fun h => ?_⟩
  · obtain ⟨x, h1, h2⟩ := inv _ _ _ h
    rcases checkAlpha_cases (.float a) with ⟨x', e1, -, h3⟩ | h3
    · rw [show Py.lassoInit (.float a) = _ from h3] at h1
      injection h1 with h1; injection e1 with e1; subst h1; subst e1
      obtain ⟨c', y', w, hc, -, -, -, -, h4⟩ := fitSingle_ok h2
      rw [hv] at hc; injection hc with hc; subst hc
      rcases h4 with ⟨_, A, -, -, hf⟩ | ⟨_, _, A, -, -, hf⟩ <;> exact fitMT_check _ _ _ _ hf
    · rw [show Py.lassoInit (.float a) = _ from h3] at h1; cases h1
  · obtain ⟨x, h1, h2⟩ := inv _ _ _ h
    rcases checkAlpha_cases (.float a) with ⟨x', e1, -, h3⟩ | h3
    · rw [show Py.lassoInit (.float a) = _ from h3] at h1
      injection h1 with h1; injection e1 with e1; subst h1; subst e1
      obtain ⟨c', y', w, hc, -, -, -, -, h4⟩ := fitMulti_ok h2
      rw [hv] at hc; injection hc with hc; subst hc
      rcases h4 with ⟨_, A, -, -, hf⟩ | ⟨_, _, A, -, -, hf⟩ <;> exact fitMT_check _ _ _ _ hf
    · rw [show Py.lassoInit (.float a) = _ from h3] at h1; cases h1
  · obtain ⟨x, h1, h2⟩ := inv _ _ _ h
    rcases mcpInit_cases (.float a) (.float b) with ⟨x', z, e1, e2, -, -, h3⟩ | ⟨_, h3⟩
    · rw [h3] at h1
      injection h1 with h1; injection e1 with e1; injection e2 with e2; subst h1; subst e1; subst e2
      obtain ⟨c', y', w, hc, -, -, -, -, h4⟩ := fitSingle_ok h2
      rw [hv] at hc; injection hc with hc; subst hc
      rcases h4 with ⟨_, A, -, -, hf⟩ | ⟨_, _, A, -, -, hf⟩ <;> exact fitMT_check _ _ _ _ hf
    · rw [h3] at h1; cases h1
  · obtain ⟨x, h1, h2⟩ := inv _ _ _ h
    rcases mcpInit_cases (.float a) (.float b) with ⟨x', z, e1, e2, -, -, h3⟩ | ⟨_, h3⟩
    · rw [h3] at h1
      injection h1 with h1; injection e1 with e1; injection e2 with e2; subst h1; subst e1; subst e2
      obtain ⟨c', y', w, hc, -, -, -, -, h4⟩ := fitMulti_ok h2
      rw [hv] at hc; injection hc with hc; subst hc
      rcases h4 with ⟨_, A, -, -, hf⟩ | ⟨_, _, A, -, -, hf⟩ <;> exact fitMT_check _ _ _ _ hf
    · rw [h3] at h1; cases h1
  · obtain ⟨x, h1, h2⟩ := inv _ _ _ h
    rcases elasticNetInit_cases (.float a) (.float b) with ⟨x', z, e1, e2, -, -, h3⟩ | ⟨_, h3⟩
    · rw [h3] at h1
      injection h1 with h1; injection e1 with e1; injection e2 with e2; subst h1; subst e1; subst e2
      obtain ⟨c', y', w, hc, -, -, -, -, h4⟩ := fitSingle_ok h2
      rw [hv] at hc; injection hc with hc; subst hc
      rcases h4 with ⟨_, A, -, -, hf⟩ | ⟨_, _, A, -, -, hf⟩ <;> exact fitMT_check _ _ _ _ hf
    · rw [h3] at h1; cases h1
  · obtain ⟨x, h1, h2⟩ := inv _ _ _ h
    rcases elasticNetInit_cases (.float a) (.float b) with ⟨x', z, e1, e2, -, -, h3⟩ | ⟨_, h3⟩
    · rw [h3] at h1
      injection h1 with h1; injection e1 with e1; injection e2 with e2; subst h1; subst e1; subst e2
      obtain ⟨c', y', w, hc, -, -, -, -, h4⟩ := fitMulti_ok h2
      rw [hv] at hc; injection hc with hc; subst hc
      rcases h4 with ⟨_, A, -, -, hf⟩ | ⟨_, _, A, -, -, hf⟩ <;> exact fitMT_check _ _ _ _ hf
    · rw [h3] at h1; cases h1

/-- A hyperparameter which passes the Python checks and not the Rust ones crosses the boundary as a panic. -/
theorem C53_panic (srt : Argsort F) (mi me p0 K : ℕ) (tol : F) (ht : (tol <. zero) = false)
    (accel verbose : Bool) (a : F) (ha : (a <. zero) = false) (X : Mat F) (hX : GoodDesign (.dense .f64 X)) (y : List F)
    (hy : GoodTargets (.one y))
    (h : ∃ e, (⟨a, mi, me, p0, tol, K, accel, verbose⟩ : LassoParams F).check = .error e) :
    pyLasso srt (.float a) (pySettings mi me p0 K tol accel verbose) (.dense .f64 X) (.one y) =
      .error .panicException := by
  have h1 := (C51_single srt mi me p0 K tol ht accel verbose a a ha .f64 (by decide) y hy).1 X hX
  obtain ⟨e, h⟩ := h
  have h2 : Lasso.fit srt (⟨a, mi, me, p0, tol, K, accel, verbose⟩ : LassoParams F) ⟨X, Targets.one y⟩ =
      .ok (.error e) := by
    unfold Lasso.fit guardedFit
    unfold LassoParams.check at h
    cases hc : (⟨a, mi, me, p0, tol, K, accel, verbose⟩ : LassoParams F).checkRef with
    | error e' => rw [hc] at h; injection h with h; subst h; rfl
    | ok q => rw [hc] at h; cases h
  rw [h2] at h1
  exact h1.1

end

theorem lt_zero_false {r : ℝ} (h : 0 ≤ r) : (XR.fin r <. (zero : XR)) = false := by
  show decide (r < 0) = false
  rw [decide_eq_false_iff_not]; linarith

theorem badK : ∃ e, LassoParams.check (⟨XR.fin 1, 50, 1000, 10, XR.fin 0, 0, true, false⟩ : LassoParams XR) =
    .error e := by
  refine ⟨.invalidK 0, ?_⟩
  unfold LassoParams.check LassoParams.checkRef checkTail
  dsimp only
  rw [XR.s_signBit, XR.s_signBit, decide_eq_false (by norm_num), decide_eq_false (by norm_num)]
  rfl

/-- **C53 is false of the code**: `Lasso(alpha=1.0, K=0)`. -/
theorem C53_false : ¬ C53_full := by
  intro h
  obtain ⟨w, hw⟩ := h argsortIns (XR.fin 1) (XR.fin 0) 50 1000 10 0 true false _ _
    (goodDesign_mat (n := 2) (p := 1) (by omega) (by omega) .f64 fun i _ => (i : ℝ))
    (goodTargets_vec (n := 2) (by omega) fun i => (i : ℝ)) badK
  rw [C53_panic argsortIns 50 1000 10 0 (XR.fin 0) (lt_zero_false le_rfl) true false (XR.fin 1)
    (lt_zero_false zero_le_one) _
    (goodDesign_mat (n := 2) (p := 1) (by omega) (by omega) .f64 fun i _ => (i : ℝ)) _
    (goodTargets_vec (n := 2) (by omega) fun i => (i : ℝ)) badK] at hw
  cases hw

/-- A successful fit with two features, for `C52_after_fit`; its predictions are not available. -/
example : ∃ c, PyScript.run argsortIns (.lasso (.float (XR.fin 2))) (pySettings 50 1000 10 5 (XR.fin 0) true false)
      (.dense .f64 (mat ![![1, 0], ![0, 1]])) (.one (vec ![1, 1])) = .ok c ∧
    Py.predict (some c) (mat ![![1, 0], ![0, 1]]) = .error (.valueError "truth value") := by
  obtain ⟨a, h1, h2⟩ := C20_alpha_max (n := 2) (p := 2) (by norm_num) ![![1, 0], ![0, 1]] ![1, 1]
  have h3 : a ≤ 2 := (h2 2 (by norm_num)).mp (by
    rw [nullOptimal_iff (by norm_num)]
    intro j
    rw [quadGrad_zero]
    simp only [Fin.sum_univ_two]
    fin_cases j <;> norm_num)
  have h4 := C32_lasso (srt := argsortIns) argsortIns_spec (by norm_num) ![![1, 0], ![0, 1]] ![1, 1] a 2 0 h1 h3
    (by norm_num) le_rfl ⟨XR.fin 2, 50, 1000, 10, XR.fin 0, 5, true, false⟩ rfl rfl (by norm_num) (by norm_num)
  have h5 := ((C51_single argsortIns 50 1000 10 5 (XR.fin 0) (lt_zero_false le_rfl) true false (XR.fin 2) (XR.fin 2)
    (lt_zero_false (by norm_num)) .f64 (by decide) _ (goodTargets_vec (n := 2) (by norm_num) ![1, 1])).1 _
    (goodDesign_mat (by norm_num) (by norm_num) .f64 ![![1, 0], ![0, 1]])).1
  rw [show Lasso.fit argsortIns _ ⟨mat ![![1, 0], ![0, 1]], Targets.one (vec ![1, 1])⟩ = _ from h4] at h5
  have h6 : PyScript.run argsortIns (.lasso (.float (XR.fin 2))) (pySettings 50 1000 10 5 (XR.fin 0) true false)
      (.dense .f64 (mat ![![1, 0], ![0, 1]])) (.one (vec ![1, 1])) = .ok _ := h5
  exact ⟨_, h6, C52_after_fit (k := .lasso (.float (XR.fin 2))) trivial (by show 2 ≤ 2; exact le_rfl) h6 _⟩

/-- `Lasso(alpha=1.0, K=-1)`. -/
example (srt : Argsort XR) (X : PyDesign XR) (y : PyTargets XR) :
    ∃ what, PyScript.run srt (.lasso (.float (XR.fin 1)))
      ⟨.int 50, .int 1000, .float (XR.fin 0), .int 10, true, .int (-1), false⟩ X y = .error (.valueError what) :=
  C53_types_partial _ _ _ _ _ fun h => absurd (show (0:Int) ≤ -1 from h.2.2.2.1) (by decide)

/-! ## C54: `float32` data -/

/-- The full statement of C54: data with `float32` dtype are handled like the same values with `float64` dtype. -/
def C54_full : Prop :=
  ∀ (srt : Argsort XR) (k : PyScript XR) (s : PySettings XR) (X : Mat XR) (y : PyTargets XR),
    k.run srt s (.dense .f32 X) y = k.run srt s (.dense .f64 X) y

section
variable {F : Type} [Scalar F]

/-- **C54 (partial).** `float32` designs, dense or sparse, never give coefficients. -/
theorem C54_float32_partial (srt : Argsort F) (k : PyScript F) (s : PySettings F) (y : PyTargets F) (c : PyCoef F) :
    (∀ A : Mat F, k.run srt s (.dense .f32 A) y ≠ .ok c) ∧
    (∀ (i : Bool) (n : ℕ) (A : CSC F), k.run srt s (.sparse .f32 i n A) y ≠ .ok c) := by
  have key : ∀ X : PyDesign F, (∀ dt A, dt ≠ .f32 → X ≠ .dense dt A) → (∀ dt n A, dt ≠ .f32 → X ≠ .sparse dt true n A) →
      k.run srt s X y ≠ .ok c := by
    intro X hd hs h
    rcases run_cases srt k s X y with ⟨e, h'⟩ | ⟨-, ⟨a, h'⟩ | ⟨a, b, h'⟩ | ⟨a, b, h'⟩⟩ | ⟨-, ⟨a, h'⟩ | ⟨a, b, h'⟩ | ⟨a, b, h'⟩⟩
    · rw [h'] at h; cases h
    all_goals rw [h'] at h
    · obtain ⟨_, _, _, -, -, -, -, -, ⟨dt, A, h1, h2, -⟩ | ⟨dt, n, A, h1, h2, -⟩⟩ := fitSingle_ok h
      exacts [hd _ _ h1 h2, hs _ _ _ h1 h2]
    · obtain ⟨_, _, _, -, -, -, -, -, ⟨dt, A, h1, h2, -⟩ | ⟨dt, n, A, h1, h2, -⟩⟩ := fitSingle_ok h
      exacts [hd _ _ h1 h2, hs _ _ _ h1 h2]
    · obtain ⟨_, _, _, -, -, -, -, -, ⟨dt, A, h1, h2, -⟩ | ⟨dt, n, A, h1, h2, -⟩⟩ := fitSingle_ok h
      exacts [hd _ _ h1 h2, hs _ _ _ h1 h2]
    · obtain ⟨_, _, _, -, -, -, -, -, ⟨dt, A, h1, h2, -⟩ | ⟨dt, n, A, h1, h2, -⟩⟩ := fitMulti_ok h
      exacts [hd _ _ h1 h2, hs _ _ _ h1 h2]
    · obtain ⟨_, _, _, -, -, -, -, -, ⟨dt, A, h1, h2, -⟩ | ⟨dt, n, A, h1, h2, -⟩⟩ := fitMulti_ok h
      exacts [hd _ _ h1 h2, hs _ _ _ h1 h2]
    · obtain ⟨_, _, _, -, -, -, -, -, ⟨dt, A, h1, h2, -⟩ | ⟨dt, n, A, h1, h2, -⟩⟩ := fitMulti_ok h
      exacts [hd _ _ h1 h2, hs _ _ _ h1 h2]
  refine ⟨fun A => key _ (fun dt B h1 h2 => ?_) (fun dt n B h1 h2 => ?_),
    fun i n A => key _ (fun dt B h1 h2 => ?_) (fun dt n B h1 h2 => ?_)⟩
  · injection h2 with h2; exact h1 h2.symm
  · cases h2
  · cases h2
  · injection h2 with h2; exact h1 h2.symm

/-- On data and settings which pass all checks the exception is a `TypeError`. -/
theorem C54_type_error (srt : Argsort F) (mi me p0 K : ℕ) (tol : F) (ht : (tol <. zero) = false) (accel verbose : Bool)
    (a : F) (ha : (a <. zero) = false) (A : Mat F) (hA : GoodDesign (.dense .f32 A)) (y : List F)
    (hy : GoodTargets (.one y)) :
    pyLasso srt (.float a) (pySettings mi me p0 K tol accel verbose) (.dense .f32 A) (.one y) = .error .typeError := by
  unfold pyLasso
  rw [lassoInit_ok ha]
  dsimp only [bind, Except.bind]
  unfold Py.lassoFit Py.fitSingle
  rw [Py.validate_ok mi me p0 K ht accel verbose]
  dsimp only [bind, Except.bind]
  rw [Py.checkDesign_good hA trivial]
  dsimp only
  rw [Py.checkTargets_good hy]
  rfl

end

/-- **C54 is false of the code.** -/
theorem C54_false : ¬ C54_full := by
  intro h
  have hX := fun dt => goodDesign_mat (n := 2) (p := 1) (by omega) (by omega) dt fun i _ => (i : ℝ)
  have hy := goodTargets_vec (n := 2) (by omega) fun i => (i : ℝ)
  have h1 := h argsortIns (.lasso (.float (XR.fin 1))) (pySettings 50 1000 10 5 (XR.fin 0) true false)
    (mat fun (i : Fin 2) (_ : Fin 1) => (i : ℝ)) (.one (vec fun i : Fin 2 => (i : ℝ)))
  rw [show PyScript.run argsortIns (.lasso (.float (XR.fin 1))) _ (.dense .f32 _) _ = .error .typeError from
      C54_type_error argsortIns 50 1000 10 5 (XR.fin 0) (lt_zero_false le_rfl) true false (XR.fin 1)
        (lt_zero_false zero_le_one) _ (hX .f32) _ hy] at h1
  have h2 := ((C51_single argsortIns 50 1000 10 5 (XR.fin 0) (lt_zero_false le_rfl) true false (XR.fin 1) (XR.fin 1)
    (lt_zero_false zero_le_one) .f64 (by decide) _ hy).1 _ (hX .f64)).1
  rw [show pyLasso argsortIns (.float (XR.fin 1)) _ (.dense .f64 _) _ = .error .typeError from h1.symm] at h2
  unfold Seen1 at h2
  split at h2 <;> cases h2

/-! ## C55: NaN and infinities -/

section
variable {F : Type} [Scalar F]

/-- **C55.** Whatever the estimator and the arguments: NaN or infinite entries in the design or the targets, and empty
data, raise a `ValueError`. -/
theorem C55_nonfinite (srt : Argsort F) (k : PyScript F) (s : PySettings F) (X : PyDesign F) (y : PyTargets F)
    (h : (∃ x ∈ pyEntries X, ¬ FiniteVal x) ∨ (∃ x ∈ pyTargetEntries y, ¬ FiniteVal x) ∨ pyTargetSamples y = 0) :
    ∃ what, k.run srt s X y = .error (.valueError what) := by
  have hb : ¬ (GoodDesign X ∧ GoodTargets y) := by
    rintro ⟨h1, h2⟩
    rcases h with ⟨x, hx, h⟩ | ⟨x, hx, h⟩ | h
    · exact h (h1.1 x hx)
    · exact h (h2.1 x hx)
    · cases y with
      | one y =>
        have h3 : y.length = 0 := h
        have h4 : 0 < y.length := h2.2
        omega
      | two Y =>
        have h3 : Y.nrows = 0 := h
        have h4 : 0 < Y.nrows := h2.2.1
        omega
  rcases run_cases srt k s X y with h' | ⟨-, ⟨a, h'⟩ | ⟨a, b, h'⟩ | ⟨a, b, h'⟩⟩ | ⟨-, ⟨a, h'⟩ | ⟨a, b, h'⟩ | ⟨a, b, h'⟩⟩
  · exact h'
  all_goals rw [h']
  · exact fitSingle_bad s X y _ _ hb
  · exact fitSingle_bad s X y _ _ hb
  · exact fitSingle_bad s X y _ _ hb
  · exact fitMulti_bad s X y _ _ hb
  · exact fitMulti_bad s X y _ _ hb
  · exact fitMulti_bad s X y _ _ hb

end

/-- A NaN in the targets of an otherwise good dataset. -/
example : ∃ x ∈ pyTargetEntries (.one [XR.fin 1, XR.nan] : PyTargets XR), ¬ FiniteVal x :=
  ⟨XR.nan, List.mem_cons_of_mem _ List.mem_cons_self, fun h => by cases h.1⟩

/-! ## C56: numbers of samples -/

/-- The number of samples of a design. -/
def pyDesignSamples {F : Type} : PyDesign F → ℕ
  | .dense _ A => A.rows.length
  | .sparse _ _ n _ => n

/-- The full statement of C56: a fit on data with different numbers of samples never gives coefficients. -/
def C56_full : Prop :=
  ∀ (srt : Argsort XR) (k : PyScript XR) (s : PySettings XR) (X : PyDesign XR) (y : PyTargets XR) (c : PyCoef XR),
    Rectangular X → pyDesignSamples X ≠ pyTargetSamples y → k.run srt s X y ≠ .ok c

section
variable {F : Type} [Scalar F]

/-- **C56 (partial).** No coefficients for different numbers of samples: for the multi-task estimators, and for the
single-task estimators with a dense design.  Missing: single-task estimators with a sparse design (`C56_false`). -/
theorem C56_samples_partial (srt : Argsort F) (k : PyScript F) (s : PySettings F) (X : PyDesign F) (y : PyTargets F)
    (c : PyCoef F) (hX : Rectangular X) (hn : pyDesignSamples X ≠ pyTargetSamples y)
    (h : ¬ k.Single ∨ ∃ dt A, X = .dense dt A) : k.run srt s X y ≠ .ok c := by
  intro hok
  by_cases hk : k.Single
  · obtain ⟨dt, A, rfl⟩ := h.resolve_left (not_not.mpr hk)
    obtain ⟨y', w, rfl, -, h'⟩ := single_dense_ok hk hok
    have hA : Shaped A A.rows.length A.ncols := ⟨rfl, rfl, hX⟩
    rcases h' with ⟨cfg, a, h'⟩ | ⟨cfg, a, b, h'⟩ | ⟨cfg, a, b, h'⟩ <;>
    · rw [C46_quadratic srt cfg A hA y' hn] at h'
      cases h'
  · have key : ∀ {E : Type} (f : Py.Checked F → Mat F → Mat F → M (Except E (Mat F))) g,
        Py.fitMulti s X y f g ≠ .ok c := by
      intro E f g h'
      obtain ⟨_, Y, _, -, -, -, rfl, hs, -⟩ := fitMulti_ok h'
      apply hn
      cases X <;> exact hs
    rcases run_cases srt k s X y with ⟨e, h'⟩ | ⟨h', -⟩ | ⟨-, ⟨a, h'⟩ | ⟨a, b, h'⟩ | ⟨a, b, h'⟩⟩
    · rw [h'] at hok; cases hok
    · exact hk h'
    · rw [h'] at hok; exact key _ _ hok
    · rw [h'] at hok; exact key _ _ hok
    · rw [h'] at hok; exact key _ _ hok

end

/-- One stored entry, in the first of two rows. -/
noncomputable def tallCSC : CSCData 2 1 := ⟨1, ![1], ![0], ![0, 1], by decide⟩

theorem tall_null : NullOptimal tallCSC.dense ![2, 0] 1 := by
  rw [nullOptimal_iff (by norm_num)]
  intro j
  have h0 : ∀ i, tallCSC.dense i j = if i = 0 then 1 else 0 := by
    intro i
    have hj : j = 0 := Subsingleton.elim _ _
    subst hj
    have hc : tallCSC.InCol 0 (0 : Fin 1) := by constructor <;> decide
    unfold CSCData.dense
    refine (Fin.sum_univ_one _).trans ?_
    fin_cases i
    · rw [if_pos ⟨hc, rfl⟩]; rfl
    · rw [if_neg (fun h => absurd h.2 (by decide))]; rfl
  rw [quadGrad_zero]
  simp only [h0, Fin.sum_univ_two]
  norm_num

/-- **C56 is false of the code**: `Lasso(alpha=1.0).fit(X, y)` with a sparse `X` of shape `(3, 1)` and two targets
returns a coefficient. -/
theorem C56_false : ¬ C56_full := by
  intro h
  have hX : GoodDesign (.sparse .f64 true 3 tallCSC.toCSC) := by
    refine ⟨fun x hx => ?_, by norm_num, ?_⟩
    · obtain ⟨i, rfl⟩ := (List.mem_ofFn' _ _).mp (show x ∈ vec tallCSC.data from hx)
      exact finiteVal_fin _
    · show 1 < tallCSC.toCSC.indptr.length
      simp [CSCData.toCSC]
  have hy : GoodTargets (.one (vec ![2, 0])) := goodTargets_vec (by norm_num) _
  obtain ⟨a, h1, h2⟩ := C20_alpha_max (by norm_num) tallCSC.dense ![2, 0]
  have h3 : a ≤ 1 := (h2 1 zero_le_one).mp tall_null
  have h4 := C32_lasso_sparse (srt := argsortIns) argsortIns_spec (by norm_num) tallCSC ![2, 0] a 1 0
    (by rw [C20_alpha_max_sparse (by norm_num), h1]) h3 zero_le_one le_rfl
    ⟨XR.fin 1, 50, 1000, 10, XR.fin 0, 5, true, false⟩ rfl rfl (by norm_num) (by norm_num)
  have h5 := ((C51_single argsortIns 50 1000 10 5 (XR.fin 0) (lt_zero_false le_rfl) true false (XR.fin 1) (XR.fin 1)
    (lt_zero_false zero_le_one) .f64 (by decide) _ hy).2 _ 3 hX).1
  rw [show Lasso.fit argsortIns _ ⟨tallCSC.toCSC, Targets.one (vec ![2, 0])⟩ = _ from h4] at h5
  exact h argsortIns (.lasso (.float (XR.fin 1))) (pySettings 50 1000 10 5 (XR.fin 0) true false)
    (.sparse .f64 true 3 tallCSC.toCSC) (.one (vec ![2, 0])) _ trivial (by show 3 ≠ (vec ![2, 0]).length; simp [vec]) h5

end Sglm
