import Verif.Proofs.WeakGap
import Verif.Props.Iterations
import Verif.Props.Selection

/-!
# C74: fits with the MCP penalty

The penalty is not convex, a fit only reaches a stationary point.  If the curvature of the loss exceeds `1/γ` this point is the global
minimiser.  Large coefficients are not shrunk.
-/

namespace Sglm
open Scalar Spec
variable {n p T : ℕ}

theorem stops_stationary {srt : Argsort XR} (hs : ArgsortSpec srt) (hn : 0 < n) {D : Design n p} {y : Fin n → ℝ} {k : LossKind}
    {α γ : ℝ} (hα : 0 ≤ α) (hγ : 0 < γ) {cfg : Solver XR} {τ : ℝ} (ht : cfg.tolerance = XR.fin τ) {v : Fin p → ℝ}
    (h : Stops srt cfg D y k (.mcp α γ) v) : ApproxStationary D y k (frechetSubdiff (mcp α γ : ℝ → ℝ)) v τ := by
  obtain ⟨h1, st, log, h2, h3⟩ := h
  obtain ⟨v', h4, h5⟩ := C30_mcp hs hn D y k α γ hα hγ cfg τ ht st log h2 h3
  rw [h1] at h4
  rw [vec_injective (Except.ok.inj h4)]
  exact h5

theorem mcp_gap (hn : 0 < n) {D : Design n p} {y : Fin n → ℝ} {α γ : ℝ} (hα : 0 ≤ α) (hγ : 0 < γ) {c : ℝ}
    (hcurv : Curvature D .quadratic c) {τ : ℝ} {v : Fin p → ℝ}
    (h : ApproxStationary D y .quadratic (frechetSubdiff (mcp α γ : ℝ → ℝ)) v τ) (u : Fin p → ℝ) :
    objective1 D y .quadratic (.mcp α γ) v - objective1 D y .quadratic (.mcp α γ) u + (c - 1 / γ) / 2 * ∑ j, (v j - u j) ^ 2 ≤
      τ * ∑ j, |v j - u j| := by
  have h1 := lsq_weak_gap hn D.matrix y (m := 1 / γ) (by positivity) (mcp_weak hα hγ) (v := v) (τ := τ) (fun j => by
    rw [grd_real, neg_neg]; exact stationary_corr hn h j) u
  have h2 := hcurv (fun j => v j - u j)
  rw [lsq_real, lsq_real, sum_norm_sq, sqFit_real] at h1
  simp only [fit_sub] at h2
  have e : (∑ i, (fit D.matrix v i - fit D.matrix u i) ^ 2) / (2 * n) =
      (∑ i, (fit D.matrix v i - fit D.matrix u i) ^ 2) / n / 2 := by rw [div_div, mul_comm (n : ℝ) 2]
  rw [e] at h1
  have h3 : quadLoss y (fit D.matrix v) + ∑ j, mcp α γ (v j) - (quadLoss y (fit D.matrix u) + ∑ j, mcp α γ (u j)) +
      (c - 1 / γ) / 2 * ∑ j, (v j - u j) ^ 2 ≤ τ * ∑ j, ‖v j - u j‖ := by linarith
  exact h3

theorem strong_mcp (D : Design n p) (y : Fin n → ℝ) {α γ : ℝ} (hα : 0 ≤ α) (hγ : 0 < γ) {c : ℝ}
    (hcurv : Curvature D .quadratic c) : StrongConv (objective1 D y .quadratic (.mcp α γ)) (c - 1 / γ) := by
  intro v w t h0 h1
  have ht : 0 ≤ t * (1 - t) := mul_nonneg h0 (by linarith)
  have hp : ∑ j, mcp α γ (v j + t • (w j - v j)) ≤ (1 - t) * ∑ j, mcp α γ (v j) + t * ∑ j, mcp α γ (w j) +
      1 / γ / 2 * (t * (1 - t)) * ∑ j, ‖v j - w j‖ ^ 2 := by
    rw [Finset.mul_sum, Finset.mul_sum, Finset.mul_sum, ← Finset.sum_add_distrib, ← Finset.sum_add_distrib]
    refine Finset.sum_le_sum fun j _ => ?_
    have := mcp_weak hα hγ (v j) (w j) t h0 h1
    rw [norm_sub_rev (v j) (w j)]
    linarith
  have h2 := mul_le_mul_of_nonneg_left (hcurv (fun j => v j - w j)) ht
  have h3 := quad_line D.matrix y v w t
  show quadLoss _ _ + ∑ j, mcp α γ (v j + t • (w j - v j)) ≤ (1 - t) * (quadLoss _ _ + ∑ j, mcp α γ (v j)) +
    t * (quadLoss _ _ + ∑ j, mcp α γ (w j)) - _
  rw [h3]
  rw [sum_norm_sq] at hp ⊢
  linarith

theorem mcp_min_eq (α γ : ℝ) (hγ : 0 < γ) (x : ℝ) :
    mcp α γ x = α * min |x| (γ * α) - (min |x| (γ * α)) ^ 2 / (2 * γ) := by
  unfold mcp
  rw [Real.norm_eq_abs]
  split_ifs with h
  · rw [min_eq_left h]
  · rw [min_eq_right (by linarith)]
    field_simp
    ring

theorem objective1_mcp_continuous (D : Design n p) (y : Fin n → ℝ) {α γ : ℝ} (hγ : 0 < γ) :
    Continuous (objective1 D y .quadratic (.mcp α γ)) := by
  have h1 : Continuous (mcp α γ : ℝ → ℝ) := by
    have : (mcp α γ : ℝ → ℝ) = fun x => α * min |x| (γ * α) - (min |x| (γ * α)) ^ 2 / (2 * γ) := funext (mcp_min_eq α γ hγ)
    rw [this]
    fun_prop
  have h2 : Continuous fun w : Fin p → ℝ => (∑ i, (y i - fit D.matrix w i) ^ 2) / (2 * n) := by
    unfold fit
    fun_prop
  exact h2.add (continuous_finsetSum _ fun j _ => h1.comp (continuous_apply j))

/-- **Global optimality**: if the curvature `c` of the loss is at least `1/γ`, the objective of a fit which stops before
`max_iterations` exceeds the objective of any other coefficients by at most `τ ‖v - u‖₁`, although the penalty is not convex. -/
theorem C74_global {srt : Argsort XR} (hs : ArgsortSpec srt) (hn : 0 < n) (D : Design n p) (y : Fin n → ℝ) (α γ : ℝ)
    (hα : 0 ≤ α) (hγ : 0 < γ) (c : ℝ) (hcurv : Curvature D .quadratic c) (hc : 1 / γ ≤ c) (cfg : Solver XR) (τ : ℝ)
    (ht : cfg.tolerance = XR.fin τ) (v : Fin p → ℝ) (h : Stops srt cfg D y .quadratic (.mcp α γ) v) (u : Fin p → ℝ) :
    objective1 D y .quadratic (.mcp α γ) v - objective1 D y .quadratic (.mcp α γ) u ≤ τ * ∑ j, |v j - u j| := by
  have h1 := mcp_gap hn hα hγ hcurv (stops_stationary hs hn hα hγ ht h) u
  have h2 : 0 ≤ (c - 1 / γ) / 2 * ∑ j, (v j - u j) ^ 2 :=
    mul_nonneg (by linarith) (Finset.sum_nonneg fun _ _ => sq_nonneg _)
  linarith

/-- If the curvature exceeds `1/γ` there is exactly one minimiser. -/
theorem C74_unique (D : Design n p) (y : Fin n → ℝ) (α γ : ℝ) (hα : 0 ≤ α) (hγ : 0 < γ) (c : ℝ)
    (hcurv : Curvature D .quadratic c) (hc : 1 / γ < c) :
    ∃! w : Fin p → ℝ, ∀ u, objective1 D y .quadratic (.mcp α γ) w ≤ objective1 D y .quadratic (.mcp α γ) u :=
  (strong_mcp D y hα hγ hcurv).exists_min (by linarith) (objective1_mcp_continuous D y hγ) fun w =>
    add_nonneg (loss_nonneg y .quadratic _) (Finset.sum_nonneg fun _ _ => mcp_nonneg hγ _)

/-- **Accuracy**: the coefficients have Euclidean distance at most `√p τ / (c - 1/γ)` to the global minimiser. -/
theorem C74_accuracy {srt : Argsort XR} (hs : ArgsortSpec srt) (hn : 0 < n) (D : Design n p) (y : Fin n → ℝ) (α γ : ℝ)
    (hα : 0 ≤ α) (hγ : 0 < γ) (c : ℝ) (hcurv : Curvature D .quadratic c) (hc : 1 / γ < c) (w : Fin p → ℝ)
    (hw : ∀ u, objective1 D y .quadratic (.mcp α γ) w ≤ objective1 D y .quadratic (.mcp α γ) u) (cfg : Solver XR) (τ : ℝ)
    (ht : cfg.tolerance = XR.fin τ) (v : Fin p → ℝ) (h : Stops srt cfg D y .quadratic (.mcp α γ) v) :
    ∑ j, (v j - w j) ^ 2 ≤ p * (τ / (c - 1 / γ)) ^ 2 := by
  have := (strong_mcp D y hα hγ hcurv).near (τ := τ) (σ := 0) (by linarith)
    (C74_global hs hn D y α γ hα hγ c hcurv hc.le cfg τ ht v h) (fun u => by rw [zero_mul]; linarith [hw u])
  rwa [add_zero, sum_norm_sq] at this

/-- **Settings do not matter**: two fits which stop, with whatever settings, ways to break ties and storage formats, return almost the
same coefficients. -/
theorem C74_settings {srt srt' : Argsort XR} (hs : ArgsortSpec srt) (hs' : ArgsortSpec srt') (hn : 0 < n) (D D' : Design n p)
    (hD : D'.matrix = D.matrix) (y : Fin n → ℝ) (α γ : ℝ) (hα : 0 ≤ α) (hγ : 0 < γ) (c : ℝ) (hcurv : Curvature D .quadratic c)
    (hc : 1 / γ < c) (cfg cfg' : Solver XR) (τ τ' : ℝ) (ht : cfg.tolerance = XR.fin τ) (ht' : cfg'.tolerance = XR.fin τ')
    (v v' : Fin p → ℝ) (h : Stops srt cfg D y .quadratic (.mcp α γ) v) (h' : Stops srt' cfg' D' y .quadratic (.mcp α γ) v') :
    ∑ j, (v j - v' j) ^ 2 ≤ p * ((τ + τ') / (c - 1 / γ)) ^ 2 := by
  have hcurv' : Curvature D' .quadratic c := by
    intro d
    rw [hD]
    exact hcurv d
  have h1 := C74_global hs hn D y α γ hα hγ c hcurv hc.le cfg τ ht v h
  have h2 := C74_global hs' hn D' y α γ hα hγ c hcurv' hc.le cfg' τ' ht' v' h'
  have e : objective1 D' y .quadratic (.mcp α γ) = objective1 D y .quadratic (.mcp α γ) := by funext u; unfold objective1; rw [hD]
  rw [e] at h2
  have := (strong_mcp D y hα hγ hcurv).near (by linarith) h1 h2
  rwa [sum_norm_sq] at this

theorem isDist_point {a b d : ℝ} (h : IsDist a {b} d) : d = |a - b| := by
  rw [h.2, Metric.infDist_singleton, Real.dist_eq]

theorem isDist_closedBall {a r d τ : ℝ} (h : IsDist a (Metric.closedBall 0 r) d) (hd : d ≤ τ) : |a| ≤ r + τ := by
  refine le_of_forall_pos_le_add fun ε hε => ?_
  obtain ⟨s, hs, hd'⟩ := (Metric.infDist_lt_iff h.1).mp
    (show Metric.infDist a (Metric.closedBall 0 r) < τ + ε by rw [← h.2]; linarith)
  rw [mem_closedBall_zero_iff, Real.norm_eq_abs] at hs
  rw [Real.dist_eq] at hd'
  have := abs_sub_abs_le_abs_sub a s
  linarith

/-- **No bias**: the correlation of a feature with the residual is zero (up to the tolerance) if its coefficient is at least `γ α`, as
for least squares without penalty; in between it is `α - |v_j| / γ`, with the sign of the coefficient; and it is at most `α` if the
coefficient is zero.  No assumptions on the design. -/
theorem C74_unbiased {srt : Argsort XR} (hs : ArgsortSpec srt) (hn : 0 < n) (D : Design n p) (y : Fin n → ℝ) (α γ : ℝ)
    (hα : 0 ≤ α) (hγ : 0 < γ) (cfg : Solver XR) (τ : ℝ) (ht : cfg.tolerance = XR.fin τ) (v : Fin p → ℝ)
    (h : Stops srt cfg D y .quadratic (.mcp α γ) v) (j : Fin p) :
    (v j ≠ 0 → γ * α ≤ |v j| → |residCorr D y v j| ≤ τ) ∧
    (v j ≠ 0 → |v j| < γ * α → |residCorr D y v j - SignType.sign (v j) * (α - |v j| / γ)| ≤ τ) ∧
    (v j = 0 → |residCorr D y v j| ≤ α + τ) := by
  obtain ⟨d, h1, h2⟩ := stationary_corr hn (stops_stationary hs hn hα hγ ht h) j
  refine ⟨fun h0 hj => ?_, fun h0 hj => ?_, fun h0 => ?_⟩
  · rw [frechet_mcp_out hα hγ h0 hj] at h1
    have := isDist_point h1
    rw [sub_zero] at this
    linarith
  · rw [frechet_mcp_mid h0 hj] at h1
    have h3 := isDist_point h1
    have e : (α / ‖v j‖ - 1 / γ) • v j = SignType.sign (v j) * (α - |v j| / γ) := by
      rw [Real.norm_eq_abs, smul_eq_mul]
      have h4 : |v j| ≠ 0 := abs_ne_zero.mpr h0
      have h5 := sign_mul_abs (v j)
      have e2 : (α / |v j| - 1 / γ) * v j = (α / |v j| - 1 / γ) * (SignType.sign (v j) * |v j|) := by rw [h5]
      rw [e2]
      field_simp
    rw [e] at h3
    linarith
  · rw [h0, frechet_mcp_zero hα hγ] at h1
    exact isDist_closedBall h1 h2

/-- The curvature bounds the step constants. -/
theorem curvature_lipschitz {D : Design n p} {c : ℝ} (h : Curvature D .quadratic c) (j : Fin p) : c ≤ lipschitz D .quadratic j := by
  have h1 := h (Pi.single j 1)
  have e1 : ∑ k, (Pi.single j 1 : Fin p → ℝ) k ^ 2 = 1 := by
    rw [Finset.sum_eq_single j (fun k _ hk => by rw [Pi.single_eq_of_ne hk]; norm_num) (fun h => absurd (Finset.mem_univ j) h),
      Pi.single_eq_same, one_pow]
  have e2 : ∀ i, fit D.matrix (Pi.single j 1) i = D.matrix i j := by
    intro i
    unfold fit
    rw [Finset.sum_eq_single j (fun k _ hk => by rw [Pi.single_eq_of_ne hk, mul_zero]) (fun h => absurd (Finset.mem_univ j) h),
      Pi.single_eq_same, mul_one]
  simp only [e1, e2, mul_one] at h1
  exact h1

/-- **`MCPEstimator::fit`** with valid parameters, `γ` larger than the reciprocal of the curvature and enough iterations: the returned
coefficients are close to the global minimiser. -/
theorem C74_mcp_fit (hn : 0 < n) (D : Design n p) (hD : D.Canonical) (y : Fin n → ℝ) (α γ : ℝ) (c Λ τ : ℝ)
    (hcurv : Curvature D .quadratic c) (hc : 1 / γ < c) (hΛ : ∀ j, lipschitz D .quadratic j ≤ Λ) (hτ : 0 < τ)
    {srt : Argsort XR} (hs : ArgsortSpec srt) (ps : MCParams XR) (hps : ps.checkRef = .ok ps) (ha : ps.alpha = XR.fin α)
    (hg : ps.gamma = XR.fin γ) (ht : ps.tolerance = XR.fin τ) (he : 0 < ps.maxEpochs) (hpl : StopsPlain ps.solver)
    (hacc : ps.useAcceleration = true → ps.K ≤ ps.wsStartSize ∧ ps.K ≤ p)
    (hN : 8 * p * Λ ^ 2 * (∑ i, y i ^ 2) / (n * (c - 1 / γ) * τ ^ 2) < ps.maxIterations) :
    ∃ w : Fin p → ℝ, (∀ u, objective1 D y .quadratic (.mcp α γ) w ≤ objective1 D y .quadratic (.mcp α γ) u) ∧
      ∃ v : Fin p → ℝ, fitMCP srt ps D y = .ok (.ok (vec v)) ∧ ∑ j, (v j - w j) ^ 2 ≤ p * (τ / (c - 1 / γ)) ^ 2 := by
  have hα := alpha_nonneg ha (MCParams.checkRef_ok hps).2.1
  have h1 := (MCParams.checkRef_ok hps).2.2
  rw [hg] at h1
  have hγ : 0 < γ := by
    have : ¬ γ < 1 := by
      have e : (XR.fin γ <. (one : XR)) = decide (γ < 1) := XR.s_lt γ 1
      rw [e] at h1
      simpa using h1
    linarith
  obtain ⟨w, hw, -⟩ := C74_unique D y α γ hα hγ c hcurv hc
  obtain ⟨v, h2, h3⟩ := C68_mcp_fit hn D hD y α γ (c - 1 / γ) Λ τ (by linarith)
    (fun j _ => by have := curvature_lipschitz hcurv j; linarith) hΛ hτ hs ps hps ha hg ht he hpl hacc hN
  refine ⟨w, hw, v, h2, ?_⟩
  have h4 := mcp_gap hn hα hγ hcurv h3
  have := (strong_mcp D y hα hγ hcurv).near (τ := τ) (σ := 0) (v := v) (w := w) (by linarith) (fun u => by
    have h5 := h4 u
    have h6 : 0 ≤ (c - 1 / γ) / 2 * ∑ j, (v j - u j) ^ 2 :=
      mul_nonneg (by linarith) (Finset.sum_nonneg fun _ _ => sq_nonneg _)
    have h7 : ∑ j, ‖v j - u j‖ = ∑ j, |v j - u j| := rfl
    rw [h7]; linarith) (fun u => by rw [zero_mul]; linarith [hw u])
  rwa [add_zero, sum_norm_sq] at this

/-! ## Examples -/

theorem idD_lip (j : Fin 2) : lipschitz idD .quadratic j = 1 / 2 := by
  unfold lipschitz
  rw [idD_sq]; norm_num

/-- Runs with the MCP penalty which stop. -/
theorem idD_stops_mcp : ∃ (N : ℕ) (v : Fin 2 → ℝ),
    Stops argsortIns ⟨1, N, 50, XR.fin (1 / 100), 5, false, true⟩ idD ![4, 1 / 2] .quadratic (.mcp (1 / 2) 3) v := by
  have hv : (Pen.mcp (1 / 2) 3).Valid := ⟨by norm_num, by norm_num⟩
  obtain ⟨N, hN⟩ := exists_nat_gt (4 * ((2 : ℕ) : ℝ) * (2 * (1 / 2) + (Pen.mcp (1 / 2) 3).modulus) ^ 2 *
    objective1 idD ![4, 1 / 2] .quadratic (.mcp (1 / 2) 3) (fun _ => 0) / (1 / 6 * (1 / 100) ^ 2))
  obtain ⟨v, m, h⟩ := (prob1 idD ![4, 1 / 2] .quadratic (.mcp (1 / 2) 3)).run_ok argsortIns_spec
    ⟨1, N, 50, XR.fin (1 / 100), 5, false, true⟩ (fun hu => by cases hu)
  have hb := iter_bound1 two_pos idD trivial ![4, 1 / 2] .quadratic trivial (.mcp (1 / 2) 3) hv (fun α h => by cases h) (1 / 6) (1 / 2)
    (1 / 100) (by norm_num) (fun j _ => by rw [idD_lip]; norm_num [Pen.concavity]) (fun j => (idD_lip j).le) (by norm_num)
    argsortIns_spec _ rfl (by norm_num) (by norm_num) (fun _ _ _ => Or.inl rfl) v m h
  exact ⟨N, v, stops_of_run argsortIns_spec two_pos hv h (by exact_mod_cast lt_of_le_of_lt hb hN)⟩

-- one minimiser; the fit is close to it
example : ∃ (N : ℕ) (v w : Fin 2 → ℝ), Stops argsortIns ⟨1, N, 50, XR.fin (1 / 100), 5, false, true⟩ idD ![4, 1 / 2] .quadratic (.mcp (1 / 2) 3) v ∧
    (∀ u, objective1 idD ![4, 1 / 2] .quadratic (.mcp (1 / 2) 3) w ≤ objective1 idD ![4, 1 / 2] .quadratic (.mcp (1 / 2) 3) u) ∧
    ∑ j, (v j - w j) ^ 2 ≤ 1 / 100 := by
  obtain ⟨N, v, h⟩ := idD_stops_mcp
  obtain ⟨w, hw, -⟩ := C74_unique idD ![4, 1 / 2] (1 / 2) 3 (by norm_num) (by norm_num) (1 / 2) idD_curvature (by norm_num)
  refine ⟨N, v, w, h, hw, ?_⟩
  refine (C74_accuracy argsortIns_spec two_pos idD _ (1 / 2) 3 (by norm_num) (by norm_num) (1 / 2) idD_curvature (by norm_num) w hw _ (1 / 100)
    rfl v h).trans ?_
  norm_num

-- the objective is almost minimal
example : ∃ (N : ℕ) (v : Fin 2 → ℝ), Stops argsortIns ⟨1, N, 50, XR.fin (1 / 100), 5, false, true⟩ idD ![4, 1 / 2] .quadratic (.mcp (1 / 2) 3) v ∧
    objective1 idD ![4, 1 / 2] .quadratic (.mcp (1 / 2) 3) v ≤ objective1 idD ![4, 1 / 2] .quadratic (.mcp (1 / 2) 3) ![4, 0] +
      1 / 100 * ∑ j, |v j - (![4, 0] : Fin 2 → ℝ) j| := by
  obtain ⟨N, v, h⟩ := idD_stops_mcp
  have := C74_global argsortIns_spec two_pos idD _ (1 / 2) 3 (by norm_num) (by norm_num) (1 / 2) idD_curvature (by norm_num) _ (1 / 100)
    rfl v h ![4, 0]
  exact ⟨N, v, h, by linarith⟩

-- two runs
example : ∃ (N : ℕ) (v : Fin 2 → ℝ), Stops argsortIns ⟨1, N, 50, XR.fin (1 / 100), 5, false, true⟩ idD ![4, 1 / 2] .quadratic (.mcp (1 / 2) 3) v ∧
    ∀ srt, ArgsortSpec srt → ∀ cfg : Solver XR, cfg.tolerance = XR.fin (1 / 100) → ∀ v', Stops srt cfg idD ![4, 1 / 2] .quadratic (.mcp (1 / 2) 3) v' →
      ∑ j, (v j - v' j) ^ 2 ≤ 1 / 30 := by
  obtain ⟨N, v, h⟩ := idD_stops_mcp
  refine ⟨N, v, h, fun srt hs cfg ht v' h' => ?_⟩
  refine (C74_settings argsortIns_spec hs two_pos idD idD rfl _ (1 / 2) 3 (by norm_num) (by norm_num) (1 / 2) idD_curvature (by norm_num) _ cfg
    (1 / 100) (1 / 100) rfl ht v v' h h').trans ?_
  norm_num

-- no shrinkage of large coefficients
example : ∃ (N : ℕ) (v : Fin 2 → ℝ), Stops argsortIns ⟨1, N, 50, XR.fin (1 / 100), 5, false, true⟩ idD ![4, 1 / 2] .quadratic (.mcp (1 / 2) 3) v ∧
    ∀ j, (v j ≠ 0 → 3 * (1 / 2) ≤ |v j| → |residCorr idD ![4, 1 / 2] v j| ≤ 1 / 100) ∧ (v j = 0 → |residCorr idD ![4, 1 / 2] v j| ≤ 1 / 2 + 1 / 100) := by
  obtain ⟨N, v, h⟩ := idD_stops_mcp
  refine ⟨N, v, h, fun j => ?_⟩
  have := C74_unbiased argsortIns_spec two_pos idD _ (1 / 2) 3 (by norm_num) (by norm_num) _ (1 / 100) rfl v h j
  exact ⟨this.1, this.2.2⟩

theorem fourD_curvature : Curvature (.dense fun i j : Fin 4 => if i = j then 2 else 0) .quadratic 1 := by
  intro d
  have e : ∀ i, fit (Design.dense fun i j : Fin 4 => if i = j then (2 : ℝ) else 0).matrix d i = 2 * d i := fun i => by
    show ∑ j : Fin 4, (if i = j then (2 : ℝ) else 0) * d j = _
    simp
  simp only [e, Fin.sum_univ_four]
  norm_num
  linarith

example : ∃ w : Fin 4 → ℝ, (∀ u, objective1 (.dense fun i j : Fin 4 => if i = j then 2 else 0) ![1, -2, 0, 3] .quadratic (.mcp (1 / 10) 3) w ≤
      objective1 (.dense fun i j : Fin 4 => if i = j then 2 else 0) ![1, -2, 0, 3] .quadratic (.mcp (1 / 10) 3) u) ∧
    ∃ v : Fin 4 → ℝ, fitMCP argsortIns ⟨XR.fin (1 / 10), XR.fin 3, 70000, 50, 10, XR.fin (1 / 10), 3, true, true⟩
      (.dense fun i j : Fin 4 => if i = j then 2 else 0) ![1, -2, 0, 3] = .ok (.ok (vec v)) ∧
      ∑ j, (v j - w j) ^ 2 ≤ ((4 : ℕ) : ℝ) * (1 / 10 / (1 - 1 / 3)) ^ 2 := by
  refine C74_mcp_fit (by norm_num) (.dense fun i j : Fin 4 => if i = j then 2 else 0) trivial ![1, -2, 0, 3] (1 / 10) 3
    1 1 (1 / 10) fourD_curvature (by norm_num) (fun j => (exIter_lip j).le) (by norm_num) argsortIns_spec
    ⟨XR.fin (1 / 10), XR.fin 3, 70000, 50, 10, XR.fin (1 / 10), 3, true, true⟩ ?_ rfl rfl rfl (by norm_num) ?_
    (fun _ => ⟨by norm_num, by norm_num⟩) (by norm_num [Fin.sum_univ_succ])
  · have e0 : (signBit (XR.fin (1 / 10)) : Bool) = false := by
      show decide ((1 / 10 : ℝ) < 0) = false
      simp
    have e2 : (XR.fin 3 <. (one : XR)) = false := by
      have e : (XR.fin 3 <. (one : XR)) = decide ((3 : ℝ) < 1) := XR.s_lt 3 1
      rw [e]; norm_num
    unfold MCParams.checkRef checkTail
    simp only [e0, e2]
    rfl
  · intro e h1 h2
    refine Or.inr ?_
    have h1 : e < 50 := h1
    have h2 : e + 1 = 50 ∨ (0 < e ∧ e % 10 = 0) := h2
    show e % 4 ≠ 3
    omega

end Sglm
