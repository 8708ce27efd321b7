import Verif.Proofs.Stability

/-!
# C90: fits of changed data

How much do the predictions and the coefficients change if the targets are perturbed, or if a sample is replaced?  All statements are
about finished fits of both data sets, with any settings, and exact arithmetic.
-/

namespace Sglm
open Scalar Spec
variable {n p T : ℕ}

/-- **Predictions are stable**: they change at most as much as the targets (Lasso, elastic net), up to the tolerance. -/
theorem C90_predictions {srt srt' : Argsort XR} (hs : ArgsortSpec srt) (hs' : ArgsortSpec srt') (hn : 0 < n) (D D' : Design n p)
    (hD : D.Canonical) (hD' : D'.Canonical) (hDD : D'.matrix = D.matrix) (y y' : Fin n → ℝ) (pen : Pen) (hv : pen.Valid) (hc : pen.Convex)
    (κ : ℝ) (hκ0 : 0 < κ) (hκ : ∀ z, κ * |z| ≤ pen.fn z) (cfg cfg' : Solver XR) (τ τ' : ℝ) (hτ : 0 ≤ τ) (hτ' : 0 ≤ τ')
    (ht : cfg.tolerance = XR.fin τ) (ht' : cfg'.tolerance = XR.fin τ') (v v' : Fin p → ℝ) (h : Stops srt cfg D y .quadratic pen v)
    (h' : Stops srt' cfg' D' y' .quadratic pen v') :
    ∑ i, (fit D.matrix v i - fit D.matrix v' i) ^ 2 ≤
      ∑ i, (y i - y' i) ^ 2 + (τ + τ') * (∑ i, y i ^ 2 + ∑ i, y' i ^ 2) / κ := by
  have hst : ∀ D : Design n p, pen.StepOK D .quadratic := fun D => by cases pen <;> trivial
  have e : objective1 D' y' .quadratic pen = objective1 D y' .quadratic pen := by funext u; unfold objective1; rw [hDD]
  have a := C28_result hs hn D hD y .quadratic trivial pen hv (hst D) cfg v h.1
  have a' := C28_result hs' hn D' hD' y' .quadratic trivial pen hv (hst D') cfg' v' h'.1
  have c := (stops_cert hs hn hv hc ht h).2
  have c' := (stops_cert hs' hn hv hc ht' h').2
  rw [e] at a' c'
  have b := size_of_objective hκ0 hκ a
  have b' := size_of_objective hκ0 hκ a'
  rw [objective1_zero D y pen (pen_zero_of hc)] at b
  rw [objective1_zero D y' pen (pen_zero_of hc)] at b'
  have d := sum_norm_sub_le v v'
  simp only [Real.norm_eq_abs] at d
  have hn' : (0 : ℝ) < n := by exact_mod_cast hn
  have key := lsq_targets (φ := pen.fn) (τ := τ) (τ' := τ') (v := v) (w := v') hn D.matrix y y' (fun x z t p0 p1 => by
      refine (pen_line pen hv hc x z t p0 p1).trans ?_
      have : 0 ≤ pen.modulus := by
        cases pen with
        | enet α ρ => exact mul_nonneg hv.1 (sub_nonneg.mpr hv.2.2)
        | _ => exact le_rfl
      have : 0 ≤ pen.modulus / 2 * (t * (1 - t)) * ‖x - z‖ ^ 2 :=
        mul_nonneg (mul_nonneg (by linarith) (mul_nonneg p0 (by linarith))) (sq_nonneg _)
      linarith)
    (fun u => by rw [lsq_real, lsq_real]; exact c u) (fun u => by rw [lsq_real, lsq_real]; exact c' u)
  rw [sqFit_real] at key
  simp only [Real.norm_eq_abs, sq_abs] at key
  refine key.trans (add_le_add le_rfl ?_)
  have f := mul_le_mul_of_nonneg_left (show ∑ j, |v j - v' j| ≤ (∑ i, y i ^ 2 + ∑ i, y' i ^ 2) / (2 * n * κ) by
    have : (∑ i, y i ^ 2 + ∑ i, y' i ^ 2) / (2 * n * κ) = (∑ i, y i ^ 2) / (2 * n) / κ + (∑ i, y' i ^ 2) / (2 * n) / κ := by
      field_simp
    linarith) (add_nonneg hτ hτ')
  refine (mul_le_mul_of_nonneg_left f (by positivity : (0:ℝ) ≤ 2 * n)).trans (le_of_eq ?_)
  field_simp

/-- **Predictions of the multi-task Lasso are stable**. -/
theorem C90_predictions_mt {srt srt' : Argsort XR} (hs : ArgsortSpec srt) (hs' : ArgsortSpec srt') (hn : 0 < n) (D D' : Design n p)
    (hD : D.Canonical) (hD' : D'.Canonical) (hDD : D'.matrix = D.matrix) (Y Y' : Fin n → Fin T → ℝ) (α : ℝ) (hα : 0 < α)
    (cfg cfg' : Solver XR) (τ τ' : ℝ) (hτ : 0 ≤ τ) (hτ' : 0 ≤ τ') (ht : cfg.tolerance = XR.fin τ) (ht' : cfg'.tolerance = XR.fin τ')
    (V V' : Fin p → Euc T) (h : StopsMT srt cfg D Y (.l21 α) V) (h' : StopsMT srt' cfg' D' Y' (.l21 α) V') :
    ∑ i, ∑ t, (fitMT D.matrix (fun j => (V j).ofLp) i t - fitMT D.matrix (fun j => (V' j).ofLp) i t) ^ 2 ≤
      ∑ i, ∑ t, (Y i t - Y' i t) ^ 2 + (τ + τ') * (∑ i, ∑ t, Y i t ^ 2 + ∑ i, ∑ t, Y' i t ^ 2) / α := by
  have hn' : (0 : ℝ) < n := by exact_mod_cast hn
  have e : objectiveMT D' Y' (.l21 α) = objectiveMT D Y' (.l21 α) := by funext u; unfold objectiveMT; rw [hDD]
  have a := C28_result_mt hs hn D hD Y (.l21 α) hα trivial cfg V h.1
  have a' := C28_result_mt hs' hn D' hD' Y' (.l21 α) hα trivial cfg' V' h'.1
  have c := stopsMT_cert hs hn hα ht h
  have c' := stopsMT_cert hs' hn hα ht' h'
  rw [e] at a' c'
  have b := sizeMT_of_objective hα a
  have b' := sizeMT_of_objective hα a'
  rw [objectiveMT_zero] at b b'
  have d := sum_norm_sub_le V V'
  have key := lsq_targets (φ := fun z : Euc T => α * ‖z‖) (τ := τ) (τ' := τ') (v := V) (w := V') hn D.matrix (vecY Y) (vecY Y')
    (fun x z t p0 p1 => by
      have := enet_line (ρ := 1) hα.le zero_le_one x z t p0 p1
      simpa only [enet, sub_self, zero_mul, zero_div, add_zero, one_mul, mul_zero, sub_zero] using this)
    (fun u => by rw [lsq_mt, lsq_mt]; exact c u) (fun u => by rw [lsq_mt, lsq_mt]; exact c' u)
  rw [sqFit_mt] at key
  have e2 : ∑ i, ‖vecY Y i - vecY Y' i‖ ^ 2 = ∑ i, ∑ t, (Y i t - Y' i t) ^ 2 := Finset.sum_congr rfl fun i _ => by
    rw [EuclideanSpace.norm_sq_eq]
    exact Finset.sum_congr rfl fun t _ => by rw [Real.norm_eq_abs, sq_abs]; rfl
  rw [e2] at key
  refine key.trans (add_le_add le_rfl ?_)
  have f := mul_le_mul_of_nonneg_left (show ∑ j, ‖V j - V' j‖ ≤ (∑ i, ∑ t, Y i t ^ 2 + ∑ i, ∑ t, Y' i t ^ 2) / (2 * n * α) by
    have : (∑ i, ∑ t, Y i t ^ 2 + ∑ i, ∑ t, Y' i t ^ 2) / (2 * n * α) =
        (∑ i, ∑ t, Y i t ^ 2) / (2 * n) / α + (∑ i, ∑ t, Y' i t ^ 2) / (2 * n) / α := by
      field_simp
    linarith) (add_nonneg hτ hτ')
  refine (mul_le_mul_of_nonneg_left f (by positivity : (0:ℝ) ≤ 2 * n)).trans (le_of_eq ?_)
  field_simp

/-- **Coefficients are stable**: for strongly convex objectives (Lasso with independent features, elastic net, MCP with enough
curvature) the coefficients move at most as much as the correlations of the features with the targets, divided by the modulus. -/
theorem C90_coefficients {srt srt' : Argsort XR} (hs : ArgsortSpec srt) (hs' : ArgsortSpec srt') (hn : 0 < n) (D D' : Design n p)
    (hDD : D'.matrix = D.matrix) (y y' : Fin n → ℝ) (pen : Pen) (hv : pen.Valid) (hne : ∀ α, pen ≠ .l05 α) (c : ℝ)
    (hcurv : Curvature D .quadratic c) (hσ : 0 < c + pen.modulus - pen.concavity) (cfg cfg' : Solver XR) (τ τ' : ℝ) (hτ : 0 ≤ τ)
    (hτ' : 0 ≤ τ') (ht : cfg.tolerance = XR.fin τ) (ht' : cfg'.tolerance = XR.fin τ') (v v' : Fin p → ℝ)
    (h : Stops srt cfg D y .quadratic pen v) (h' : Stops srt' cfg' D' y' .quadratic pen v') :
    len (fun j => v j - v' j) ≤
      (len (corr D (fun i => y i - y' i)) + Real.sqrt p * (τ + τ')) / (c + pen.modulus - pen.concavity) := by
  have hcurv' : Curvature D' .quadratic c := fun d => by rw [hDD]; exact hcurv d
  have e : objective1 D' y' .quadratic pen = objective1 D y' .quadratic pen := by funext u; unfold objective1; rw [hDD]
  have h1 := stops_gap hs hn hv hne (Or.inl rfl) hcurv hσ ht h v'
  have h2 := stops_gap hs' hn hv hne (Or.inl rfl) hcurv' hσ ht' h' v
  rw [e] at h2
  simp only [norm_sub_rev (v' _) (v _)] at h2
  have h3 := stability_core hσ (add_nonneg hτ hτ') (len_nonneg (corr D (fun i => y i - y' i))) h1 h2 (by
    have h4 := lsq_cross hn D.matrix y y' v v'
    have h5 : objective1 D y .quadratic pen v' - objective1 D y .quadratic pen v +
        (objective1 D y' .quadratic pen v - objective1 D y' .quadratic pen v') =
        lsq D.matrix y v' - lsq D.matrix y v + (lsq D.matrix y' v - lsq D.matrix y' v') := by
      simp only [lsq_real]; unfold objective1; simp only [LossKind.loss]; ring
    rw [h5, h4, cross_corr D.matrix (fun i => y i - y' i) v v']
    refine (sum_inner_le _ _).trans (le_of_eq ?_)
    congr 1
    rw [len_abs]
    congr 1
    funext j
    unfold corr
    rw [smul_eq_mul, one_div, ← div_eq_inv_mul]
    rfl)
  rwa [len_abs] at h3

/-- **Coefficients of the multi-task Lasso are stable**. -/
theorem C90_coefficients_mt {srt srt' : Argsort XR} (hs : ArgsortSpec srt) (hs' : ArgsortSpec srt') (hn : 0 < n) (D D' : Design n p)
    (hDD : D'.matrix = D.matrix) (Y Y' : Fin n → Fin T → ℝ) (α : ℝ) (hα : 0 < α) (c : ℝ)
    (hcurv : Curvature D .quadratic c) (hσ : 0 < c) (cfg cfg' : Solver XR) (τ τ' : ℝ) (hτ : 0 ≤ τ)
    (hτ' : 0 ≤ τ') (ht : cfg.tolerance = XR.fin τ) (ht' : cfg'.tolerance = XR.fin τ') (V V' : Fin p → Euc T)
    (h : StopsMT srt cfg D Y (.l21 α) V) (h' : StopsMT srt' cfg' D' Y' (.l21 α) V') :
    len (fun j => ‖V j - V' j‖) ≤
      (len (fun j => ‖corrMT D (fun i t => Y i t - Y' i t) j‖) + Real.sqrt p * (τ + τ')) / c := by
  have e : objectiveMT D' Y' (.l21 α) = objectiveMT D Y' (.l21 α) := by funext u; unfold objectiveMT; rw [hDD]
  have h1 := (strongMT D Y hα.le hcurv).gap hσ.le (stopsMT_cert hs hn hα ht h) V'
  have c2 := stopsMT_cert hs' hn hα ht' h'
  rw [e] at c2
  have h2 := (strongMT D Y' hα.le hcurv).gap hσ.le c2 V
  simp only [norm_sub_rev (V' _) (V _)] at h2
  refine stability_core hσ (add_nonneg hτ hτ') (len_nonneg _) h1 h2 ?_
  have h4 := lsq_cross hn D.matrix (vecY Y) (vecY Y') V V'
  have h5 : objectiveMT D Y (.l21 α) V' - objectiveMT D Y (.l21 α) V +
      (objectiveMT D Y' (.l21 α) V - objectiveMT D Y' (.l21 α) V') =
      lsq D.matrix (vecY Y) V' - lsq D.matrix (vecY Y) V + (lsq D.matrix (vecY Y') V - lsq D.matrix (vecY Y') V') := by
    simp only [lsq_mt]; unfold objectiveMT; ring
  rw [h5, h4, cross_corr D.matrix (fun i => vecY Y i - vecY Y' i) V V']
  refine (sum_inner_le _ _).trans (le_of_eq ?_)
  congr 1
  congr 1
  funext j
  congr 1
  ext t
  unfold corrMT
  rw [PiLp.smul_apply, WithLp.ofLp_sum, Finset.sum_apply, smul_eq_mul, one_div, ← div_eq_inv_mul]
  rfl

/-- **A replaced sample**: the coefficients move at most by the influence of the old and the new sample, divided by the number of samples
and the modulus. -/
theorem C90_sample {srt srt' : Argsort XR} (hs : ArgsortSpec srt) (hs' : ArgsortSpec srt') (hn : 0 < n) (D D' : Design n p)
    (y y' : Fin n → ℝ) (i₀ : Fin n) (hS : SameExcept i₀ D D' y y') (k : LossKind) (pen : Pen) (hv : pen.Valid) (hne : ∀ α, pen ≠ .l05 α)
    (hk : k = .quadratic ∨ pen.Convex) (c : ℝ) (hcurv : Curvature D k c) (hcurv' : Curvature D' k c)
    (hσ : 0 < c + pen.modulus - pen.concavity) (cfg cfg' : Solver XR) (τ τ' : ℝ) (hτ : 0 ≤ τ)
    (hτ' : 0 ≤ τ') (ht : cfg.tolerance = XR.fin τ) (ht' : cfg'.tolerance = XR.fin τ') (v v' : Fin p → ℝ)
    (h : Stops srt cfg D y k pen v) (h' : Stops srt' cfg' D' y' k pen v') :
    len (fun j => v j - v' j) ≤
      ((|k.slope (y i₀) (fit D.matrix v' i₀)| * len (D.matrix i₀) + |k.slope (y' i₀) (fit D'.matrix v i₀)| * len (D'.matrix i₀)) / n +
        Real.sqrt p * (τ + τ')) / (c + pen.modulus - pen.concavity) := by
  have h1 := stops_gap hs hn hv hne hk hcurv hσ ht h v'
  have h2 := stops_gap hs' hn hv hne hk hcurv' hσ ht' h' v
  simp only [norm_sub_rev (v' _) (v _)] at h2
  have h3 := stability_core (g := (|k.slope (y i₀) (fit D.matrix v' i₀)| * len (D.matrix i₀) +
      |k.slope (y' i₀) (fit D'.matrix v i₀)| * len (D'.matrix i₀)) / n) hσ (add_nonneg hτ hτ')
    (div_nonneg (add_nonneg (mul_nonneg (abs_nonneg _) (len_nonneg _)) (mul_nonneg (abs_nonneg _) (len_nonneg _))) (Nat.cast_nonneg n)) h1 h2 (by
    rw [len_abs]
    refine le_trans (le_of_eq ?_) (replaced_cross hS k v v')
    unfold objective1
    ring)
  rwa [len_abs] at h3

/-- **A replaced sample in logistic regression** with an elastic net penalty: with samples of length at most `R` the coefficients move at
most `(2 R / n + √p (τ + τ')) / (α (1 - l1_ratio))`, whatever the sample and its replacement. -/
theorem C90_logistic {srt srt' : Argsort XR} (hs : ArgsortSpec srt) (hs' : ArgsortSpec srt') (hn : 0 < n) (D D' : Design n p)
    (y y' : Fin n → ℝ) (i₀ : Fin n) (hS : SameExcept i₀ D D' y y') (hy : |y i₀| ≤ 1) (hy' : |y' i₀| ≤ 1) (R : ℝ)
    (hR : len (D.matrix i₀) ≤ R) (hR' : len (D'.matrix i₀) ≤ R) (α ρ : ℝ) (hα : 0 < α) (h0 : 0 ≤ ρ) (h1 : ρ < 1)
    (cfg cfg' : Solver XR) (τ τ' : ℝ) (hτ : 0 ≤ τ) (hτ' : 0 ≤ τ') (ht : cfg.tolerance = XR.fin τ) (ht' : cfg'.tolerance = XR.fin τ')
    (v v' : Fin p → ℝ) (h : Stops srt cfg D y .logistic (.enet α ρ) v) (h' : Stops srt' cfg' D' y' .logistic (.enet α ρ) v') :
    len (fun j => v j - v' j) ≤ (2 * R / n + Real.sqrt p * (τ + τ')) / (α * (1 - ρ)) := by
  have hσ : 0 < α * (1 - ρ) := mul_pos hα (by linarith)
  have e : (0 : ℝ) + (Pen.enet α ρ).modulus - (Pen.enet α ρ).concavity = α * (1 - ρ) := by
    show (0 : ℝ) + α * (1 - ρ) - 0 = _; ring
  have key := C90_sample hs hs' hn D D' y y' i₀ hS .logistic (.enet α ρ) ⟨hα.le, h0, h1.le⟩ (fun _ => Pen.noConfusion) (Or.inr trivial) 0
    (curvature_zero _ _) (curvature_zero _ _) (by rw [e]; exact hσ) cfg cfg' τ τ' hτ hτ' ht ht' v v' h h'
  rw [e] at key
  refine key.trans (div_le_div_of_nonneg_right (add_le_add ?_ le_rfl) hσ.le)
  refine div_le_div_of_nonneg_right ?_ (Nat.cast_nonneg n)
  have a := mul_le_mul ((slope_logistic_le (y i₀) (fit D.matrix v' i₀)).trans hy) hR (len_nonneg _) zero_le_one
  have b := mul_le_mul ((slope_logistic_le (y' i₀) (fit D'.matrix v i₀)).trans hy') hR' (len_nonneg _) zero_le_one
  linarith

/-- **Uniform stability**: replacing a sample changes the prediction and the loss at any further sample `(x, b)` by at most `|x|` times
the bound of the coefficients. -/
theorem C90_loss {srt srt' : Argsort XR} (hs : ArgsortSpec srt) (hs' : ArgsortSpec srt') (hn : 0 < n) (D D' : Design n p)
    (y y' : Fin n → ℝ) (i₀ : Fin n) (hS : SameExcept i₀ D D' y y') (hy : |y i₀| ≤ 1) (hy' : |y' i₀| ≤ 1) (R : ℝ)
    (hR : len (D.matrix i₀) ≤ R) (hR' : len (D'.matrix i₀) ≤ R) (α ρ : ℝ) (hα : 0 < α) (h0 : 0 ≤ ρ) (h1 : ρ < 1)
    (cfg cfg' : Solver XR) (τ τ' : ℝ) (hτ : 0 ≤ τ) (hτ' : 0 ≤ τ') (ht : cfg.tolerance = XR.fin τ) (ht' : cfg'.tolerance = XR.fin τ')
    (v v' : Fin p → ℝ) (h : Stops srt cfg D y .logistic (.enet α ρ) v) (h' : Stops srt' cfg' D' y' .logistic (.enet α ρ) v')
    (x : Fin p → ℝ) (hx : len x ≤ R) (b : ℝ) (hb : |b| ≤ 1) :
    |LossKind.logistic.sample b (∑ j, x j * v j) - LossKind.logistic.sample b (∑ j, x j * v' j)| ≤
      R * ((2 * R / n + Real.sqrt p * (τ + τ')) / (α * (1 - ρ))) := by
  have key := C90_logistic hs hs' hn D D' y y' i₀ hS hy hy' R hR hR' α ρ hα h0 h1 cfg cfg' τ τ' hτ hτ' ht ht' v v' h h'
  refine (sample_logistic_lip b _ _).trans ?_
  have a : |∑ j, x j * v j - ∑ j, x j * v' j| ≤ len x * len (fun j => v j - v' j) := by
    rw [← Finset.sum_sub_distrib]
    simp only [← mul_sub]
    exact abs_inner_le_len _ _
  have c := mul_le_mul hx key (len_nonneg _) ((len_nonneg x).trans hx)
  have d := mul_le_mul_of_nonneg_right hb (abs_nonneg (∑ j, x j * v j - ∑ j, x j * v' j))
  linarith

/-! ## Examples -/

-- the Lasso with identical features: the second target changes from 2 to 3
example : ∃ (N N' : ℕ) (v v' : Fin 2 → ℝ),
    Stops argsortIns ⟨1, N, 50, XR.fin (1 / 1000), 5, false, true⟩ dupD ![1, 2] .quadratic (.l1 (1 / 10)) v ∧
    Stops argsortIns ⟨2, N', 50, XR.fin (1 / 1000), 5, false, true⟩ dupD ![1, 3] .quadratic (.l1 (1 / 10)) v' ∧
    ∑ i, (fit dupD.matrix v i - fit dupD.matrix v' i) ^ 2 ≤ 13 / 10 := by
  have hv : (Pen.l1 (1 / 10)).Valid := by norm_num [Pen.Valid]
  obtain ⟨N, h⟩ := stops_exists two_pos dupD trivial ![1, 2] .quadratic trivial (.l1 (1 / 10)) hv trivial (by norm_num [Pen.fn])
    (1 / 1000) (by norm_num)
  obtain ⟨N', h'⟩ := stops_exists two_pos dupD trivial ![1, 3] .quadratic trivial (.l1 (1 / 10)) hv trivial (by norm_num [Pen.fn])
    (1 / 1000) (by norm_num)
  obtain ⟨v, h1⟩ := h 1 one_pos
  obtain ⟨v', h2⟩ := h' 2 two_pos
  refine ⟨N, N', v, v', h1, h2, ?_⟩
  refine (C90_predictions argsortIns_spec argsortIns_spec two_pos dupD dupD trivial trivial rfl ![1, 2] ![1, 3] (.l1 (1 / 10)) hv trivial
    (1 / 10) (by norm_num) (pen_slope_l1 _) _ _ (1 / 1000) (1 / 1000) (by norm_num) (by norm_num) rfl rfl v v' h1 h2).trans ?_
  norm_num [Fin.sum_univ_two]

-- the multi-task Lasso
example : ∃ (N N' : ℕ) (V V' : Fin 2 → Euc 2),
    StopsMT argsortIns ⟨1, N, 50, XR.fin (1 / 1000), 5, false, true⟩ cvD ![![1, 2], ![0, -1]] (.l21 (1 / 10)) V ∧
    StopsMT argsortIns ⟨2, N', 50, XR.fin (1 / 1000), 5, false, true⟩ cvD ![![1, 2], ![0, 1]] (.l21 (1 / 10)) V' ∧
    ∑ i, ∑ t, (fitMT cvD.matrix (fun j => (V j).ofLp) i t - fitMT cvD.matrix (fun j => (V' j).ofLp) i t) ^ 2 ≤ 424 / 100 ∧
    len (fun j => ‖V j - V' j‖) ≤ (len (fun j => ‖corrMT cvD (fun i t => ![![1, 2], ![0, -1]] i t - ![![1, 2], ![0, 1]] i t) j‖) +
      Real.sqrt 2 * (1 / 1000 + 1 / 1000)) / (1 / 2) := by
  obtain ⟨N, h⟩ := stopsMT_exists two_pos cvD trivial ![![1, 2], ![0, -1]] (1 / 10) (by norm_num) (1 / 1000) (by norm_num)
  obtain ⟨N', h'⟩ := stopsMT_exists two_pos cvD trivial ![![1, 2], ![0, 1]] (1 / 10) (by norm_num) (1 / 1000) (by norm_num)
  obtain ⟨V, h1⟩ := h 1 one_pos
  obtain ⟨V', h2⟩ := h' 2 two_pos
  refine ⟨N, N', V, V', h1, h2, ?_, ?_⟩
  · refine (C90_predictions_mt argsortIns_spec argsortIns_spec two_pos cvD cvD trivial trivial rfl _ _ (1 / 10) (by norm_num) _ _
      (1 / 1000) (1 / 1000) (by norm_num) (by norm_num) rfl rfl V V' h1 h2).trans ?_
    norm_num [Fin.sum_univ_two]
  · exact C90_coefficients_mt argsortIns_spec argsortIns_spec two_pos cvD cvD rfl _ _ (1 / 10) (by norm_num) _ cvD_curvature (by norm_num) _ _
      (1 / 1000) (1 / 1000) (by norm_num) (by norm_num) rfl rfl V V' h1 h2

-- the elastic net with two correlated features
example : ∃ (N N' : ℕ) (v v' : Fin 2 → ℝ),
    Stops argsortIns ⟨1, N, 50, XR.fin (1 / 1000), 5, false, true⟩ cvD ![1, 2] .quadratic (.enet (1 / 10) (1 / 2)) v ∧
    Stops argsortIns ⟨2, N', 50, XR.fin (1 / 1000), 5, false, true⟩ cvD ![1, 3] .quadratic (.enet (1 / 10) (1 / 2)) v' ∧
    len (fun j => v j - v' j) ≤ 4 := by
  have hv : (Pen.enet (1 / 10) (1 / 2)).Valid := ⟨by norm_num, by norm_num, by norm_num⟩
  obtain ⟨N, h⟩ := stops_exists two_pos cvD trivial ![1, 2] .quadratic trivial (.enet (1 / 10) (1 / 2)) hv trivial
    (by norm_num [Pen.fn, enet]) (1 / 1000) (by norm_num)
  obtain ⟨N', h'⟩ := stops_exists two_pos cvD trivial ![1, 3] .quadratic trivial (.enet (1 / 10) (1 / 2)) hv trivial
    (by norm_num [Pen.fn, enet]) (1 / 1000) (by norm_num)
  obtain ⟨v, h1⟩ := h 1 one_pos
  obtain ⟨v', h2⟩ := h' 2 two_pos
  refine ⟨N, N', v, v', h1, h2, ?_⟩
  have key := C90_coefficients argsortIns_spec argsortIns_spec two_pos cvD cvD rfl ![1, 2] ![1, 3] (.enet (1 / 10) (1 / 2)) hv
    (fun _ => Pen.noConfusion) (1 / 2) cvD_curvature (by norm_num [Pen.modulus, Pen.concavity]) _ _
    (1 / 1000) (1 / 1000) (by norm_num) (by norm_num) rfl rfl v v' h1 h2
  have e : len (corr cvD (fun i => ![1, 2] i - ![1, 3] i)) ≤ 2 := by
    unfold len
    rw [Real.sqrt_le_left (by norm_num), Fin.sum_univ_two]
    have c0 : corr cvD (fun i => ![1, 2] i - ![1, 3] i) 0 = -3 / 2 := by
      show (∑ i : Fin 2, ![![1, 2], ![3, 1]] i 0 * (![1, 2] i - ![1, 3] i)) / ((2 : ℕ) : ℝ) = _
      rw [Fin.sum_univ_two]; norm_num
    have c1 : corr cvD (fun i => ![1, 2] i - ![1, 3] i) 1 = -1 / 2 := by
      show (∑ i : Fin 2, ![![1, 2], ![3, 1]] i 1 * (![1, 2] i - ![1, 3] i)) / ((2 : ℕ) : ℝ) = _
      rw [Fin.sum_univ_two]; norm_num
    rw [c0, c1]; norm_num
  have e2 : Real.sqrt ((2 : ℕ) : ℝ) ≤ 2 := by
    rw [Real.sqrt_le_left (by norm_num)]; norm_num
  refine key.trans ?_
  rw [show (1 / 2 : ℝ) + (Pen.enet (1 / 10) (1 / 2)).modulus - (Pen.enet (1 / 10) (1 / 2)).concavity = 11 / 20 by
    norm_num [Pen.modulus, Pen.concavity], div_le_iff₀ (by norm_num)]
  refine (add_le_add e (mul_le_mul_of_nonneg_right e2 (by norm_num))).trans (by norm_num)

-- logistic regression: the label of the second sample is flipped
example : ∃ (N N' : ℕ) (v v' : Fin 2 → ℝ),
    Stops argsortIns ⟨1, N, 50, XR.fin (1 / 1000), 5, false, true⟩ cvD ![1, -1] .logistic (.enet 10 (1 / 2)) v ∧
    Stops argsortIns ⟨2, N', 50, XR.fin (1 / 1000), 5, false, true⟩ cvD ![1, 1] .logistic (.enet 10 (1 / 2)) v' ∧
    len (fun j => v j - v' j) ≤ (2 * 4 / (2 : ℕ) + Real.sqrt (2 : ℕ) * (1 / 1000 + 1 / 1000)) / (10 * (1 - 1 / 2)) ∧
    |LossKind.logistic.sample 1 (∑ j, ![2, -1] j * v j) - LossKind.logistic.sample 1 (∑ j, ![2, -1] j * v' j)| ≤
      4 * ((2 * 4 / (2 : ℕ) + Real.sqrt (2 : ℕ) * (1 / 1000 + 1 / 1000)) / (10 * (1 - 1 / 2))) := by
  have hv : (Pen.enet 10 (1 / 2)).Valid := ⟨by norm_num, by norm_num, by norm_num⟩
  have hl : ∀ a : ℝ, |a| ≤ 1 → LossKind.logistic.LabelsOK ![1, a] := fun a ha i => by
    fin_cases i
    · norm_num
    · exact ha
  obtain ⟨N, h⟩ := stops_exists two_pos cvD trivial ![1, -1] .logistic (hl (-1) (by norm_num)) (.enet 10 (1 / 2)) hv trivial
    (by norm_num [Pen.fn, enet]) (1 / 1000) (by norm_num)
  obtain ⟨N', h'⟩ := stops_exists two_pos cvD trivial ![1, 1] .logistic (hl 1 (by norm_num)) (.enet 10 (1 / 2)) hv trivial
    (by norm_num [Pen.fn, enet]) (1 / 1000) (by norm_num)
  obtain ⟨v, h1⟩ := h 1 one_pos
  obtain ⟨v', h2⟩ := h' 2 two_pos
  have hS : SameExcept 1 cvD cvD ![1, -1] ![1, 1] := fun i hi => by
    fin_cases i
    · exact ⟨rfl, rfl⟩
    · exact absurd rfl hi
  have hR : len (cvD.matrix 1) ≤ 4 := by
    unfold len
    rw [Real.sqrt_le_left (by norm_num), Fin.sum_univ_two]
    show (3 : ℝ) ^ 2 + 1 ^ 2 ≤ 4 ^ 2
    norm_num
  have hx : len ![(2 : ℝ), -1] ≤ 4 := by
    unfold len
    rw [Real.sqrt_le_left (by norm_num), Fin.sum_univ_two]
    norm_num
  exact ⟨N, N', v, v', h1, h2,
    C90_logistic argsortIns_spec argsortIns_spec two_pos cvD cvD _ _ 1 hS (by norm_num) (by norm_num) 4 hR hR 10 (1 / 2) (by norm_num)
      (by norm_num) (by norm_num) _ _ (1 / 1000) (1 / 1000) (by norm_num) (by norm_num) rfl rfl v v' h1 h2,
    C90_loss argsortIns_spec argsortIns_spec two_pos cvD cvD _ _ 1 hS (by norm_num) (by norm_num) 4 hR hR 10 (1 / 2) (by norm_num)
      (by norm_num) (by norm_num) _ _ (1 / 1000) (1 / 1000) (by norm_num) (by norm_num) rfl rfl v v' h1 h2 _ hx 1 (by norm_num)⟩

end Sglm
