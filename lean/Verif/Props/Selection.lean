import Verif.Props.Predictions

/-!
# C70: which features are selected

A feature whose correlation with the residual of a minimiser is below the threshold by a margin gets a coefficient which is exactly
zero; a coefficient of the minimiser which is not too small is found, with its sign.
-/

namespace Sglm
open Scalar Spec
variable {n p T : ℕ}

theorem pen_shrink {pen : Pen} (hv : pen.Valid) (hc : pen.Convex) (x t : ℝ) (h0 : 0 ≤ t) (h1 : t ≤ 1) :
    pen.fn ((1 - t) • x) + pen.slope * t * ‖x‖ ≤ pen.fn x := by
  have e : ‖(1 - t) • x‖ = (1 - t) * ‖x‖ := by rw [norm_smul, Real.norm_eq_abs, abs_of_nonneg (by linarith)]
  cases pen with
  | l1 α =>
    show α * |(1 - t) • x| + α * t * ‖x‖ ≤ α * |x|
    rw [← Real.norm_eq_abs, ← Real.norm_eq_abs, e]
    exact le_of_eq (by ring)
  | enet α ρ =>
    show α * (ρ * ‖(1 - t) • x‖ + (1 - ρ) * ‖(1 - t) • x‖ ^ 2 / 2) + α * ρ * t * ‖x‖ ≤ α * (ρ * ‖x‖ + (1 - ρ) * ‖x‖ ^ 2 / 2)
    rw [e]
    have h2 : (1 - t) ^ 2 ≤ 1 := by nlinarith
    have h3 := mul_le_mul_of_nonneg_left h2 (mul_nonneg (mul_nonneg hv.1 (sub_nonneg.mpr hv.2.2)) (sq_nonneg ‖x‖))
    nlinarith
  | mcp α γ => exact hc.elim
  | l05 α => exact hc.elim

theorem slope_le {pen : Pen} (hv : pen.Valid) (hc : pen.Convex) (z : ℝ) : pen.slope * |z| ≤ pen.fn z := by
  cases pen with
  | l1 α => exact le_rfl
  | enet α ρ => exact pen_slope_enet hv.1 hv.2.2 z
  | mcp α γ => exact hc.elim
  | l05 α => exact hc.elim

/-- A selected feature has a correlation with the residual of at least the threshold. -/
theorem selected_corr (hn : 0 < n) {D : Design n p} {y : Fin n → ℝ} {pen : Pen} (hv : pen.Valid) (hc : pen.Convex) {τ : ℝ}
    {v : Fin p → ℝ} (h : ∀ u, objective1 D y .quadratic pen v - objective1 D y .quadratic pen u ≤ τ * ∑ j, |v j - u j|) (j : Fin p)
    (hj : v j ≠ 0) : pen.slope - τ ≤ |residCorr D y v j| := by
  have := selected_grd (φ := pen.fn) (κ := pen.slope) (τ := τ) hn D.matrix y (fun x t a b => pen_shrink hv hc x t a b) (v := v) (fun u => by
    rw [lsq_real, lsq_real]; exact h u) j hj
  rwa [grd_real, norm_neg, Real.norm_eq_abs] at this

theorem corr_near (hn : 0 < n) (D : Design n p) (y : Fin n → ℝ) (v w : Fin p → ℝ) (j : Fin p) {B : ℝ}
    (h : ∑ i, (fit D.matrix v i - fit D.matrix w i) ^ 2 ≤ B) :
    |residCorr D y v j| ≤ |residCorr D y w j| + Real.sqrt ((∑ i, D.matrix i j ^ 2) * B) / n := by
  have hn' : (0 : ℝ) < n := by exact_mod_cast hn
  have a := grd_sub_le hn D.matrix y v w j
  rw [grd_real, grd_real, sqFit_real] at a
  have b : |residCorr D y v j - residCorr D y w j| ≤ Real.sqrt ((∑ i, D.matrix i j ^ 2) * B) / n := by
    rw [le_div_iff₀ hn']
    refine Real.le_sqrt_of_sq_le ?_
    rw [mul_pow, sq_abs, ← le_div_iff₀ (by positivity)]
    have e : ‖-residCorr D y v j - -residCorr D y w j‖ ^ 2 = (residCorr D y v j - residCorr D y w j) ^ 2 := by
      rw [Real.norm_eq_abs, sq_abs]; ring
    rw [e] at a
    refine a.trans ?_
    gcongr
  have := abs_sub_abs_le_abs_sub (residCorr D y v j) (residCorr D y w j)
  linarith

theorem zero_of_corr (hn : 0 < n) {D : Design n p} {y : Fin n → ℝ} {pen : Pen} (hv : pen.Valid) (hc : pen.Convex) {τ B : ℝ}
    {v w : Fin p → ℝ} (h : ∀ u, objective1 D y .quadratic pen v - objective1 D y .quadratic pen u ≤ τ * ∑ j, |v j - u j|)
    (hB : ∑ i, (fit D.matrix v i - fit D.matrix w i) ^ 2 ≤ B) (j : Fin p)
    (hj : |residCorr D y w j| + Real.sqrt ((∑ i, D.matrix i j ^ 2) * B) / n + τ < pen.slope) : v j = 0 := by
  by_contra hne
  have a := selected_corr hn hv hc h j hne
  have b := corr_near hn D y v w j hB
  linarith

/-- **Selected features are correlated with the residual**, at least as much as the threshold minus the tolerance. -/
theorem C70_selected {srt : Argsort XR} (hs : ArgsortSpec srt) (hn : 0 < n) (D : Design n p) (y : Fin n → ℝ)
    (pen : Pen) (hv : pen.Valid) (hc : pen.Convex) (cfg : Solver XR) (τ : ℝ) (ht : cfg.tolerance = XR.fin τ) (v : Fin p → ℝ)
    (h : Stops srt cfg D y .quadratic pen v) (j : Fin p) (hj : v j ≠ 0) : pen.slope - τ ≤ |residCorr D y v j| :=
  selected_corr hn hv hc (stops_cert hs hn hv hc ht h).2 j hj

/-- **Exact zeros**: if the correlation of feature `j` with the residual of some minimiser is below the threshold by the margin
`√(‖X_j‖² τ ‖y‖² / κ) / n + τ`, then its coefficient is exactly zero, whatever the settings. -/
theorem C70_zero {srt : Argsort XR} (hs : ArgsortSpec srt) (hn : 0 < n) (D : Design n p) (hD : D.Canonical) (y : Fin n → ℝ)
    (pen : Pen) (hv : pen.Valid) (hc : pen.Convex) (hκ : 0 < pen.slope) (cfg : Solver XR) (τ : ℝ)
    (hτ : 0 ≤ τ) (ht : cfg.tolerance = XR.fin τ) (v : Fin p → ℝ) (h : Stops srt cfg D y .quadratic pen v)
    (w : Fin p → ℝ) (hw : ∀ u, objective1 D y .quadratic pen w ≤ objective1 D y .quadratic pen u) (j : Fin p)
    (hj : |residCorr D y w j| + Real.sqrt ((∑ i, D.matrix i j ^ 2) * (τ * (∑ i, y i ^ 2) / pen.slope)) / n + τ < pen.slope) : v j = 0 :=
  zero_of_corr hn hv hc (stops_cert hs hn hv hc ht h).2
    (C69_minimiser hs hn D hD y pen hv hc pen.slope hκ (slope_le hv hc) cfg τ hτ ht v h w hw) j hj

/-- **Signs**: if the minimiser is unique with curvature `μ`, coefficients larger than `√p τ / μ` are found, with their sign. -/
theorem C70_sign {srt : Argsort XR} (hs : ArgsortSpec srt) (hn : 0 < n) (D : Design n p) (y : Fin n → ℝ)
    (k : LossKind) (pen : Pen) (hv : pen.Valid) (hc : pen.Convex) (c : ℝ) (hcurv : Curvature D k c) (hμ : 0 < c + pen.modulus)
    (cfg : Solver XR) (τ : ℝ) (ht : cfg.tolerance = XR.fin τ) (v : Fin p → ℝ) (h : Stops srt cfg D y k pen v)
    (w : Fin p → ℝ) (hw : ∀ u, objective1 D y k pen w ≤ objective1 D y k pen u) (j : Fin p)
    (hj : p * (τ / (c + pen.modulus)) ^ 2 < w j ^ 2) : 0 < v j * w j := by
  obtain ⟨h1, st, log, h2, h3⟩ := h
  obtain ⟨v', h4, h5⟩ := C65_accuracy hs hn D y k pen hv hc c hcurv hμ w hw cfg τ ht st log h2 h3
  rw [h1] at h4
  rw [← vec_injective (Except.ok.inj h4)] at h5
  have h6 : (v j - w j) ^ 2 ≤ ∑ j, (v j - w j) ^ 2 :=
    Finset.single_le_sum (f := fun j => (v j - w j) ^ 2) (fun _ _ => sq_nonneg _) (Finset.mem_univ j)
  have h7 : (v j - w j) ^ 2 < w j ^ 2 := by linarith
  nlinarith [sq_nonneg (v j)]

/-- **Support**: both together, exactly the features of the minimiser are selected. -/
theorem C70_support {srt : Argsort XR} (hs : ArgsortSpec srt) (hn : 0 < n) (D : Design n p) (hD : D.Canonical) (y : Fin n → ℝ)
    (pen : Pen) (hv : pen.Valid) (hc : pen.Convex) (hκ : 0 < pen.slope) (c : ℝ) (hcurv : Curvature D .quadratic c)
    (hμ : 0 < c + pen.modulus) (cfg : Solver XR) (τ : ℝ) (hτ : 0 ≤ τ) (ht : cfg.tolerance = XR.fin τ) (v : Fin p → ℝ)
    (h : Stops srt cfg D y .quadratic pen v) (w : Fin p → ℝ)
    (hw : ∀ u, objective1 D y .quadratic pen w ≤ objective1 D y .quadratic pen u)
    (hz : ∀ j, w j = 0 → |residCorr D y w j| + Real.sqrt ((∑ i, D.matrix i j ^ 2) * (τ * (∑ i, y i ^ 2) / pen.slope)) / n + τ < pen.slope)
    (hnz : ∀ j, w j ≠ 0 → p * (τ / (c + pen.modulus)) ^ 2 < w j ^ 2) (j : Fin p) : SignType.sign (v j) = SignType.sign (w j) := by
  rcases eq_or_ne (w j) 0 with h0 | h0
  · rw [h0, C70_zero hs hn D hD y pen hv hc hκ cfg τ hτ ht v h w hw j (hz j h0)]
  · have := C70_sign hs hn D y .quadratic pen hv hc c hcurv hμ cfg τ ht v h w hw j (hnz j h0)
    rcases pos_and_pos_or_neg_and_neg_of_mul_pos this with ⟨a, b⟩ | ⟨a, b⟩
    · rw [sign_pos a, sign_pos b]
    · rw [sign_neg a, sign_neg b]

/-- **Small tolerances**: if no feature which is zero in the minimiser attains the threshold, all sufficiently small tolerances give
exactly the features and signs of the minimiser. -/
theorem C70_identified (hn : 0 < n) (D : Design n p) (hD : D.Canonical) (y : Fin n → ℝ)
    (pen : Pen) (hv : pen.Valid) (hc : pen.Convex) (hκ : 0 < pen.slope) (c : ℝ) (hcurv : Curvature D .quadratic c)
    (hμ : 0 < c + pen.modulus) (w : Fin p → ℝ) (hw : ∀ u, objective1 D y .quadratic pen w ≤ objective1 D y .quadratic pen u)
    (hz : ∀ j, w j = 0 → |residCorr D y w j| < pen.slope) :
    ∃ τ₀ : ℝ, 0 < τ₀ ∧ ∀ τ, 0 ≤ τ → τ ≤ τ₀ → ∀ srt, ArgsortSpec srt → ∀ cfg : Solver XR, cfg.tolerance = XR.fin τ →
      ∀ v, Stops srt cfg D y .quadratic pen v → ∀ j, SignType.sign (v j) = SignType.sign (w j) := by
  have key : ∀ j : Fin p, ∃ t : ℝ, 0 < t ∧ ∀ τ, 0 ≤ τ → τ ≤ t →
      (w j = 0 → |residCorr D y w j| + Real.sqrt ((∑ i, D.matrix i j ^ 2) * (τ * (∑ i, y i ^ 2) / pen.slope)) / n + τ < pen.slope) ∧
      (w j ≠ 0 → p * (τ / (c + pen.modulus)) ^ 2 < w j ^ 2) := by
    intro j
    have c1 : Continuous fun τ : ℝ => |residCorr D y w j| + Real.sqrt ((∑ i, D.matrix i j ^ 2) * (τ * (∑ i, y i ^ 2) / pen.slope)) / n + τ := by
      fun_prop
    have c2 : Continuous fun τ : ℝ => p * (τ / (c + pen.modulus)) ^ 2 := by fun_prop
    by_cases h0 : w j = 0
    · have h1 := (c1.tendsto 0).eventually (gt_mem_nhds (show _ < pen.slope by simpa using hz j h0))
      obtain ⟨t, ht, h2⟩ := Metric.eventually_nhds_iff.mp h1
      refine ⟨t / 2, by positivity, fun τ a b => ⟨fun _ => h2 (by rw [Real.dist_eq, sub_zero, abs_of_nonneg a]; linarith), fun h => absurd h0 h⟩⟩
    · have h1 := (c2.tendsto 0).eventually (gt_mem_nhds (show _ < w j ^ 2 by simpa using (sq_pos_of_ne_zero h0)))
      obtain ⟨t, ht, h2⟩ := Metric.eventually_nhds_iff.mp h1
      refine ⟨t / 2, by positivity, fun τ a b => ⟨fun h => absurd h h0, fun _ => h2 (by rw [Real.dist_eq, sub_zero, abs_of_nonneg a]; linarith)⟩⟩
  choose t ht key using key
  obtain ⟨t₀, h0, h1⟩ : ∃ t₀ : ℝ, 0 < t₀ ∧ ∀ j, t₀ ≤ t j := by
    rcases isEmpty_or_nonempty (Fin p) with he | he
    · exact ⟨1, one_pos, fun j => he.elim j⟩
    · refine ⟨Finset.univ.inf' Finset.univ_nonempty t, (Finset.lt_inf'_iff _).mpr fun j _ => ht j, fun j => Finset.inf'_le _ (Finset.mem_univ j)⟩
  refine ⟨t₀, h0, fun τ a b srt hs cfg hcfg v h j => ?_⟩
  exact C70_support hs hn D hD y pen hv hc hκ c hcurv hμ cfg τ a hcfg v h w hw (fun j => (key j τ a (b.trans (h1 j))).1)
    (fun j => (key j τ a (b.trans (h1 j))).2) j

/-! ## Several tasks -/

theorem l21_shrink (α : ℝ) (x : Euc T) (t : ℝ) (h1 : t ≤ 1) : α * ‖(1 - t) • x‖ + α * t * ‖x‖ ≤ α * ‖x‖ := by
  rw [norm_smul, Real.norm_eq_abs, abs_of_nonneg (by linarith)]
  exact le_of_eq (by ring)

theorem selected_corr_mt (hn : 0 < n) {D : Design n p} {Y : Fin n → Fin T → ℝ} {α τ : ℝ}
    {V : Fin p → Euc T} (h : ∀ U, objectiveMT D Y (.l21 α) V - objectiveMT D Y (.l21 α) U ≤ τ * ∑ j, ‖V j - U j‖) (j : Fin p)
    (hj : V j ≠ 0) : α - τ ≤ ‖residCorrMT D Y V j‖ := by
  have := selected_grd (φ := fun z : Euc T => α * ‖z‖) (κ := α) (τ := τ) hn D.matrix (vecY Y) (fun x t _ b => l21_shrink α x t b) (v := V) (fun u => by
    rw [lsq_mt, lsq_mt]; exact h u) j hj
  rwa [grd_mt, norm_neg] at this

/-- **Rows which are exactly zero** (multi-task Lasso). -/
theorem C70_zero_mt {srt : Argsort XR} (hs : ArgsortSpec srt) (hn : 0 < n) (D : Design n p) (hD : D.Canonical) (Y : Fin n → Fin T → ℝ)
    (α : ℝ) (hα : 0 < α) (cfg : Solver XR) (τ : ℝ) (hτ : 0 ≤ τ) (ht : cfg.tolerance = XR.fin τ) (V : Fin p → Euc T)
    (h : StopsMT srt cfg D Y (.l21 α) V) (W : Fin p → Euc T) (hW : ∀ U, objectiveMT D Y (.l21 α) W ≤ objectiveMT D Y (.l21 α) U) (j : Fin p)
    (hj : ‖residCorrMT D Y W j‖ + Real.sqrt ((∑ i, D.matrix i j ^ 2) * (τ * (∑ i, ∑ t, Y i t ^ 2) / α)) / n + τ < α) : V j = 0 := by
  by_contra hne
  have hn' : (0 : ℝ) < n := by exact_mod_cast hn
  have a := selected_corr_mt hn (stopsMT_cert hs hn hα ht h) j hne
  have b := grd_sub_le hn D.matrix (vecY Y) V W j
  rw [grd_mt, grd_mt, sqFit_mt] at b
  have d := C69_minimiser_mt hs hn D hD Y α hα cfg τ hτ ht V h W hW
  have e : ‖residCorrMT D Y V j - residCorrMT D Y W j‖ ≤ Real.sqrt ((∑ i, D.matrix i j ^ 2) * (τ * (∑ i, ∑ t, Y i t ^ 2) / α)) / n := by
    rw [le_div_iff₀ hn']
    refine Real.le_sqrt_of_sq_le ?_
    rw [mul_pow, ← le_div_iff₀ (by positivity)]
    have e : -residCorrMT D Y V j - -residCorrMT D Y W j = -(residCorrMT D Y V j - residCorrMT D Y W j) := by abel
    rw [e, norm_neg] at b
    refine b.trans ?_
    gcongr
  have := norm_sub_norm_le (residCorrMT D Y V j) (residCorrMT D Y W j)
  linarith

/-! ## Floating point -/

/-- **Exact zeros in floating point**: the computed coefficient is the number zero, in spite of rounding errors. -/
theorem C70_float (hn : 0 < n) (hp : 0 < p) (D : Design n p) (hD : D.Canonical) (y : Fin n → ℝ) (pen : Pen) (hv : pen.Valid)
    (hc : pen.Convex) (hκ : 0 < pen.slope) (τ : ℝ) (hτ : 0 < τ)
    (w : Fin p → ℝ) (hw : ∀ u, objective1 D y .quadratic pen w ≤ objective1 D y .quadratic pen u) :
    InFloat D y .quadratic pen τ fun ε v => ∀ j, |residCorr D y w j| +
      Real.sqrt ((∑ i, D.matrix i j ^ 2) * ((τ + ε) * (∑ i, y i ^ 2 + n * ε) / pen.slope)) / n + (τ + ε) < pen.slope → v j = 0 :=
  inFloat_of hn hp D hD y .quadratic trivial pen hv hc (slope_one hκ (slope_le hv hc)) τ hτ fun _ hε _ h1 h2 j hj =>
    zero_of_corr hn hv hc h2 (predictions_min hn hv hc hκ (slope_le hv hc) (by linarith) h1 h2 hw) j hj

/-! ## Examples: two orthogonal features, one of them not selected -/

/-- Identity design. -/
noncomputable def idD : Design 2 2 := .dense ![![1, 0], ![0, 1]]

theorem idD_fit (w : Fin 2 → ℝ) : fit idD.matrix w 0 = w 0 ∧ fit idD.matrix w 1 = w 1 := by
  have e : ∀ i, fit idD.matrix w i = (![![1, 0], ![0, 1]] : Fin 2 → Fin 2 → ℝ) i 0 * w 0 + (![![1, 0], ![0, 1]] : Fin 2 → Fin 2 → ℝ) i 1 * w 1 := fun i => by
    show ∑ j : Fin 2, _ = _
    rw [Fin.sum_univ_two]; rfl
  rw [e, e]
  norm_num

theorem idD_curvature : Curvature idD .quadratic (1 / 2) := by
  intro d
  rw [Fin.sum_univ_two, Fin.sum_univ_two, (idD_fit d).1, (idD_fit d).2]
  norm_num
  linarith

theorem idD_objective (w : Fin 2 → ℝ) : objective1 idD ![4, 1 / 2] .quadratic (.l1 1) w =
    ((4 - w 0) ^ 2 + (1 / 2 - w 1) ^ 2) / 4 + (|w 0| + |w 1|) := by
  show quadLoss ![4, 1 / 2] (fit idD.matrix w) + ∑ j, (Pen.l1 1).fn (w j) = _
  unfold quadLoss
  rw [Fin.sum_univ_two, Fin.sum_univ_two, (idD_fit w).1, (idD_fit w).2]
  norm_num [Pen.fn]

theorem idD_min (u : Fin 2 → ℝ) :
    objective1 idD ![4, 1 / 2] .quadratic (.l1 1) ![2, 0] ≤ objective1 idD ![4, 1 / 2] .quadratic (.l1 1) u := by
  rw [idD_objective, idD_objective]
  norm_num
  nlinarith [le_abs_self (u 0), le_abs_self (u 1), neg_abs_le (u 1), sq_nonneg (u 0 - 2), sq_nonneg (u 1)]

theorem idD_corr : residCorr idD ![4, 1 / 2] ![2, 0] 1 = 1 / 4 := by
  unfold residCorr
  rw [Fin.sum_univ_two, (idD_fit _).1, (idD_fit _).2]
  show ((0 : ℝ) * _ + 1 * _) / _ = _
  norm_num

theorem idD_sq (j : Fin 2) : ∑ i, idD.matrix i j ^ 2 = 1 := by
  rw [Fin.sum_univ_two]
  show (![![1, 0], ![0, 1]] : Fin 2 → Fin 2 → ℝ) 0 j ^ 2 + (![![1, 0], ![0, 1]] : Fin 2 → Fin 2 → ℝ) 1 j ^ 2 = 1
  fin_cases j <;> norm_num

theorem idD_margin : |residCorr idD ![4, 1 / 2] ![2, 0] 1| +
    Real.sqrt ((∑ i, idD.matrix i 1 ^ 2) * (1 / 100 * (∑ i, (![4, 1 / 2] : Fin 2 → ℝ) i ^ 2) / (Pen.l1 1).slope)) / ((2 : ℕ) : ℝ) + 1 / 100 <
      (Pen.l1 1).slope := by
  rw [idD_corr, idD_sq, Fin.sum_univ_two]
  show _ + Real.sqrt (1 * (_ / (1 : ℝ))) / _ + _ < (1 : ℝ)
  have : Real.sqrt (1 * (1 / 100 * ((4 : ℝ) ^ 2 + (1 / 2) ^ 2) / 1)) ≤ 1 / 2 := by
    rw [Real.sqrt_le_left (by norm_num)]
    norm_num
  rw [abs_of_pos (by norm_num)]
  push_cast
  linarith

theorem idD_stops : ∃ (N : ℕ) (v : Fin 2 → ℝ), Stops argsortIns ⟨1, N, 50, XR.fin (1 / 100), 5, false, true⟩ idD ![4, 1 / 2] .quadratic (.l1 1) v := by
  obtain ⟨N, h⟩ := stops_exists two_pos idD trivial ![4, 1 / 2] .quadratic trivial (.l1 1) (by norm_num [Pen.Valid]) trivial
    (by norm_num [Pen.fn]) (1 / 100) (by norm_num)
  exact ⟨N, h 1 one_pos⟩

example : ∃ (N : ℕ) (v : Fin 2 → ℝ), Stops argsortIns ⟨1, N, 50, XR.fin (1 / 100), 5, false, true⟩ idD ![4, 1 / 2] .quadratic (.l1 1) v ∧
    v 1 = 0 ∧ 0 < v 0 * 2 ∧ 99 / 100 ≤ |residCorr idD ![4, 1 / 2] v 0| := by
  obtain ⟨N, v, h⟩ := idD_stops
  have hv : (Pen.l1 1).Valid := by norm_num [Pen.Valid]
  have h0 : 0 < v 0 * 2 := C70_sign argsortIns_spec two_pos idD ![4, 1 / 2] .quadratic (.l1 1) hv trivial (1 / 2) idD_curvature (by norm_num [Pen.modulus])
    _ (1 / 100) rfl v h ![2, 0] idD_min 0 (by norm_num [Pen.modulus])
  refine ⟨N, v, h, ?_, h0, ?_⟩
  · exact C70_zero argsortIns_spec two_pos idD trivial ![4, 1 / 2] (.l1 1) hv trivial one_pos _ (1 / 100) (by norm_num) rfl v h ![2, 0] idD_min 1
      idD_margin
  · refine le_trans ?_ (C70_selected argsortIns_spec two_pos idD ![4, 1 / 2] (.l1 1) hv trivial _ (1 / 100) rfl v h 0 (fun h1 => by
      rw [h1, zero_mul] at h0; exact lt_irrefl _ h0))
    norm_num [Pen.slope]

example : ∃ (N : ℕ) (v : Fin 2 → ℝ), Stops argsortIns ⟨1, N, 50, XR.fin (1 / 100), 5, false, true⟩ idD ![4, 1 / 2] .quadratic (.l1 1) v ∧
    ∀ j, SignType.sign (v j) = SignType.sign ((![2, 0] : Fin 2 → ℝ) j) := by
  obtain ⟨N, v, h⟩ := idD_stops
  refine ⟨N, v, h, C70_support argsortIns_spec two_pos idD trivial ![4, 1 / 2] (.l1 1) (by norm_num [Pen.Valid]) trivial one_pos (1 / 2)
    idD_curvature (by norm_num [Pen.modulus]) _ (1 / 100) (by norm_num) rfl v h ![2, 0] idD_min ?_ ?_⟩
  · rw [Fin.forall_fin_two]
    exact ⟨fun h => absurd h (by norm_num), fun _ => idD_margin⟩
  · rw [Fin.forall_fin_two]
    exact ⟨fun _ => by norm_num [Pen.modulus], fun h => absurd rfl h⟩

example : ∃ τ₀ : ℝ, 0 < τ₀ ∧ ∀ τ, 0 ≤ τ → τ ≤ τ₀ → ∀ srt, ArgsortSpec srt → ∀ cfg : Solver XR, cfg.tolerance = XR.fin τ →
    ∀ v, Stops srt cfg idD ![4, 1 / 2] .quadratic (.l1 1) v → ∀ j, SignType.sign (v j) = SignType.sign ((![2, 0] : Fin 2 → ℝ) j) :=
  C70_identified two_pos idD trivial ![4, 1 / 2] (.l1 1) (by norm_num [Pen.Valid]) trivial one_pos (1 / 2)
    idD_curvature (by norm_num [Pen.modulus]) ![2, 0] idD_min (by
      rw [Fin.forall_fin_two]
      refine ⟨fun h => absurd h (by norm_num), fun _ => ?_⟩
      rw [idD_corr]
      norm_num [Pen.slope])

-- two tasks
theorem idD_min_mt (W : Fin 2 → Euc 2) : objectiveMT idD ![![4, 0], ![0, 1 / 2]] (.l21 1) ![WithLp.toLp 2 ![2, 0], 0] ≤
    objectiveMT idD ![![4, 0], ![0, 1 / 2]] (.l21 1) W := by
  have e : ∀ W : Fin 2 → Euc 2, objectiveMT idD ![![4, 0], ![0, 1 / 2]] (.l21 1) W =
      (((4 - (W 0).ofLp 0) ^ 2 + (0 - (W 0).ofLp 1) ^ 2) + ((0 - (W 1).ofLp 0) ^ 2 + (1 / 2 - (W 1).ofLp 1) ^ 2)) / 4 +
        (1 * ‖W 0‖ + 1 * ‖W 1‖) := by
    intro W
    show mtLoss _ (fitMT idD.matrix fun j => (W j).ofLp) + ∑ j, 1 * ‖W j‖ = _
    have e1 : ∀ i t, fitMT idD.matrix (fun j => (W j).ofLp) i t = (![![1, 0], ![0, 1]] : Fin 2 → Fin 2 → ℝ) i 0 * (W 0).ofLp t +
        (![![1, 0], ![0, 1]] : Fin 2 → Fin 2 → ℝ) i 1 * (W 1).ofLp t := fun i t => by
      show ∑ j : Fin 2, _ = _
      rw [Fin.sum_univ_two]; rfl
    unfold mtLoss
    rw [Fin.sum_univ_two, Fin.sum_univ_two, Fin.sum_univ_two, Fin.sum_univ_two, e1, e1, e1, e1]
    norm_num
  have h0 : ‖(WithLp.toLp 2 ![2, 0] : Euc 2)‖ = 2 := by
    rw [EuclideanSpace.norm_eq, Fin.sum_univ_two]
    show Real.sqrt (‖(2 : ℝ)‖ ^ 2 + ‖(0 : ℝ)‖ ^ 2) = 2
    rw [show ‖(2 : ℝ)‖ ^ 2 + ‖(0 : ℝ)‖ ^ 2 = (2 : ℝ) ^ 2 by norm_num]
    exact Real.sqrt_sq (by norm_num)
  have a := PiLp.norm_apply_le (W 0) 0
  have b := PiLp.norm_apply_le (W 1) 1
  rw [Real.norm_eq_abs] at a b
  rw [e, e]
  show (((4 - 2) ^ 2 + (0 - 0) ^ 2) + ((0 - 0) ^ 2 + (1 / 2 - 0) ^ 2)) / 4 + (1 * ‖(WithLp.toLp 2 ![2, 0] : Euc 2)‖ + 1 * ‖(0 : Euc 2)‖) ≤ _
  rw [h0, norm_zero]
  nlinarith [le_abs_self ((W 0).ofLp 0), le_abs_self ((W 1).ofLp 1), sq_nonneg ((W 0).ofLp 0 - 2), sq_nonneg ((W 1).ofLp 1),
    sq_nonneg ((W 0).ofLp 1), sq_nonneg ((W 1).ofLp 0), abs_nonneg ((W 1).ofLp 1)]

example : ∃ (N : ℕ) (V : Fin 2 → Euc 2),
    StopsMT argsortIns ⟨1, N, 50, XR.fin (1 / 100), 5, false, true⟩ idD ![![4, 0], ![0, 1 / 2]] (.l21 1) V ∧ V 1 = 0 := by
  obtain ⟨N, h⟩ := stopsMT_exists two_pos idD trivial ![![4, 0], ![0, 1 / 2]] 1 one_pos (1 / 100) (by norm_num)
  obtain ⟨V, h⟩ := h 1 one_pos
  refine ⟨N, V, h, C70_zero_mt argsortIns_spec two_pos idD trivial _ 1 one_pos _ (1 / 100) (by norm_num) rfl V h _ idD_min_mt 1 ?_⟩
  have e : residCorrMT idD ![![4, 0], ![0, 1 / 2]] ![WithLp.toLp 2 ![2, 0], 0] 1 = WithLp.toLp 2 ![0, 1 / 4] := by
    ext t
    show (∑ i, idD.matrix i 1 * (_ - fitMT idD.matrix _ i t)) / ((2 : ℕ) : ℝ) = _
    unfold fitMT
    rw [Fin.sum_univ_two, Fin.sum_univ_two, Fin.sum_univ_two]
    show ((0 : ℝ) * _ + 1 * (_ - ((0 : ℝ) * _ + 1 * 0))) / _ = _
    fin_cases t <;> norm_num
  have e2 : ‖(WithLp.toLp 2 ![0, 1 / 4] : Euc 2)‖ = 1 / 4 := by
    rw [EuclideanSpace.norm_eq, Fin.sum_univ_two]
    show Real.sqrt (‖(0 : ℝ)‖ ^ 2 + ‖(1 / 4 : ℝ)‖ ^ 2) = 1 / 4
    rw [show ‖(0 : ℝ)‖ ^ 2 + ‖(1 / 4 : ℝ)‖ ^ 2 = (1 / 4 : ℝ) ^ 2 by norm_num]
    exact Real.sqrt_sq (by norm_num)
  have : Real.sqrt (1 * (1 / 100 * ((4 : ℝ) ^ 2 + 0 ^ 2 + (0 ^ 2 + (1 / 2) ^ 2)) / 1)) ≤ 1 / 2 := by
    rw [Real.sqrt_le_left (by norm_num)]
    norm_num
  rw [e, e2, idD_sq, Fin.sum_univ_two, Fin.sum_univ_two, Fin.sum_univ_two]
  show 1 / 4 + Real.sqrt (1 * (1 / 100 * ((4 : ℝ) ^ 2 + 0 ^ 2 + (0 ^ 2 + (1 / 2) ^ 2)) / 1)) / ((2 : ℕ) : ℝ) + 1 / 100 < 1
  push_cast
  linarith

-- in a binary floating point format, the second coefficient is zero
example : ∃ (t N : ℕ) (v : Fin 2 → ℝ) (m : ℕ),
      RunsTo argsortIns (binCfg t N (1 / 200)) idD (fun i j => Fl.of t (idD.matrix i j)) (fun i => Fl.of t (![4, 1 / 2] i)) .quadratic
        (.l1 (Fl.of t 1)) v m ∧ v 1 = 0 := by
  obtain ⟨N, h⟩ := C70_float two_pos two_pos idD trivial ![4, 1 / 2] (.l1 1) (by norm_num [Pen.Valid]) trivial one_pos
    (1 / 200) (by norm_num) ![2, 0] idD_min
  obtain ⟨e₀, he₀, h⟩ := h 10 (1 / 1000) (by norm_num)
  obtain ⟨t, ht⟩ := bin_exists he₀
  obtain ⟨v, m, h1, h2, h3⟩ := h _ _ (bin_laws t .quadratic) ht (fun i j => Fl.of t (idD.matrix i j)) (fun i => Fl.of t (![4, 1 / 2] i))
    (.l1 (Fl.of t 1)) (fun i j => bin_stores t _) (fun i => bin_stores t _) (bin_stores t _) argsortIns (argsortFl t)
    (binCfg t N (1 / 200)) (binCfg_ok _ _ _) (bin_stores t _) le_rfl le_rfl (by norm_num [binCfg]) (binCfg_plain _ _ _)
  refine ⟨t, N, v, m, h1, h3 1 (lt_of_le_of_lt ?_ idD_margin)⟩
  refine add_le_add (add_le_add le_rfl ?_) (by norm_num)
  refine div_le_div_of_nonneg_right (Real.sqrt_le_sqrt ?_) (by norm_num)
  rw [idD_sq, Fin.sum_univ_two]
  show 1 * (_ / (1 : ℝ)) ≤ 1 * (_ / (1 : ℝ))
  norm_num

end Sglm
