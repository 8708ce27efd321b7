import Verif.Proofs.Gap
import Verif.Props.Statistics

/-!
# C107: the duality gap of the result, and agreement with other libraries

Exact arithmetic.  The tests and the benchmarks compare the coefficients with those of scikit-learn, which stops when the duality gap is at most
`tol * ‖y‖²`; the solver of this library stops when the optimality conditions are violated by at most `tol`.
-/

namespace Sglm
open Scalar Spec
variable {n p T : ℕ}

/-- The duality gap bounds the distance to the minimum, whatever the coefficients. -/
theorem C107_weak (D : Design n p) (y : Fin n → ℝ) (pen : Pen) (hv : pen.Valid) (hc : pen.Convex) (u w : Fin p → ℝ) :
    objective1 D y .quadratic pen u ≤ objective1 D y .quadratic pen w + dualityGap D y pen.slope pen.modulus u := gap_weak D y hv hc u w

theorem C107_weak_mt (D : Design n p) (Y : Fin n → Fin T → ℝ) (α : ℝ) (hα : 0 ≤ α) (U W : Fin p → Euc T) :
    objectiveMT D Y (.l21 α) U ≤ objectiveMT D Y (.l21 α) W + dualityGapMT D Y α U := gapMT_weak D Y hα U W

/-- **The duality gap of the result** of a call which stops early (Lasso, elastic net with positive `l1_ratio`). -/
theorem C107_gap {srt : Argsort XR} (hs : ArgsortSpec srt) (hn : 0 < n) (D : Design n p) (hD : D.Canonical) (y : Fin n → ℝ) (pen : Pen)
    (hv : pen.Valid) (hc : pen.Convex) (ha : 0 < pen.slope) (cfg : Solver XR) (τ : ℝ) (hτ : 0 ≤ τ) (ht : cfg.tolerance = XR.fin τ)
    (v : Fin p → ℝ) (h : Stops srt cfg D y .quadratic pen v) :
    dualityGap D y pen.slope pen.modulus v ≤ (τ / pen.slope + τ ^ 2 / (2 * pen.slope ^ 2)) * ((∑ i, y i ^ 2) / n) := by
  have hst : pen.StepOK D .quadratic := by cases pen <;> trivial
  have hle := C28_result hs hn D hD y .quadratic trivial pen hv hst cfg v h.1
  rw [objective1_zero D y pen (pen_zero_of hc), enet_objective D y hc] at hle
  have hq : ∀ j, |residCorr D y v j - pen.modulus * v j| ≤ pen.slope + τ ∧
      (pen.slope - τ) * |v j| ≤ v j * (residCorr D y v j - pen.modulus * v j) := fun j => by
    rw [corr_grad]
    exact corr_of_score hv hc (stops_scores hs hn hv ht h j)
  rw [gap_eq]
  refine gap_arith ha hτ (dualScale_pos ha) (dualScale_near ha hτ (sup_fin_le (by linarith) fun j => (hq j).1)) ?_
    (Finset.sum_nonneg fun _ _ => abs_nonneg _) ?_ ?_
  · exact add_nonneg (div_nonneg (Finset.sum_nonneg fun _ _ => sq_nonneg _) (Nat.cast_nonneg _))
      (mul_nonneg (slope_modulus hv hc).2 (Finset.sum_nonneg fun _ _ => sq_nonneg _))
  · rw [Finset.mul_sum]
    exact Finset.sum_le_sum fun j _ => (hq j).2
  · have e : (∑ i, y i ^ 2) / (2 * (n : ℝ)) = (∑ i, y i ^ 2) / n / 2 := by ring
    rw [← e]
    exact hle

/-- **Floating point**: the same for the values of the computed coefficients, up to an error which is small if the precision is high. -/
theorem C107_float (hn : 0 < n) (hp : 0 < p) (D : Design n p) (hD : D.Canonical) (y : Fin n → ℝ) (pen : Pen) (hv : pen.Valid)
    (hc : pen.Convex) (ha : 0 < pen.slope) (τ : ℝ) (hτ : 0 < τ) :
    InFloat D y .quadratic pen τ fun ε v => dualityGap D y pen.slope pen.modulus v ≤
      ((τ + ε) / pen.slope + (τ + ε) ^ 2 / (2 * pen.slope ^ 2)) * ((∑ i, y i ^ 2) / n + 2 * ε) :=
  inFloat_of hn hp D hD y .quadratic trivial pen hv hc (slope_one ha fun z => slope_le hv hc z) τ hτ fun _ hε _ h1 h2 =>
    dualityGap_of_cert hn D y hv hc ha (by linarith) h1 h2

/-- **Which tolerance to choose**: with `tolerance ≤ α t / 2` the result meets the criterion of a library which asks for a duality gap of at most
`t ‖y‖²` (divided by `n`). -/
theorem C107_tolerance {srt : Argsort XR} (hs : ArgsortSpec srt) (hn : 0 < n) (D : Design n p) (hD : D.Canonical) (y : Fin n → ℝ) (pen : Pen)
    (hv : pen.Valid) (hc : pen.Convex) (ha : 0 < pen.slope) (cfg : Solver XR) (τ t : ℝ) (hτ : 0 ≤ τ) (ht : cfg.tolerance = XR.fin τ)
    (ht1 : t ≤ 1) (hτt : τ ≤ pen.slope * t / 2) (v : Fin p → ℝ) (h : Stops srt cfg D y .quadratic pen v) :
    dualityGap D y pen.slope pen.modulus v ≤ t * ((∑ i, y i ^ 2) / n) := by
  refine (C107_gap hs hn D hD y pen hv hc ha cfg τ hτ ht v h).trans (mul_le_mul_of_nonneg_right ?_
    (div_nonneg (Finset.sum_nonneg fun _ _ => sq_nonneg _) (Nat.cast_nonneg _)))
  have h1 : τ / pen.slope ≤ t / 2 := by rw [div_le_iff₀ ha]; linarith
  have h0 : 0 ≤ τ / pen.slope := div_nonneg hτ ha.le
  have e : τ ^ 2 / (2 * pen.slope ^ 2) = (τ / pen.slope) ^ 2 / 2 := by field_simp
  rw [e]
  nlinarith

/-- **`Lasso::fit` meets the criterion of the other library**, with `tol = α t / 2` and enough iterations. -/
theorem C107_lasso_fit (hn : 0 < n) (D : Design n p) (hD : D.Canonical) (y : Fin n → ℝ) (α : ℝ) (hα : 0 < α) (t : ℝ) (ht0 : 0 < t)
    (ht1 : t ≤ 1) : ∃ N : ℕ, ∀ srt, ArgsortSpec srt → ∀ ps : LassoParams XR, ps.alpha = XR.fin α → ps.tolerance = XR.fin (α * t / 2) →
      0 < ps.K → 0 < ps.wsStartSize → 0 < ps.maxEpochs → StopsPlain ps.solver → N ≤ ps.maxIterations →
      (ps.useAcceleration = true → ps.K ≤ ps.wsStartSize ∧ ps.K ≤ p) →
      ∃ v : Fin p → ℝ, fitLasso srt ps D y = .ok (.ok (vec v)) ∧ dualityGap D y α 0 v ≤ t * ((∑ i, y i ^ 2) / n) := by
  have hv : (Pen.l1 α).Valid := hα.le
  have hτ : 0 < α * t / 2 := by positivity
  obtain ⟨a, b, H⟩ := prob1_cvx hn D hD y .quadratic trivial (.l1 α) hv trivial (slope_one hα (pen_slope_l1 α))
  obtain ⟨N, h2⟩ := H.run_terminates (Or.inl rfl) (α * t / 2) hτ
  refine ⟨N + 1, fun srt hs ps ha ht hK hw he hpl hN hacc => ?_⟩
  obtain ⟨v, m, h⟩ := (prob1 D y .quadratic (.l1 α)).run_ok hs ps.solver (fun hu => by
    obtain ⟨h3, h4⟩ := hacc hu
    exact ⟨hK, by show ps.K ≤ ps.wsStartSize * 1; omega, by show ps.K ≤ p * 1; omega⟩)
  have h5 := (h2 hs ps.solver ht hw he hpl.plainEnd v m h).1
  have hst : Stops srt ps.solver D y .quadratic (.l1 α) v := stops_of_run hs hn hv h (by
    have : ps.solver.maxIterations = ps.maxIterations := rfl
    omega)
  refine ⟨v, ?_, C107_tolerance hs hn D hD y (.l1 α) hv trivial hα ps.solver _ t hτ.le ht ht1 le_rfl v hst⟩
  rw [fitLasso_eq srt ps α ha, checkRef_ok ps ha hα.le ht hτ.le hK hw, guarded_ok, hst.1]
  rfl

/-- Multi-task Lasso. -/
theorem C107_gap_mt {srt : Argsort XR} (hs : ArgsortSpec srt) (hn : 0 < n) (D : Design n p) (hD : D.Canonical) (Y : Fin n → Fin T → ℝ) (α : ℝ)
    (hα : 0 < α) (cfg : Solver XR) (τ : ℝ) (hτ : 0 ≤ τ) (ht : cfg.tolerance = XR.fin τ) (V : Fin p → Euc T)
    (h : StopsMT srt cfg D Y (.l21 α) V) :
    dualityGapMT D Y α V ≤ (τ / α + τ ^ 2 / (2 * α ^ 2)) * ((∑ i, ∑ t, Y i t ^ 2) / n) := by
  have hle := C28_result_mt hs hn D hD Y (.l21 α) hα trivial cfg V h.1
  rw [objectiveMT_zero, l21_objective] at hle
  have hq : ∀ j, ‖residCorrMT D Y V j‖ ≤ α + τ ∧ (α - τ) * ‖V j‖ ≤ inner ℝ (V j) (residCorrMT D Y V j) := fun j => by
    rw [corrMT_grad]
    exact corrMT_of_score hα.le (stopsMT_scores hs hn (show (BPen.l21 α).Valid from hα) ht h j)
  rw [gapMT_eq]
  refine gap_arith hα hτ (dualScale_pos hα) (dualScale_near hα hτ (sup_fin_le (by linarith) fun j => (hq j).1)) ?_
    (Finset.sum_nonneg fun _ _ => norm_nonneg _) ?_ ?_
  · exact div_nonneg (Finset.sum_nonneg fun _ _ => Finset.sum_nonneg fun _ _ => sq_nonneg _) (Nat.cast_nonneg _)
  · rw [Finset.mul_sum]
    exact Finset.sum_le_sum fun j _ => (hq j).2
  · have e : (∑ i, ∑ t, Y i t ^ 2) / (2 * (n : ℝ)) = (∑ i, ∑ t, Y i t ^ 2) / n / 2 := by ring
    rw [← e]
    exact hle

/-- **Agreement with any other solver**: if `u` are coefficients (of whatever origin) whose duality gap is at most `g`, the predictions of
the result are close to those of `u`; so are the coefficients, in so far as the problem is curved. -/
theorem C107_agree {srt : Argsort XR} (hs : ArgsortSpec srt) (hn : 0 < n) (D : Design n p) (hD : D.Canonical) (y : Fin n → ℝ) (pen : Pen)
    (hv : pen.Valid) (hc : pen.Convex) (ha : 0 < pen.slope) (cfg : Solver XR) (τ : ℝ) (hτ : 0 ≤ τ) (ht : cfg.tolerance = XR.fin τ)
    (v : Fin p → ℝ) (h : Stops srt cfg D y .quadratic pen v) (u : Fin p → ℝ) (g : ℝ) (hu : dualityGap D y pen.slope pen.modulus u ≤ g) :
    (∑ i, (fit D.matrix v i - fit D.matrix u i) ^ 2) / n + pen.modulus * ∑ j, (v j - u j) ^ 2 ≤
      2 * (g + τ * (((∑ i, y i ^ 2) / n + g) / pen.slope)) := by
  have hst : pen.StepOK D .quadratic := by cases pen <;> trivial
  have hn' : (0 : ℝ) < n := by exact_mod_cast hn
  have h1 := lsq_gap (φ := pen.fn) hn D.matrix y (slope_modulus hv hc).2 (fun x z t a b => pen_line pen hv hc x z t a b)
    (v := v) (fun w => by rw [lsq_real, lsq_real]; exact (stops_cert hs hn hv hc ht h).2 w) u
  rw [lsq_real, lsq_real, sqFit_real] at h1
  have h2 : quadLoss y (fit D.matrix u) + ∑ j, pen.fn (u j) ≤ quadLoss y (fit D.matrix v) + ∑ j, pen.fn (v j) + g :=
    (C107_weak D y pen hv hc u v).trans (by
      show objective1 D y .quadratic pen v + _ ≤ objective1 D y .quadratic pen v + g
      linarith)
  have h3 : objective1 D y .quadratic pen u ≤ objective1 D y .quadratic pen (fun _ => 0) + g :=
    (C107_weak D y pen hv hc u _).trans (by linarith)
  have h4 := C28_result hs hn D hD y .quadratic trivial pen hv hst cfg v h.1
  have b := size_of_objective ha (fun z => slope_le hv hc z) h4
  have b' := size_of_objective ha (fun z => slope_le hv hc z) h3
  rw [objective1_zero D y pen (pen_zero_of hc)] at b b'
  have d := sum_norm_sub_le v u
  simp only [Real.norm_eq_abs] at d h1
  have e : ((∑ i, y i ^ 2) / n + g) / pen.slope = (∑ i, y i ^ 2) / (2 * n) / pen.slope + ((∑ i, y i ^ 2) / (2 * n) + g) / pen.slope := by
    field_simp; ring
  have f := mul_le_mul_of_nonneg_left (show ∑ j, |v j - u j| ≤ ((∑ i, y i ^ 2) / n + g) / pen.slope by rw [e]; linarith) hτ
  simp only [sq_abs] at h1
  have e2 : (∑ i, (fit D.matrix v i - fit D.matrix u i) ^ 2) / n = 2 * ((∑ i, (fit D.matrix v i - fit D.matrix u i) ^ 2) / (2 * n)) := by
    field_simp
  rw [e2]
  linarith

/-- **Claim of the tests and benchmarks**: the coefficients of `Lasso` agree with those of another library, with `atol = 1e-6` if the tolerances
are `1e-10` (the tests: 50 samples, 60 features).  False: coefficients are not unique. -/
def C107_full : Prop :=
  ∀ (n p : ℕ) (D : Design n p) (y : Fin n → ℝ) (α : ℝ) (srt : Argsort XR) (cfg : Solver XR) (u v : Fin p → ℝ), 0 < n → 0 < α → D.Canonical →
    ArgsortSpec srt → cfg.tolerance = XR.fin (1 / 10 ^ 10) → Stops srt cfg D y .quadratic (.l1 α) v →
    dualityGap D y α 0 u ≤ 1 / 10 ^ 10 * ((∑ i, y i ^ 2) / n) → NearCoefs (1 / 10 ^ 6) v u

/-- The witness: two equal features. -/
noncomputable def twinD : Design 1 2 := .dense fun _ _ => 1

theorem twinD_gap (u : Fin 2 → ℝ) (h0 : 0 ≤ u 0) (h1 : 0 ≤ u 1) (hu : u 0 + u 1 = 1) : dualityGap twinD (fun _ => 2) 1 0 u = 0 := by
  have hf : ∀ i, fit twinD.matrix u i = 1 := fun i => by
    unfold fit twinD Design.matrix
    rw [Fin.sum_univ_two, one_mul, one_mul, hu]
  have hr : ∀ i, resid twinD (fun _ => 2) u i = 1 := fun i => by unfold resid; rw [hf]; norm_num
  have hq : ∀ j, |residCorr twinD (fun _ => 2) u j - 0 * u j| = 1 := fun j => by
    unfold residCorr
    simp only [hf]
    norm_num [twinD, Design.matrix]
  unfold dualityGap
  simp only [hq, hr]
  rw [ciSup_const]
  have e : dualScale 1 1 = 1 := if_neg (lt_irrefl _)
  rw [e, Fin.sum_univ_two (f := fun j => |u j|), abs_of_nonneg h0, abs_of_nonneg h1, hu]
  norm_num

theorem C107_false : ¬ C107_full := by
  intro h
  obtain ⟨N, hN⟩ := stops_exists one_pos twinD trivial (fun _ => 2) .quadratic trivial (.l1 1) (by norm_num [Pen.Valid]) trivial
    (by norm_num [Pen.fn]) (1 / 10 ^ 10) (by norm_num)
  obtain ⟨v, hv⟩ := hN 10 (by norm_num)
  have key : ∀ u : Fin 2 → ℝ, 0 ≤ u 0 → 0 ≤ u 1 → u 0 + u 1 = 1 → NearCoefs (1 / 10 ^ 6) v u := fun u h0 h1 hu =>
    h 1 2 twinD _ 1 _ _ u v one_pos one_pos trivial argsortIns_spec rfl hv (by rw [twinD_gap u h0 h1 hu]; norm_num)
  have k1 := key ![1, 0] (by norm_num) (by norm_num) (by norm_num) 0
  have k2 := key ![0, 1] (by norm_num) (by norm_num) (by norm_num) 0
  norm_num at k1 k2
  obtain ⟨a1, a2⟩ := abs_le.mp k1
  obtain ⟨b1, b2⟩ := abs_le.mp k2
  linarith

/-- **Partial**: the claim holds if the problem is curved (`c + modulus` positive: independent features or an elastic net) and the tolerances
are small compared with the curvature. -/
theorem C107_partial {srt : Argsort XR} (hs : ArgsortSpec srt) (hn : 0 < n) (D : Design n p) (hD : D.Canonical) (y : Fin n → ℝ) (pen : Pen)
    (hv : pen.Valid) (hc : pen.Convex) (ha : 0 < pen.slope) (c : ℝ) (hcurv : Curvature D .quadratic c) (cfg : Solver XR) (τ : ℝ) (hτ : 0 ≤ τ)
    (ht : cfg.tolerance = XR.fin τ) (v : Fin p → ℝ) (h : Stops srt cfg D y .quadratic pen v) (u : Fin p → ℝ) (g atol : ℝ)
    (hat : 0 ≤ atol) (hu : dualityGap D y pen.slope pen.modulus u ≤ g) (hσ : 0 < c + pen.modulus)
    (hsmall : 2 * (g + τ * (((∑ i, y i ^ 2) / n + g) / pen.slope)) ≤ (c + pen.modulus) * atol ^ 2) : NearCoefs atol v u := by
  have h1 := C107_agree hs hn D hD y pen hv hc ha cfg τ hτ ht v h u g hu
  have h2 := hcurv fun j => v j - u j
  have e : ∀ i, fit D.matrix (fun j => v j - u j) i = fit D.matrix v i - fit D.matrix u i := fun i => by
    unfold fit
    rw [← Finset.sum_sub_distrib]
    exact Finset.sum_congr rfl fun j _ => by ring
  simp only [e] at h2
  have h3 : (c + pen.modulus) * ∑ j, (v j - u j) ^ 2 ≤ (c + pen.modulus) * atol ^ 2 := by
    rw [add_mul]
    linarith
  have h4 := le_of_mul_le_mul_left h3 hσ
  intro j
  have h5 : (v j - u j) ^ 2 ≤ atol ^ 2 :=
    (Finset.single_le_sum (f := fun j => (v j - u j) ^ 2) (fun _ _ => sq_nonneg _) (Finset.mem_univ j)).trans h4
  have h6 := abs_le_of_sq_le_sq h5 hat
  have := abs_nonneg (u j)
  linarith

/-! ## Examples -/

-- orthogonal features: with tolerance `10^-14` and a gap of `10^-14` the coefficients agree within `10^-6`
example : ∃ (N : ℕ) (v : Fin 2 → ℝ), Stops argsortIns ⟨1, N, 50, XR.fin (1 / 10 ^ 14), 5, false, true⟩ idD ![4, 1 / 2] .quadratic (.l1 1) v ∧
    dualityGap idD ![4, 1 / 2] (Pen.l1 1).slope (Pen.l1 1).modulus v ≤ 1 / 10 ^ 12 ∧
    ∀ u, dualityGap idD ![4, 1 / 2] (Pen.l1 1).slope (Pen.l1 1).modulus u ≤ 1 / 10 ^ 14 → NearCoefs (1 / 10 ^ 6) v u := by
  have hv : (Pen.l1 1).Valid := by norm_num [Pen.Valid]
  have ha : 0 < (Pen.l1 1).slope := one_pos
  obtain ⟨N, h⟩ := stops_exists two_pos idD trivial ![4, 1 / 2] .quadratic trivial (.l1 1) hv trivial
    (by norm_num [Pen.fn]) (1 / 10 ^ 14) (by norm_num)
  obtain ⟨v, h⟩ := h 1 one_pos
  refine ⟨N, v, h, ?_, fun u hu => ?_⟩
  · refine (C107_gap argsortIns_spec two_pos idD trivial _ (.l1 1) hv trivial ha _ (1 / 10 ^ 14) (by norm_num) rfl v h).trans ?_
    norm_num [Pen.slope, Fin.sum_univ_two]
  · refine C107_partial argsortIns_spec two_pos idD trivial _ (.l1 1) hv trivial ha (1 / 2) idD_curvature _ (1 / 10 ^ 14) (by norm_num) rfl
      v h u (1 / 10 ^ 14) (1 / 10 ^ 6) (by norm_num) hu (by norm_num [Pen.modulus]) ?_
    norm_num [Pen.slope, Pen.modulus, Fin.sum_univ_two]

-- a design with dependent features: the Lasso of this library meets `tol = 10^-4` of the other
example : ∃ (N : ℕ) (v : Fin 2 → ℝ),
    fitLasso argsortIns ⟨XR.fin 1, N, 1000, 10, XR.fin (1 / 20000), 5, false, true⟩ twinD (fun _ => 2) = .ok (.ok (vec v)) ∧
    dualityGap twinD (fun _ => 2) 1 0 v ≤ 4 / 10 ^ 4 := by
  obtain ⟨N, h⟩ := C107_lasso_fit one_pos twinD trivial (fun _ => 2) 1 one_pos (1 / 10 ^ 4) (by norm_num) (by norm_num)
  obtain ⟨v, h1, h2⟩ := h argsortIns argsortIns_spec ⟨XR.fin 1, N, 1000, 10, XR.fin (1 / 20000), 5, false, true⟩ rfl
    (congrArg XR.fin (by norm_num)) (by norm_num) (by norm_num) (by norm_num) (StopsPlain.default rfl rfl) le_rfl (fun h => by cases h)
  refine ⟨N, v, h1, h2.trans ?_⟩
  norm_num

-- multi-task Lasso
example : ∃ (N : ℕ) (V : Fin 2 → Euc 2),
    StopsMT argsortIns ⟨1, N, 50, XR.fin (1 / 10 ^ 4), 5, false, true⟩ idD ![![4, 0], ![0, 1 / 2]] (.l21 1) V ∧
    dualityGapMT idD ![![4, 0], ![0, 1 / 2]] 1 V ≤ 1 / 10 ^ 3 := by
  obtain ⟨N, h⟩ := stopsMT_exists two_pos idD trivial ![![4, 0], ![0, 1 / 2]] 1 one_pos (1 / 10 ^ 4) (by norm_num)
  obtain ⟨V, h⟩ := h 1 one_pos
  refine ⟨N, V, h, (C107_gap_mt argsortIns_spec two_pos idD trivial _ 1 one_pos _ (1 / 10 ^ 4) (by norm_num) rfl V h).trans ?_⟩
  norm_num [Fin.sum_univ_two]

end Sglm
