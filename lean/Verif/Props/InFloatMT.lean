import Verif.Props.FloatMT
import Verif.Props.Gap
import Verif.Props.Oracle
import Verif.Props.Statistics
import Verif.Props.Robust
import Verif.Props.Selected

/-!
# The multi-task Lasso in floating point: predictions, residuals, selected rows (C69, C70, C73, C78, C107, C116, C117, C119)
-/

namespace Sglm
open Scalar Spec
variable {n p T : ℕ}

/-- Multi-task fits with tolerance `τ` stop in floating point if the precision is sufficient, and the values of the computed
coefficients satisfy `P ε` (with `ε` as small as desired). -/
def InFloatMT (D : Design n p) (Y : Fin n → Fin T → ℝ) (α τ : ℝ) (P : ℝ → (Fin p → Euc T) → Prop) : Prop :=
  ∃ N : ℕ, ∀ (E : ℕ) (ε : ℝ), 0 < ε → ∃ e₀ : ℝ, 0 < e₀ ∧ ∀ (F : Type) [Scalar F] [LawfulCmp F] (e : ℝ), MTLaws F e → e ≤ e₀ →
    ∀ (x : D.Entries F) (y' : Fin n → Fin T → F) (a : F), D.StoredAs e x → (∀ i t, Stores e (y' i t) (Y i t)) → Stores e a α →
    ∀ srt : Argsort F, ArgsortSpec srt → ∀ cfg : Solver F, SettingsOKMT cfg p T → Stores e cfg.tolerance τ →
    N ≤ cfg.maxIterations → cfg.maxEpochs ≤ E → 0 < cfg.maxEpochs → StopsPlain cfg →
    ∃ V m, RunsToMT srt cfg D x y' a V m ∧ m ≤ N ∧ P ε V

theorem inFloatMT_of (hn : 0 < n) (hp : 0 < p) (D : Design n p) (hD : D.Canonical) (Y : Fin n → Fin T → ℝ) (α : ℝ) (hα : 0 < α)
    (τ : ℝ) (hτ : 0 < τ) {P : ℝ → (Fin p → Euc T) → Prop}
    (h : ∀ ε, 0 < ε → ∀ V, objectiveMT D Y (.l21 α) V ≤ (∑ i, ∑ t, Y i t ^ 2) / (2 * n) + ε →
      (∀ U, objectiveMT D Y (.l21 α) V - objectiveMT D Y (.l21 α) U ≤ (τ + ε) * ∑ j, ‖V j - U j‖) →
      (∀ j, ‖residCorrMT D Y V j‖ ≤ α + (τ + ε) ∧ (α - (τ + ε)) * ‖V j‖ ≤ inner ℝ (V j) (residCorrMT D Y V j)) → P ε V) :
    InFloatMT D Y α τ P := by
  obtain ⟨N, h1⟩ := float_stopsMT hn hp D hD Y α hα τ hτ
  refine ⟨N, fun E ε hε => ?_⟩
  obtain ⟨e₀, he₀, h2⟩ := h1 E ε hε
  refine ⟨e₀, he₀, fun F _ _ e hl hee x y' a hx hy' ha srt hs cfg hcfg ht hN hE hE1 hpl => ?_⟩
  obtain ⟨V, m, h3, h4, h5, h6⟩ := h2 hl hee x y' a hx hy' ha srt hs cfg hcfg ht hN hE hE1 hpl.tail
  refine ⟨V, m, h3, h4, h ε hε V ?_ (fun U => ?_) fun j => ?_⟩
  · rw [← objectiveMT_zero D Y α]
    exact h5
  · exact cert_gap (f := fun W : Fin p → Euc T => mtLoss Y (fitMT D.matrix fun j => (W j).ofLp)) (φ := fun z => α * ‖z‖)
      (w := V) (w' := U) (τ := τ + ε) (mt_convex_inner hn D.matrix Y V U) fun j => ⟨_, l21Score_dist hα.le _ _, h6 j⟩
  · rw [corrMT_grad]
    exact corrMT_of_score hα.le (h6 j)

theorem predictionsMT_min (hn : 0 < n) {D : Design n p} {Y : Fin n → Fin T → ℝ} {α τ ε : ℝ} (hα : 0 < α) (h0 : 0 ≤ τ) {V W : Fin p → Euc T}
    (h1 : objectiveMT D Y (.l21 α) V ≤ (∑ i, ∑ t, Y i t ^ 2) / (2 * n) + ε)
    (h2 : ∀ U, objectiveMT D Y (.l21 α) V - objectiveMT D Y (.l21 α) U ≤ τ * ∑ j, ‖V j - U j‖)
    (hW : ∀ U, objectiveMT D Y (.l21 α) W ≤ objectiveMT D Y (.l21 α) U) :
    ∑ i, ∑ t, (fitMT D.matrix (fun j => (V j).ofLp) i t - fitMT D.matrix (fun j => (W j).ofLp) i t) ^ 2 ≤
      τ * (∑ i, ∑ t, Y i t ^ 2 + n * ε) / α := by
  have hn' : (0 : ℝ) < n := by exact_mod_cast hn
  have b := sizeMT_of_objective hα h1
  have b' := sizeMT_of_objective hα (hW fun _ => 0)
  rw [objectiveMT_zero] at b'
  have d := sum_norm_sub_le V W
  refine (predictionsMT_of_cert (σ := 0) hn hα.le h2 (fun u => by rw [zero_mul]; linarith [hW u])).trans ?_
  rw [add_zero]
  have f := mul_le_mul_of_nonneg_left (show ∑ j, ‖V j - W j‖ ≤ (∑ i, ∑ t, Y i t ^ 2 + n * ε) / (n * α) by
    have : (∑ i, ∑ t, Y i t ^ 2 + n * ε) / (n * α) =
        ((∑ i, ∑ t, Y i t ^ 2) / (2 * n) + ε) / α + (∑ i, ∑ t, Y i t ^ 2) / (2 * n) / α := by
      field_simp; ring
    linarith) h0
  refine (mul_le_mul_of_nonneg_left f hn'.le).trans (le_of_eq ?_)
  field_simp

/-- **Predictions** are close to those of a minimiser. -/
theorem C69_float_mt (hn : 0 < n) (hp : 0 < p) (D : Design n p) (hD : D.Canonical) (Y : Fin n → Fin T → ℝ) (α : ℝ) (hα : 0 < α)
    (τ : ℝ) (hτ : 0 < τ) (W : Fin p → Euc T) (hW : ∀ U, objectiveMT D Y (.l21 α) W ≤ objectiveMT D Y (.l21 α) U) :
    InFloatMT D Y α τ fun ε V =>
      ∑ i, ∑ t, (fitMT D.matrix (fun j => (V j).ofLp) i t - fitMT D.matrix (fun j => (W j).ofLp) i t) ^ 2 ≤
        (τ + ε) * (∑ i, ∑ t, Y i t ^ 2 + n * ε) / α :=
  inFloatMT_of hn hp D hD Y α hα τ hτ fun _ hε _ h1 h2 _ => predictionsMT_min hn hα (by linarith) h1 h2 hW

/-- **Exact zeros**: a row whose correlation at a minimiser is below the strength, by a margin, is zero. -/
theorem C70_float_mt (hn : 0 < n) (hp : 0 < p) (D : Design n p) (hD : D.Canonical) (Y : Fin n → Fin T → ℝ) (α : ℝ) (hα : 0 < α)
    (τ : ℝ) (hτ : 0 < τ) (W : Fin p → Euc T) (hW : ∀ U, objectiveMT D Y (.l21 α) W ≤ objectiveMT D Y (.l21 α) U) :
    InFloatMT D Y α τ fun ε V => ∀ j, ‖residCorrMT D Y W j‖ +
      Real.sqrt ((∑ i, D.matrix i j ^ 2) * ((τ + ε) * (∑ i, ∑ t, Y i t ^ 2 + n * ε) / α)) / n + (τ + ε) < α → V j = 0 := by
  refine inFloatMT_of hn hp D hD Y α hα τ hτ fun ε hε V h1 h2 _ j hj => ?_
  by_contra hne
  have hn' : (0 : ℝ) < n := by exact_mod_cast hn
  have a := selected_corr_mt hn h2 j hne
  have b := grd_sub_le hn D.matrix (vecY Y) V W j
  rw [grd_mt, grd_mt, sqFit_mt] at b
  have d := predictionsMT_min hn hα (by linarith) h1 h2 hW
  have e : ‖residCorrMT D Y V j - residCorrMT D Y W j‖ ≤
      Real.sqrt ((∑ i, D.matrix i j ^ 2) * ((τ + ε) * (∑ i, ∑ t, Y i t ^ 2 + n * ε) / α)) / n := by
    rw [le_div_iff₀ hn']
    refine Real.le_sqrt_of_sq_le ?_
    rw [mul_pow, ← le_div_iff₀ (by positivity)]
    have e : -residCorrMT D Y V j - -residCorrMT D Y W j = -(residCorrMT D Y V j - residCorrMT D Y W j) := by abel
    rw [e, norm_neg] at b
    refine b.trans ?_
    gcongr
  have := norm_sub_norm_le (residCorrMT D Y V j) (residCorrMT D Y W j)
  linarith

/-- **Noisy linear models**: the error of the predictions, for true coefficients `B`. -/
theorem C73_float_mt (hn : 0 < n) (hp : 0 < p) (D : Design n p) (hD : D.Canonical) (Y : Fin n → Fin T → ℝ) (α : ℝ) (hα : 0 < α)
    (τ : ℝ) (hτ : 0 < τ) :
    InFloatMT D Y α τ fun ε V => ∀ (B : Fin p → Euc T) (l : ℝ), (∀ j, ‖residCorrMT D Y B j‖ ≤ l) → l + (τ + ε) ≤ α →
      (∑ i, ∑ t, (fitMT D.matrix (fun j => (V j).ofLp) i t - fitMT D.matrix (fun j => (B j).ofLp) i t) ^ 2) / n ≤ 2 * α * ∑ j, ‖B j‖ := by
  refine inFloatMT_of hn hp D hD Y α hα τ hτ fun ε _ V _ h2 _ B l hl hlα => ?_
  rw [← sqFit_mt]
  exact oracle_slow (τ := τ + ε) (l := l) hn D.matrix (vecY Y) hα.le (fun u => by
    rw [lsq_mt, lsq_mt]; exact h2 u) B (fun j => by rw [grd_mt, norm_neg]; exact hl j) hlα

/-- **Intercepts** by centring the data. -/
theorem C78_float_mt (hn : 0 < n) (hp : 0 < p) (D D' : Design n p) (hD' : D'.matrix = (centred D).matrix) (hD : D'.Canonical)
    (Y : Fin n → Fin T → ℝ) (α : ℝ) (hα : 0 < α) (τ : ℝ) (hτ : 0 < τ) :
    InFloatMT D' (fun i t => centredTargets (fun i => Y i t) i) α τ fun ε V => ∀ (W : Fin p → Euc T) (b : Fin T → ℝ),
      objectiveInterceptMT D Y (.l21 α) V (fun t => interceptOf D (fun i => Y i t) fun j => (V j).ofLp t) ≤
        objectiveInterceptMT D Y (.l21 α) W b + (τ + ε) * ∑ j, ‖V j - W j‖ := by
  refine inFloatMT_of hn hp D' hD _ α hα τ hτ fun ε _ V _ h2 _ W b => ?_
  have h1 := h2 W
  have e : objectiveMT D' (fun i t => centredTargets (fun i => Y i t) i) (.l21 α) =
      objectiveMT (T := T) (centred D) (fun i t => centredTargets (fun i => Y i t) i) (.l21 α) := by
    funext U; unfold objectiveMT; rw [hD']
  rw [e] at h1
  rw [C78_objective_mt hn, C78_objective_mt hn]
  simp only [sub_self]
  have : 0 ≤ ∑ t, (b t - interceptOf D (fun i => Y i t) fun j => (W j).ofLp t) ^ 2 / 2 :=
    Finset.sum_nonneg fun t _ => by positivity
  norm_num
  linarith

/-- **The duality gap.** -/
theorem C107_float_mt (hn : 0 < n) (hp : 0 < p) (D : Design n p) (hD : D.Canonical) (Y : Fin n → Fin T → ℝ) (α : ℝ) (hα : 0 < α)
    (τ : ℝ) (hτ : 0 < τ) :
    InFloatMT D Y α τ fun ε V =>
      dualityGapMT D Y α V ≤ ((τ + ε) / α + (τ + ε) ^ 2 / (2 * α ^ 2)) * ((∑ i, ∑ t, Y i t ^ 2) / n + 2 * ε) := by
  refine inFloatMT_of hn hp D hD Y α hα τ hτ fun ε hε V h1 _ h3 => ?_
  have h0 : 0 ≤ τ + ε := by linarith
  rw [l21_objective] at h1
  rw [gapMT_eq]
  refine gap_arith hα h0 (dualScale_pos hα) (dualScale_near hα h0 (sup_fin_le (by linarith) fun j => (h3 j).1)) ?_
    (Finset.sum_nonneg fun _ _ => norm_nonneg _) ?_ ?_
  · exact div_nonneg (Finset.sum_nonneg fun _ _ => Finset.sum_nonneg fun _ _ => sq_nonneg _) (Nat.cast_nonneg _)
  · rw [Finset.mul_sum]
    exact Finset.sum_le_sum fun j _ => (h3 j).2
  · have e : (∑ i, ∑ t, Y i t ^ 2) / (2 * (n : ℝ)) + ε = ((∑ i, ∑ t, Y i t ^ 2) / n + 2 * ε) / 2 := by ring
    rw [← e]
    exact h1

/-- **Sums of the residuals** over a group given by an indicator feature. -/
theorem C116_float_mt (hn : 0 < n) (hp : 0 < p) (D : Design n p) (hD : D.Canonical) (Y : Fin n → Fin T → ℝ) (α : ℝ) (hα : 0 < α)
    (τ : ℝ) (hτ : 0 < τ) :
    InFloatMT D Y α τ fun ε V => ∀ j G, IsIndicator D j G →
      √(∑ t, (∑ i ∈ G, (Y i t - fitMT D.matrix (fun j => (V j).ofLp) i t)) ^ 2) ≤ n * (α + (τ + ε)) := by
  refine inFloatMT_of hn hp D hD Y α hα τ hτ fun ε _ V _ _ h3 j G hG => ?_
  have hn' : (0 : ℝ) < n := by exact_mod_cast hn
  have e : ∀ t, ∑ i ∈ G, (Y i t - fitMT D.matrix (fun j => (V j).ofLp) i t) = n * residCorrMT D Y V j t := fun t => by
    rw [← indicator_sum hG]
    exact (mul_div_cancel₀ _ hn'.ne').symm
  rw [Finset.sum_congr rfl fun t _ => by rw [e t, mul_pow], ← Finset.mul_sum, Real.sqrt_mul (sq_nonneg _), Real.sqrt_sq hn'.le]
  refine mul_le_mul_of_nonneg_left (le_trans (le_of_eq ?_) (h3 j).1) hn'.le
  rw [EuclideanSpace.norm_eq]
  simp only [Real.norm_eq_abs, sq_abs]

/-- **Number of nonzero rows.** -/
theorem C117_float_mt (hn : 0 < n) (hp : 0 < p) (D : Design n p) (hD : D.Canonical) (Y : Fin n → Fin T → ℝ) (α : ℝ) (hα : 0 < α)
    (τ : ℝ) (hτ : 0 < τ) (L : ℝ) (hL0 : 0 ≤ L) (hL : SpectralBound D L) :
    InFloatMT D Y α τ fun ε V => τ + ε < α →
      ((selectedMT V).card : ℝ) ≤ L * (∑ i, ∑ t, Y i t ^ 2 + 2 * n * ε) / (n * (α - (τ + ε)) ^ 2) := by
  refine inFloatMT_of hn hp D hD Y α hα τ hτ fun ε _ V h1 _ h3 hlt => ?_
  have hn' : (0 : ℝ) < n := by exact_mod_cast hn
  have a : ∀ j ∈ selectedMT V, (α - (τ + ε)) ^ 2 ≤ ∑ t, residCorrMT D Y V j t ^ 2 := fun j hj => by
    unfold selectedMT at hj
    have hv : 0 < ‖V j‖ := norm_pos_iff.mpr (Finset.mem_filter.mp hj).2
    have c : α - (τ + ε) ≤ ‖residCorrMT D Y V j‖ :=
      le_of_mul_le_mul_left (by linarith [(h3 j).2.trans (real_inner_le_norm _ _)]) hv
    have d := pow_le_pow_left₀ (by linarith) c 2
    rwa [EuclideanSpace.norm_sq_eq, Finset.sum_congr rfl fun t _ => by rw [Real.norm_eq_abs, sq_abs]] at d
  have b : (selectedMT V).card * (α - (τ + ε)) ^ 2 ≤ ∑ j ∈ selectedMT V, ∑ t, residCorrMT D Y V j t ^ 2 := by
    rw [← nsmul_eq_mul]
    exact Finset.card_nsmul_le_sum _ _ _ a
  have c : ∀ t, n * ∑ j ∈ selectedMT V, residCorrMT D Y V j t ^ 2 ≤
      L * ∑ i, (Y i t - fitMT D.matrix (fun j => (V j).ofLp) i t) ^ 2 := fun t =>
    corr_sum hn hL0 hL _ _ (fun j => mul_div_cancel₀ _ hn'.ne') _
  have d := Finset.sum_le_sum fun t (_ : t ∈ Finset.univ) => c t
  rw [← Finset.mul_sum, ← Finset.mul_sum, Finset.sum_comm, Finset.sum_comm (s := Finset.univ (α := Fin T))] at d
  have g : ∑ i, ∑ t, (Y i t - fitMT D.matrix (fun j => (V j).ofLp) i t) ^ 2 ≤ ∑ i, ∑ t, Y i t ^ 2 + 2 * n * ε := by
    have f : 0 ≤ α * ∑ j, ‖V j‖ := mul_nonneg hα.le (Finset.sum_nonneg fun j _ => norm_nonneg _)
    rw [l21_objective, div_div, mul_comm (n : ℝ) 2] at h1
    have k : (∑ i, ∑ t, residMT D Y V i t ^ 2) / (2 * n) ≤ (∑ i, ∑ t, Y i t ^ 2) / (2 * n) + ε := by linarith
    rw [div_le_iff₀ (by positivity), add_mul, div_mul_cancel₀ _ (by positivity)] at k
    have k' : ∑ i, ∑ t, residMT D Y V i t ^ 2 ≤ ∑ i, ∑ t, Y i t ^ 2 + 2 * n * ε := by linarith
    exact k'
  have s : 0 < (α - (τ + ε)) ^ 2 := pow_pos (by linarith) 2
  rw [le_div_iff₀ (mul_pos hn' s)]
  have g' := mul_le_mul_of_nonneg_left g hL0
  have b' := mul_le_mul_of_nonneg_left b hn'.le
  linarith

/-- **Predictions of new samples** are robust. -/
theorem C119_float_mt (hn : 0 < n) (hp : 0 < p) (D : Design n p) (hD : D.Canonical) (Y : Fin n → Fin T → ℝ) (α : ℝ) (hα : 0 < α)
    (τ : ℝ) (hτ : 0 < τ) :
    InFloatMT D Y α τ fun ε V => ∀ δ, 0 ≤ δ → ∀ x x', Near δ x x' →
      ‖predictedMT V x - predictedMT V x'‖ ≤ δ * (((∑ i, ∑ t, Y i t ^ 2) / (2 * n) + ε) / α) :=
  inFloatMT_of hn hp D hD Y α hα τ hτ fun _ _ _ h1 _ _ _ hδ _ _ hx => near_predictedMT hx hδ (sizeMT_of_objective hα h1)

/-! ## Example: two tasks -/

-- `f64`, `f32` and wider formats satisfy the laws (`C85_f64`, `C85_f32`, `C85_wide`); a run in one of sufficient precision
example : ∃ (t N : ℕ) (V : Fin 2 → Euc 2) (m : ℕ),
    RunsToMT argsortIns (wCfg t N (1 / 4)) cvD (wX t) (fun i s => IEEE.of (wS t) (wY i s)) (IEEE.of (wS t) (1 / 2)) V m ∧
    ‖predictedMT V ![1, 2] - predictedMT V ![1, 21 / 10]‖ ≤ 1 / 10 * (((∑ i, ∑ s, wY i s ^ 2) / (2 * ((2 : ℕ) : ℝ)) + 1) / (1 / 2)) := by
  obtain ⟨N, h⟩ := C119_float_mt two_pos two_pos cvD trivial wY (1 / 2) (by norm_num) (1 / 4) (by norm_num)
  obtain ⟨e₀, he₀, h⟩ := h 10 1 one_pos
  obtain ⟨t, -, hte⟩ := wide_exists he₀
  obtain ⟨V, m, h1, -, h2⟩ := h _ _ (wS_laws t) hte (wX t) _ _ (wX_stored t) (wY_stored t) (w_stores (by norm_num [abs_le])) argsortIns
    argsortIns_spec (wCfg t N (1 / 4)) (wCfg_ok t N _) (w_stores (by norm_num [abs_le])) le_rfl le_rfl (by norm_num [wCfg]) (wCfg_plain t N _)
  exact ⟨t, N, V, m, h1, h2 (1 / 10) (by norm_num) _ _ near_pair⟩

example : InFloatMT idD ![![4, 0], ![0, 1]] (17 / 10) (1 / 100) fun ε V => 1 / 100 + ε < 17 / 10 →
    ((selectedMT V).card : ℝ) ≤ 1 / 2 * (∑ i, ∑ t, (![![4, 0], ![0, 1]] : Fin 2 → Fin 2 → ℝ) i t ^ 2 + 2 * ((2 : ℕ) : ℝ) * ε) /
      (((2 : ℕ) : ℝ) * (17 / 10 - (1 / 100 + ε)) ^ 2) :=
  C117_float_mt two_pos two_pos idD trivial _ (17 / 10) (by norm_num) (1 / 100) (by norm_num) (1 / 2) (by norm_num) idD_spectral

example : InFloatMT idD ![![4, 0], ![0, 1]] 1 (1 / 100) fun ε V =>
    dualityGapMT idD ![![4, 0], ![0, 1]] 1 V ≤ ((1 / 100 + ε) / 1 + (1 / 100 + ε) ^ 2 / (2 * 1 ^ 2)) *
      ((∑ i, ∑ t, (![![4, 0], ![0, 1]] : Fin 2 → Fin 2 → ℝ) i t ^ 2) / ((2 : ℕ) : ℝ) + 2 * ε) :=
  C107_float_mt two_pos two_pos idD trivial _ 1 one_pos (1 / 100) (by norm_num)

/-- Targets of two tasks. -/
noncomputable def twoY : Fin 2 → Fin 2 → ℝ := ![![4, 0], ![0, 1]]

/-- The minimiser for the design `idD`, targets `twoY` and strength `1`: the first row is shrunk from 4 to 2, the second is zero. -/
noncomputable def twoW : Fin 2 → Euc 2 := ![WithLp.toLp 2 ![2, 0], 0]

theorem two_obj (U : Fin 2 → Euc 2) : objectiveMT idD twoY (.l21 1) U =
    ((4 - U 0 0) ^ 2 + U 0 1 ^ 2 + U 1 0 ^ 2 + (1 - U 1 1) ^ 2) / 4 + (‖U 0‖ + ‖U 1‖) := by
  have h : ∀ i t, residMT idD twoY U i t = twoY i t - U i t := fun i t => by
    have hf : residMT idD twoY U i t = twoY i t - ∑ j, idD.matrix i j * U j t := rfl
    rw [hf, Fin.sum_univ_two]
    fin_cases i
    · show _ - ((1 : ℝ) * U 0 t + 0 * U 1 t) = _ - U 0 t; ring
    · show _ - ((0 : ℝ) * U 0 t + 1 * U 1 t) = _ - U 1 t; ring
  rw [l21_objective, Finset.sum_congr rfl fun i _ => Finset.sum_congr rfl fun t _ => by rw [h i t]]
  simp only [Fin.sum_univ_two]
  show ((((4 - U 0 0) ^ 2 + (0 - U 0 1) ^ 2) + ((0 - U 1 0) ^ 2 + (1 - U 1 1) ^ 2)) / ((2 : ℕ) : ℝ) / 2 + 1 * (‖U 0‖ + ‖U 1‖)) = _
  push_cast
  ring

theorem twoW_min (U : Fin 2 → Euc 2) : objectiveMT idD twoY (.l21 1) twoW ≤ objectiveMT idD twoY (.l21 1) U := by
  have a : |U 0 0| ≤ ‖U 0‖ := PiLp.norm_apply_le (U 0) 0
  have b : |U 1 1| ≤ ‖U 1‖ := PiLp.norm_apply_le (U 1) 1
  have e : objectiveMT idD twoY (.l21 1) twoW = 13 / 4 := by
    have e0 : ‖twoW 0‖ = 2 := by
      show ‖(WithLp.toLp 2 ![2, 0] : Euc 2)‖ = 2
      rw [EuclideanSpace.norm_eq, Fin.sum_univ_two]
      simp
    have e1 : ‖twoW 1‖ = 0 := norm_zero
    rw [two_obj, e0, e1]
    show ((4 - 2) ^ 2 + (0 : ℝ) ^ 2 + 0 ^ 2 + (1 - 0) ^ 2) / 4 + (2 + 0) = 13 / 4
    norm_num
  rw [e, two_obj]
  have := le_abs_self (U 0 0)
  have := le_abs_self (U 1 1)
  have := abs_nonneg (U 1 1)
  nlinarith [sq_nonneg (U 0 0 - 2), sq_nonneg (U 0 1), sq_nonneg (U 1 0), sq_nonneg (U 1 1)]

example : InFloatMT idD twoY 1 (1 / 100) fun ε V =>
    ∑ i, ∑ t, (fitMT idD.matrix (fun j => (V j).ofLp) i t - fitMT idD.matrix (fun j => (twoW j).ofLp) i t) ^ 2 ≤
      (1 / 100 + ε) * (∑ i, ∑ t, twoY i t ^ 2 + ((2 : ℕ) : ℝ) * ε) / 1 :=
  C69_float_mt two_pos two_pos idD trivial twoY 1 one_pos (1 / 100) (by norm_num) twoW twoW_min

-- the second row is zero: its correlation is 1/2
example : InFloatMT idD twoY 1 (1 / 1000) fun ε V => ε ≤ 1 / 1000 → V 1 = 0 := by
  obtain ⟨N, h⟩ := C70_float_mt two_pos two_pos idD trivial twoY 1 one_pos (1 / 1000) (by norm_num) twoW twoW_min
  refine ⟨N, fun E ε hε => ?_⟩
  obtain ⟨e₀, he₀, h⟩ := h E ε hε
  refine ⟨e₀, he₀, fun F _ _ e hl hee x y' a hx hy' ha srt hs cfg hcfg ht hN hE hE1 hpl => ?_⟩
  obtain ⟨V, m, h1, h2, h3⟩ := h F e hl hee x y' a hx hy' ha srt hs cfg hcfg ht hN hE hE1 hpl
  refine ⟨V, m, h1, h2, fun hε1 => h3 1 ?_⟩
  have hc : ∀ t, residCorrMT idD twoY twoW 1 t = ![0, 1 / 2] t := fun t => by
    rw [residCorrMT_apply]
    unfold residCorr fit
    simp only [Fin.sum_univ_two]
    fin_cases t
    · show ((0 : ℝ) * (4 - (1 * 2 + 0 * 0)) + 1 * (0 - (0 * 2 + 1 * 0))) / ((2 : ℕ) : ℝ) = 0
      norm_num
    · show ((0 : ℝ) * (0 - (1 * 0 + 0 * 0)) + 1 * (1 - (0 * 0 + 1 * 0))) / ((2 : ℕ) : ℝ) = 1 / 2
      norm_num
  have hr : ‖residCorrMT idD twoY twoW 1‖ = 1 / 2 := by
    rw [EuclideanSpace.norm_eq, Fin.sum_univ_two, hc, hc]
    show √(‖(0 : ℝ)‖ ^ 2 + ‖(1 / 2 : ℝ)‖ ^ 2) = 1 / 2
    rw [Real.norm_eq_abs, Real.norm_eq_abs, abs_zero, sq_abs, zero_pow two_ne_zero, zero_add, Real.sqrt_sq (by norm_num)]
  have hs : √((∑ i, idD.matrix i 1 ^ 2) * ((1 / 1000 + ε) * (∑ i, ∑ t, twoY i t ^ 2 + ((2 : ℕ) : ℝ) * ε) / 1)) ≤ 1 / 4 := by
    refine Real.sqrt_le_iff.mpr ⟨by norm_num, ?_⟩
    simp only [Fin.sum_univ_two]
    show (((0 : ℝ) ^ 2 + 1 ^ 2) * ((1 / 1000 + ε) * (((4 : ℝ) ^ 2 + 0 ^ 2) + (0 ^ 2 + 1 ^ 2) + ((2 : ℕ) : ℝ) * ε) / 1)) ≤ (1 / 4) ^ 2
    push_cast
    nlinarith
  rw [hr]
  push_cast at hs ⊢
  linarith

example : InFloatMT idD twoY 1 (1 / 100) fun ε V => ∀ (B : Fin 2 → Euc 2) (l : ℝ), (∀ j, ‖residCorrMT idD twoY B j‖ ≤ l) →
    l + (1 / 100 + ε) ≤ 1 →
    (∑ i, ∑ t, (fitMT idD.matrix (fun j => (V j).ofLp) i t - fitMT idD.matrix (fun j => (B j).ofLp) i t) ^ 2) / ((2 : ℕ) : ℝ) ≤
      2 * 1 * ∑ j, ‖B j‖ :=
  C73_float_mt two_pos two_pos idD trivial twoY 1 one_pos (1 / 100) (by norm_num)

-- the design `![![1, 0], ![0, 1]]` with an intercept
example : InFloatMT (centred idD) (fun i t => centredTargets (fun i => twoY i t) i) 1 (1 / 100) fun ε V => ∀ (W : Fin 2 → Euc 2)
    (b : Fin 2 → ℝ), objectiveInterceptMT idD twoY (.l21 1) V (fun t => interceptOf idD (fun i => twoY i t) fun j => (V j).ofLp t) ≤
      objectiveInterceptMT idD twoY (.l21 1) W b + (1 / 100 + ε) * ∑ j, ‖V j - W j‖ :=
  C78_float_mt two_pos two_pos idD (centred idD) rfl trivial twoY 1 one_pos (1 / 100) (by norm_num)

-- the column of ones of `groupD` is an intercept, the second column a group
example : InFloatMT groupD ![![4, 0], ![0, 1], ![1, 1]] 1 (1 / 100) fun ε V => ∀ j G, IsIndicator groupD j G →
    √(∑ t, (∑ i ∈ G, ((![![4, 0], ![0, 1], ![1, 1]] : Fin 3 → Fin 2 → ℝ) i t - fitMT groupD.matrix (fun j => (V j).ofLp) i t)) ^ 2) ≤
      ((3 : ℕ) : ℝ) * (1 + (1 / 100 + ε)) :=
  C116_float_mt three_pos two_pos groupD trivial _ 1 one_pos (1 / 100) (by norm_num)

end Sglm
