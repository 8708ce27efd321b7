import Verif.Proofs.FloatMTEnd
import Verif.Proofs.IEEEMT
import Verif.Props.Accuracy
import Verif.Props.IEEE
import Verif.Summation

/-!
# C85: multi-task Lasso runs in floating point

The analogue of C62, C63 and C65 for the multi-task Lasso: the whole solver (block soft-thresholding, working sets, extrapolation,
stopping test) in arithmetic which rounds, overflows and underflows.  The laws `MTLaws` hold of `f64` and `f32` (`C85_f64`, `C85_f32`).

The last epoch must not be an extrapolated one (`StopsPlain`, true of the default settings): rows which come out of an extrapolation may
be so tiny that their squares underflow, and the stopping test is then wrong (C83).
-/

namespace Sglm
open Scalar Spec
variable {n p T : ℕ}

/-- **Runs in floating point**: with sufficient precision the call returns finite coefficients `v` (no panic, no `NaN`), whose
objective exceeds that of zero by at most `ε`; and if it stops before `max_iterations`, then `v` is `(τ + ε)`-stationary. -/
theorem C85_run (hn : 0 < n) (hp : 0 < p) (D : Design n p) (hD : D.Canonical) (Y : Fin n → Fin T → ℝ) (α : ℝ) (hα : 0 < α)
    (M E : ℕ) (τ ε : ℝ) (hε : 0 < ε) :
    ∃ e₀ : ℝ, 0 < e₀ ∧ ∀ (F : Type) [Scalar F] [LawfulCmp F] (e : ℝ), MTLaws F e → e ≤ e₀ →
      ∀ (x : D.Entries F) (y' : Fin n → Fin T → F) (a : F), D.StoredAs e x → (∀ i t, Stores e (y' i t) (Y i t)) → Stores e a α →
      ∀ srt : Argsort F, ArgsortSpec srt → ∀ cfg : Solver F, SettingsOKMT cfg p T → Stores e cfg.tolerance τ →
      cfg.maxIterations ≤ M → cfg.maxEpochs ≤ E → StopsPlain cfg →
      ∃ v m, RunsToMT srt cfg D x y' a v m ∧ m ≤ cfg.maxIterations ∧
        objectiveMT D Y (.l21 α) v ≤ objectiveMT D Y (.l21 α) 0 + ε ∧
        (m < cfg.maxIterations → ApproxStationaryMT D Y (subdiff fun z => α * ‖z‖) v (τ + ε) ∧
          ∀ u, objectiveMT D Y (.l21 α) v - objectiveMT D Y (.l21 α) u ≤ (τ + ε) * ∑ j, ‖v j - u j‖) := by
  obtain ⟨e₀, he₀, h⟩ := float_runMT hn hp D hD Y α hα M E τ ε hε
  refine ⟨e₀, he₀, fun F _ _ e hl hee x y' a hx hy' ha srt hs cfg hcfg ht hM hE hpl => ?_⟩
  obtain ⟨v, m, h1, h2, h3, h4⟩ := h hl hee x y' a hx hy' ha srt hs cfg hcfg ht hM hE hpl.tail
  refine ⟨v, m, h1, h2, h3, fun hm => ⟨fun j => ⟨_, _, fun t => mt_partial hn D.matrix Y (fun j => (v j).ofLp) j t,
    l21Score_dist hα.le _ _, h4 hm j⟩, fun u => ?_⟩⟩
  exact cert_gap (f := fun W : Fin p → Euc T => mtLoss Y (fitMT D.matrix fun j => (W j).ofLp)) (φ := fun z => α * ‖z‖)
    (w := v) (w' := u) (τ := τ + ε) (mt_convex_inner hn D.matrix Y v u) fun j => ⟨_, l21Score_dist hα.le _ _, h4 hm j⟩

/-- **Runs in floating point stop**: for every tolerance `τ > 0` there is a bound on the number of iterations, which does not depend
on the format; with sufficient precision it is kept, and the result is `(τ + ε)`-stationary. -/
theorem C85_terminates (hn : 0 < n) (hp : 0 < p) (D : Design n p) (hD : D.Canonical) (Y : Fin n → Fin T → ℝ) (α : ℝ) (hα : 0 < α)
    (τ : ℝ) (hτ : 0 < τ) :
    ∃ N : ℕ, ∀ (E : ℕ) (ε : ℝ), 0 < ε → ∃ e₀ : ℝ, 0 < e₀ ∧ ∀ (F : Type) [Scalar F] [LawfulCmp F] (e : ℝ), MTLaws F e → e ≤ e₀ →
      ∀ (x : D.Entries F) (y' : Fin n → Fin T → F) (a : F), D.StoredAs e x → (∀ i t, Stores e (y' i t) (Y i t)) → Stores e a α →
      ∀ srt : Argsort F, ArgsortSpec srt → ∀ cfg : Solver F, SettingsOKMT cfg p T → Stores e cfg.tolerance τ →
      N ≤ cfg.maxIterations → cfg.maxEpochs ≤ E → 0 < cfg.maxEpochs → StopsPlain cfg →
      ∃ v m, RunsToMT srt cfg D x y' a v m ∧ m ≤ N ∧ objectiveMT D Y (.l21 α) v ≤ objectiveMT D Y (.l21 α) 0 + ε ∧
        ApproxStationaryMT D Y (subdiff fun z => α * ‖z‖) v (τ + ε) ∧
        ∀ u, objectiveMT D Y (.l21 α) v - objectiveMT D Y (.l21 α) u ≤ (τ + ε) * ∑ j, ‖v j - u j‖ := by
  obtain ⟨N, h⟩ := float_stopsMT hn hp D hD Y α hα τ hτ
  refine ⟨N, fun E ε hε => ?_⟩
  obtain ⟨e₀, he₀, h⟩ := h E ε hε
  refine ⟨e₀, he₀, fun F _ _ e hl hee x y' a hx hy' ha srt hs cfg hcfg ht hN hE hE1 hpl => ?_⟩
  obtain ⟨v, m, h1, h2, h3, h4⟩ := h hl hee x y' a hx hy' ha srt hs cfg hcfg ht hN hE hE1 hpl.tail
  refine ⟨v, m, h1, h2, h3, fun j => ⟨_, _, fun t => mt_partial hn D.matrix Y (fun j => (v j).ofLp) j t,
    l21Score_dist hα.le _ _, h4 j⟩, fun u => ?_⟩
  exact cert_gap (f := fun W : Fin p → Euc T => mtLoss Y (fitMT D.matrix fun j => (W j).ofLp)) (φ := fun z => α * ‖z‖)
    (w := v) (w' := u) (τ := τ + ε) (mt_convex_inner hn D.matrix Y v u) fun j => ⟨_, l21Score_dist hα.le _ _, h4 j⟩

/-- **Runs in floating point reach the minimum**: every accuracy `ε` of the objective is reached. -/
theorem C85_objective (hn : 0 < n) (hp : 0 < p) (D : Design n p) (hD : D.Canonical) (Y : Fin n → Fin T → ℝ) (α : ℝ) (hα : 0 < α)
    (ε : ℝ) (hε : 0 < ε) :
    ∃ τ₀ : ℝ, 0 < τ₀ ∧ ∀ τ, 0 < τ → τ ≤ τ₀ → ∃ N : ℕ, ∀ E : ℕ, ∃ e₀ : ℝ, 0 < e₀ ∧
      ∀ (F : Type) [Scalar F] [LawfulCmp F] (e : ℝ), MTLaws F e → e ≤ e₀ →
      ∀ (x : D.Entries F) (y' : Fin n → Fin T → F) (a : F), D.StoredAs e x → (∀ i t, Stores e (y' i t) (Y i t)) → Stores e a α →
      ∀ srt : Argsort F, ArgsortSpec srt → ∀ cfg : Solver F, SettingsOKMT cfg p T → Stores e cfg.tolerance τ →
      N ≤ cfg.maxIterations → cfg.maxEpochs ≤ E → 0 < cfg.maxEpochs → StopsPlain cfg →
      ∃ v m, RunsToMT srt cfg D x y' a v m ∧ m ≤ N ∧ ∀ u, objectiveMT D Y (.l21 α) v ≤ objectiveMT D Y (.l21 α) u + ε := by
  have H := probMT_cvx hn D hD Y α hα
  obtain ⟨B, hB, hlev⟩ := H.level ((probMT D Y (.l21 α)).F 0 + 1)
  have hlev : ∀ w, objectiveMT D Y (.l21 α) w ≤ objectiveMT D Y (.l21 α) 0 + 1 → ∑ j, ‖w j‖ ≤ B := hlev
  refine ⟨ε / (4 * B + 1), by positivity, fun τ hτ hτ0 => ?_⟩
  obtain ⟨N, h⟩ := C85_terminates hn hp D hD Y α hα τ hτ
  refine ⟨N, fun E => ?_⟩
  obtain ⟨e₀, he₀, h⟩ := h E (min 1 τ) (by positivity)
  refine ⟨e₀, he₀, fun F _ _ e hl hee x y' a hx hy' ha srt hs cfg hcfg ht hN hE hE1 hpl => ?_⟩
  obtain ⟨v, m, h1, h2, h3, h4, h5⟩ := h F e hl hee x y' a hx hy' ha srt hs cfg hcfg ht hN hE hE1 hpl
  refine ⟨v, m, h1, h2, fun u => ?_⟩
  rcases le_total (objectiveMT D Y (.l21 α) v) (objectiveMT D Y (.l21 α) u) with hle | hle
  · linarith
  · have hm1 : min 1 τ ≤ 1 := min_le_left _ _
    have hm2 : min 1 τ ≤ τ := min_le_right _ _
    have b1 := hlev v (by linarith)
    have b2 := hlev u (by linarith)
    have b3 : ∑ j, ‖v j - u j‖ ≤ 2 * B := by
      calc ∑ j, ‖v j - u j‖ ≤ ∑ j, (‖v j‖ + ‖u j‖) := Finset.sum_le_sum fun j _ => norm_sub_le _ _
        _ = ∑ j, ‖v j‖ + ∑ j, ‖u j‖ := Finset.sum_add_distrib
        _ ≤ _ := by linarith
    have b4 := h5 u
    have b5 : (τ + min 1 τ) * ∑ j, ‖v j - u j‖ ≤ 2 * τ * (2 * B) :=
      mul_le_mul (by linarith) b3 (Finset.sum_nonneg fun j _ => norm_nonneg _) (by linarith)
    rw [le_div_iff₀ (by positivity)] at hτ0
    nlinarith

/-- **Accuracy of the coefficients in floating point**: with sufficient precision the distance of the computed coefficients to the
minimiser of the exact problem is at most `√p (tol + ε) / c`. -/
theorem C85_accuracy (hn : 0 < n) (hp : 0 < p) (D : Design n p) (hD : D.Canonical) (Y : Fin n → Fin T → ℝ) (α : ℝ) (hα : 0 < α)
    (c : ℝ) (hcurv : Curvature D .quadratic c) (hμ : 0 < c) (W : Fin p → Euc T)
    (hW : ∀ U, objectiveMT D Y (.l21 α) W ≤ objectiveMT D Y (.l21 α) U) (τ : ℝ) (hτ : 0 < τ) :
    ∃ N : ℕ, ∀ (E : ℕ) (ε : ℝ), 0 < ε → ∃ e₀ : ℝ, 0 < e₀ ∧ ∀ (F : Type) [Scalar F] [LawfulCmp F] (e : ℝ), MTLaws F e → e ≤ e₀ →
      ∀ (x : D.Entries F) (y' : Fin n → Fin T → F) (a : F), D.StoredAs e x → (∀ i t, Stores e (y' i t) (Y i t)) → Stores e a α →
      ∀ srt : Argsort F, ArgsortSpec srt → ∀ cfg : Solver F, SettingsOKMT cfg p T → Stores e cfg.tolerance τ →
      N ≤ cfg.maxIterations → cfg.maxEpochs ≤ E → 0 < cfg.maxEpochs → StopsPlain cfg →
      ∃ v m, RunsToMT srt cfg D x y' a v m ∧ m ≤ N ∧ ∑ j, ‖v j - W j‖ ^ 2 ≤ p * ((τ + ε) / c) ^ 2 := by
  obtain ⟨N, h⟩ := C85_terminates hn hp D hD Y α hα τ hτ
  refine ⟨N, fun E ε hε => ?_⟩
  obtain ⟨e₀, he₀, h⟩ := h E ε hε
  refine ⟨e₀, he₀, fun F _ _ e hl hee x y' a hx hy' ha srt hs cfg hcfg ht hN hE hE1 hpl => ?_⟩
  obtain ⟨v, m, h1, h2, -, -, h3⟩ := h F e hl hee x y' a hx hy' ha srt hs cfg hcfg ht hN hE hE1 hpl
  refine ⟨v, m, h1, h2, ?_⟩
  have := (strongMT D Y hα.le hcurv).near (τ := τ + ε) (σ := 0) hμ h3 (fun u => by rw [zero_mul]; linarith [hW u])
  rwa [add_zero] at this

/-! ## The estimator -/

theorem RunsToMT.lasso {F : Type} [Scalar F] [LawfulCmp F] {srt : Argsort F} {ps : LassoParams F} {D : Design n p} {x : D.Entries F}
    {y : Fin n → Fin T → F} {v : Fin p → Euc T} {m : ℕ} (hok : ps.checkRef = .ok ps) (h : RunsToMT srt ps.solver D x y ps.alpha v m) :
    ∃ w : Fin p → Fin T → F, (∀ j t, Den (w j t) ((v j).ofLp t)) ∧ fitMTLassoOf srt ps D x y = .ok (.ok (matOf w)) := by
  obtain ⟨w, h1, h2, -⟩ := h
  refine ⟨w, h1, ?_⟩
  cases D <;>
  · unfold fitMTLassoOf MultiTaskLasso.fit guardedFit
    simp only [hok]
    unfold MultiTaskLasso.fitValid
    rw [fitBCD_eq]
    exact congrArg (fun z => Except.ok <$> z) h2

/-- `MultiTaskLasso::fit` in floating point reaches any accuracy, for settings which pass the validation. -/
theorem C85_fit (hn : 0 < n) (hp : 0 < p) (D : Design n p) (hD : D.Canonical) (Y : Fin n → Fin T → ℝ) (α : ℝ) (hα : 0 < α) (ε : ℝ)
    (hε : 0 < ε) :
    ∃ τ₀ : ℝ, 0 < τ₀ ∧ ∀ τ, 0 < τ → τ ≤ τ₀ → ∃ N : ℕ, ∀ E : ℕ, ∃ e₀ : ℝ, 0 < e₀ ∧
      ∀ (F : Type) [Scalar F] [LawfulCmp F] (e : ℝ), MTLaws F e → e ≤ e₀ →
      ∀ (x : D.Entries F) (y' : Fin n → Fin T → F), D.StoredAs e x → (∀ i t, Stores e (y' i t) (Y i t)) →
      ∀ srt : Argsort F, ArgsortSpec srt → ∀ ps : LassoParams F, ps.checkRef = .ok ps → SettingsOKMT ps.solver p T →
      Stores e ps.alpha α → Stores e ps.tolerance τ → N ≤ ps.maxIterations → ps.maxEpochs ≤ E → 0 < ps.maxEpochs → StopsPlain ps.solver →
      ∃ (w : Fin p → Fin T → F) (v : Fin p → Euc T), (∀ j t, Den (w j t) ((v j).ofLp t)) ∧
        fitMTLassoOf srt ps D x y' = .ok (.ok (matOf w)) ∧ ∀ u, objectiveMT D Y (.l21 α) v ≤ objectiveMT D Y (.l21 α) u + ε := by
  obtain ⟨τ₀, h1, h2⟩ := C85_objective hn hp D hD Y α hα ε hε
  refine ⟨τ₀, h1, fun τ ht1 ht2 => ?_⟩
  obtain ⟨N, h2⟩ := h2 τ ht1 ht2
  refine ⟨N, fun E => ?_⟩
  obtain ⟨e₀, he₀, h⟩ := h2 E
  refine ⟨e₀, he₀, fun F _ _ e hl hee x y' hx hy' srt hs ps hok hcfg ha ht hN hE hE1 hpl => ?_⟩
  obtain ⟨v, m, h3, -, h4⟩ := h F e hl hee x y' ps.alpha hx hy' ha srt hs ps.solver hcfg ht hN hE hE1 hpl
  obtain ⟨w, h5, h6⟩ := RunsToMT.lasso hok h3
  exact ⟨w, v, h5, h6, h4⟩

/-! ## The laws hold of IEEE 754 arithmetic -/

/-- `f64`. -/
theorem C85_f64 (S : Summation binary64) (hS : S.MatMul) : MTLaws (IEEE binary64 S) (1 / 2 ^ 50) := IEEE.mtLaws64 S hS

/-- `f32`. -/
theorem C85_f32 (S : Summation binary32) (hS : S.MatMul) : MTLaws (IEEE binary32 S) (1 / 2 ^ 21) := IEEE.mtLaws32 S hS

/-- Formats with `t + 5` significant bits and a large range. -/
def wide (t : ℕ) : Format := ⟨t + 4, -(20 * t + 80), 20 * t + 80, by omega, by push_cast; omega, by push_cast; omega⟩

/-- Binary formats with sufficiently many bits have the laws for every `e₀`. -/
theorem C85_wide (t : ℕ) (S : Summation (wide t)) (hS : S.MatMul) : MTLaws (IEEE (wide t) S) (wide t).eps := by
  have h := IEEE.preciseMT (wide t) S hS (η := 1 / 2 ^ (10 * t + 40)) ?_ ?_ ?_
  · exact ⟨IEEE.precise _ S, IEEE.propagates _ S, _, h⟩
  · unfold Format.η wide
    rw [← zpow_one_add₀ (by norm_num), one_div, ← zpow_natCast, ← zpow_neg]
    exact zpow_le_zpow_right₀ (by norm_num) (by push_cast; omega)
  · unfold Format.eps wide
    rw [one_div_pow, ← pow_mul]
    exact one_div_le_one_div_of_le (by positivity) (pow_le_pow_right₀ (by norm_num) (by dsimp only; omega))
  · unfold Format.top wide
    rw [div_div_eq_mul_div, div_one, show (8 : ℝ) = 2 ^ 3 by norm_num, ← pow_add, ← zpow_natCast]
    exact zpow_le_zpow_right₀ (by norm_num) (by push_cast; omega)

theorem wide_exists {e₀ : ℝ} (he : 0 < e₀) : ∃ t : ℕ, 4 ≤ t ∧ (wide t).eps ≤ e₀ := by
  obtain ⟨t, ht⟩ := exists_pow_lt_of_lt_one he (by norm_num : (1 / 2 : ℝ) < 1)
  refine ⟨t + 4, by omega, ?_⟩
  refine le_trans ?_ ht.le
  unfold Format.eps wide
  rw [one_div_pow]
  exact one_div_le_one_div_of_le (by positivity) (pow_le_pow_right₀ (by norm_num) (by dsimp only; omega))

/-! ## Examples -/

/-- Plain summation, matrix products with fused multiply-add. -/
noncomputable def wS (t : ℕ) : Summation (wide t) := (Summation.sequential (wide t)).withFMA

theorem wS_laws (t : ℕ) : MTLaws (IEEE (wide t) (wS t)) (wide t).eps := C85_wide t _ (Summation.withFMA_matMul _)

theorem w_stores {t : ℕ} {x : ℝ} (hx : |x| ≤ 8) : Stores (wide t).eps (IEEE.of (wS t) x) x := by
  refine IEEE.stores _ (hx.trans ?_)
  unfold Format.top wide
  rw [show (8 : ℝ) = 2 ^ (3 : ℤ) by norm_num]
  exact zpow_le_zpow_right₀ (by norm_num) (by dsimp only; omega)

/-- Two correlated features, two samples, stored. -/
noncomputable def wX (t : ℕ) : Fin 2 → Fin 2 → IEEE (wide t) (wS t) :=
  fun i j => IEEE.of (wS t) ((![![1, 2], ![3, 1]] : Fin 2 → Fin 2 → ℝ) i j)

theorem wX_stored (t : ℕ) : cvD.StoredAs (wide t).eps (wX t) := fun i j => w_stores (by fin_cases i <;> fin_cases j <;> norm_num)

/-- Two tasks. -/
noncomputable def wY : Fin 2 → Fin 2 → ℝ := ![![1, 2], ![0, -1]]

theorem wY_stored (t : ℕ) : ∀ i s, Stores (wide t).eps (IEEE.of (wS t) (wY i s)) (wY i s) :=
  fun i s => w_stores (by fin_cases i <;> fin_cases s <;> norm_num [wY])

/-- Ten epochs, extrapolation with `K = 2`. -/
noncomputable def wCfg (t N : ℕ) (τ : ℝ) : Solver (IEEE (wide t) (wS t)) := ⟨10, N, 10, IEEE.of (wS t) τ, 2, true, true⟩

theorem wCfg_ok (t N : ℕ) (τ : ℝ) : SettingsOKMT (wCfg t N τ) 2 2 := ⟨by norm_num [wCfg], fun _ => by norm_num [wCfg]⟩

theorem wCfg_plain (t N : ℕ) (τ : ℝ) : StopsPlain (wCfg t N τ) := by
  intro e h1 h2
  right
  change e < 10 at h1
  change e + 1 = 10 ∨ _ at h2
  show e % 3 ≠ 2
  omega

-- at most 50 iterations
example : ∃ t : ℕ, ∃ v m, RunsToMT argsortIns (wCfg t 50 (1 / 100)) cvD (wX t) (fun i s => IEEE.of (wS t) (wY i s))
    (IEEE.of (wS t) (1 / 10)) v m ∧ objectiveMT cvD wY (.l21 (1 / 10)) v ≤ objectiveMT cvD wY (.l21 (1 / 10)) 0 + 1 / 1000 := by
  obtain ⟨e₀, he₀, h⟩ := C85_run two_pos two_pos cvD trivial wY (1 / 10) (by norm_num) 50 10 (1 / 100) (1 / 1000) (by norm_num)
  obtain ⟨t, -, ht⟩ := wide_exists he₀
  obtain ⟨v, m, h1, -, h2, -⟩ := h _ _ (wS_laws t) ht (wX t) (fun i s => IEEE.of (wS t) (wY i s)) (IEEE.of (wS t) (1 / 10))
    (wX_stored t) (wY_stored t) (w_stores (by norm_num)) argsortIns argsortIns_spec (wCfg t 50 (1 / 100)) (wCfg_ok _ _ _)
    (w_stores (by norm_num)) le_rfl le_rfl (wCfg_plain _ _ _)
  exact ⟨t, v, m, h1, h2⟩

-- the run stops
example : ∃ t N : ℕ, ∃ v m, RunsToMT argsortIns (wCfg t N (1 / 100)) cvD (wX t) (fun i s => IEEE.of (wS t) (wY i s))
    (IEEE.of (wS t) (1 / 10)) v m ∧ m ≤ N ∧ ApproxStationaryMT cvD wY (subdiff fun z => 1 / 10 * ‖z‖) v (1 / 100 + 1 / 1000) := by
  obtain ⟨N, h⟩ := C85_terminates two_pos two_pos cvD trivial wY (1 / 10) (by norm_num) (1 / 100) (by norm_num)
  obtain ⟨e₀, he₀, h⟩ := h 10 (1 / 1000) (by norm_num)
  obtain ⟨t, -, ht⟩ := wide_exists he₀
  obtain ⟨v, m, h1, h2, -, h3, -⟩ := h _ _ (wS_laws t) ht (wX t) (fun i s => IEEE.of (wS t) (wY i s)) (IEEE.of (wS t) (1 / 10))
    (wX_stored t) (wY_stored t) (w_stores (by norm_num)) argsortIns argsortIns_spec (wCfg t N (1 / 100)) (wCfg_ok _ _ _)
    (w_stores (by norm_num)) le_rfl le_rfl (by norm_num [wCfg]) (wCfg_plain _ _ _)
  exact ⟨t, N, v, m, h1, h2, h3⟩

-- the objective
example : ∃ (τ : ℝ) (t N : ℕ), 0 < τ ∧ ∃ v m, RunsToMT argsortIns (wCfg t N τ) cvD (wX t) (fun i s => IEEE.of (wS t) (wY i s))
    (IEEE.of (wS t) (1 / 10)) v m ∧ ∀ u, objectiveMT cvD wY (.l21 (1 / 10)) v ≤ objectiveMT cvD wY (.l21 (1 / 10)) u + 1 / 1000 := by
  obtain ⟨τ₀, hτ₀, h⟩ := C85_objective two_pos two_pos cvD trivial wY (1 / 10) (by norm_num) (1 / 1000) (by norm_num)
  obtain ⟨N, h⟩ := h (min τ₀ 1) (by positivity) (min_le_left _ _)
  obtain ⟨e₀, he₀, h⟩ := h 10
  obtain ⟨t, -, ht⟩ := wide_exists he₀
  obtain ⟨v, m, h1, -, h3⟩ := h _ _ (wS_laws t) ht (wX t) (fun i s => IEEE.of (wS t) (wY i s)) (IEEE.of (wS t) (1 / 10))
    (wX_stored t) (wY_stored t) (w_stores (by norm_num)) argsortIns argsortIns_spec (wCfg t N (min τ₀ 1)) (wCfg_ok _ _ _)
    (w_stores (by rw [abs_of_pos (by positivity)]; exact (min_le_right _ _).trans (by norm_num))) le_rfl le_rfl (by norm_num [wCfg])
    (wCfg_plain _ _ _)
  exact ⟨_, t, N, by positivity, v, m, h1, h3⟩

-- the coefficients
example (W : Fin 2 → Euc 2) (hW : ∀ U, objectiveMT cvD wY (.l21 (1 / 10)) W ≤ objectiveMT cvD wY (.l21 (1 / 10)) U) :
    ∃ t N : ℕ, ∃ v m, RunsToMT argsortIns (wCfg t N (1 / 100)) cvD (wX t) (fun i s => IEEE.of (wS t) (wY i s))
      (IEEE.of (wS t) (1 / 10)) v m ∧ ∑ j, ‖v j - W j‖ ^ 2 ≤ (2 : ℕ) * ((1 / 100 + 1 / 1000) / (1 / 2)) ^ 2 := by
  obtain ⟨N, h⟩ := C85_accuracy two_pos two_pos cvD trivial wY (1 / 10) (by norm_num) (1 / 2) cvD_curvature (by norm_num) W hW (1 / 100)
    (by norm_num)
  obtain ⟨e₀, he₀, h⟩ := h 10 (1 / 1000) (by norm_num)
  obtain ⟨t, -, ht⟩ := wide_exists he₀
  obtain ⟨v, m, h1, -, h3⟩ := h _ _ (wS_laws t) ht (wX t) (fun i s => IEEE.of (wS t) (wY i s)) (IEEE.of (wS t) (1 / 10))
    (wX_stored t) (wY_stored t) (w_stores (by norm_num)) argsortIns argsortIns_spec (wCfg t N (1 / 100)) (wCfg_ok _ _ _)
    (w_stores (by norm_num)) le_rfl le_rfl (by norm_num [wCfg]) (wCfg_plain _ _ _)
  exact ⟨t, N, v, m, h1, h3⟩

-- the estimator
example : ∃ (τ : ℝ) (t N : ℕ) (w : Fin 2 → Fin 2 → IEEE (wide t) (wS t)) (v : Fin 2 → Euc 2), (∀ j s, Den (w j s) ((v j).ofLp s)) ∧
    fitMTLassoOf argsortIns ⟨IEEE.of (wS t) (1 / 10), N, 10, 10, IEEE.of (wS t) τ, 2, true, true⟩ cvD (wX t)
      (fun i s => IEEE.of (wS t) (wY i s)) = .ok (.ok (matOf w)) ∧
    ∀ u, objectiveMT cvD wY (.l21 (1 / 10)) v ≤ objectiveMT cvD wY (.l21 (1 / 10)) u + 1 / 1000 := by
  obtain ⟨τ₀, hτ₀, h⟩ := C85_fit two_pos two_pos cvD trivial wY (1 / 10) (by norm_num) (1 / 1000) (by norm_num)
  have hp : 0 < min τ₀ 1 := by positivity
  obtain ⟨N, h⟩ := h (min τ₀ 1) hp (min_le_left _ _)
  obtain ⟨e₀, he₀, h⟩ := h 10
  obtain ⟨t, -, ht⟩ := wide_exists he₀
  obtain ⟨w, v, h1, h2, h3⟩ := h _ _ (wS_laws t) ht (wX t) (fun i s => IEEE.of (wS t) (wY i s))
    (wX_stored t) (wY_stored t) argsortIns argsortIns_spec ⟨IEEE.of (wS t) (1 / 10), N, 10, 10, IEEE.of (wS t) (min τ₀ 1), 2, true, true⟩ (by
      unfold LassoParams.checkRef checkTail
      dsimp only
      rw [signBit_ieee (wS t) (by norm_num), signBit_ieee (wS t) hp.le]
      rfl)
    (wCfg_ok t N _) (w_stores (by norm_num))
    (w_stores (by rw [abs_of_pos (by positivity)]; exact (min_le_right _ _).trans (by norm_num))) le_rfl le_rfl (by norm_num)
    (wCfg_plain t N _)
  exact ⟨_, t, N, w, v, h1, h2, h3⟩

end Sglm
