import Verif.Props.Selection

/-!
# C72: grouping effect of the elastic net; C73: error bounds for noisy linear models
-/

namespace Sglm
open Scalar Spec
variable {n p T : ℕ}

/-! ## Grouping -/

theorem group_of_cert (hn : 0 < n) {D : Design n p} {y : Fin n → ℝ} {α ρ τ ε : ℝ} (hα : 0 ≤ α) (hρ0 : 0 ≤ ρ) (hρ1 : ρ ≤ 1) (hτ : 0 ≤ τ)
    {v : Fin p → ℝ} (h0 : objective1 D y .quadratic (.enet α ρ) v ≤ objective1 D y .quadratic (.enet α ρ) 0 + ε)
    (h1 : ∀ u, objective1 D y .quadratic (.enet α ρ) v - objective1 D y .quadratic (.enet α ρ) u ≤ τ * ∑ j, |v j - u j|) (i j : Fin p) :
    α * (1 - ρ) * |v i - v j| ≤
      Real.sqrt ((∑ k, (D.matrix k i - D.matrix k j) ^ 2) * (∑ k, y k ^ 2 + 2 * n * ε)) / n + 2 * τ := by
  have hn' : (0 : ℝ) < n := by exact_mod_cast hn
  have a := grouping hn D.matrix y hα hρ0 (v := v) (τ := τ) (fun u => by rw [lsq_real, lsq_real]; exact h1 u) hτ i j
  have b := grd_cols D.matrix y v i j
  have e0 : objective1 D y .quadratic (.enet α ρ) 0 = (∑ i, y i ^ 2) / (2 * n) := objective1_zero D y _ (pen_zero_of trivial)
  have c : ∑ k, ‖y k - fitG D.matrix v k‖ ^ 2 ≤ ∑ k, y k ^ 2 + 2 * n * ε := by
    have d : (∑ k, ‖y k - fitG D.matrix v k‖ ^ 2) / (2 * n) ≤ (∑ i, y i ^ 2) / (2 * n) + ε := by
      rw [← e0]
      refine le_trans ?_ h0
      have : (∑ k, ‖y k - fitG D.matrix v k‖ ^ 2) / (2 * n) = quadLoss y (fit D.matrix v) := lsq_real D.matrix y v
      rw [this]
      show quadLoss y (fit D.matrix v) ≤ quadLoss y (fit D.matrix v) + ∑ j, _
      have := Finset.sum_nonneg fun j (_ : j ∈ Finset.univ) => pen_nonneg (.enet α ρ) ⟨hα, hρ0, hρ1⟩ trivial (v j)
      linarith
    rw [div_le_iff₀ (by positivity)] at d
    refine d.trans (le_of_eq ?_)
    field_simp
  refine a.trans (add_le_add ?_ le_rfl)
  rw [le_div_iff₀ hn']
  refine Real.le_sqrt_of_sq_le ?_
  rw [mul_pow, ← le_div_iff₀ (by positivity)]
  refine b.trans ?_
  gcongr

/-- **Grouping effect**: the coefficients of similar features are similar (elastic net). -/
theorem C72_grouping {srt : Argsort XR} (hs : ArgsortSpec srt) (hn : 0 < n) (D : Design n p) (hD : D.Canonical) (y : Fin n → ℝ)
    (α ρ : ℝ) (hα : 0 ≤ α) (hρ0 : 0 ≤ ρ) (hρ1 : ρ ≤ 1) (cfg : Solver XR) (τ : ℝ) (hτ : 0 ≤ τ) (ht : cfg.tolerance = XR.fin τ)
    (v : Fin p → ℝ) (h : Stops srt cfg D y .quadratic (.enet α ρ) v) (i j : Fin p) :
    α * (1 - ρ) * |v i - v j| ≤ Real.sqrt ((∑ k, (D.matrix k i - D.matrix k j) ^ 2) * ∑ k, y k ^ 2) / n + 2 * τ := by
  have hv : (Pen.enet α ρ).Valid := ⟨hα, hρ0, hρ1⟩
  have a := group_of_cert (ε := 0) hn hα hρ0 hρ1 hτ (by
    rw [add_zero]; exact C28_result hs hn D hD y .quadratic trivial _ hv trivial cfg v h.1) (stops_cert hs hn hv trivial ht h).2 i j
  rwa [mul_zero, add_zero] at a

/-- **Identical features** have coefficients which differ by at most `2 τ / (α (1 - ρ))`. -/
theorem C72_identical {srt : Argsort XR} (hs : ArgsortSpec srt) (hn : 0 < n) (D : Design n p) (hD : D.Canonical) (y : Fin n → ℝ)
    (α ρ : ℝ) (hα : 0 < α) (hρ0 : 0 ≤ ρ) (hρ1 : ρ < 1) (cfg : Solver XR) (τ : ℝ) (hτ : 0 ≤ τ) (ht : cfg.tolerance = XR.fin τ)
    (v : Fin p → ℝ) (h : Stops srt cfg D y .quadratic (.enet α ρ) v) (i j : Fin p) (hij : ∀ k, D.matrix k i = D.matrix k j) :
    |v i - v j| ≤ 2 * τ / (α * (1 - ρ)) := by
  have a := C72_grouping hs hn D hD y α ρ hα.le hρ0 hρ1.le cfg τ hτ ht v h i j
  rw [Finset.sum_eq_zero fun k _ => by rw [hij k, sub_self]; norm_num, zero_mul, Real.sqrt_zero, zero_div, zero_add] at a
  rw [le_div_iff₀ (mul_pos hα (by linarith))]
  linarith

/-- Grouping in floating point. -/
theorem C72_float (hn : 0 < n) (hp : 0 < p) (D : Design n p) (hD : D.Canonical) (y : Fin n → ℝ) (α ρ : ℝ) (hα : 0 < α) (hρ0 : 0 ≤ ρ)
    (hρ1 : ρ ≤ 1) (τ : ℝ) (hτ : 0 < τ) :
    InFloat D y .quadratic (.enet α ρ) τ fun ε v => ∀ i j, α * (1 - ρ) * |v i - v j| ≤
      Real.sqrt ((∑ k, (D.matrix k i - D.matrix k j) ^ 2) * (∑ k, y k ^ 2 + 2 * n * ε)) / n + 2 * (τ + ε) :=
  inFloat_of hn hp D hD y .quadratic trivial (.enet α ρ) ⟨hα.le, hρ0, hρ1⟩ trivial (by
    show 0 < α * (ρ * ‖(1 : ℝ)‖ + (1 - ρ) * ‖(1 : ℝ)‖ ^ 2 / 2)
    rw [norm_one]
    exact mul_pos hα (by linarith)) τ hτ fun _ hε _ h1 h2 i j => group_of_cert hn hα.le hρ0 hρ1 (by linarith) h1 h2 i j

/-! ## Error bounds -/

/-- **Slow rate**: if the strength dominates the correlations of the features with the noise `y - X β` (and the tolerance), the
prediction error of the Lasso is at most `2 α ‖β‖₁`, for every design. -/
theorem C73_slow {srt : Argsort XR} (hs : ArgsortSpec srt) (hn : 0 < n) (D : Design n p) (y : Fin n → ℝ)
    (α : ℝ) (hα : 0 ≤ α) (cfg : Solver XR) (τ : ℝ) (ht : cfg.tolerance = XR.fin τ)
    (v : Fin p → ℝ) (h : Stops srt cfg D y .quadratic (.l1 α) v) (β : Fin p → ℝ) (l : ℝ) (hl : ∀ j, |residCorr D y β j| ≤ l)
    (hlα : l + τ ≤ α) :
    (∑ i, (fit D.matrix v i - fit D.matrix β i) ^ 2) / n ≤ 2 * α * ∑ j, |β j| := by
  rw [← sqFit_real]
  exact oracle_slow (τ := τ) (l := l) hn D.matrix y hα (fun u => by
    rw [lsq_real, lsq_real]; exact (stops_cert hs hn (show (Pen.l1 α).Valid from hα) trivial ht h).2 u) β
    (fun j => by rw [grd_real, norm_neg, Real.norm_eq_abs]; exact hl j) hlα

/-- Restricted eigenvalue condition with constant `ψ` for the features `S`. -/
def RestrictedEigenvalue (D : Design n p) (S : Finset (Fin p)) (ψ : ℝ) : Prop :=
  ∀ d : Fin p → ℝ, ∑ j ∈ Sᶜ, |d j| ≤ 3 * ∑ j ∈ S, |d j| → ψ * ∑ j ∈ S, d j ^ 2 ≤ (∑ i, fit D.matrix d i ^ 2) / n

theorem fast_of_cert (hn : 0 < n) {D : Design n p} {y : Fin n → ℝ} {α τ l ψ : ℝ} (hα : 0 < α) (hψ : 0 < ψ) {v : Fin p → ℝ}
    (h : ∀ u, objective1 D y .quadratic (.l1 α) v - objective1 D y .quadratic (.l1 α) u ≤ τ * ∑ j, |v j - u j|) (β : Fin p → ℝ)
    (S : Finset (Fin p)) (hS : ∀ j ∉ S, β j = 0) (hre : RestrictedEigenvalue D S ψ) (hl : ∀ j, |residCorr D y β j| ≤ l)
    (hlα : 2 * (l + τ) ≤ α) :
    (∑ i, (fit D.matrix v i - fit D.matrix β i) ^ 2) / n ≤ 9 / 4 * α ^ 2 * S.card / ψ ∧ ∑ j, |v j - β j| ≤ 6 * α * S.card / ψ := by
  rw [← sqFit_real]
  refine oracle_fast (τ := τ) (l := l) hn D.matrix y hα hψ (fun u => by rw [lsq_real, lsq_real]; exact h u) β S hS
    (fun j => by rw [grd_real, norm_neg, Real.norm_eq_abs]; exact hl j) hlα (fun d hd => ?_)
  have := hre d hd
  have e1 : ∑ j ∈ S, ‖d j‖ ^ 2 = ∑ j ∈ S, d j ^ 2 := Finset.sum_congr rfl fun j _ => by rw [Real.norm_eq_abs, sq_abs]
  have e2 : sqFit D.matrix d = ∑ i, fit D.matrix d i ^ 2 := by
    unfold sqFit
    exact Finset.sum_congr rfl fun i _ => by rw [Real.norm_eq_abs, sq_abs, fitG_real]
  rw [e1, e2]
  exact this

/-- **Fast rate**: sparse linear models, with a restricted eigenvalue condition. -/
theorem C73_fast {srt : Argsort XR} (hs : ArgsortSpec srt) (hn : 0 < n) (D : Design n p) (y : Fin n → ℝ)
    (α : ℝ) (hα : 0 < α) (cfg : Solver XR) (τ : ℝ) (ht : cfg.tolerance = XR.fin τ)
    (v : Fin p → ℝ) (h : Stops srt cfg D y .quadratic (.l1 α) v) (β : Fin p → ℝ) (S : Finset (Fin p)) (hS : ∀ j ∉ S, β j = 0)
    (ψ : ℝ) (hψ : 0 < ψ) (hre : RestrictedEigenvalue D S ψ) (l : ℝ) (hl : ∀ j, |residCorr D y β j| ≤ l) (hlα : 2 * (l + τ) ≤ α) :
    (∑ i, (fit D.matrix v i - fit D.matrix β i) ^ 2) / n ≤ 9 / 4 * α ^ 2 * S.card / ψ ∧ ∑ j, |v j - β j| ≤ 6 * α * S.card / ψ :=
  fast_of_cert hn hα hψ (stops_cert hs hn (show (Pen.l1 α).Valid from hα.le) trivial ht h).2 β S hS hre hl hlα

/-- **True features are found**: every coefficient of `β` larger than `6 α s / ψ` is selected, with its sign. -/
theorem C73_found {srt : Argsort XR} (hs : ArgsortSpec srt) (hn : 0 < n) (D : Design n p) (y : Fin n → ℝ)
    (α : ℝ) (hα : 0 < α) (cfg : Solver XR) (τ : ℝ) (ht : cfg.tolerance = XR.fin τ)
    (v : Fin p → ℝ) (h : Stops srt cfg D y .quadratic (.l1 α) v) (β : Fin p → ℝ) (S : Finset (Fin p)) (hS : ∀ j ∉ S, β j = 0)
    (ψ : ℝ) (hψ : 0 < ψ) (hre : RestrictedEigenvalue D S ψ) (l : ℝ) (hl : ∀ j, |residCorr D y β j| ≤ l) (hlα : 2 * (l + τ) ≤ α)
    (j : Fin p) (hj : 6 * α * S.card / ψ < |β j|) : 0 < v j * β j := by
  have a := (C73_fast hs hn D y α hα cfg τ ht v h β S hS ψ hψ hre l hl hlα).2
  have b : |v j - β j| ≤ ∑ j, |v j - β j| :=
    Finset.single_le_sum (f := fun j => |v j - β j|) (fun _ _ => abs_nonneg _) (Finset.mem_univ j)
  have c : |v j - β j| < |β j| := by linarith
  have d : (v j - β j) ^ 2 < β j ^ 2 := sq_lt_sq.mpr c
  nlinarith [sq_nonneg (v j)]

/-- Fast rate in floating point. -/
theorem C73_float (hn : 0 < n) (hp : 0 < p) (D : Design n p) (hD : D.Canonical) (y : Fin n → ℝ) (α : ℝ) (hα : 0 < α) (τ : ℝ) (hτ : 0 < τ)
    (β : Fin p → ℝ) (S : Finset (Fin p)) (hS : ∀ j ∉ S, β j = 0) (ψ : ℝ) (hψ : 0 < ψ) (hre : RestrictedEigenvalue D S ψ) (l : ℝ)
    (hl : ∀ j, |residCorr D y β j| ≤ l) (hlα : 2 * (l + τ) < α) :
    ∃ N : ℕ, ∀ E : ℕ, ∃ e₀ : ℝ, 0 < e₀ ∧ ∀ (F : Type) [Scalar F] [LawfulCmp F] (e : ℝ), FloatLaws .quadratic F e → e ≤ e₀ →
      ∀ (x : D.Entries F) (y' : Fin n → F) (a : F), D.StoredAs e x → (∀ i, Stores e (y' i) (y i)) → Stores e a α →
      ∀ srt : Argsort F, ArgsortSpec srt → ∀ cfg : Solver F, SettingsOK cfg p → Stores e cfg.tolerance τ →
      N ≤ cfg.maxIterations → cfg.maxEpochs ≤ E → 0 < cfg.maxEpochs → StopsPlain cfg →
      ∃ v m, RunsTo srt cfg D x y' .quadratic (.l1 a) v m ∧ m ≤ N ∧
        (∑ i, (fit D.matrix v i - fit D.matrix β i) ^ 2) / n ≤ 9 / 4 * α ^ 2 * S.card / ψ ∧ ∑ j, |v j - β j| ≤ 6 * α * S.card / ψ := by
  obtain ⟨N, h⟩ := inFloat_of hn hp D hD y .quadratic trivial (.l1 α) hα.le trivial (by show 0 < α * |1|; rwa [abs_one, mul_one]) τ hτ
    (P := fun ε v => ∀ u, objective1 D y .quadratic (.l1 α) v - objective1 D y .quadratic (.l1 α) u ≤ (τ + ε) * ∑ j, |v j - u j|)
    fun _ _ _ _ h2 => h2
  refine ⟨N, fun E => ?_⟩
  obtain ⟨e₀, he₀, h⟩ := h E ((α - 2 * (l + τ)) / 2) (by linarith)
  refine ⟨e₀, he₀, fun F _ _ e hl' hee x y' a hx hy' ha srt hs cfg hcfg ht hN hE hE1 hpl => ?_⟩
  obtain ⟨v, m, h1, h2, h3⟩ := h F e hl' hee x y' (.l1 a) hx hy' ha srt hs cfg hcfg ht hN hE hE1 hpl
  exact ⟨v, m, h1, h2, fast_of_cert hn hα hψ h3 β S hS hre hl (by linarith)⟩

/-- Multi-task Lasso: slow rate. -/
theorem C73_slow_mt {srt : Argsort XR} (hs : ArgsortSpec srt) (hn : 0 < n) (D : Design n p) (Y : Fin n → Fin T → ℝ)
    (α : ℝ) (hα : 0 < α) (cfg : Solver XR) (τ : ℝ) (ht : cfg.tolerance = XR.fin τ)
    (V : Fin p → Euc T) (h : StopsMT srt cfg D Y (.l21 α) V) (B : Fin p → Euc T) (l : ℝ) (hl : ∀ j, ‖residCorrMT D Y B j‖ ≤ l)
    (hlα : l + τ ≤ α) :
    (∑ i, ∑ t, (fitMT D.matrix (fun j => (V j).ofLp) i t - fitMT D.matrix (fun j => (B j).ofLp) i t) ^ 2) / n ≤ 2 * α * ∑ j, ‖B j‖ := by
  rw [← sqFit_mt]
  exact oracle_slow (τ := τ) (l := l) hn D.matrix (vecY Y) hα.le (fun u => by
    rw [lsq_mt, lsq_mt]; exact stopsMT_cert hs hn hα ht h u) B
    (fun j => by rw [grd_mt, norm_neg]; exact hl j) hlα

/-- The restricted eigenvalue condition for rows of coefficients. -/
def RestrictedEigenvalueMT (D : Design n p) (T : ℕ) (S : Finset (Fin p)) (ψ : ℝ) : Prop :=
  ∀ d : Fin p → Euc T, ∑ j ∈ Sᶜ, ‖d j‖ ≤ 3 * ∑ j ∈ S, ‖d j‖ →
    ψ * ∑ j ∈ S, ‖d j‖ ^ 2 ≤ (∑ i, ∑ t, fitMT D.matrix (fun j => (d j).ofLp) i t ^ 2) / n

/-- Multi-task Lasso: fast rate. -/
theorem C73_fast_mt {srt : Argsort XR} (hs : ArgsortSpec srt) (hn : 0 < n) (D : Design n p) (Y : Fin n → Fin T → ℝ)
    (α : ℝ) (hα : 0 < α) (cfg : Solver XR) (τ : ℝ) (ht : cfg.tolerance = XR.fin τ)
    (V : Fin p → Euc T) (h : StopsMT srt cfg D Y (.l21 α) V) (B : Fin p → Euc T) (S : Finset (Fin p)) (hS : ∀ j ∉ S, B j = 0)
    (ψ : ℝ) (hψ : 0 < ψ) (hre : RestrictedEigenvalueMT D T S ψ) (l : ℝ) (hl : ∀ j, ‖residCorrMT D Y B j‖ ≤ l) (hlα : 2 * (l + τ) ≤ α) :
    (∑ i, ∑ t, (fitMT D.matrix (fun j => (V j).ofLp) i t - fitMT D.matrix (fun j => (B j).ofLp) i t) ^ 2) / n ≤
      9 / 4 * α ^ 2 * S.card / ψ ∧ ∑ j, ‖V j - B j‖ ≤ 6 * α * S.card / ψ := by
  rw [← sqFit_mt]
  refine oracle_fast (τ := τ) (l := l) hn D.matrix (vecY Y) hα hψ (fun u => by
    rw [lsq_mt, lsq_mt]; exact stopsMT_cert hs hn hα ht h u) B S hS
    (fun j => by rw [grd_mt, norm_neg]; exact hl j) hlα (fun d hd => ?_)
  have e2 : sqFit D.matrix d = ∑ i, ∑ t, fitMT D.matrix (fun j => (d j).ofLp) i t ^ 2 := by
    unfold sqFit
    refine Finset.sum_congr rfl fun i _ => ?_
    rw [EuclideanSpace.norm_sq_eq]
    exact Finset.sum_congr rfl fun t _ => by rw [Real.norm_eq_abs, sq_abs, fitG_mt]
  rw [e2]
  exact hre d hd

/-! ## Examples -/

-- two identical features
example : ∃ (N : ℕ) (v : Fin 2 → ℝ), Stops argsortIns ⟨1, N, 50, XR.fin (1 / 1000), 5, false, true⟩ dupD ![1, 2] .quadratic
      (.enet (1 / 10) (1 / 2)) v ∧ |v 0 - v 1| ≤ 4 / 100 := by
  obtain ⟨N, h⟩ := stops_exists two_pos dupD trivial ![1, 2] .quadratic trivial (.enet (1 / 10) (1 / 2))
    ⟨by norm_num, by norm_num, by norm_num⟩ trivial (by norm_num [Pen.fn, enet]) (1 / 1000) (by norm_num)
  obtain ⟨v, h⟩ := h 1 one_pos
  refine ⟨N, v, h, (C72_identical argsortIns_spec two_pos dupD trivial ![1, 2] (1 / 10) (1 / 2) (by norm_num) (by norm_num) (by norm_num) _
    (1 / 1000) (by norm_num) rfl v h 0 1 (fun k => ?_)).trans (by norm_num)⟩
  show (![![1, 1], ![2, 2]] : Fin 2 → Fin 2 → ℝ) k 0 = (![![1, 1], ![2, 2]] : Fin 2 → Fin 2 → ℝ) k 1
  fin_cases k <;> rfl

-- two similar features
example : ∃ (N : ℕ) (v : Fin 2 → ℝ), Stops argsortIns ⟨1, N, 50, XR.fin (1 / 1000), 5, false, true⟩ (.dense ![![1, 1], ![2, 2 + 1 / 100]])
      ![1, 2] .quadratic (.enet 1 (1 / 2)) v ∧ |v 0 - v 1| ≤ 1 / 10 := by
  obtain ⟨N, h⟩ := stops_exists two_pos (.dense ![![1, 1], ![2, 2 + 1 / 100]]) trivial ![1, 2] .quadratic trivial (.enet 1 (1 / 2))
    ⟨by norm_num, by norm_num, by norm_num⟩ trivial (by norm_num [Pen.fn, enet]) (1 / 1000) (by norm_num)
  obtain ⟨v, h⟩ := h 1 one_pos
  refine ⟨N, v, h, ?_⟩
  have := C72_grouping argsortIns_spec two_pos (.dense ![![1, 1], ![2, 2 + 1 / 100]]) trivial ![1, 2] 1 (1 / 2) (by norm_num) (by norm_num)
    (by norm_num) _ (1 / 1000) (by norm_num) rfl v h 0 1
  rw [Fin.sum_univ_two, Fin.sum_univ_two] at this
  change 1 * (1 - 1 / 2) * |v 0 - v 1| ≤ Real.sqrt ((((1 : ℝ) - 1) ^ 2 + (2 - (2 + 1 / 100)) ^ 2) * (1 ^ 2 + 2 ^ 2)) / ((2 : ℕ) : ℝ) +
    2 * (1 / 1000) at this
  have h2 : Real.sqrt ((((1 : ℝ) - 1) ^ 2 + (2 - (2 + 1 / 100)) ^ 2) * (1 ^ 2 + 2 ^ 2)) ≤ 3 / 100 := by
    rw [Real.sqrt_le_left (by norm_num)]
    norm_num
  push_cast at this
  linarith

-- a binary floating point format
example : ∃ (t N : ℕ) (v : Fin 2 → ℝ) (m : ℕ),
      RunsTo argsortIns (binCfg t N (1 / 1000)) dupD (fun i j => Fl.of t (dupD.matrix i j)) (fun i => Fl.of t (![1, 2] i)) .quadratic
        (.enet (Fl.of t (1 / 10)) zero) v m ∧ |v 0 - v 1| ≤ 4 / 100 := by
  obtain ⟨N, h⟩ := C72_float two_pos two_pos dupD trivial ![1, 2] (1 / 10) 0 (by norm_num) le_rfl zero_le_one
    (1 / 1000) (by norm_num)
  obtain ⟨e₀, he₀, h⟩ := h 10 (1 / 1000) (by norm_num)
  obtain ⟨t, ht⟩ := bin_exists he₀
  obtain ⟨v, m, h1, h2, h3⟩ := h _ _ (bin_laws t .quadratic) ht (fun i j => Fl.of t (dupD.matrix i j)) (fun i => Fl.of t (![1, 2] i))
    (.enet (Fl.of t (1 / 10)) zero) (fun i j => bin_stores t _) (fun i => bin_stores t _) ⟨bin_stores t _, ⟨⟨0, den_zero, by rw [sub_self, abs_zero]; positivity⟩, fun _ => den_zero⟩, 0, den_zero, le_rfl, zero_le_one⟩
    argsortIns (argsortFl t) (binCfg t N (1 / 1000)) (binCfg_ok _ _ _) (bin_stores t _) le_rfl le_rfl (by norm_num [binCfg])
    (binCfg_plain _ _ _)
  refine ⟨t, N, v, m, h1, ?_⟩
  have h4 := h3 0 1
  rw [Finset.sum_eq_zero fun k _ => (by
    show ((![![1, 1], ![2, 2]] : Fin 2 → Fin 2 → ℝ) k 0 - (![![1, 1], ![2, 2]] : Fin 2 → Fin 2 → ℝ) k 1) ^ 2 = 0
    fin_cases k <;> norm_num), zero_mul, Real.sqrt_zero, zero_div, zero_add] at h4
  linarith

theorem idD_re : RestrictedEigenvalue idD {0} (1 / 2) := by
  intro d _
  rw [Finset.sum_singleton, Fin.sum_univ_two, (idD_fit d).1, (idD_fit d).2]
  push_cast
  nlinarith [sq_nonneg (d 1)]

theorem idD_noise (j : Fin 2) : |residCorr idD ![4, 1 / 10] ![4, 0] j| ≤ 1 / 20 := by
  unfold residCorr
  rw [Fin.sum_univ_two, (idD_fit _).1, (idD_fit _).2]
  show |((![![1, 0], ![0, 1]] : Fin 2 → Fin 2 → ℝ) 0 j * (4 - 4) + (![![1, 0], ![0, 1]] : Fin 2 → Fin 2 → ℝ) 1 j * (1 / 10 - 0)) / ((2 : ℕ) : ℝ)| ≤ _
  fin_cases j <;> norm_num [abs_le]

-- the model `y = X (4, 0) + (0, 1/10)`
example : ∃ (N : ℕ) (v : Fin 2 → ℝ), Stops argsortIns ⟨1, N, 50, XR.fin (1 / 100), 5, false, true⟩ idD ![4, 1 / 10] .quadratic
      (.l1 (1 / 4)) v ∧ (∑ i, (fit idD.matrix v i - fit idD.matrix ![4, 0] i) ^ 2) / ((2 : ℕ) : ℝ) ≤ 2 ∧
    (∑ i, (fit idD.matrix v i - fit idD.matrix ![4, 0] i) ^ 2) / ((2 : ℕ) : ℝ) ≤ 9 / 32 ∧ ∑ j, |v j - (![4, 0] : Fin 2 → ℝ) j| ≤ 3 ∧ 0 < v 0 * 4 := by
  obtain ⟨N, h⟩ := stops_exists two_pos idD trivial ![4, 1 / 10] .quadratic trivial (.l1 (1 / 4)) (by norm_num [Pen.Valid]) trivial
    (by norm_num [Pen.fn]) (1 / 100) (by norm_num)
  obtain ⟨v, h⟩ := h 1 one_pos
  have hS : ∀ j ∉ ({0} : Finset (Fin 2)), (![4, 0] : Fin 2 → ℝ) j = 0 := by
    rw [Fin.forall_fin_two]
    exact ⟨fun h => absurd (Finset.mem_singleton_self 0) h, fun _ => rfl⟩
  have a := C73_fast argsortIns_spec two_pos idD ![4, 1 / 10] (1 / 4) (by norm_num) _ (1 / 100) rfl v h ![4, 0] {0} hS (1 / 2) (by norm_num)
    idD_re (1 / 20) idD_noise (by norm_num)
  refine ⟨N, v, h, ?_, a.1.trans (by norm_num), a.2.trans (by norm_num), ?_⟩
  · refine (C73_slow argsortIns_spec two_pos idD ![4, 1 / 10] (1 / 4) (by norm_num) _ (1 / 100) rfl v h ![4, 0] (1 / 20) idD_noise
      (by norm_num)).trans ?_
    rw [Fin.sum_univ_two]
    norm_num
  · exact C73_found argsortIns_spec two_pos idD ![4, 1 / 10] (1 / 4) (by norm_num) _ (1 / 100) rfl v h ![4, 0] {0} hS (1 / 2) (by norm_num)
      idD_re (1 / 20) idD_noise (by norm_num) 0 (by norm_num)

example : ∃ (t N : ℕ) (v : Fin 2 → ℝ) (m : ℕ),
      RunsTo argsortIns (binCfg t N (1 / 100)) idD (fun i j => Fl.of t (idD.matrix i j)) (fun i => Fl.of t (![4, 1 / 10] i)) .quadratic
        (.l1 (Fl.of t (1 / 4))) v m ∧ ∑ j, |v j - (![4, 0] : Fin 2 → ℝ) j| ≤ 3 := by
  obtain ⟨N, h⟩ := C73_float two_pos two_pos idD trivial ![4, 1 / 10] (1 / 4) (by norm_num) (1 / 100) (by norm_num) ![4, 0] {0} (by
    rw [Fin.forall_fin_two]
    exact ⟨fun h => absurd (Finset.mem_singleton_self 0) h, fun _ => rfl⟩) (1 / 2) (by norm_num) idD_re (1 / 20) idD_noise (by norm_num)
  obtain ⟨e₀, he₀, h⟩ := h 10
  obtain ⟨t, ht⟩ := bin_exists he₀
  obtain ⟨v, m, h1, h2, h3⟩ := h _ _ (bin_laws t .quadratic) ht (fun i j => Fl.of t (idD.matrix i j)) (fun i => Fl.of t (![4, 1 / 10] i))
    (Fl.of t (1 / 4)) (fun i j => bin_stores t _) (fun i => bin_stores t _) (bin_stores t _) argsortIns (argsortFl t)
    (binCfg t N (1 / 100)) (binCfg_ok _ _ _) (bin_stores t _) le_rfl le_rfl (by norm_num [binCfg]) (binCfg_plain _ _ _)
  exact ⟨t, N, v, m, h1, h3.2.trans (by norm_num)⟩

-- two tasks
theorem idD_fit_mt (W : Fin 2 → Euc 2) (i t : Fin 2) : fitMT idD.matrix (fun j => (W j).ofLp) i t = (W i).ofLp t := by
  show ∑ j : Fin 2, (![![1, 0], ![0, 1]] : Fin 2 → Fin 2 → ℝ) i j * (W j).ofLp t = _
  rw [Fin.sum_univ_two]
  fin_cases i <;> simp

theorem idD_noise_mt (j : Fin 2) : ‖residCorrMT idD ![![4, 0], ![0, 1 / 10]] ![WithLp.toLp 2 ![4, 0], 0] j‖ ≤ 1 / 20 := by
  have e : ∀ j t : Fin 2, (residCorrMT idD ![![4, 0], ![0, 1 / 10]] ![WithLp.toLp 2 ![4, 0], 0] j).ofLp t =
      (![![0, 0], ![0, 1 / 20]] : Fin 2 → Fin 2 → ℝ) j t := by
    intro j t
    show (∑ i, idD.matrix i j * (_ - fitMT idD.matrix _ i t)) / ((2 : ℕ) : ℝ) = _
    rw [Fin.sum_univ_two, idD_fit_mt, idD_fit_mt]
    show ((![![1, 0], ![0, 1]] : Fin 2 → Fin 2 → ℝ) 0 j * ((![4, 0] : Fin 2 → ℝ) t - (![4, 0] : Fin 2 → ℝ) t) +
      (![![1, 0], ![0, 1]] : Fin 2 → Fin 2 → ℝ) 1 j * ((![0, 1 / 10] : Fin 2 → ℝ) t - 0)) / ((2 : ℕ) : ℝ) = _
    fin_cases j <;> fin_cases t <;> norm_num
  rw [EuclideanSpace.norm_eq, Real.sqrt_le_left (by norm_num), Fin.sum_univ_two, e, e]
  fin_cases j <;> norm_num

theorem idD_re_mt : RestrictedEigenvalueMT idD 2 {0} (1 / 2) := by
  intro d _
  rw [Finset.sum_singleton, Fin.sum_univ_two, Fin.sum_univ_two, Fin.sum_univ_two, idD_fit_mt, idD_fit_mt, idD_fit_mt, idD_fit_mt,
    EuclideanSpace.norm_sq_eq, Fin.sum_univ_two, Real.norm_eq_abs, Real.norm_eq_abs, sq_abs, sq_abs]
  push_cast
  nlinarith [sq_nonneg ((d 1).ofLp 0), sq_nonneg ((d 1).ofLp 1)]

example : ∃ (N : ℕ) (V : Fin 2 → Euc 2),
    StopsMT argsortIns ⟨1, N, 50, XR.fin (1 / 100), 5, false, true⟩ idD ![![4, 0], ![0, 1 / 10]] (.l21 (1 / 4)) V ∧
    ∑ j, ‖V j - (![WithLp.toLp 2 ![4, 0], 0] : Fin 2 → Euc 2) j‖ ≤ 3 ∧
    (∑ i, ∑ t, (fitMT idD.matrix (fun j => (V j).ofLp) i t -
      fitMT idD.matrix (fun j => ((![WithLp.toLp 2 ![4, 0], 0] : Fin 2 → Euc 2) j).ofLp) i t) ^ 2) / ((2 : ℕ) : ℝ) ≤ 2 := by
  obtain ⟨N, h⟩ := stopsMT_exists two_pos idD trivial ![![4, 0], ![0, 1 / 10]] (1 / 4) (by norm_num) (1 / 100) (by norm_num)
  obtain ⟨V, h⟩ := h 1 one_pos
  refine ⟨N, V, h, (C73_fast_mt argsortIns_spec two_pos idD _ (1 / 4) (by norm_num) _ (1 / 100) rfl V h _ {0} (by
    rw [Fin.forall_fin_two]
    exact ⟨fun h => absurd (Finset.mem_singleton_self 0) h, fun _ => rfl⟩) (1 / 2) (by norm_num) idD_re_mt (1 / 20) idD_noise_mt
    (by norm_num)).2.trans (by norm_num), ?_⟩
  refine (C73_slow_mt argsortIns_spec two_pos idD _ (1 / 4) (by norm_num) _ (1 / 100) rfl V h _ (1 / 20) idD_noise_mt (by norm_num)).trans ?_
  rw [Fin.sum_univ_two]
  show 2 * (1 / 4) * (‖(WithLp.toLp 2 ![4, 0] : Euc 2)‖ + ‖(0 : Euc 2)‖) ≤ 2
  have h0 : ‖(WithLp.toLp 2 ![4, 0] : Euc 2)‖ = 4 := by
    rw [EuclideanSpace.norm_eq, Fin.sum_univ_two]
    show Real.sqrt (‖(4 : ℝ)‖ ^ 2 + ‖(0 : ℝ)‖ ^ 2) = 4
    rw [show ‖(4 : ℝ)‖ ^ 2 + ‖(0 : ℝ)‖ ^ 2 = (4 : ℝ) ^ 2 by norm_num]
    exact Real.sqrt_sq (by norm_num)
  rw [h0, norm_zero]
  norm_num

end Sglm
