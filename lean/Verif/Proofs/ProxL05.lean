import Verif.Proofs.Prox
import Mathlib.Analysis.SpecialFunctions.Pow.NNReal

/-!
# The proximal operator of the L0.5 penalty
-/

namespace Sglm
open Spec Real

theorem half_zero_prox {l v a : ℝ} (hl : 0 ≤ l) (hv : v ≤ 3 / 2 * l ^ 2) (ha : 0 ≤ a) :
    v ^ 2 / 2 ≤ (a ^ 2 - v) ^ 2 / 2 + l ^ 3 * a := by
  have h1 : 0 ≤ (a - l) ^ 2 * (a + 2 * l) := by positivity
  have h2 : v * a ≤ 3 / 2 * l ^ 2 * a := mul_le_mul_of_nonneg_right hv ha
  have h3 : 0 ≤ a ^ 3 / 2 + l ^ 3 - v * a := by nlinarith
  nlinarith [mul_nonneg ha h3]

theorem half_stat_prox {u v lam a : ℝ} (hstat : u ^ 3 - v * u + lam / 2 = 0)
    (hu2 : 2 * v ≤ 3 * u ^ 2) (hu : 0 ≤ u) (ha : 0 ≤ a) :
    (u ^ 2 - v) ^ 2 / 2 + lam * u ≤ (a ^ 2 - v) ^ 2 / 2 + lam * a := by
  have e : (a ^ 2 - v) ^ 2 / 2 + lam * a - ((u ^ 2 - v) ^ 2 / 2 + lam * u) =
      (a - u) ^ 2 * ((a ^ 2 + 2 * u * a + (3 * u ^ 2 - 2 * v)) / 2) := by
    have : lam = 2 * (v * u - u ^ 3) := by linarith
    rw [this]; ring
  have : 0 ≤ (a - u) ^ 2 * ((a ^ 2 + 2 * u * a + (3 * u ^ 2 - 2 * v)) / 2) := by
    apply mul_nonneg (sq_nonneg _)
    have : 0 ≤ u * a := mul_nonneg hu ha
    nlinarith [sq_nonneg a]
  linarith

/-- The closed-form proximal value for a positive argument above the threshold. -/
noncomputable def halfR (v lam : ℝ) : ℝ :=
  v * (2 / 3) * (1 + cos (2 / 3 * arccos (-((3:ℝ) ^ ((3:ℝ)/2) / 4) * lam * |v| ^ ((-3:ℝ)/2))))

theorem half_formula {v l : ℝ} (hl : 0 < l) (hv : 3 / 2 * l ^ 2 ≤ v) :
    let arg := -((3:ℝ) ^ ((3:ℝ)/2) / 4) * l ^ 3 * |v| ^ ((-3:ℝ)/2)
    (-1 ≤ arg ∧ arg ≤ 1) ∧
    ∃ u, 0 ≤ u ∧ halfR v (l ^ 3) = u ^ 2 ∧ u ^ 3 - v * u + l ^ 3 / 2 = 0 ∧ 2 * v ≤ 3 * u ^ 2 := by
  intro arg
  have hv0 : 0 < v := lt_of_lt_of_le (by positivity) hv
  set r := Real.sqrt v with hr
  set t := Real.sqrt 3 with ht
  have hr0 : 0 < r := Real.sqrt_pos.mpr hv0
  have ht0 : 0 < t := Real.sqrt_pos.mpr (by norm_num)
  have hrv : r ^ 2 = v := Real.sq_sqrt hv0.le
  have ht3 : t ^ 2 = 3 := Real.sq_sqrt (by norm_num)
  have p1 : (3:ℝ) ^ ((3:ℝ)/2) = t ^ 3 := by
    rw [ht, Real.sqrt_eq_rpow, ← Real.rpow_natCast, ← Real.rpow_mul (by norm_num)]
    norm_num
  have p2 : |v| ^ ((-3:ℝ)/2) = 1 / r ^ 3 := by
    rw [abs_of_pos hv0, hr, Real.sqrt_eq_rpow, ← Real.rpow_natCast, ← Real.rpow_mul hv0.le,
      one_div, ← Real.rpow_neg hv0.le]
    norm_num
  have harg : arg = -(t ^ 3 * l ^ 3 / (4 * r ^ 3)) := by
    show -((3:ℝ) ^ ((3:ℝ)/2) / 4) * l ^ 3 * |v| ^ ((-3:ℝ)/2) = _
    rw [p1, p2]; field_simp
  -- bound: t l ≤ √2 r
  have hb : (t * l) ^ 2 ≤ 2 * r ^ 2 := by rw [mul_pow, ht3, hrv]; linarith
  have hb2 : t * l ≤ Real.sqrt 2 * r := by
    apply le_of_sq_le_sq _ (by positivity)
    rw [mul_pow (Real.sqrt 2), Real.sq_sqrt (by norm_num)]; exact hb
  have hc : t ^ 3 * l ^ 3 / (4 * r ^ 3) ≤ Real.sqrt 2 / 2 := by
    rw [div_le_iff₀ (by positivity)]
    have h3 : (t * l) ^ 3 ≤ (Real.sqrt 2 * r) ^ 3 := pow_le_pow_left₀ (by positivity) hb2 3
    have h4 : (Real.sqrt 2) ^ 3 = 2 * Real.sqrt 2 := by
      have : Real.sqrt 2 ^ 2 = 2 := Real.sq_sqrt (by norm_num)
      calc Real.sqrt 2 ^ 3 = Real.sqrt 2 ^ 2 * Real.sqrt 2 := by ring
        _ = _ := by rw [this]
    rw [mul_pow, mul_pow, h4] at h3
    nlinarith
  have hs2 : Real.sqrt 2 / 2 ≤ 1 := by
    have : Real.sqrt 2 ≤ 2 := by
      rw [Real.sqrt_le_left (by norm_num)]; norm_num
    linarith
  have hpos : 0 < t ^ 3 * l ^ 3 / (4 * r ^ 3) := by positivity
  have hm1 : -1 ≤ arg := by rw [harg]; linarith
  have hp1 : arg ≤ 1 := by rw [harg]; linarith
  refine ⟨⟨hm1, hp1⟩, ?_⟩
  set θ := arccos arg / 3 with hθ
  have h3θ : cos (3 * θ) = arg := by
    rw [hθ, mul_div_cancel₀ _ (by norm_num : (3:ℝ) ≠ 0), Real.cos_arccos hm1 hp1]
  have hθ0 : 0 ≤ θ := div_nonneg (arccos_nonneg _) (by norm_num)
  have hθ4 : θ ≤ π / 4 := by
    have h1 : arccos arg ≤ arccos (-(Real.sqrt 2 / 2)) := by
      apply arccos_le_arccos; rw [harg]; linarith
    have h2 : arccos (-(Real.sqrt 2 / 2)) = 3 * (π / 4) := by
      rw [arccos_neg, ← Real.cos_pi_div_four, arccos_cos (by positivity) (by linarith [pi_pos])]
      ring
    rw [h2] at h1
    rw [hθ]; linarith
  have hcθ : Real.sqrt 2 / 2 ≤ cos θ := by
    rw [← Real.cos_pi_div_four]
    exact Real.cos_le_cos_of_nonneg_of_le_pi hθ0 (by linarith [pi_pos]) hθ4
  have hcθ2 : 1 / 2 ≤ cos θ ^ 2 := by
    have h : (Real.sqrt 2 / 2) ^ 2 ≤ cos θ ^ 2 := pow_le_pow_left₀ (by positivity) hcθ 2
    rw [div_pow, Real.sq_sqrt (by norm_num)] at h
    linarith
  refine ⟨2 * (r / t) * cos θ, ?_, ?_, ?_, ?_⟩
  · have : 0 ≤ cos θ := le_trans (by positivity) hcθ
    positivity
  · have e : 2 / 3 * arccos arg = 2 * θ := by rw [hθ]; ring
    show v * (2/3) * (1 + cos (2 / 3 * arccos arg)) = _
    rw [e, Real.cos_two_mul, mul_pow, mul_pow, div_pow, hrv, ht3]; ring
  · have h := Real.cos_three_mul θ
    rw [h3θ, harg] at h
    have e : (2 * (r / t) * cos θ) ^ 3 - v * (2 * (r / t) * cos θ) =
        2 * (r / t) ^ 3 * (4 * cos θ ^ 3 - 3 * cos θ) := by
      rw [← hrv]
      have : r ^ 2 = 3 * (r / t) ^ 2 := by rw [div_pow, ht3]; ring
      rw [this]; ring
    rw [e, ← h]
    field_simp
    ring
  · rw [mul_pow, mul_pow, div_pow, hrv, ht3]; nlinarith

/-- Real proximal map of `lam * sqrt|·|`. -/
noncomputable def prox05R (v lam : ℝ) : ℝ :=
  if |v| < 3 / 2 * lam ^ ((2:ℝ)/3) then 0 else halfR v lam

theorem halfR_neg (v lam : ℝ) : halfR (-v) lam = - halfR v lam := by
  unfold halfR; rw [abs_neg]; ring

theorem prox05_core {lam : ℝ} (hlam : 0 < lam) (v : ℝ) :
    IsProx (fun z : ℝ => lam * Real.sqrt |z|) v (prox05R v lam) ∧
    (¬ |v| < 3 / 2 * lam ^ ((2:ℝ)/3) →
      -1 ≤ -((3:ℝ) ^ ((3:ℝ)/2) / 4) * lam * |v| ^ ((-3:ℝ)/2) ∧
      -((3:ℝ) ^ ((3:ℝ)/2) / 4) * lam * |v| ^ ((-3:ℝ)/2) ≤ 1 ∧ 0 < |v|) := by
  obtain ⟨l, hl, rfl⟩ : ∃ l : ℝ, 0 < l ∧ lam = l ^ 3 := by
    refine ⟨lam ^ ((1:ℝ)/3), by positivity, ?_⟩
    rw [← Real.rpow_natCast, ← Real.rpow_mul hlam.le]; norm_num
  have hl2 : (l ^ 3) ^ ((2:ℝ)/3) = l ^ 2 := by
    rw [← Real.rpow_natCast l 3, ← Real.rpow_mul hl.le, ← Real.rpow_natCast l 2]; norm_num
  have main : ∀ v : ℝ, 0 ≤ v → IsProx (fun z : ℝ => l ^ 3 * Real.sqrt |z|) v (prox05R v (l ^ 3)) := by
    intro v hv z
    set a := Real.sqrt |z| with ha
    have ha0 : 0 ≤ a := Real.sqrt_nonneg _
    have ha2 : a ^ 2 = |z| := Real.sq_sqrt (abs_nonneg z)
    have hzv : (a ^ 2 - v) ^ 2 ≤ (z - v) ^ 2 := by
      rw [ha2]
      have := le_abs_self z
      nlinarith [sq_abs z]
    simp only [Real.norm_eq_abs, sq_abs, ← ha]
    unfold prox05R
    rw [hl2, abs_of_nonneg hv]
    split_ifs with h
    · have := half_zero_prox hl.le h.le ha0
      simp only [abs_zero, Real.sqrt_zero]
      nlinarith
    · obtain ⟨_, u, hu0, hu, hstat, hu2⟩ := half_formula hl (not_lt.mp h)
      rw [hu, abs_of_nonneg (sq_nonneg u), Real.sqrt_sq hu0]
      have := half_stat_prox hstat hu2 hu0 ha0
      linarith
  constructor
  · rcases le_total 0 v with hv | hv
    · exact main v hv
    · intro z
      have h := main (-v) (by linarith) (-z)
      have e0 : prox05R (-v) (l ^ 3) = - prox05R v (l ^ 3) := by
        unfold prox05R; rw [abs_neg, halfR_neg]; split_ifs <;> simp
      rw [e0] at h
      simp only [abs_neg] at h
      have e1 : ∀ a b : ℝ, ‖-a - -b‖ = ‖a - b‖ := by
        intro a b; rw [← norm_neg]; congr 1; ring
      rw [e1, e1] at h
      exact h
  · intro h
    rw [hl2] at h
    obtain ⟨⟨h1, h2⟩, _⟩ := half_formula (v := |v|) hl (not_lt.mp h)
    rw [abs_abs] at h1 h2
    exact ⟨h1, h2, lt_of_lt_of_le (by positivity) (not_lt.mp h)⟩

theorem prox05_fin {lam : ℝ} (hlam : 0 < lam) (v : ℝ) :
    prox05 (XR.fin v) (XR.fin lam) = XR.fin (prox05R v lam) := by
  have hcore := (prox05_core hlam v).2
  unfold prox05 prox05R halfR
  simp only [XR.s_lit, XR.s_powf _ _ hlam, XR.s_abs, XR.s_mul, XR.s_lt, XR.s_zero, XR.s_one,
    decide_eq_true_eq]
  have e1 : ((3:ℤ):ℝ) / ((2:ℕ):ℝ) = 3 / 2 := by norm_num
  have e2 : ((2:ℤ):ℝ) / ((3:ℕ):ℝ) = 2 / 3 := by norm_num
  have e3 : ((3:ℤ):ℝ) / ((1:ℕ):ℝ) = 3 := by norm_num
  have e4 : ((4:ℤ):ℝ) / ((1:ℕ):ℝ) = 4 := by norm_num
  have e5 : ((-3:ℤ):ℝ) / ((2:ℕ):ℝ) = -3 / 2 := by norm_num
  rw [e1, e2, e3, e4, e5]
  by_cases h : |v| < 3 / 2 * lam ^ ((2:ℝ)/3)
  · rw [if_pos h, if_pos h]
  · obtain ⟨h1, h2, h3⟩ := hcore h
    rw [if_neg h, if_neg h, XR.s_powf _ _ (by norm_num : (0:ℝ) < 3), XR.s_div _ _ (by norm_num),
      XR.s_neg, XR.s_mul, XR.s_powf _ _ h3, XR.s_mul, XR.s_acos _ ⟨h1, h2⟩, XR.s_mul, XR.s_cos,
      XR.s_add, XR.s_mul]

end Sglm
