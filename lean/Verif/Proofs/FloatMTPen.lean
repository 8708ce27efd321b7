import Verif.Proofs.FloatMTCheck
import Verif.Proofs.FloatPen
import Verif.Spec.MTFloat

/-!
# Block soft-thresholding in floating point
-/

set_option linter.unusedSectionVars false

namespace Sglm
open Scalar Spec

section
variable {E : Type} [NormedAddCommGroup E] [InnerProductSpace ℝ E]

theorem mem_subdiff_zero {α : ℝ} {g : E} (h : ‖g‖ ≤ α) : g ∈ subdiff (pen2 α 0) (0 : E) := by
  intro z
  unfold pen2
  simp only [norm_zero, mul_zero, zero_mul, zero_div, add_zero, sub_zero, zero_add]
  exact (real_inner_le_norm g z).trans (mul_le_mul_of_nonneg_right h (norm_nonneg z))

theorem mem_subdiff_unit {α : ℝ} (hα : 0 ≤ α) {x : E} (hx : x ≠ 0) : (α / ‖x‖) • x ∈ subdiff (pen2 α 0) x := by
  intro z
  have hx0 : 0 < ‖x‖ := norm_pos_iff.mpr hx
  unfold pen2
  simp only [zero_mul, zero_div, add_zero]
  rw [inner_sub_right, inner_smul_left, inner_smul_left, real_inner_self_eq_norm_sq]
  simp only [RCLike.conj_to_real]
  have h1 : α / ‖x‖ * ‖x‖ ^ 2 = α * ‖x‖ := by field_simp
  have h2 : α / ‖x‖ * inner ℝ x z ≤ α / ‖x‖ * (‖x‖ * ‖z‖) :=
    mul_le_mul_of_nonneg_left (real_inner_le_norm x z) (by positivity)
  have h3 : α / ‖x‖ * (‖x‖ * ‖z‖) = α * ‖z‖ := by field_simp
  linarith

/-- Projection on the ball. -/
theorem ball_near {α δ : ℝ} (hα : 0 ≤ α) (hδ : 0 ≤ δ) {y : E} (h : ‖y‖ ≤ α + δ) : ∃ g : E, ‖g‖ ≤ α ∧ ‖y - g‖ ≤ δ := by
  by_cases hy : ‖y‖ ≤ α
  · exact ⟨y, hy, by rw [sub_self, norm_zero]; exact hδ⟩
  · push Not at hy
    have hy0 : 0 < ‖y‖ := by linarith
    refine ⟨(α / ‖y‖) • y, ?_, ?_⟩
    · rw [norm_smul, Real.norm_eq_abs, abs_of_nonneg (by positivity), div_mul_cancel₀ _ hy0.ne']
    · have e1 : y - (α / ‖y‖) • y = (1 - α / ‖y‖) • y := by rw [sub_smul, one_smul]
      have h1 : 0 ≤ 1 - α / ‖y‖ := by rw [sub_nonneg, div_le_one hy0]; exact hy.le
      rw [e1, norm_smul, Real.norm_eq_abs, abs_of_nonneg h1, sub_mul, div_mul_cancel₀ _ hy0.ne', one_mul]
      linarith

theorem unit_near {u w : E} (hu : u ≠ 0) (hw : w ≠ 0) : ‖(1 / ‖u‖) • u - (1 / ‖w‖) • w‖ ≤ 2 * ‖u - w‖ / ‖w‖ := by
  have hu0 : 0 < ‖u‖ := norm_pos_iff.mpr hu
  have hw0 : 0 < ‖w‖ := norm_pos_iff.mpr hw
  have e1 : (1 / ‖u‖) • u - (1 / ‖w‖) • w = (1 / ‖w‖) • (u - w) + (1 / ‖u‖ - 1 / ‖w‖) • u := by
    rw [smul_sub, sub_smul]; abel
  rw [e1]
  refine (norm_add_le _ _).trans ?_
  rw [norm_smul, norm_smul, Real.norm_eq_abs, Real.norm_eq_abs, abs_of_pos (by positivity : 0 < 1 / ‖w‖)]
  have h1 : |1 / ‖u‖ - 1 / ‖w‖| * ‖u‖ = |‖w‖ - ‖u‖| / ‖w‖ := by
    have : 1 / ‖u‖ - 1 / ‖w‖ = (‖w‖ - ‖u‖) / (‖u‖ * ‖w‖) := by field_simp
    rw [this, abs_div, abs_of_pos (by positivity : 0 < ‖u‖ * ‖w‖)]
    field_simp
  rw [h1]
  have h2 : |‖w‖ - ‖u‖| ≤ ‖u - w‖ := by rw [abs_sub_comm]; exact abs_norm_sub_norm_le u w
  have h3 : |‖w‖ - ‖u‖| / ‖w‖ ≤ ‖u - w‖ / ‖w‖ := div_le_div_of_nonneg_right h2 hw0.le
  have h4 : 2 * ‖u - w‖ / ‖w‖ = 1 / ‖w‖ * ‖u - w‖ + ‖u - w‖ / ‖w‖ := by ring
  linarith

/-- A vanishing result of block soft-thresholding. -/
theorem block_zero {V v : E} {L B α d1 d4 : ℝ} (hL : 0 < L) (hLB : L ≤ B) (hα : 0 ≤ α) (h1 : ‖V - v‖ ≤ d1) (hd4 : 0 ≤ d4)
    (h4 : ‖v‖ ≤ α / L + d4) : ∃ g ∈ subdiff (pen2 α 0) (0 : E), ‖L • (V - 0) - g‖ ≤ B * (d4 + d1) := by
  have hd1 : 0 ≤ d1 := (norm_nonneg _).trans h1
  have h5 : ‖L • (V - 0)‖ ≤ α + B * (d4 + d1) := by
    rw [sub_zero, norm_smul, Real.norm_eq_abs, abs_of_pos hL]
    have h6 : ‖V‖ ≤ α / L + (d4 + d1) := by
      have := norm_add_le v (V - v)
      rw [add_sub_cancel] at this
      linarith
    have h7 := mul_le_mul_of_nonneg_left h6 hL.le
    rw [mul_add, mul_div_cancel₀ _ hL.ne'] at h7
    have h8 := mul_le_mul_of_nonneg_right hLB (by linarith : 0 ≤ d4 + d1)
    linarith
  obtain ⟨g, h6, h7⟩ := ball_near hα (mul_nonneg (hL.le.trans hLB) (by linarith)) h5
  exact ⟨g, mem_subdiff_zero h6, h7⟩

/-- A non-zero result of block soft-thresholding. -/
theorem block_scaled {V v z : E} {L B α c1 d1 d5 d6 : ℝ} (hL : 0 < L) (hLB : L ≤ B) (hα : 0 ≤ α) (h1 : ‖V - v‖ ≤ d1) (hc1 : 0 < c1)
    (hv : v ≠ 0) (hz : z ≠ 0) (h5 : ‖z - c1 • v‖ ≤ d5 * (c1 * ‖v‖)) (h6 : |(1 - c1) * ‖v‖ - α / L| ≤ d6) :
    ∃ g ∈ subdiff (pen2 α 0) z, ‖L • (V - z) - g‖ ≤ B * (d1 + d6 + d5 * (c1 * ‖v‖)) + 2 * α * d5 := by
  have hv0 : 0 < ‖v‖ := norm_pos_iff.mpr hv
  have hd1 : 0 ≤ d1 := (norm_nonneg _).trans h1
  have hd6 : 0 ≤ d6 := (abs_nonneg _).trans h6
  have hd5' : 0 ≤ d5 * (c1 * ‖v‖) := (norm_nonneg _).trans h5
  refine ⟨_, mem_subdiff_unit hα hz, ?_⟩
  have hcv : c1 • v ≠ 0 := smul_ne_zero hc1.ne' hv
  have hu := unit_near hz hcv
  rw [norm_smul, Real.norm_eq_abs, abs_of_pos hc1] at hu
  have e1 : (1 / (c1 * ‖v‖)) • c1 • v = (1 / ‖v‖) • v := by
    rw [smul_smul]; congr 1; field_simp
  rw [e1] at hu
  have hu2 : ‖(1 / ‖z‖) • z - (1 / ‖v‖) • v‖ ≤ 2 * d5 := by
    refine hu.trans ?_
    rw [div_le_iff₀ (by positivity)]
    linarith
  have e2 : L • (V - z) - (α / ‖z‖) • z = L • (V - v) + L • (c1 • v - z) + (L * ((1 - c1) * ‖v‖ - α / L)) • ((1 / ‖v‖) • v)
      - α • ((1 / ‖z‖) • z - (1 / ‖v‖) • v) := by
    rw [smul_sub α, smul_smul α, smul_smul α, mul_one_div, mul_one_div, smul_smul]
    have : L * ((1 - c1) * ‖v‖ - α / L) * (1 / ‖v‖) = L - L * c1 - α / ‖v‖ := by field_simp
    rw [this, sub_smul, sub_smul, smul_sub, smul_sub, smul_sub, smul_smul]
    abel
  rw [e2]
  refine (norm_sub_le _ _).trans ?_
  refine (add_le_add ((norm_add_le _ _).trans (add_le_add (norm_add_le _ _) le_rfl)) le_rfl).trans ?_
  rw [norm_smul, norm_smul, norm_smul α, norm_smul (L * _), Real.norm_eq_abs, Real.norm_eq_abs α, Real.norm_eq_abs, abs_of_pos hL, abs_of_nonneg hα,
    norm_smul, Real.norm_eq_abs, abs_of_pos (by positivity : 0 < 1 / ‖v‖), one_div, inv_mul_cancel₀ hv0.ne', mul_one, abs_mul, abs_of_pos hL]
  rw [norm_sub_rev] at h5
  have q1 : L * ‖V - v‖ ≤ B * d1 := mul_le_mul hLB h1 (norm_nonneg _) (hL.le.trans hLB)
  have q2 : L * ‖c1 • v - z‖ ≤ B * (d5 * (c1 * ‖v‖)) := mul_le_mul hLB h5 (norm_nonneg _) (hL.le.trans hLB)
  have q3 : L * |(1 - c1) * ‖v‖ - α / L| ≤ B * d6 := mul_le_mul hLB h6 (abs_nonneg _) (hL.le.trans hLB)
  have q4 := mul_le_mul_of_nonneg_left hu2 hα
  rw [one_div] at q4
  simp only [one_div] at q4 ⊢
  linarith

end

variable {n p T : ℕ} {F : Type} [Scalar F] [LawfulCmp F] {e η : ℝ}

/-- The norm computed by block soft-thresholding. -/
theorem bst_norm (P : Precise F e) (M : PreciseMT F e η) {v : Fin T → F} {r : Fin T → ℝ} (hv : ∀ t, Den (v t) (r t))
    (hT : 16 * ((2 * T + 10) * e) ≤ 1) (hr : 2 * (‖(WithLp.toLp 2 r : Euc T)‖ * e) ≤ 1) :
    ∃ N, Den (sqrt (sum ((List.ofFn v).map sq))) N ∧
      |N - ‖(WithLp.toLp 2 r : Euc T)‖| ≤ (2 * T + 3) * e * ‖(WithLp.toLp 2 r : Euc T)‖ + 2 * e ^ 2 := by
  have he := P.pos
  have hη := M.norm.pos
  obtain ⟨ρ, hρ⟩ : ∃ ρ, ρ = ‖(WithLp.toLp 2 r : Euc T)‖ := ⟨_, rfl⟩
  have hρ0 : 0 ≤ ρ := by rw [hρ]; exact norm_nonneg _
  have hρ2 : ρ ^ 2 = ∑ t, r t * r t := by rw [hρ, euc_sq]
  rw [← hρ] at hr ⊢
  have hT0 : (0 : ℝ) ≤ T := Nat.cast_nonneg T
  have hTe : 0 ≤ T * e := mul_nonneg hT0 he.le
  have he160 : 160 * e ≤ 1 := by linarith
  have hη2 : η ≤ e ^ 2 := M.small.trans (by
    have : e ^ 5 = e ^ 2 * e ^ 3 := by ring
    rw [this]
    exact mul_le_of_le_one_right (by positivity) (pow_le_one₀ he.le (by linarith)))
  have hρη : ρ ^ 2 * η ≤ 1 / 4 := by
    have h1 : ρ ^ 2 * η ≤ ρ ^ 2 * e ^ 2 := mul_le_mul_of_nonneg_left hη2 (by positivity)
    have h2 : (ρ * e) ^ 2 ≤ (1 / 2) ^ 2 := pow_le_pow_left₀ (by positivity) (by linarith) 2
    rw [mul_pow] at h2
    linarith
  have hη1 : η ≤ 1 / 10 := hη2.trans (by nlinarith)
  have hrt : ∀ t, |r t * r t| ≤ ρ ^ 2 := fun t => by
    rw [hρ2, abs_mul_self]
    exact Finset.single_le_sum (f := fun t => r t * r t) (fun t _ => mul_self_nonneg _) (Finset.mem_univ t)
  have hq : ∀ t, ∃ q, Den (sq (v t)) q ∧ 0 ≤ q ∧ |q - r t * r t| ≤ e * (r t * r t) + η := fun t => by
    have h1 := M.norm.mul _ _ _ _ (hv t) (hv t)
    obtain ⟨q, h2⟩ := h1.1 (by
      rw [le_div_iff₀ hη]
      have := mul_le_mul_of_nonneg_right (hrt t) hη.le
      linarith)
    have h3 := h1.2 q h2
    rw [abs_mul_self] at h3
    exact ⟨q, h2, by have := M.norm.sq_nonneg (v t) _ h2; exact_mod_cast this, h3⟩
  choose q h1 h2 h3 using hq
  have h4 : |∑ t, q t - ρ ^ 2| ≤ e * ρ ^ 2 + T * η := by
    rw [hρ2, ← Finset.sum_sub_distrib]
    refine (Finset.abs_sum_le_sum_abs _ _).trans ((Finset.sum_le_sum fun t _ => h3 t).trans (le_of_eq ?_))
    rw [Finset.sum_add_distrib, ← Finset.mul_sum, Finset.sum_const, Finset.card_univ, Fintype.card_fin, nsmul_eq_mul]
  have e1 : ∑ t, |q t| = ∑ t, q t := Finset.sum_congr rfl fun t _ => abs_of_nonneg (h2 t)
  have h5 := M.sum T (fun t => sq (v t)) q h1 (by linarith)
  rw [e1] at h5
  have h4' := abs_le.mp h4
  have hTη : T * η ≤ 1 / 10 * e ^ 4 := by
    have := mul_le_mul_of_nonneg_left M.small hT0
    have e2 : T * e ^ 5 = T * e * e ^ 4 := by ring
    rw [e2] at this
    exact this.trans (mul_le_mul_of_nonneg_right (by linarith) (by positivity))
  have hTη0 : 0 ≤ T * η := mul_nonneg hT0 hη.le
  have he4 : e ^ 4 ≤ 1 := pow_le_one₀ he.le (by linarith)
  have heρ : e * ρ ^ 2 ≤ 1 / 160 * ρ ^ 2 := mul_le_mul_of_nonneg_right (by linarith) (by positivity)
  obtain ⟨S, h6⟩ := h5.1 (by
    rw [le_div_iff₀ hη]
    have h7 : ∑ t, q t ≤ 2 * ρ ^ 2 + 1 := by nlinarith [sq_nonneg ρ]
    have := mul_le_mul_of_nonneg_right h7 hη.le
    linarith)
  have h7 := h5.2 S h6
  have hS0 : 0 ≤ S := by
    have := M.sum_nonneg (List.ofFn fun t => sq (v t)) (fun x hx => by
      obtain ⟨t, rfl⟩ := List.mem_ofFn.mp hx
      exact M.norm.sq_nonneg _) _ h6
    exact_mod_cast this
  rw [List.map_ofFn]
  change ∃ N, Den (sqrt (sum (List.ofFn fun t => sq (v t)))) N ∧ _
  have hTeS : T * e * ∑ t, q t ≤ T * e * (161 / 160 * ρ ^ 2 + T * η) :=
    mul_le_mul_of_nonneg_left (by linarith) hTe
  have hTeη : T * e * (T * η) ≤ T * η := mul_le_of_le_one_left hTη0 (by linarith)
  have hTeρ : 0 ≤ T * e * ρ ^ 2 := mul_nonneg hTe (sq_nonneg ρ)
  have h8 : |S - ρ ^ 2| ≤ (2 * T + 1) * e * ρ ^ 2 + (e ^ 2) ^ 2 := by
    have e2 : S - ρ ^ 2 = (S - ∑ t, q t) + (∑ t, q t - ρ ^ 2) := by ring
    rw [e2]
    refine (abs_add_le _ _).trans ?_
    have e3 : (e ^ 2) ^ 2 = e ^ 4 := by ring
    rw [e3]
    have : 0 ≤ e ^ 4 := by positivity
    linarith
  obtain ⟨N, h9, h10⟩ := sqrt_err P M.norm h6 hS0 hρ0 (by positivity : 0 ≤ (2 * T + 1) * e) (by linarith) (by linarith)
    (by positivity : 0 ≤ e ^ 2) h8
  refine ⟨N, h9, h10.trans (le_of_eq ?_)⟩
  ring

/-- Block soft-thresholding of finite numbers. -/
theorem bst_float (P : Precise F e) (M : PreciseMT F e η) {v : Fin T → F} {r : Fin T → ℝ} (hv : ∀ t, Den (v t) (r t)) {τ : F} {θ : ℝ}
    (hτ : Den τ θ) (hT : 16 * ((2 * T + 10) * e) ≤ 1) (hr : 2 * (‖(WithLp.toLp 2 r : Euc T)‖ * e) ≤ 1) (hθ : 64 * ((T + 1) * e) ≤ θ) :
    ∃ (x : Fin T → F) (z : Fin T → ℝ), blockSoftThresholding (List.ofFn v) τ = List.ofFn x ∧ (∀ t, Den (x t) (z t)) ∧
      ((z = 0 ∧ ‖(WithLp.toLp 2 r : Euc T)‖ ≤ θ + (2 * T + 10) * e * (‖(WithLp.toLp 2 r : Euc T)‖ + 1)) ∨
       ∃ c1, e / 16 ≤ c1 ∧ c1 ≤ 2 ∧ θ / 2 ≤ ‖(WithLp.toLp 2 r : Euc T)‖ ∧
        ‖(WithLp.toLp 2 z : Euc T) - c1 • (WithLp.toLp 2 r : Euc T)‖ ≤ (T + 1) * e * (c1 * ‖(WithLp.toLp 2 r : Euc T)‖) ∧
        |(1 - c1) * ‖(WithLp.toLp 2 r : Euc T)‖ - θ| ≤ (2 * T + 10) * e * (‖(WithLp.toLp 2 r : Euc T)‖ + 1)) := by
  have he := P.pos
  have hη := M.norm.pos
  obtain ⟨ν, hN, hν⟩ := bst_norm P M hv hT hr
  have habs : ∀ t, |r t| ≤ ‖(WithLp.toLp 2 r : Euc T)‖ := fun t => abs_le_euc (WithLp.toLp 2 r : Euc T) t
  have hwit : ∀ (z : Fin T → ℝ) (c : ℝ), ‖(WithLp.toLp 2 z : Euc T) - c • (WithLp.toLp 2 r : Euc T)‖ ≤ ∑ t, |z t - c * r t| := fun z c =>
    (euc_le_sum fun t => z t - c * r t)
  obtain ⟨ρ, hρ⟩ : ∃ ρ, ρ = ‖(WithLp.toLp 2 r : Euc T)‖ := ⟨_, rfl⟩
  have hρ0 : 0 ≤ ρ := by rw [hρ]; exact norm_nonneg _
  rw [← hρ] at hr hν
  simp only [← hρ] at habs ⊢
  have hT0 : (0 : ℝ) ≤ T := Nat.cast_nonneg T
  have hTe : 0 ≤ T * e := mul_nonneg hT0 he.le
  have he160 : 160 * e ≤ 1 := by linarith
  have he2 : e ^ 2 ≤ 1 / 160 * e := by nlinarith
  have hTeρ : 0 ≤ T * e * ρ := mul_nonneg hTe hρ0
  have heρ : 0 ≤ e * ρ := mul_nonneg he.le hρ0
  have hTρ : (2 * T + 10) * e * ρ ≤ 1 / 16 * ρ := mul_le_mul_of_nonneg_right (by linarith) hρ0
  have hν' := abs_le.mp hν
  by_cases hlt : ν < θ
  · refine ⟨fun _ => zero, 0, ?_, fun t => den_zero, Or.inl ⟨rfl, ?_⟩⟩
    · unfold blockSoftThresholding
      simp only [(den_lt hN hτ).mpr hlt, if_true, List.length_ofFn]
      exact (List.ofFn_const T zero).symm
    · linarith
  · push Not at hlt
    have hθ0 : 0 < θ := lt_of_lt_of_le (by linarith) hθ
    have hν0 : 0 < ν := lt_of_lt_of_le hθ0 hlt
    have hνρ : ν ≤ 17 / 16 * ρ + 1 := by linarith
    have hρθ : θ / 2 ≤ ρ := by linarith
    have hle1 : θ / ν ≤ 1 := (div_le_one hν0).mpr hlt
    have hge0 : 0 < θ / ν := div_pos hθ0 hν0
    obtain ⟨q, hq⟩ := (P.div _ _ _ _ hτ hN hν0.ne').1 (by
      rw [abs_of_pos hge0, le_div_iff₀ he]
      have := mul_le_mul_of_nonneg_right hle1 he.le
      linarith)
    have hq1 := M.div_le_one _ _ _ _ _ hτ hN hθ0.le hlt hν0 hq
    have hq0 : 0 ≤ q := by
      have := P.div_sign _ _ _ _ _ hτ hN hν0.ne' hq
      by_contra hc
      push Not at hc
      exact absurd this (not_le.mpr (mul_neg_of_neg_of_pos hc hge0))
    have hqe : |q - θ / ν| ≤ 2 * e := ((P.div _ _ _ _ hτ hN hν0.ne').2 q hq).trans (by
      rw [abs_of_pos hge0]
      have := mul_le_mul_of_nonneg_left hle1 he.le
      linarith)
    obtain ⟨c1, hc⟩ := (P.sub _ _ _ _ P.one hq).1 (by
      rw [abs_of_nonneg (by linarith), le_div_iff₀ he]
      nlinarith)
    have hce := (P.sub _ _ _ _ P.one hq).2 c1 hc
    rw [abs_of_nonneg (by linarith : 0 ≤ 1 - q)] at hce
    have hce' := abs_le.mp hce
    have hform : blockSoftThresholding (List.ofFn v) τ =
        List.ofFn fun t => v t *. (one -. τ /. sqrt (sum ((List.ofFn v).map sq))) := by
      unfold blockSoftThresholding
      simp only
      rw [if_neg (fun h => absurd ((den_lt hN hτ).mp h) (not_lt.mpr hlt)), List.map_ofFn]
      rfl
    have hmain : |(1 - c1) - θ / ν| ≤ 3 * e := by
      have e1 : (1 - c1) - θ / ν = -(c1 - (1 - q)) + (q - θ / ν) := by ring
      rw [e1]
      refine (abs_add_le _ _).trans ?_
      rw [abs_neg]
      nlinarith
    have hmain' : |(1 - c1) * ν - θ| ≤ 3 * e * ν := by
      have e1 : (1 - c1) * ν - θ = ((1 - c1) - θ / ν) * ν := by field_simp
      rw [e1, abs_mul, abs_of_pos hν0]
      exact mul_le_mul_of_nonneg_right hmain hν0.le
    have heν : e * ν ≤ e * (17 / 16 * ρ + 1) := mul_le_mul_of_nonneg_left hνρ he.le
    by_cases hq1' : q = 1
    · have hc0 : c1 = 0 := by
        rw [hq1', sub_self, mul_zero, sub_zero] at hce
        exact abs_eq_zero.mp (le_antisymm hce (abs_nonneg _))
      rw [hc0] at hc hmain'
      have h1 := abs_le.mp hmain'
      exact ⟨_, 0, hform, fun t => P.mul_zero _ _ _ _ (hv t) hc (mul_zero _), Or.inl ⟨rfl, by linarith⟩⟩
    · have hgap := M.gap _ _ hq hq1'
      rw [abs_of_nonneg (by linarith : 0 ≤ 1 - q)] at hgap
      have h1q : e * (1 - q) ≤ 1 / 160 * (1 - q) := mul_le_mul_of_nonneg_right (by linarith) (by linarith)
      have hc1 : e / 16 ≤ c1 := by linarith
      have hc2 : c1 ≤ 161 / 160 := by linarith
      have hc0 : 0 < c1 := by linarith
      have hη2 : η ≤ e ^ 4 * e := M.small.trans (le_of_eq (by ring))
      have hz : ∀ t, ∃ z, Den (v t *. (one -. τ /. sqrt (sum ((List.ofFn v).map sq)))) z ∧ |z - c1 * r t| ≤ e * (c1 * |r t|) + η := fun t => by
        have h1 := M.norm.mul _ _ _ _ (hv t) hc
        have h2 : |r t * c1| = c1 * |r t| := by rw [abs_mul, abs_of_pos hc0, mul_comm]
        rw [h2, mul_comm (r t) c1] at h1
        obtain ⟨z, h3⟩ := h1.1 (by
          rw [le_div_iff₀ hη]
          have h4 : c1 * |r t| ≤ 2 * ρ := mul_le_mul (by linarith) (habs t) (abs_nonneg _) (by norm_num)
          have h5 := mul_le_mul_of_nonneg_right h4 hη.le
          have h6 : η ≤ e := hη2.trans (mul_le_of_le_one_left he.le (pow_le_one₀ he.le (by linarith)))
          have h7 := mul_le_mul_of_nonneg_left h6 (by linarith : 0 ≤ 2 * ρ)
          linarith)
        exact ⟨z, h3, h1.2 z h3⟩
      choose z hz1 hz2 using hz
      refine ⟨_, z, hform, hz1, Or.inr ⟨c1, hc1, by linarith, hρθ, (hwit z c1).trans ?_, ?_⟩⟩
      · have h1 : ∑ t, |z t - c1 * r t| ≤ T * (e * (c1 * ρ) + η) := by
          refine (Finset.sum_le_sum fun t _ => (hz2 t).trans (add_le_add (mul_le_mul_of_nonneg_left
            (mul_le_mul_of_nonneg_left (habs t) hc0.le) he.le) le_rfl)).trans (le_of_eq ?_)
          rw [Finset.sum_const, Finset.card_univ, Fintype.card_fin, nsmul_eq_mul]
        have h2 : T * η ≤ e * (c1 * ρ) := by
          have h3 : e / 16 * (θ / 2) ≤ c1 * ρ := mul_le_mul hc1 hρθ (by linarith) hc0.le
          have h4 := mul_le_mul_of_nonneg_left hη2 hT0
          have h5 : T * (e ^ 4 * e) = (T * e) * e ^ 4 := by ring
          have h6 : (T * e) * e ^ 4 ≤ θ / 32 * e ^ 2 := by
            have : e ^ 4 = e ^ 2 * e ^ 2 := by ring
            have h7 : e ^ 2 ≤ 1 := pow_le_one₀ he.le (by linarith)
            have h8 : e ^ 4 ≤ e ^ 2 := by rw [this]; exact mul_le_of_le_one_left (by positivity) h7
            exact mul_le_mul (by linarith) h8 (by positivity) (by linarith)
          have h7 := mul_le_mul_of_nonneg_left h3 he.le
          have e1 : e * (e / 16 * (θ / 2)) = θ / 32 * e ^ 2 := by ring
          linarith
        linarith
      · have e1 : (1 - c1) * ρ - θ = ((1 - c1) * ν - θ) + (1 - c1) * -(ν - ρ) := by ring
        rw [e1]
        refine (abs_add_le _ _).trans ?_
        rw [abs_mul, abs_neg]
        have h1 : |1 - c1| ≤ 1 := abs_le.mpr ⟨by linarith, by linarith⟩
        have h2 : |1 - c1| * |ν - ρ| ≤ 1 * |ν - ρ| := mul_le_mul_of_nonneg_right h1 (abs_nonneg _)
        linarith
end Sglm
