import Verif.Proofs.FloatMTPen
import Verif.Proofs.FloatFit

/-!
# The proximal operator of the L21 penalty in floating point
-/

namespace Sglm
open Scalar Spec

variable {T : ℕ}

/-- The proximal operator of the L21 penalty returns nearly optimal rows, which are zero or not tiny. -/
def ProxMT {F : Type} [Scalar F] [LawfulCmp F] (T : ℕ) (e B C κ : ℝ) (a : F) (α : ℝ) : Prop :=
  ∀ (v : Fin T → F) (s : F) (V : Euc T) (L c : ℝ), 1 ≤ c → C * c * e ≤ 1 → ‖V‖ ≤ B → 1 / B ≤ L → L ≤ B →
    (∀ t, Apx e (v t) (V.ofLp t) c) → Apx e s (1 / L) c →
    ∃ (x : Fin T → F) (z : Euc T), (L21.mk a).prox (List.ofFn v) s = List.ofFn x ∧ (∀ t, Den (x t) (z.ofLp t)) ∧
      (∃ g ∈ subdiff (pen2 α 0) z, ‖L • (V - z) - g‖ ≤ C * c * e) ∧ (z = 0 ∨ κ * e ≤ ‖z‖)

theorem euc_near {F : Type} [Scalar F] [LawfulCmp F] {e c : ℝ} {v : Fin T → F} {V : Euc T} (h : ∀ t, Apx e (v t) (V.ofLp t) c) :
    ∃ r : Fin T → ℝ, (∀ t, Den (v t) (r t)) ∧ ‖V - (WithLp.toLp 2 r : Euc T)‖ ≤ T * (c * e) := by
  choose r h1 h2 using h
  refine ⟨r, h1, (euc_le_sum fun t => V.ofLp t - r t).trans ?_⟩
  refine (Finset.sum_le_sum fun t _ => (by rw [abs_sub_comm]; exact h2 t : |V.ofLp t - r t| ≤ c * e)).trans (le_of_eq ?_)
  rw [Finset.sum_const, Finset.card_univ, Fintype.card_fin, nsmul_eq_mul]

theorem proxMT_exists (T : ℕ) (α : ℝ) (hα : 0 < α) (B : ℝ) (hB : 1 ≤ B) :
    ∃ C κ : ℝ, 1 ≤ C ∧ 0 < κ ∧ ∀ {F : Type} [Scalar F] [LawfulCmp F] {e η : ℝ}, Precise F e → PreciseMT F e η → C * e ≤ 1 →
      ∀ a : F, Stores e a α → ProxMT T e B C κ a α := by
  have hT0 : (0 : ℝ) ≤ T := Nat.cast_nonneg T
  obtain ⟨b, hb⟩ : ∃ b : ℝ, b = α + B := ⟨_, rfl⟩
  have hb1 : 1 ≤ b := by linarith
  obtain ⟨K, hK⟩ : ∃ K : ℝ, K = 10 * ((0 : ℕ) + 1) ^ 2 * (b + 1) ^ 3 := ⟨_, rfl⟩
  have hK1 := one_le_K hb1 hK
  obtain ⟨Q, hQ⟩ : ∃ Q : ℝ, Q = K * (α + 1) + (2 * T + 10) * (B + 2) + T + 2 * (T + 1) * (B + 1) := ⟨_, rfl⟩
  have hKα : 1 ≤ K * (α + 1) := one_le_mul_of_one_le_of_one_le hK1 (by linarith)
  have q1 : 0 ≤ (2 * T + 10) * (B + 2) := by positivity
  have q2 : 0 ≤ 2 * (T + 1) * (B + 1) := by positivity
  have hQ1 : 1 ≤ Q := by linarith
  have hTQ : T + 1 ≤ Q := by
    have : (2 * T + 10) * 1 ≤ (2 * T + 10) * (B + 2) := mul_le_mul_of_nonneg_left (by linarith) (by positivity)
    linarith
  have m1 : 0 ≤ 2 * B / α * (K * (α + 1)) := by positivity
  have m2 : 0 ≤ 2 * B / α * (64 * (T + 1)) := by positivity
  have m3 : 0 ≤ (B + 2 * α) * Q := by positivity
  obtain ⟨C, hC⟩ : ∃ C : ℝ, C = (B + 2 * α) * Q + 2 * B / α * (K * (α + 1)) + 2 * B / α * (64 * (T + 1)) + 16 * (2 * T + 10) +
      2 * (B + 1) + K * (α + 1) := ⟨_, rfl⟩
  refine ⟨C, α / (128 * B), by rw [hC]; linarith, by positivity, ?_⟩
  intro F _ _ e η P M hCe a ha v s V L c hc hs hV hL hLB hv hsL
  have he := P.pos
  have hce : 0 < c * e := mul_pos (by linarith) he
  have hee : e ≤ c * e := le_mul_of_one_le_left he.le hc
  have hB0 : 0 < B := by linarith
  have hL0 : 0 < L := lt_of_lt_of_le (by positivity) hL
  have hiL : 1 / L ≤ B := by
    rw [div_le_iff₀ hL0]
    have := mul_le_mul_of_nonneg_left hL hB0.le
    rwa [mul_one_div_cancel hB0.ne'] at this
  have sm : ∀ {z : ℝ}, z ≤ C → z * (c * e) ≤ 1 := fun {z} hz => by
    have h1 := mul_le_mul_of_nonneg_right hz hce.le
    rw [mul_assoc] at hs
    exact h1.trans hs
  have sme : ∀ {z : ℝ}, z ≤ C → z * e ≤ 1 := fun hz => (mul_le_mul_of_nonneg_right hz he.le).trans hCe
  have kk : Consts e b K 0 := Consts.mk' he hb1 hK
  obtain ⟨r, hr, hVr⟩ := euc_near hv
  obtain ⟨θ, hθ1, hθ2⟩ := kk.mul P ((ha.apx he.le (le_of_eq (abs_of_pos hα)) le_rfl).mono he.le
      (le_mul_of_one_le_right (by linarith : (0 : ℝ) ≤ α + 1) hc))
    (hsL.mono he.le (le_mul_of_one_le_left (by linarith) (by linarith : (1 : ℝ) ≤ α + 1)))
    (one_le_mul_of_one_le_of_one_le (by linarith) hc) (by rw [abs_of_pos hα]; linarith)
    (by rw [abs_of_pos (by positivity)]; linarith) (by
      have h1 : K * ((α + 1) * c) * e = K * (α + 1) * (c * e) := by ring
      rw [h1]
      exact sm (by rw [hC]; linarith))
  rw [mul_one_div] at hθ2
  have hθ2' : |θ - α / L| ≤ K * (α + 1) * (c * e) := hθ2.trans (le_of_eq (by ring))
  have hθ3 := abs_le.mp hθ2'
  have hαL : α / B ≤ α / L := div_le_div_of_nonneg_left hα.le hL0 hLB
  have hhalf : ∀ {z y : ℝ}, 2 * B / α * z * y ≤ 1 → z * y ≤ α / (2 * B) := fun {z y} h => by
    rw [le_div_iff₀ (by positivity)]
    have := mul_le_mul_of_nonneg_left h hα.le
    have e1 : α * (2 * B / α * z * y) = z * y * (2 * B) := by field_simp
    rw [e1, mul_one] at this
    exact this
  have hh : α / B = α / (2 * B) + α / (2 * B) := by field_simp; norm_num
  have hθ4 : α / (2 * B) ≤ θ := by
    have := hhalf (z := K * (α + 1)) (y := c * e) (by rw [mul_assoc]; rw [← mul_assoc]; exact sm (by rw [hC]; linarith))
    linarith
  have hTe : (T : ℝ) * (c * e) ≤ 1 := sm (by rw [hC]; linarith)
  have hrB : ‖(WithLp.toLp 2 r : Euc T)‖ ≤ B + 1 := by
    have h1 := norm_sub_norm_le (WithLp.toLp 2 r : Euc T) V
    rw [norm_sub_rev] at h1
    linarith
  have hN0 := norm_nonneg (WithLp.toLp 2 r : Euc T)
  obtain ⟨x, z, hx, hz, hcase⟩ := bst_float P M hr hθ1 (by rw [← mul_assoc]; exact sme (by rw [hC]; linarith)) (by
      have h1 := mul_le_mul_of_nonneg_right hrB he.le
      have h2 : 2 * (B + 1) * e ≤ 1 := sme (by rw [hC]; linarith)
      linarith) (by
      rw [← mul_assoc]
      exact (hhalf (z := 64 * (T + 1)) (y := e) (sme (by rw [hC]; linarith))).trans hθ4)
  have t1 : (2 * T + 10) * e * (‖(WithLp.toLp 2 r : Euc T)‖ + 1) ≤ (2 * T + 10) * (B + 2) * (c * e) := by
    have h1 : (2 * T + 10) * e * (‖(WithLp.toLp 2 r : Euc T)‖ + 1) ≤ (2 * T + 10) * e * (B + 2) :=
      mul_le_mul_of_nonneg_left (by linarith) (by positivity)
    have h2 := mul_le_mul_of_nonneg_left hee q1
    linarith
  have hwrap : ∀ {w : ℝ}, w ≤ (B + 2 * α) * (Q * (c * e)) → w ≤ C * c * e := fun {w} hw => by
    refine hw.trans ?_
    have h1 : (B + 2 * α) * Q * (c * e) ≤ C * (c * e) := mul_le_mul_of_nonneg_right (by rw [hC]; linarith) hce.le
    calc (B + 2 * α) * (Q * (c * e)) = (B + 2 * α) * Q * (c * e) := by ring
      _ ≤ C * (c * e) := h1
      _ = C * c * e := by ring
  refine ⟨x, WithLp.toLp 2 z, hx, hz, ?_⟩
  rcases hcase with ⟨hz0, h2⟩ | ⟨c1, h2, h3, h4, h5, h6⟩
  · subst hz0
    refine ⟨?_, Or.inl rfl⟩
    have h0 : 0 ≤ K * (α + 1) * (c * e) + (2 * T + 10) * (B + 2) * (c * e) := by positivity
    obtain ⟨g, h7, h8⟩ := block_zero (α := α) hL0 hLB hα.le hVr h0 (by linarith)
    refine ⟨g, h7, hwrap (h8.trans ?_)⟩
    have h9 : K * (α + 1) * (c * e) + (2 * T + 10) * (B + 2) * (c * e) + T * (c * e) ≤ Q * (c * e) := by
      rw [hQ]
      have := mul_nonneg q2 hce.le
      linarith
    exact mul_le_mul (by linarith) h9 (by positivity) (by positivity)
  · have hc1 : 0 < c1 := by linarith
    have hr0 : 0 < ‖(WithLp.toLp 2 r : Euc T)‖ := lt_of_lt_of_le (by positivity) ((div_le_div_of_nonneg_right hθ4 (by norm_num)).trans h4)
    have hTe2 : (T + 1) * e ≤ 1 / 2 := by
      have : 2 * (T + 1) * e ≤ 1 := sme (by rw [hC]; linarith)
      linarith
    have hcr : 0 < c1 * ‖(WithLp.toLp 2 r : Euc T)‖ := mul_pos hc1 hr0
    have hzn : c1 * ‖(WithLp.toLp 2 r : Euc T)‖ / 2 ≤ ‖(WithLp.toLp 2 z : Euc T)‖ := by
      have h7 := norm_sub_norm_le (c1 • (WithLp.toLp 2 r : Euc T)) (WithLp.toLp 2 z : Euc T)
      rw [norm_sub_rev, norm_smul, Real.norm_eq_abs, abs_of_pos hc1] at h7
      have h8 := mul_le_mul_of_nonneg_right hTe2 hcr.le
      linarith
    have hz0 : (WithLp.toLp 2 z : Euc T) ≠ 0 := norm_pos_iff.mp (by linarith)
    refine ⟨?_, Or.inr ?_⟩
    · obtain ⟨g, h7, h8⟩ := block_scaled (α := α) (d6 := (2 * T + 10) * (B + 2) * (c * e) + K * (α + 1) * (c * e)) hL0 hLB hα.le hVr hc1
        (norm_pos_iff.mp hr0) hz0 h5 (by
          have e1 : (1 - c1) * ‖(WithLp.toLp 2 r : Euc T)‖ - α / L = ((1 - c1) * ‖(WithLp.toLp 2 r : Euc T)‖ - θ) + (θ - α / L) := by ring
          rw [e1]
          exact (abs_add_le _ _).trans (by linarith))
      refine ⟨g, h7, hwrap (h8.trans ?_)⟩
      have h9 : c1 * ‖(WithLp.toLp 2 r : Euc T)‖ ≤ 2 * (B + 1) := mul_le_mul h3 hrB hN0 (by norm_num)
      have hTc : (T + 1) * e ≤ (T + 1) * (c * e) := mul_le_mul_of_nonneg_left hee (by positivity)
      have h10 : (T + 1) * e * (c1 * ‖(WithLp.toLp 2 r : Euc T)‖) ≤ 2 * (T + 1) * (B + 1) * (c * e) := by
        have h11 : (T + 1) * e * (c1 * ‖(WithLp.toLp 2 r : Euc T)‖) ≤ (T + 1) * (c * e) * (2 * (B + 1)) :=
          mul_le_mul hTc h9 hcr.le (by positivity)
        linarith
      have h12 : T * (c * e) + ((2 * T + 10) * (B + 2) * (c * e) + K * (α + 1) * (c * e)) + (T + 1) * e * (c1 * ‖(WithLp.toLp 2 r : Euc T)‖) ≤
          Q * (c * e) := by
        rw [hQ]
        linarith
      have h13 : (T + 1) * e ≤ Q * (c * e) := hTc.trans (mul_le_mul_of_nonneg_right hTQ hce.le)
      have h14 := mul_le_mul_of_nonneg_left h12 hB0.le
      have h15 := mul_le_mul_of_nonneg_left h13 (by positivity : 0 ≤ 2 * α)
      linarith
    · have h7 : e / 16 * (θ / 2) ≤ c1 * ‖(WithLp.toLp 2 r : Euc T)‖ := mul_le_mul h2 h4 (by linarith [div_pos hα (by positivity : 0 < 2 * B)]) hc1.le
      have h8 : e / 16 * (α / (2 * B) / 2) ≤ e / 16 * (θ / 2) := mul_le_mul_of_nonneg_left (by linarith) (by positivity)
      have e1 : α / (128 * B) * e = e / 16 * (α / (2 * B) / 2) / 2 := by field_simp; norm_num
      rw [e1]
      linarith

end Sglm
