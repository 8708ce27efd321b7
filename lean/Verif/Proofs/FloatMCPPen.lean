import Verif.Proofs.FloatPen
import Verif.Proofs.Descent

/-!
# The MCP penalty in floating point
-/

set_option linter.unusedSectionVars false

namespace Sglm
open Scalar Spec

/-- Size of the proximal point of the MCP penalty. -/
noncomputable def firmR (τ q x : ℝ) : ℝ := max 0 (min x ((x - τ) * q))

section
variable {τ q g x δ : ℝ}

theorem firmR_nonneg : 0 ≤ firmR τ q x := le_max_left _ _

theorem firmR_le (hx : 0 ≤ x) : firmR τ q x ≤ x := max_le hx (min_le_left _ _)

theorem firm_gap (hg : 0 < g) (hq : q * (1 - 1 / g) = 1) : (x - τ) * q - x = q / g * (x - g * τ) := by
  have e1 : x = x * (q * (1 - 1 / g)) := by rw [hq, mul_one]
  have e2 : (x - τ) * q - x * (q * (1 - 1 / g)) = q / g * (x - g * τ) := by field_simp; ring
  rw [← e2, hq, mul_one]

theorem firm_zero (hq : 0 ≤ q) (hδ : 0 ≤ δ) (h : x ≤ τ + δ) : |0 - firmR τ q x| ≤ q * δ := by
  have h1 : (x - τ) * q ≤ q * δ := by nlinarith
  have h2 : firmR τ q x ≤ q * δ := max_le (by positivity) ((min_le_right _ _).trans h1)
  have h3 : 0 ≤ firmR τ q x := firmR_nonneg
  rw [zero_sub, abs_neg, abs_of_nonneg h3]
  exact h2

theorem firm_id (hg : 1 ≤ g) (hq : 0 ≤ q) (hq1 : q * (1 - 1 / g) = 1) (hδ : 0 ≤ δ) (hx : 0 ≤ x) (h : g * τ - δ ≤ x) :
    |x - firmR τ q x| ≤ q * δ := by
  have h1 := firm_gap (x := x) (τ := τ) (by linarith : 0 < g) hq1
  have h2 : q / g ≤ q := div_le_self hq hg
  have h0 : 0 ≤ q / g := by positivity
  have h3 : -(q * δ) ≤ q / g * (x - g * τ) := by nlinarith
  have h4 := firmR_le (τ := τ) (q := q) hx
  have h5 : x - q * δ ≤ firmR τ q x := le_trans (le_min (by nlinarith) (by linarith)) (le_max_right _ _)
  rw [abs_of_nonneg (by linarith)]
  linarith

theorem firm_mid (hg : 1 ≤ g) (hq : 0 ≤ q) (hq1 : q * (1 - 1 / g) = 1) (hδ : 0 ≤ δ) (h : x ≤ g * τ + δ)
    (h' : τ - δ ≤ x) : |(x - τ) * q - firmR τ q x| ≤ q * δ := by
  have h1 := firm_gap (x := x) (τ := τ) (by linarith : 0 < g) hq1
  have h2 : q / g ≤ q := div_le_self hq hg
  have h0 : 0 ≤ q / g := by positivity
  have h3 : q / g * (x - g * τ) ≤ q * δ := by nlinarith
  have h4 : -(q * δ) ≤ (x - τ) * q := by nlinarith
  have hqd : 0 ≤ q * δ := by positivity
  unfold firmR
  rw [abs_le]
  constructor
  · have : max 0 (min x ((x - τ) * q)) ≤ (x - τ) * q + q * δ := max_le (by linarith) ((min_le_right _ _).trans (by linarith))
    linarith
  · have : (x - τ) * q - q * δ ≤ max 0 (min x ((x - τ) * q)) := le_trans (le_min (by linarith) (by linarith)) (le_max_right _ _)
    linarith

end

/-- A size and its sign. -/
theorem sign_mix {V v' σ' t m δ E : ℝ} (hv : |v' - V| ≤ δ) (hm : 0 ≤ m) (hmV : m ≤ |V|) (hσ : |σ'| = 1) (hp : 0 ≤ v' → σ' = 1)
    (hn : v' < 0 → σ' = -1) (ht : |t - m| ≤ E) : |σ' * t - (if V < 0 then -1 else 1) * m| ≤ E + 2 * δ := by
  have hδ : 0 ≤ δ := (abs_nonneg _).trans hv
  by_cases hsame : σ' = (if V < 0 then -1 else 1)
  · rw [hsame, ← mul_sub, abs_mul, abs_sign_le, one_mul]
    linarith
  · have hb := abs_le.mp hv
    have hsm : |V| ≤ δ := by
      rcases lt_or_ge V 0 with hV1 | hV1
      · rw [if_pos hV1] at hsame
        have : 0 ≤ v' := by
          by_contra hc'
          exact hsame (hn (not_le.mp hc'))
        rw [abs_of_neg hV1]; linarith
      · rw [if_neg (not_lt.mpr hV1)] at hsame
        have : v' < 0 := by
          by_contra hc'
          exact hsame (hp (not_lt.mp hc'))
        rw [abs_of_nonneg hV1]; linarith
    have e7 : σ' * t - (if V < 0 then -1 else 1) * m = σ' * (t - m) + (σ' - (if V < 0 then -1 else 1)) * m := by ring
    rw [e7]
    refine (abs_add_le _ _).trans ?_
    have n1 : |σ' * (t - m)| ≤ E := by rw [abs_mul, hσ, one_mul]; exact ht
    have n2 : |(σ' - (if V < 0 then -1 else 1)) * m| ≤ 2 * δ := by
      rw [abs_mul, abs_of_nonneg hm]
      have n3 : |σ' - (if V < 0 then -1 else 1)| ≤ 2 := by
        refine (abs_sub _ _).trans ?_
        rw [hσ, abs_sign_le]; norm_num
      exact mul_le_mul n3 (hmV.trans hsm) hm (by norm_num)
    linarith

theorem mcpProxR_eq {α γ V s : ℝ} (hα : 0 ≤ α) (hs : 0 < s) (hγ : s < γ) :
    mcpProxR α γ V s = (if V < 0 then -1 else 1) * firmR (α * s) (1 / (1 - 1 / (γ / s))) |V| := by
  have hg : 1 < γ / s := (one_lt_div hs).mpr hγ
  obtain ⟨g, hgg⟩ : ∃ g, g = γ / s := ⟨_, rfl⟩
  obtain ⟨τ, hτ⟩ : ∃ τ, τ = α * s := ⟨_, rfl⟩
  have hτ0 : 0 ≤ τ := by rw [hτ]; positivity
  unfold mcpProxR
  rw [← hgg, ← hτ]
  rw [← hgg] at hg
  have hg0 : 0 < 1 - 1 / g := by
    rw [sub_pos, div_lt_one (by linarith)]; exact hg
  obtain ⟨q, hqq⟩ : ∃ q, q = 1 / (1 - 1 / g) := ⟨_, rfl⟩
  have hq : q * (1 - 1 / g) = 1 := by rw [hqq]; exact one_div_mul_cancel hg0.ne'
  have hq0 : 0 < q := by rw [hqq]; positivity
  rw [← hqq]
  have e1 := firm_gap (x := |V|) (τ := τ) (by linarith : 0 < g) hq
  have hqg : 0 < q / g := by positivity
  have hV := abs_nonneg V
  have esgn : (if V < 0 then -1 else 1) * |V| = V := by
    split_ifs with h
    · rw [abs_of_neg h]; ring
    · rw [abs_of_nonneg (not_lt.mp h)]; ring
  unfold firmR
  by_cases h1 : |V| ≤ τ
  · rw [if_pos h1]
    have : (|V| - τ) * q ≤ 0 := mul_nonpos_of_nonpos_of_nonneg (by linarith) hq0.le
    rw [max_eq_left ((min_le_right _ _).trans this), mul_zero]
  · rw [if_neg h1]
    have h1' : 0 ≤ (|V| - τ) * q := mul_nonneg (by linarith [not_le.mp h1]) hq0.le
    by_cases h2 : g * τ < |V|
    · rw [if_pos h2]
      have : |V| ≤ (|V| - τ) * q := by nlinarith
      rw [min_eq_left this, max_eq_right hV, esgn]
    · rw [if_neg h2]
      have : (|V| - τ) * q ≤ |V| := by nlinarith [not_lt.mp h2]
      rw [min_eq_right this, max_eq_right h1', hqq]
      ring

/-- Points near the proximal point satisfy the optimality condition up to a small error, provided that they have the right sign. -/
theorem mcp_near_sub {α γ L V t E : ℝ} (hα : 0 < α) (hγ : 0 < γ) (hL : 0 < L) (hgap : 1 < γ * L)
    (h1 : |t - mcpProxR α γ V (1 / L)| ≤ E) (h2 : t = 0 ∨ 0 < t * V ∧ α * (1 / L) - E ≤ |V|) :
    ∃ s ∈ frechetSubdiff (mcp α γ : ℝ → ℝ) t, |L * (V - t) - s| ≤ (2 * L + 1 / γ) * E := by
  have hE : 0 ≤ E := (abs_nonneg _).trans h1
  have hsγ : 1 / L < γ := by rw [div_lt_iff₀ hL]; exact hgap
  have hLi : 0 < 1 / L := by positivity
  rw [mcpProxR_eq hα.le hLi hsγ, show γ / (1 / L) = γ * L by field_simp] at h1
  obtain ⟨T, hT⟩ : ∃ T, T = α * (1 / L) := ⟨_, rfl⟩
  have hLT : L * T = α := by rw [hT]; field_simp
  have hT0 : 0 < T := by rw [hT]; positivity
  obtain ⟨q, hq⟩ : ∃ q, q = 1 / (1 - 1 / (γ * L)) := ⟨_, rfl⟩
  rw [← hT] at h1 h2
  rw [← hq] at h1
  have hg0 : 0 < 1 - 1 / (γ * L) := by rw [sub_pos, div_lt_one (by linarith)]; exact hgap
  have hg1 : 1 - 1 / (γ * L) ≤ 1 := by
    have : 0 ≤ 1 / (γ * L) := by positivity
    linarith
  have hq1 : q * (1 - 1 / (γ * L)) = 1 := by rw [hq]; exact one_div_mul_cancel hg0.ne'
  have hq0 : 0 < q := by rw [hq]; positivity
  have hqge : 1 ≤ q := by nlinarith
  have hLE : 0 ≤ L * E := by positivity
  have hγE : 0 ≤ 1 / γ * E := by positivity
  obtain ⟨m, hm⟩ : ∃ m, m = firmR T q |V| := ⟨_, rfl⟩
  rw [← hm] at h1
  have hm0 : 0 ≤ m := hm ▸ firmR_nonneg
  have hV := abs_nonneg V
  have hmx : m ≤ |V| := hm ▸ firmR_le hV
  have hgap2 := firm_gap (x := |V|) (τ := T) (by linarith : 0 < γ * L) hq1
  have hgT : γ * L * T = γ * α := by rw [mul_assoc, hLT]
  by_cases ht0 : t = 0
  · subst ht0
    rw [zero_sub, abs_neg, abs_mul, abs_sign_le, one_mul, abs_of_nonneg hm0] at h1
    have hVT : |V| ≤ T + E := by
      by_contra hc
      rw [not_le] at hc
      have n1 : E < (|V| - T) * q := by nlinarith
      have n2 : E < m := by rw [hm]; exact lt_of_lt_of_le (lt_min (by linarith) n1) (le_max_right _ _)
      linarith
    have hLV : |L * V| ≤ α + L * E := by
      rw [abs_mul, abs_of_pos hL]
      have := mul_le_mul_of_nonneg_left hVT hL.le
      linarith
    refine ⟨max (-α) (min α (L * V)), ?_, ?_⟩
    · rw [frechet_mcp_zero hα.le hγ, mem_closedBall_zero_iff, Real.norm_eq_abs, abs_le]
      exact ⟨le_max_left _ _, max_le (by linarith) (min_le_left _ _)⟩
    · rw [sub_zero]
      have hb := abs_le.mp hLV
      have : |L * V - max (-α) (min α (L * V))| ≤ L * E := by
        rw [abs_le]
        constructor
        · have : max (-α) (min α (L * V)) ≤ L * V + L * E := max_le (by linarith) ((min_le_right _ _).trans (by linarith))
          linarith
        · have : L * V - L * E ≤ max (-α) (min α (L * V)) := by
            rcases le_total (L * V) α with h | h
            · rw [min_eq_right h]
              exact le_trans (by linarith) (le_max_right _ _)
            · rw [min_eq_left h]
              exact le_trans (by linarith) (le_max_right _ _)
          linarith
      linarith
  · obtain ⟨h3, h4⟩ := h2.resolve_left ht0
    -- sizes
    have key : |L * (|V| - m) - max (α - m / γ) 0| ≤ L * E := by
      rcases le_or_gt |V| T with hx | hx
      · have hmz : m = 0 := by
          rw [hm]
          exact max_eq_left ((min_le_right _ _).trans (mul_nonpos_of_nonpos_of_nonneg (by linarith) hq0.le))
        rw [hmz, sub_zero, zero_div, sub_zero, max_eq_left hα.le, ← hLT, ← mul_sub, abs_mul, abs_of_pos hL]
        refine mul_le_mul_of_nonneg_left ?_ hL.le
        rw [abs_le]; constructor <;> linarith
      · have hp : 0 ≤ (|V| - T) * q := mul_nonneg (by linarith) hq0.le
        have hqg : 0 < q / (γ * L) := by positivity
        rcases le_or_gt |V| (γ * α) with hx2 | hx2
        · have hle : (|V| - T) * q ≤ |V| := by
            have : q / (γ * L) * (|V| - γ * L * T) ≤ 0 := mul_nonpos_of_nonneg_of_nonpos hqg.le (by rw [hgT]; linarith)
            linarith
          have hme : m = (|V| - T) * q := by
            rw [hm]; unfold firmR
            rw [min_eq_right hle, max_eq_right hp]
          have e1 : m * (1 - 1 / (γ * L)) = |V| - T := by rw [hme, mul_assoc, hq1, mul_one]
          have e2 : L * (|V| - m) = α - m / γ := by
            have e3 : L * (m * (1 - 1 / (γ * L))) = L * m - m / γ := by field_simp
            rw [e1, mul_sub, hLT] at e3
            linarith
          have h5 : m / γ ≤ α := by
            rw [div_le_iff₀ hγ]; linarith
          rw [e2, max_eq_left (by linarith), sub_self, abs_zero]
          exact hLE
        · have hle : |V| ≤ (|V| - T) * q := by
            have : 0 ≤ q / (γ * L) * (|V| - γ * L * T) := mul_nonneg hqg.le (by rw [hgT]; linarith)
            linarith
          have hme : m = |V| := by
            rw [hm]; unfold firmR
            rw [min_eq_left hle, max_eq_right hV]
          have h5 : α ≤ m / γ := by
            rw [le_div_iff₀ hγ, hme]; linarith
          rw [max_eq_right (by linarith), sub_zero, hme, sub_self, mul_zero, abs_zero]
          exact hLE
    obtain ⟨σ, hσ⟩ : ∃ σ : ℝ, σ = if V < 0 then -1 else 1 := ⟨_, rfl⟩
    rw [← hσ] at h1
    have hσ1 : |σ| = 1 := by rw [hσ]; exact abs_sign_le V
    have hσσ : σ * σ = 1 := by rw [← abs_mul_abs_self, hσ1, one_mul]
    have hσV : V = σ * |V| := by
      rw [hσ]
      split_ifs with hh
      · rw [abs_of_neg hh]; ring
      · rw [abs_of_nonneg (not_lt.mp hh)]; ring
    have hσt : t = σ * |t| := by
      rw [hσ]
      split_ifs with hh
      · have : t < 0 := by
          by_contra hc
          have := mul_nonpos_of_nonneg_of_nonpos (not_lt.mp hc) hh.le
          linarith
        rw [abs_of_neg this]; ring
      · have : 0 ≤ t := by
          by_contra hc
          have := mul_nonpos_of_nonpos_of_nonneg (not_le.mp hc).le (not_lt.mp hh)
          linarith
        rw [abs_of_nonneg this]; ring
    have htm : |(|t| - m)| ≤ E := by
      have : |t| - m = σ * (t - σ * m) := by
        rw [mul_sub, ← mul_assoc, hσσ, one_mul]
        nth_rw 2 [hσt]
        rw [← mul_assoc, hσσ, one_mul]
      rw [this, abs_mul, hσ1, one_mul]
      exact h1
    have htp : 0 < |t| := abs_pos.mpr ht0
    refine ⟨σ * max (α - |t| / γ) 0, ?_, ?_⟩
    · rcases lt_or_ge |t| (γ * α) with hh | hh
      · rw [frechet_mcp_mid ht0 hh, Set.mem_singleton_iff, smul_eq_mul, Real.norm_eq_abs]
        have h5 : |t| / γ ≤ α := by rw [div_le_iff₀ hγ]; linarith
        rw [max_eq_left (by linarith)]
        nth_rw 3 [hσt]
        field_simp
      · rw [frechet_mcp_out hα.le hγ ht0 hh, Set.mem_singleton_iff]
        have h5 : α ≤ |t| / γ := by rw [le_div_iff₀ hγ]; linarith
        rw [max_eq_right (by linarith), mul_zero]
    · have e1 : L * (V - t) - σ * max (α - |t| / γ) 0 = σ * (L * (|V| - |t|) - max (α - |t| / γ) 0) := by
        nth_rw 1 [hσV]
        nth_rw 1 [hσt]
        ring
      rw [e1, abs_mul, hσ1, one_mul]
      have e2 : L * (|V| - |t|) - max (α - |t| / γ) 0 = (L * (|V| - m) - max (α - m / γ) 0) +
          L * (m - |t|) + (max (α - m / γ) 0 - max (α - |t| / γ) 0) := by ring
      rw [e2]
      have n1 : |L * (m - |t|)| ≤ L * E := by
        rw [abs_mul, abs_of_pos hL, abs_sub_comm]
        exact mul_le_mul_of_nonneg_left htm hL.le
      have n2 : |max (α - m / γ) 0 - max (α - |t| / γ) 0| ≤ 1 / γ * E := by
        refine (abs_max_sub_max_le_max _ _ _ _).trans ?_
        rw [sub_self, abs_zero, max_eq_left (abs_nonneg _)]
        have : α - m / γ - (α - |t| / γ) = 1 / γ * (|t| - m) := by ring
        rw [this, abs_mul, abs_of_pos (by positivity)]
        exact mul_le_mul_of_nonneg_left htm (by positivity)
      have n3 := abs_add_le (L * (|V| - m) - max (α - m / γ) 0 + L * (m - |t|)) (max (α - m / γ) 0 - max (α - |t| / γ) 0)
      have n4 := abs_add_le (L * (|V| - m) - max (α - m / γ) 0) (L * (m - |t|))
      linarith

section
variable {F : Type} [Scalar F] [LawfulCmp F] {e B K : ℝ} {N : ℕ}
variable {α γ B' c1 C : ℝ} (hα : 1 / B ≤ α) (hαB : α ≤ B) (hγ : 1 / B ≤ γ) (hγB : γ ≤ B) (h : PMags e B B' K c1 C N)
  (Pr : Precise F e) {a g : F} (ha : Stores e a α) (hg : Stores e g γ)
include hα hαB hγ hγB h Pr ha hg

set_option maxHeartbeats 1000000 in
theorem mcp_prox_apx (v s : F) (V L c : ℝ) (hc : 1 ≤ c) (hs : C * c * e ≤ 1) (hV : |V| ≤ B) (hL : 1 / B ≤ L) (hL2 : L ≤ B)
    (hgap : 1 / B ≤ 1 - 1 / (γ * L)) (av : Apx e v V c) (as : Apx e s (1 / L) c) :
    ∃ t, Den ((MCP.mk a g).prox v s) t ∧ |t - mcpProxR α γ V (1 / L)| ≤ C * c * e ∧
      (t = 0 ∨ (0 < t * V ∧ α * (1 / L) - C * c * e ≤ |V|)) := by
  have kk := h.kk
  have he := Pr.pos
  have hB := h.hB
  obtain ⟨s1, s2, s3, s4, s5, s6, s7⟩ := h.sizes
  have hKB : B' ≤ K := by have := kk.poly.2; linarith
  have hK8 : 8 * B ≤ K := by
    have := h.hB'
    have : B ≤ B ^ 3 := by nlinarith [sq_nonneg B, mul_nonneg (sq_nonneg B) (by linarith : 0 ≤ B - 1)]
    nlinarith [kk.poly.2]
  have hB0 : (0 : ℝ) < 1 / B := by positivity
  have hα0 : 0 < α := lt_of_lt_of_le hB0 hα
  have hγ0 : 0 < γ := lt_of_lt_of_le hB0 hγ
  have hL0 : 0 < L := lt_of_lt_of_le hB0 hL
  have hLi0 : 0 < 1 / L := by positivity
  have inv : ∀ {z : ℝ}, 1 / B ≤ z → 1 / z ≤ B := fun {z} hz => by
    have hz0 : 0 < z := lt_of_lt_of_le hB0 hz
    rw [div_le_iff₀ hz0]
    rw [div_le_iff₀ (by linarith)] at hz
    linarith
  have hLi := inv hL
  have h1L : 1 / B ≤ 1 / L := one_div_le_one_div_of_le hL0 hL2
  have hBB' : 1 / B' ≤ 1 / B := one_div_le_one_div_of_le (by linarith) s1
  obtain ⟨d1, d2, d3, d4, d5, d6, k0, k1, k2, e1, e2, e3, e4, e5, e6, l1, l2, l3, l4, l5, l6, eC, m1, m2, m3, m4, m5⟩ := h.steps hc hs
  have aα : Apx e a α (c1 * c) := (ha.apx he.le (by rw [abs_of_pos hα0]; linarith) h.hc1.ge).mono he.le k2
  have aγ : Apx e g γ (c1 * c) := (hg.apx he.le (by rw [abs_of_pos hγ0]; linarith) h.hc1.ge).mono he.le k2
  have as' := as.mono he.le k0
  have av' := av.mono he.le k0
  -- quantities
  have egg : γ / (1 / L) = γ * L := by field_simp
  have hgL : 1 < γ * L := by
    have h0 : 0 < 1 - 1 / (γ * L) := lt_of_lt_of_le hB0 hgap
    rw [sub_pos, div_lt_one (by positivity)] at h0
    exact h0
  have hgB : γ * L ≤ B ^ 2 := by rw [pow_two]; exact mul_le_mul hγB hL2 hL0.le (by linarith)
  obtain ⟨G, hG⟩ : ∃ G, G = γ * L := ⟨_, rfl⟩
  rw [← hG] at hgL hgB hgap
  obtain ⟨T, hT⟩ : ∃ T, T = α * (1 / L) := ⟨_, rfl⟩
  have hT0 : 0 < T := by rw [hT]; positivity
  have hTB : T ≤ B ^ 2 := by rw [hT, pow_two]; exact mul_le_mul hαB hLi hLi0.le (by linarith)
  have hTlow : 1 / B * (1 / B) ≤ T := by rw [hT]; exact mul_le_mul hα h1L hB0.le hα0.le
  have t1 : Apx e (a *. s) T d1 := by
    rw [e1, hT]
    exact kk.mul Pr aα as' k1 (by rw [abs_of_pos hα0]; linarith) (by rw [abs_of_pos hLi0]; linarith) (by rw [← e1]; exact m1)
  have t2 : Apx e (g /. s) G d1 := by
    rw [e1, hG, ← egg]
    exact kk.div Pr aγ as' k1 (by rw [abs_of_pos hγ0]; linarith) (by rw [abs_of_pos hLi0]; linarith) (by rw [← e1]; exact m1)
  have hd1 : 1 ≤ d1 := by linarith
  have t3 : Apx e ((g /. s) *. (a *. s)) (G * T) d2 := by
    rw [e2]
    exact kk.mul Pr t2 t1 hd1 (by rw [abs_of_pos (by linarith)]; linarith) (by rw [abs_of_pos hT0]; linarith) (by rw [← e2]; exact m2)
  have hV0 := abs_nonneg V
  have t4 : Apx e (Scalar.abs v -. (a *. s)) (|V| - T) d2 := by
    rw [e2]
    exact kk.sub Pr ((Consts.abs Pr av').mono he.le (by linarith)) t1 hd1 (abs_le.mpr ⟨by linarith, by linarith⟩) (by rw [← e2]; exact m2)
  have hd2 : 1 ≤ d2 := by linarith
  have t5 : Apx e (one /. (g /. s)) (1 / G) d2 := by
    rw [e2]
    refine kk.div Pr (Den.apx he.le Pr.one (by linarith)) t2 hd1 (by rw [abs_one]; exact s7) ?_ (by rw [← e2]; exact m2)
    rw [abs_of_pos (by linarith)]
    refine le_trans ?_ hgL.le
    rw [div_le_iff₀ (by linarith)]; linarith
  have hG1 : 1 / G ≤ 1 := by rw [div_le_one (by linarith)]; exact hgL.le
  have hG0 : 0 < 1 / G := by positivity
  have t6 : Apx e (one -. one /. (g /. s)) (1 - 1 / G) d3 := by
    rw [e3]
    exact kk.sub Pr (Den.apx he.le Pr.one (by linarith)) t5 hd2 (abs_le.mpr ⟨by linarith, by linarith⟩) (by rw [← e3]; exact m3)
  have hgap0 : 0 < 1 - 1 / G := lt_of_lt_of_le hB0 hgap
  obtain ⟨q, hq⟩ : ∃ q, q = 1 / (1 - 1 / G) := ⟨_, rfl⟩
  have hq0 : 0 < q := by rw [hq]; positivity
  have hqB : q ≤ B := by rw [hq]; exact inv hgap
  have hq1 : q * (1 - 1 / G) = 1 := by rw [hq]; exact one_div_mul_cancel hgap0.ne'
  -- real target
  have hreal : mcpProxR α γ V (1 / L) = (if V < 0 then -1 else 1) * firmR T q |V| := by
    have hsγ : 1 / L < γ := by rw [div_lt_iff₀ hL0, ← hG]; exact hgL
    rw [mcpProxR_eq hα0.le hLi0 hsγ, ← hT, egg, ← hG, ← hq]
  rw [hreal]
  obtain ⟨v', b1, b2⟩ := av'
  obtain ⟨τ', c1', c2⟩ := t1
  obtain ⟨gt', f1, f2⟩ := t3
  have ce0 : 0 ≤ c1 * c * e := mul_nonneg (by linarith) he.le
  have d2e : 0 ≤ d2 * e := mul_nonneg (by linarith) he.le
  have c12 : c1 * c * e ≤ d2 * e := mul_le_mul_of_nonneg_right (by linarith) he.le
  have d12 : d1 * e ≤ d2 * e := mul_le_mul_of_nonneg_right (by linarith) he.le
  have d24 : d2 * e ≤ d4 * e := mul_le_mul_of_nonneg_right (by linarith) he.le
  have hm := firmR_nonneg (τ := T) (q := q) (x := |V|)
  have hm2 := firmR_le (τ := T) (q := q) hV0
  have hvV : |(|v'| - |V|)| ≤ c1 * c * e := (abs_abs_sub_abs_le _ _).trans b2
  have hvV' := abs_le.mp hvV
  have hτ' := abs_le.mp c2
  have hf' := abs_le.mp f2
  have hd1T : 3 * (d1 * e) < T := by
    have q1 : d2 * e ≤ 1 / 10 := (kk.small hd2 (by rw [← e3]; exact m3)).2.2
    have q2 : K * (d1 * e) ≤ 1 / 10 := by rw [← mul_assoc, ← e2]; exact q1
    have q3 : 3 * (d1 * e) < 1 / B * (1 / B) := by
      rw [div_mul_div_comm, one_mul, lt_div_iff₀ (by positivity)]
      have : d1 * e * (B * B) ≤ d1 * e * K := mul_le_mul_of_nonneg_left (by nlinarith) (mul_nonneg (by linarith) he.le)
      linarith
    linarith
  have hd1e : 0 ≤ d1 * e := mul_nonneg (by linarith) he.le
  have c11 : c1 * c * e ≤ d1 * e := mul_le_mul_of_nonneg_right (by linarith) he.le
  have hτpos : 0 < τ' := by linarith [hτ'.1]
  -- the sign of the result
  have hsign : τ' < |v'| → 0 < v' * V ∧ α * (1 / L) - C * c * e ≤ |V| := fun hlt => by
    constructor
    · have n1 : |v'| * |V - v'| < |v'| * |v'| := by
        refine mul_lt_mul_of_pos_left ?_ (by linarith)
        rw [abs_sub_comm]; linarith [hτ'.1]
      have n2 := neg_abs_le (v' * (V - v'))
      rw [abs_mul] at n2
      rw [abs_mul_abs_self] at n1
      have n3 : v' * V = v' * v' + v' * (V - v') := by ring
      linarith
    · have n1 : d2 * e ≤ C * c * e := by rw [← eC]; exact mul_le_mul_of_nonneg_right (by linarith) he.le
      have n2 : 2 * (d1 * e) ≤ d2 * e := by
        rw [e2, mul_assoc]
        have : 2 ≤ K := by linarith only [hK8, hB]
        exact mul_le_mul_of_nonneg_right this hd1e
      rw [← hT]
      linarith [hτ'.1]
  -- the size of the result
  have fin : ∀ {x : F} {t σ' : ℝ}, Den x (σ' * t) → |σ'| = 1 → (0 ≤ v' → σ' = 1) → (v' < 0 → σ' = -1) →
      |t - firmR T q (abs V)| ≤ d4 * e + q * (2 * (d2 * e)) → (σ' * t = 0 ∨ 0 < σ' * t * V ∧ α * (1 / L) - C * c * e ≤ |V|) →
      ∃ t, Den x t ∧ |t - (if V < 0 then -1 else 1) * firmR T q (abs V)| ≤ C * c * e ∧
        (t = 0 ∨ 0 < t * V ∧ α * (1 / L) - C * c * e ≤ |V|) := by
    intro x t σ' hx hσ hp hn ht hsg
    refine ⟨_, hx, (sign_mix b2 hm hm2 hσ hp hn ht).trans ?_, hsg⟩
    have r1 : q * (2 * (d2 * e)) ≤ B * (2 * (d2 * e)) := mul_le_mul_of_nonneg_right hqB (by positivity)
    have r2 : 8 * B * (d4 * e) ≤ K * (d4 * e) := mul_le_mul_of_nonneg_right hK8 (by linarith only [d2e, d24])
    have r3 : K * (d4 * e) = d5 * e := by rw [e5]; ring
    have r4 : d5 * e ≤ C * c * e := by rw [← eC]; exact mul_le_mul_of_nonneg_right l6 he.le
    have r5 : B * (d2 * e) ≤ B * (d4 * e) := mul_le_mul_of_nonneg_left d24 (by linarith only [hB])
    have r6 : 1 * (d4 * e) ≤ B * (d4 * e) := mul_le_mul_of_nonneg_right hB (by linarith only [d2e, d24])
    linarith only [r1, r2, r3, r4, r5, r6, c12, d24, d2e]
  have hsgn : ∃ σ' : ℝ, |σ'| = 1 ∧ (0 ≤ v' → σ' = 1) ∧ (v' < 0 → σ' = -1) ∧ σ' * |v'| = v' := by
    rcases lt_or_ge v' 0 with hv | hv
    · exact ⟨-1, by simp, fun h => absurd hv (not_lt.mpr h), fun _ => rfl, by rw [abs_of_neg hv]; ring⟩
    · exact ⟨1, by simp, fun _ => rfl, fun h => absurd h (not_lt.mpr hv), by rw [abs_of_nonneg hv, one_mul]⟩
  obtain ⟨σ', hσ, hσp, hσn, hσv⟩ := hsgn
  have q2d : 0 ≤ q * (2 * (d2 * e)) := by positivity
  have d4e : 0 ≤ d4 * e := by linarith
  have dabs : Den (Scalar.abs v) |v'| := Pr.abs _ _ b1
  unfold MCP.prox
  dsimp only
  by_cases h1 : |v'| ≤ τ'
  · rw [if_pos ((den_le dabs c1').mpr h1)]
    refine fin (t := 0) (σ' := σ') (by rw [mul_zero]; exact den_zero) hσ hσp hσn ?_ (Or.inl (mul_zero _))
    have := firm_zero (τ := T) (x := |V|) hq0.le (by positivity : 0 ≤ 2 * (d2 * e)) (by linarith)
    linarith
  · rw [if_neg fun h => h1 ((den_le dabs c1').mp h)]
    rw [not_le] at h1
    by_cases h2 : gt' < |v'|
    · rw [if_pos ((den_lt f1 dabs).mpr h2)]
      refine fin (t := |v'|) (σ' := σ') (by rw [hσv]; exact b1) hσ hσp hσn ?_ (Or.inr (by rw [hσv]; exact hsign h1))
      have r1 := firm_id (τ := T) (x := |V|) hgL.le hq0.le hq1 (by positivity : 0 ≤ 2 * (d2 * e)) hV0 (by linarith)
      have r2 := abs_sub_le |v'| |V| (firmR T q |V|)
      linarith
    · rw [if_neg fun h => h2 ((den_lt f1 dabs).mp h)]
      rw [not_lt] at h2
      have hv0 : v' ≠ 0 := fun h0 => by rw [h0, abs_zero] at h1; linarith
      have hσe : (if v' < 0 then -1 else 1 : ℝ) = σ' := by
        split_ifs with hh
        · exact (hσn hh).symm
        · exact (hσp (not_lt.mp hh)).symm
      have u1 : Apx e (signum v *. (Scalar.abs v -. (a *. s))) (σ' * (|V| - T)) d3 := by
        have := signum_apx Pr b1 hv0 (by linarith : 0 ≤ d2)
        rw [hσe] at this
        rw [e3]
        exact kk.mul Pr this t4 hd2 (by rw [hσ]; exact s7) (abs_le.mpr ⟨by linarith, by linarith⟩) (by rw [← e3]; exact m3)
      have u2 : Apx e (signum v *. (Scalar.abs v -. (a *. s)) /. (one -. one /. (g /. s))) (σ' * (|V| - T) / (1 - 1 / G)) d4 := by
        rw [e4]
        refine kk.div Pr u1 t6 (by linarith) ?_ ?_ (by rw [← e4]; exact m4)
        · rw [abs_mul, hσ, one_mul]
          exact abs_le.mpr ⟨by linarith, by linarith⟩
        · rw [abs_of_pos hgap0]; linarith
      have hts : ∀ t, Den (signum v *. (Scalar.abs v -. (a *. s)) /. (one -. one /. (g /. s))) t → t = 0 ∨ 0 < t * V := fun t ht => by
        obtain ⟨z1, hz1, -⟩ := t4
        obtain ⟨z2, hz2, -⟩ := u1
        obtain ⟨z3, hz3, hz3'⟩ := t6
        have hz3p : 0 < z3 := by
          have q1 : d4 * e ≤ 1 / 10 := (kk.small (by linarith) (by rw [← e5]; exact m5)).2.2
          have q2 : K * (d3 * e) ≤ 1 / 10 := by rw [← mul_assoc, ← e4]; exact q1
          have q3 : d3 * e < 1 / B := by
            rw [lt_div_iff₀ (by linarith)]
            have : d3 * e * B ≤ d3 * e * K := mul_le_mul_of_nonneg_left (by linarith) (mul_nonneg (by linarith) he.le)
            linarith
          linarith only [(abs_le.mp hz3').1, q3, hgap]
        have he1 : e < 1 := by
          have q1 : d2 * e ≤ 1 / 10 := (kk.small hd2 (by rw [← e3]; exact m3)).2.2
          have q2 : 1 * e ≤ d2 * e := mul_le_mul_of_nonneg_right hd2 he.le
          linarith only [q1, q2]
        have hz1p : 0 < z1 := by
          have q1 := (Pr.sub _ _ _ _ dabs c1').2 z1 hz1
          rw [abs_of_pos (sub_pos.mpr h1)] at q1
          have q2 := (abs_le.mp q1).1
          have q3 := mul_lt_of_lt_one_left (sub_pos.mpr h1) he1
          linarith only [q2, q3]
        have hsd : Den (signum v) σ' := by
          rcases lt_or_gt_of_ne hv0 with hh | hh
          · rw [hσn hh]; exact Pr.signum_neg _ _ b1 hh
          · rw [hσp hh.le]; exact Pr.signum_pos _ _ b1 hh
        have n1 := Pr.mul_sign _ _ _ _ _ hsd hz1 hz2
        have n2 := Pr.div_sign _ _ _ _ _ hz2 hz3 hz3p.ne' ht
        by_cases hz0 : z2 = 0
        · rw [hz0] at hz2
          exact Or.inl (ht.unique (Pr.div_zero _ _ _ hz2 hz3 hz3p.ne'))
        · by_cases ht0 : t = 0
          · exact Or.inl ht0
          · have n3 : 0 ≤ z2 * σ' := by
              have : z2 * (σ' * z1) = z2 * σ' * z1 := by ring
              rw [this] at n1
              exact nonneg_of_mul_nonneg_left n1 hz1p
            have n4 : 0 ≤ t * z2 := by
              have : t * (z2 / z3) = t * z2 / z3 := by ring
              rw [this] at n2
              by_contra hc'
              exact absurd n2 (not_le.mpr (div_neg_of_neg_of_pos (not_le.mp hc') hz3p))
            have hvV := (hsign h1).1
            have n5 : 0 < t * z2 := lt_of_le_of_ne n4 (Ne.symm (mul_ne_zero ht0 hz0))
            have hσ0 : σ' ≠ 0 := fun hc' => by rw [hc', abs_zero] at hσ; norm_num at hσ
            have n6 : 0 < z2 * σ' := lt_of_le_of_ne n3 (Ne.symm (mul_ne_zero hz0 hσ0))
            have n7 : 0 < σ' * v' := by
              rcases lt_or_ge v' 0 with hh | hh
              · rw [hσn hh]; linarith
              · rw [hσp hh, one_mul]; exact lt_of_le_of_ne hh (Ne.symm hv0)
            have n8 : 0 < t * z2 * (z2 * σ') * (σ' * v') * (v' * V) := by positivity
            have n9 : t * z2 * (z2 * σ') * (σ' * v') * (v' * V) = t * V * (z2 ^ 2 * σ' ^ 2 * v' ^ 2) := by ring
            rw [n9] at n8
            exact Or.inr (pos_of_mul_pos_left n8 (by positivity))
      obtain ⟨t, ht, ht2⟩ := u2
      have hσσ : σ' * σ' = 1 := by rw [← abs_mul_abs_self, hσ, one_mul]
      refine fin (t := σ' * t) (σ' := σ') (by rw [← mul_assoc, hσσ, one_mul]; exact ht) hσ hσp hσn ?_ (by
        rw [← mul_assoc, hσσ, one_mul]
        exact (hts t ht).imp_right fun h => ⟨h, (hsign h1).2⟩)
      have r1 := firm_mid (τ := T) (x := |V|) hgL.le hq0.le hq1 (by positivity : 0 ≤ 2 * (d2 * e)) (by linarith) (by linarith)
      have r2 : |σ' * t - (|V| - T) * q| ≤ d4 * e := by
        have : σ' * t - (|V| - T) * q = σ' * (t - σ' * (|V| - T) / (1 - 1 / G)) := by
          rw [mul_sub, mul_div_assoc, ← mul_assoc, hσσ, one_mul, hq]; ring
        rw [this, abs_mul, hσ, one_mul]
        exact ht2
      have r3 := abs_sub_le (σ' * t) ((|V| - T) * q) (firmR T q |V|)
      linarith

set_option maxHeartbeats 1000000 in
theorem mcp_dist_apx (w gr : F) (t G c : ℝ) (hc : 1 ≤ c) (hs : C * c * e ≤ 1) (ht : |t| ≤ B) (hG : |G| ≤ B) (dw : Den w t)
    (ag : Apx e gr G c) : Apx e ((MCP.mk a g).dist w gr) (mcpScore α γ t G) (C * c) := by
  have kk := h.kk
  have he := Pr.pos
  have hB := h.hB
  obtain ⟨s1, s2, s3, s4, s5, s6, s7⟩ := h.sizes
  have hKB : B' ≤ K := by have := kk.poly.2; linarith
  have hB0 : (0 : ℝ) < 1 / B := by positivity
  have hα0 : 0 < α := lt_of_lt_of_le hB0 hα
  have hγ0 : 0 < γ := lt_of_lt_of_le hB0 hγ
  have hγi : 1 / γ ≤ B := by
    rw [div_le_iff₀ hγ0]
    have := hγ
    rw [div_le_iff₀ (by linarith)] at this
    linarith
  have hBB' : 1 / B' ≤ 1 / B := one_div_le_one_div_of_le (by linarith) s1
  have hB2 := h.hB'
  have hBsq : B ≤ B ^ 2 := by nlinarith
  have hBcb : B ^ 2 ≤ B ^ 3 := by nlinarith [mul_nonneg (sq_nonneg B) (by linarith : 0 ≤ B - 1)]
  obtain ⟨d1, d2, d3, d4, d5, d6, k0, k1, k2, e1, e2, e3, e4, e5, e6, l1, l2, l3, l4, l5, l6, eC, m1, m2, m3, m4, m5⟩ := h.steps hc hs
  have aα : Apx e a α (c1 * c) := (ha.apx he.le (by rw [abs_of_pos hα0]; linarith) h.hc1.ge).mono he.le k2
  have aγ : Apx e g γ (c1 * c) := (hg.apx he.le (by rw [abs_of_pos hγ0]; linarith) h.hc1.ge).mono he.le k2
  have ag' := ag.mono he.le k0
  have hG0 := abs_nonneg G
  unfold MCP.dist mcpScore
  by_cases h0 : t = 0
  · rw [if_pos ((den_beq dw den_zero).mpr h0), if_pos h0]
    have t1 := kk.sub Pr (Consts.abs Pr ag') aα k1 (abs_le.mpr ⟨by linarith, by linarith⟩) (by rw [← e1]; exact m1)
    exact (Consts.max (Den.apx he.le den_zero (by linarith)) t1).mono he.le (by linarith)
  · rw [if_neg fun h => h0 ((den_beq dw den_zero).mp h), if_neg h0]
    have p1 : Apx e (a *. g) (α * γ) d1 := by
      rw [e1]
      exact kk.mul Pr aα aγ k1 (by rw [abs_of_pos hα0]; linarith) (by rw [abs_of_pos hγ0]; linarith) (by rw [← e1]; exact m1)
    obtain ⟨σ, hσ⟩ : ∃ σ : ℝ, σ = if t < 0 then -1 else 1 := ⟨_, rfl⟩
    have hσ1 : |σ| = 1 := by rw [hσ]; exact abs_sign_le t
    have hσt : σ * |t| = t := by
      rw [hσ]
      split_ifs with hh
      · rw [abs_of_neg hh]; ring
      · rw [abs_of_nonneg (not_lt.mp hh)]; ring
    rw [← hσ]
    have p2 : Apx e (a *. signum w) (α * σ) d1 := by
      have := signum_apx Pr dw h0 (by linarith : 0 ≤ c1 * c)
      rw [← hσ] at this
      rw [e1]
      exact kk.mul Pr aα this k1 (by rw [abs_of_pos hα0]; linarith) (by rw [hσ1]; exact s7) (by rw [← e1]; exact m1)
    have bασ : |α * σ| = α := by rw [abs_mul, hσ1, mul_one, abs_of_pos hα0]
    have hd1 : 1 ≤ d1 := by linarith
    have p3 : Apx e (gr +. a *. signum w) (G + α * σ) d2 := by
      rw [e2]
      refine kk.add Pr (ag'.mono he.le (by linarith)) p2 hd1 ((abs_add_le _ _).trans ?_) (by rw [← e2]; exact m2)
      rw [bασ]; linarith
    have p4 : Apx e (w /. g) (t / γ) d1 := by
      rw [e1]
      exact kk.div Pr (Den.apx he.le dw (by linarith)) aγ k1 (by linarith) (by rw [abs_of_pos hγ0]; linarith) (by rw [← e1]; exact m1)
    have btγ : |t / γ| ≤ B ^ 2 := by
      rw [abs_div, abs_of_pos hγ0, div_eq_mul_one_div, pow_two]
      exact mul_le_mul ht hγi (by positivity) (by linarith)
    have p5 : Apx e (gr +. a *. signum w -. w /. g) (G + α * σ - t / γ) d3 := by
      rw [e3]
      refine kk.sub Pr p3 (p4.mono he.le l2) (by linarith) ((abs_sub _ _).trans ?_) (by rw [← e3]; exact m3)
      have := abs_add_le G (α * σ)
      rw [bασ] at this
      linarith
    -- at the boundary the two expressions agree
    have hbd : |α * σ - t / γ| ≤ 1 / γ * |(|t| - α * γ)| := by
      have : α * σ - t / γ = -(σ * (1 / γ * (|t| - α * γ))) := by
        have e7 : t / γ = σ * |t| / γ := by rw [hσt]
        rw [e7]; field_simp; ring
      rw [this, abs_neg, abs_mul, hσ1, one_mul, abs_mul, abs_of_pos (by positivity : 0 < 1 / γ)]
    obtain ⟨b, hb1, hb2⟩ := p1
    have dabs : Den (Scalar.abs w) |t| := Pr.abs _ _ dw
    have hb3 := abs_le.mp hb2
    have r4 : d3 * e + 1 / γ * (d1 * e) ≤ C * c * e := by
      have r1 : 1 / γ * (d1 * e) ≤ B * (d1 * e) := mul_le_mul_of_nonneg_right hγi (mul_nonneg (by linarith) he.le)
      have r2 : (d1 * e) ≤ d3 * e := mul_le_mul_of_nonneg_right (by linarith) he.le
      have r3 : B * (d1 * e) ≤ B * (d3 * e) := mul_le_mul_of_nonneg_left r2 (by linarith)
      have r5 : (1 + B) * (d3 * e) ≤ K * (d3 * e) :=
        mul_le_mul_of_nonneg_right (by have := kk.poly.2; linarith) (mul_nonneg (by linarith) he.le)
      have r6 : K * (d3 * e) = d4 * e := by rw [e4]; ring
      have r7 : d4 * e ≤ C * c * e := by rw [← eC]; exact mul_le_mul_of_nonneg_right (by linarith) he.le
      linarith
    have hdd : 0 ≤ 1 / γ * (d1 * e) := by
      have : 0 ≤ d1 * e := mul_nonneg (by linarith) he.le
      positivity
    by_cases hbr : |t| < b
    · rw [if_pos ((den_lt dabs hb1).mpr hbr)]
      by_cases hbr2 : |t| < α * γ
      · rw [if_pos hbr2]
        exact (Consts.abs Pr p5).mono he.le (by linarith)
      · rw [if_neg hbr2]
        obtain ⟨z, hz, hz2⟩ := Consts.abs Pr p5
        refine ⟨z, hz, ?_⟩
        have n1 : |(|t| - α * γ)| ≤ d1 * e := by rw [abs_of_nonneg (by linarith [not_lt.mp hbr2])]; linarith
        have n2 := hbd.trans (mul_le_mul_of_nonneg_left n1 (by positivity : 0 ≤ 1 / γ))
        have n3 : |(|G + α * σ - t / γ| - |G|)| ≤ |α * σ - t / γ| := by
          refine (abs_abs_sub_abs_le _ _).trans (le_of_eq ?_)
          congr 1; ring
        have n4 := abs_sub_le z |G + α * σ - t / γ| |G|
        linarith
    · rw [if_neg fun h => hbr ((den_lt dabs hb1).mp h)]
      by_cases hbr2 : |t| < α * γ
      · rw [if_pos hbr2]
        obtain ⟨z, hz, hz2⟩ := Consts.abs Pr ag'
        refine ⟨z, hz, ?_⟩
        have n1 : |(|t| - α * γ)| ≤ d1 * e := by rw [abs_of_neg (by linarith)]; linarith [not_lt.mp hbr]
        have n2 := hbd.trans (mul_le_mul_of_nonneg_left n1 (by positivity : 0 ≤ 1 / γ))
        have n3 : |(|G| - |G + α * σ - t / γ|)| ≤ |α * σ - t / γ| := by
          refine (abs_abs_sub_abs_le _ _).trans (le_of_eq ?_)
          rw [← abs_neg]; congr 1; ring
        have n4 := abs_sub_le z |G| |G + α * σ - t / γ|
        have n5 : c1 * c * e ≤ d3 * e := mul_le_mul_of_nonneg_right (by linarith) he.le
        linarith
      · rw [if_neg hbr2]
        exact (Consts.abs Pr ag').mono he.le (by linarith)

end
end Sglm
