import Verif.Proofs.Approx
import Verif.Proofs.Converge
import Verif.Proofs.Safe
import Verif.Spec.FloatProblem

/-!
# Penalties in floating point
-/

set_option linter.unusedSectionVars false

namespace Sglm
open Scalar Spec

section
variable {F P : Type} [Scalar F] [LawfulCmp F]

/-- The penalty computes almost proximal points, and scores up to `C e`, while magnitudes are below `B`. -/
structure PenApx [Penalty F P] (e B C : ℝ) (pn : P) (φ : ℝ → ℝ) (sc : ℝ → ℝ → ℝ) : Prop where
  safe : SafePen pn
  prox : ∀ (v s : F) (V L c : ℝ), 1 ≤ c → C * c * e ≤ 1 → |V| ≤ B → 1 / B ≤ L → L ≤ B → Apx e v V c → Apx e s (1 / L) c →
    Ok (Penalty.prox pn v s) (fun x => ∃ t, Den x t ∧ ∃ g ∈ subdiff φ t, |L * (V - t) - g| ≤ C * c * e)
  dist : ∃ fn : F → F → F, Penalty.subdiffDistance pn = sepDistances fn ∧
    ∀ (w g : F) (t G c : ℝ), 1 ≤ c → C * c * e ≤ 1 → |t| ≤ B → |G| ≤ B → Den w t → Apx e g G c → Apx e (fn w g) (sc t G) (C * c)

theorem PenApx.mono [Penalty F P] {e B C C' : ℝ} {pn : P} {φ : ℝ → ℝ} {sc : ℝ → ℝ → ℝ} (h : PenApx e B C pn φ sc) (he : 0 ≤ e)
    (hC : C ≤ C') : PenApx e B C' pn φ sc := by
  have key : ∀ c : ℝ, 1 ≤ c → C * c * e ≤ C' * c * e := fun c hc =>
    mul_le_mul_of_nonneg_right (mul_le_mul_of_nonneg_right hC (by linarith)) he
  refine ⟨h.safe, fun v s V L c h1 h2 h3 h4 h5 h6 h7 => ?_, ?_⟩
  · refine Tri.mono (h.prox v s V L c h1 ((key c h1).trans h2) h3 h4 h5 h6 h7) ?_
    rintro x ⟨t, h8, g, h9, h10⟩
    exact ⟨t, h8, g, h9, h10.trans (key c h1)⟩
  · obtain ⟨fn, e1, h8⟩ := h.dist
    exact ⟨fn, e1, fun w g t G c h1 h2 h3 h4 h5 h6 => (h8 w g t G c h1 ((key c h1).trans h2) h3 h4 h5 h6).mono he
      (mul_le_mul_of_nonneg_right hC (by linarith))⟩

/-- Subgradients near an approximate proximal point. -/
theorem subgrad_near {a b L V t δ : ℝ} (ha : 0 ≤ a) (hb : 0 ≤ b) (hδ : 0 ≤ δ)
    (h : (0 < t ∧ |L * V - a - (L + b) * t| ≤ δ) ∨ (t < 0 ∧ |L * V + a - (L + b) * t| ≤ δ) ∨ (t = 0 ∧ |L * V| ≤ a + δ)) :
    ∃ g ∈ subdiff (pen2 a b) t, |L * (V - t) - g| ≤ δ := by
  have hne : ∀ t : ℝ, t ≠ 0 → ((a / ‖t‖ + b) • t) ∈ subdiff (pen2 a b) t := fun t ht => by
    have h1 := subdiff_enet_ne ha hb ht
    rw [show subdiff (pen2 a b) t = _ from h1]
    rfl
  rcases h with ⟨ht, h⟩ | ⟨ht, h⟩ | ⟨rfl, h⟩
  · refine ⟨_, hne t ht.ne', ?_⟩
    have e1 : (a / ‖t‖ + b) • t = a + b * t := by
      rw [Real.norm_eq_abs, abs_of_pos ht, smul_eq_mul]; field_simp
    rw [e1, show L * (V - t) - (a + b * t) = L * V - a - (L + b) * t by ring]
    exact h
  · refine ⟨_, hne t ht.ne, ?_⟩
    have e1 : (a / ‖t‖ + b) • t = -a + b * t := by
      rw [Real.norm_eq_abs, abs_of_neg ht, smul_eq_mul]
      have : t ≠ 0 := ht.ne
      field_simp
    rw [e1, show L * (V - t) - (-a + b * t) = L * V + a - (L + b) * t by ring]
    exact h
  · rw [sub_zero]
    have hball : ∀ g : ℝ, |g| ≤ a → g ∈ subdiff (pen2 a b) (0 : ℝ) := fun g hg => by
      have h1 := subdiff_enet_zero (E := ℝ) ha hb
      rw [show subdiff (pen2 a b) (0 : ℝ) = _ from h1, mem_closedBall_zero_iff]
      exact hg
    rcases le_or_gt (L * V) a with h1 | h1
    · rcases le_or_gt (-a) (L * V) with h2 | h2
      · exact ⟨L * V, hball _ (abs_le.mpr ⟨h2, h1⟩), by rw [sub_self, abs_zero]; exact hδ⟩
      · refine ⟨-a, hball _ (by rw [abs_neg, abs_of_nonneg ha]), ?_⟩
        have := (abs_le.mp h).1
        rw [abs_le]; constructor <;> linarith
    · refine ⟨a, hball _ (by rw [abs_of_nonneg ha]), ?_⟩
      have := (abs_le.mp h).2
      rw [abs_le]; constructor <;> linarith

theorem den_lt {x y : F} {r s : ℝ} (hx : Den x r) (hy : Den y s) : (x <. y) = true ↔ r < s := by
  rw [LawfulCmp.lt_iff]
  constructor
  · rintro ⟨a, b, h1, h2, h3⟩
    unfold Den at hx hy
    rw [hx] at h1; rw [hy] at h2
    injection h1 with h1; injection h2 with h2
    rw [← h1, ← h2] at h3
    exact EReal.coe_lt_coe_iff.mp h3
  · exact fun h => ⟨_, _, hx, hy, EReal.coe_lt_coe_iff.mpr h⟩

theorem den_le {x y : F} {r s : ℝ} (hx : Den x r) (hy : Den y s) : (x <=. y) = true ↔ r ≤ s := by
  rw [LawfulCmp.le_iff]
  constructor
  · rintro ⟨a, b, h1, h2, h3⟩
    unfold Den at hx hy
    rw [hx] at h1; rw [hy] at h2
    injection h1 with h1; injection h2 with h2
    rw [← h1, ← h2] at h3
    exact EReal.coe_le_coe_iff.mp h3
  · exact fun h => ⟨_, _, hx, hy, EReal.coe_le_coe_iff.mpr h⟩

theorem den_beq {x y : F} {r s : ℝ} (hx : Den x r) (hy : Den y s) : (x ==. y) = true ↔ r = s := by
  rw [LawfulCmp.beq_iff]
  constructor
  · rintro ⟨a, b, h1, h2, h3⟩
    unfold Den at hx hy
    rw [hx] at h1; rw [hy] at h2
    injection h1 with h1; injection h2 with h2
    rw [← h1, ← h2] at h3
    exact EReal.coe_eq_coe_iff.mp h3
  · exact fun h => ⟨_, _, hx, hy, EReal.coe_eq_coe_iff.mpr h⟩

variable {e B K : ℝ} {N : ℕ}

theorem sign_of_rel {q t : ℝ} (he : e ≤ 1 / 10) (hq : 0 < q) (h : |t - q| ≤ e * |q|) : 0 < t := by
  rw [abs_of_pos hq] at h
  have := (abs_le.mp h).1
  nlinarith

/-- Soft thresholding. -/
theorem soft_apx (kk : Consts e B K N) (Pr : Precise F e) {v τ : F} {V θ c : ℝ} (hv : Apx e v V c) (hτ : Apx e τ θ c)
    (hc : 1 ≤ c) (h1 : |V - θ| ≤ B) (h2 : |V + θ| ≤ B) (hs : K * c * e ≤ 1) :
    ∃ t, Den (softThresholding v τ) t ∧ ((0 < t ∧ |t - (V - θ)| ≤ K * c * e) ∨ (t < 0 ∧ |t - (V + θ)| ≤ K * c * e) ∨
      (t = 0 ∧ |V| ≤ θ + K * c * e)) := by
  have d1 := kk.sub Pr hv hτ hc h1 hs
  have d2 := kk.add Pr hv hτ hc h2 hs
  obtain ⟨v', a1, a2⟩ := hv
  obtain ⟨τ', b1, b2⟩ := hτ
  have he := kk.e0
  obtain ⟨hcp, hKc, hce⟩ := kk.small hc hs
  have he1 : e ≤ 1 / 10 := by nlinarith
  have hB := kk.B1
  obtain ⟨-, hK⟩ := kk.poly
  unfold softThresholding
  by_cases c1 : τ' < v'
  · rw [if_pos ((den_lt b1 a1).mpr c1)]
    obtain ⟨t, ht, ht2⟩ := d1
    refine ⟨t, ht, Or.inl ⟨?_, ht2⟩⟩
    exact sign_of_rel he1 (by linarith : 0 < v' - τ') ((Pr.sub _ _ _ _ a1 b1).2 t ht)
  · rw [if_neg fun h => c1 ((den_lt b1 a1).mp h)]
    by_cases c2 : v' < -τ'
    · rw [if_pos ((den_lt a1 (Pr.neg _ _ b1)).mpr c2)]
      obtain ⟨t, ht, ht2⟩ := d2
      refine ⟨t, ht, Or.inr (Or.inl ⟨?_, ht2⟩)⟩
      have h := (Pr.add _ _ _ _ a1 b1).2 t ht
      have := sign_of_rel (q := -(v' + τ')) (t := -t) he1 (by linarith) (by
        rw [show -t - -(v' + τ') = -(t - (v' + τ')) by ring, abs_neg, abs_neg]; exact h)
      linarith
    · rw [if_neg fun h => c2 ((den_lt a1 (Pr.neg _ _ b1)).mp h)]
      refine ⟨0, den_zero, Or.inr (Or.inr ⟨rfl, ?_⟩)⟩
      rw [not_lt] at c1 c2
      have a3 := abs_le.mp a2
      have b3 := abs_le.mp b2
      have h2c : 2 * (c * e) ≤ K * c * e := by rw [mul_assoc]; nlinarith
      rw [abs_le]
      constructor <;> linarith [a3.1, a3.2, b3.1, b3.2]

/-- Sign of a nonzero number. -/
theorem signum_apx (Pr : Precise F e) {w : F} {t c : ℝ} (hw : Den w t) (h0 : t ≠ 0) (hc : 0 ≤ c) :
    Apx e (signum w) (if t < 0 then -1 else 1) c := by
  rcases lt_or_gt_of_ne h0 with h | h
  · rw [if_pos h]; exact Den.apx Pr.pos.le (Pr.signum_neg w t hw h) hc
  · rw [if_neg (not_lt.mpr h.le)]; exact Den.apx Pr.pos.le (Pr.signum_pos w t hw h) hc

theorem abs_sign_le (t : ℝ) : |(if t < 0 then -1 else 1 : ℝ)| = 1 := by split <;> simp

/-- Magnitudes and constants of the penalties. -/
structure PMags (e B B' K c1 C : ℝ) (N : ℕ) : Prop where
  kk : Consts e B' K N
  hB : 1 ≤ B
  hB' : 4 * B ^ 3 ≤ B'
  hc1 : c1 = B' + 1
  hC : C = K * (K * (K * (K * (K * (K * c1)))))
  hCe : C * e ≤ 1

namespace PMags
variable {B' c1 C : ℝ} (h : PMags e B B' K c1 C N)
include h

theorem sizes : B ≤ B' ∧ B ^ 2 ≤ B' ∧ B ^ 3 ≤ B' ∧ B + B ^ 2 ≤ B' ∧ B + B ^ 3 ≤ B' ∧ 1 + B ^ 2 ≤ B' ∧ 1 ≤ B' := by
  have hB := h.hB
  have hB' := h.hB'
  have h2 : B ≤ B ^ 2 := by nlinarith
  have h3 : B ^ 2 ≤ B ^ 3 := by
    have : B ^ 3 = B ^ 2 * B := by ring
    nlinarith [sq_nonneg B]
  refine ⟨?_, ?_, ?_, ?_, ?_, ?_, ?_⟩ <;> linarith

/-- Powers of `K`. -/
theorem chain {d : ℝ} (hd : 1 ≤ d) : 1 ≤ K * d ∧ d ≤ K * d := by
  have := h.kk.K1
  constructor <;> nlinarith

theorem steps {c : ℝ} (hc : 1 ≤ c) (hs : C * c * e ≤ 1) : ∃ d1 d2 d3 d4 d5 d6 : ℝ,
    c ≤ c1 * c ∧ 1 ≤ c1 * c ∧ c1 ≤ c1 * c ∧ d1 = K * (c1 * c) ∧ d2 = K * d1 ∧ d3 = K * d2 ∧ d4 = K * d3 ∧ d5 = K * d4 ∧ d6 = K * d5 ∧
    c1 * c ≤ d1 ∧ d1 ≤ d2 ∧ d2 ≤ d3 ∧ d3 ≤ d4 ∧ d4 ≤ d5 ∧ d5 ≤ d6 ∧ d6 = C * c ∧
    d1 * e ≤ 1 ∧ d2 * e ≤ 1 ∧ d3 * e ≤ 1 ∧ d4 * e ≤ 1 ∧ d5 * e ≤ 1 := by
  have he := h.kk.e0
  have hc1 : 1 ≤ c1 := by have := h.kk.B1; linarith [h.hc1]
  have a0 : 1 ≤ c1 * c := by nlinarith
  have a1 := h.chain a0
  have a2 := h.chain a1.1
  have a3 := h.chain a2.1
  have a4 := h.chain a3.1
  have a5 := h.chain a4.1
  have a6 := h.chain a5.1
  have eC : C * c = K * (K * (K * (K * (K * (K * (c1 * c)))))) := by rw [h.hC]; ring
  rw [eC] at hs
  have sm : ∀ {d : ℝ}, d ≤ K * (K * (K * (K * (K * (K * (c1 * c)))))) → d * e ≤ 1 := fun hd =>
    (mul_le_mul_of_nonneg_right hd he.le).trans hs
  exact ⟨_, _, _, _, _, _, by nlinarith, a0, by nlinarith, rfl, rfl, rfl, rfl, rfl, rfl, a1.2, a2.2, a3.2, a4.2, a5.2, a6.2, eC.symm,
    sm (by linarith), sm (by linarith), sm (by linarith), sm (by linarith), sm (by linarith)⟩

end PMags

/-- The lasso penalty. -/
theorem l1_apx {α B' c1 C : ℝ} (hα : 0 ≤ α) (hαB : α ≤ B) (h : PMags e B B' K c1 C N) (Pr : Precise F e)
    {a : F} (ha : Stores e a α) : PenApx e B C (L1.mk a) (Pen.l1 α).fn (scoreOf (.l1 α)) := by
  have kk := h.kk
  have he := Pr.pos
  have hB := h.hB
  obtain ⟨s1, s2, s3, s4, s5, s6, s7⟩ := h.sizes
  have aα : Apx e a α c1 := ha.apx he.le (by rw [abs_of_nonneg hα]; linarith) h.hc1.ge
  have hKB : B' ≤ K := by have := kk.poly.2; linarith
  refine ⟨safe_L1 _, ?_, _, rfl, ?_⟩
  · intro v s V L c hc hs hV hL hL2 av as
    obtain ⟨d1, d2, d3, d4, d5, d6, k0, k1, k2, rfl, rfl, rfl, rfl, rfl, e6, l1, l2, l3, l4, l5, l6, eC, m1, m2, m3, m4, m5⟩ := h.steps hc hs
    have hL0 : 0 < L := lt_of_lt_of_le (by positivity) hL
    have hLi : 1 / L ≤ B := by
      rw [div_le_iff₀ hL0]
      rw [div_le_iff₀ (by linarith)] at hL
      linarith
    have hLi0 : 0 < 1 / L := by positivity
    have q : α * (1 / L) ≤ B ^ 2 := by rw [pow_two]; exact mul_le_mul hαB hLi hLi0.le (by linarith)
    have q0 : 0 ≤ α * (1 / L) := by positivity
    have t1 := kk.mul Pr (aα.mono he.le k2) (as.mono he.le k0) k1 (by rw [abs_of_nonneg hα]; linarith)
      (by rw [abs_of_pos hLi0]; linarith) m1
    have hV' := abs_le.mp hV
    obtain ⟨t, ht, hcase⟩ := soft_apx kk Pr (av.mono he.le (k0.trans l1)) t1 (by linarith)
      (abs_le.mpr ⟨by linarith [hV'.1], by linarith [hV'.2]⟩) (abs_le.mpr ⟨by linarith [hV'.1], by linarith [hV'.2]⟩) m2
    show ∃ t, Den (L1.prox _ v s) t ∧ _
    refine ⟨t, ht, ?_⟩
    have e1 : (Pen.l1 α).fn = pen2 α 0 := by
      funext z; show α * |z| = α * ‖z‖ + 0 * ‖z‖ ^ 2 / 2; rw [Real.norm_eq_abs]; ring
    rw [e1]
    have fin : L * (K * (K * (c1 * c)) * e) ≤ C * c * e := by
      have : L * (K * (K * (c1 * c)) * e) ≤ K * (K * (K * (c1 * c)) * e) :=
        mul_le_mul_of_nonneg_right (by linarith) (mul_nonneg (by linarith) he.le)
      have h2 : K * (K * (K * (c1 * c))) * e ≤ C * c * e := mul_le_mul_of_nonneg_right (by linarith) he.le
      linarith
    refine subgrad_near hα le_rfl (by linarith [mul_nonneg hL0.le (mul_nonneg (by linarith : 0 ≤ K * (K * (c1 * c))) he.le)]) ?_
    rcases hcase with ⟨h1, h2⟩ | ⟨h1, h2⟩ | ⟨h1, h2⟩
    · refine Or.inl ⟨h1, le_trans ?_ fin⟩
      have : L * V - α - (L + 0) * t = -(L * (t - (V - α * (1 / L)))) := by field_simp; ring
      rw [this, abs_neg, abs_mul, abs_of_pos hL0]
      exact mul_le_mul_of_nonneg_left h2 hL0.le
    · refine Or.inr (Or.inl ⟨h1, le_trans ?_ fin⟩)
      have : L * V + α - (L + 0) * t = -(L * (t - (V + α * (1 / L)))) := by field_simp; ring
      rw [this, abs_neg, abs_mul, abs_of_pos hL0]
      exact mul_le_mul_of_nonneg_left h2 hL0.le
    · refine Or.inr (Or.inr ⟨h1, ?_⟩)
      rw [abs_mul, abs_of_pos hL0]
      have := mul_le_mul_of_nonneg_left h2 hL0.le
      have e2 : L * (α * (1 / L) + K * (K * (c1 * c)) * e) = α + L * (K * (K * (c1 * c)) * e) := by field_simp
      rw [e2] at this
      linarith
  · intro w g t G c hc hs ht hG dw ag
    obtain ⟨d1, d2, d3, d4, d5, d6, k0, k1, k2, rfl, rfl, rfl, rfl, rfl, e6, l1, l2, l3, l4, l5, l6, eC, m1, m2, m3, m4, m5⟩ := h.steps hc hs
    unfold L1.dist
    show Apx e _ (l1Score α t G) _
    unfold l1Score
    have hG0 := abs_nonneg G
    by_cases h0 : t = 0
    · rw [if_pos ((den_beq dw den_zero).mpr h0), if_pos h0]
      have t1 := kk.sub Pr ((Consts.abs Pr ag).mono he.le k0) (aα.mono he.le k2) k1 (abs_le.mpr ⟨by linarith, by linarith⟩) m1
      exact (Consts.max (Den.apx he.le den_zero (by linarith)) t1).mono he.le (by linarith)
    · rw [if_neg fun h => h0 ((den_beq dw den_zero).mp h), if_neg h0]
      have t1 := kk.mul Pr (signum_apx Pr dw h0 (by linarith : 0 ≤ c1 * c)) (aα.mono he.le k2) k1
        (by rw [abs_sign_le]; exact s7) (by rw [abs_of_nonneg hα]; linarith) m1
      have b1 : |(if t < 0 then -1 else 1) * α| = α := by rw [abs_mul, abs_sign_le, one_mul, abs_of_nonneg hα]
      have t2 := kk.sub Pr ((Consts.neg Pr ag).mono he.le (k0.trans l1)) t1 (by linarith) (by
        refine (abs_sub _ _).trans ?_
        rw [abs_neg, b1]
        nlinarith) m2
      exact (Consts.abs Pr t2).mono he.le (by linarith)

theorem enet_real {α ρ L V x η : ℝ} (hL : 0 < L) (hb : 0 ≤ α * (1 - ρ)) (σ : ℝ)
    (h : |x - (V - σ * (ρ * α * (1 / L))) / (1 + 1 / L * (1 - ρ) * α)| ≤ η) :
    |L * V - σ * (α * ρ) - (L + α * (1 - ρ)) * x| ≤ (L + α * (1 - ρ)) * η := by
  have hLb0 : 0 < L + α * (1 - ρ) := by linarith
  have hh : 1 + 1 / L * (1 - ρ) * α ≠ 0 := by
    have : 1 + 1 / L * (1 - ρ) * α = (L + α * (1 - ρ)) / L := by field_simp
    rw [this]; positivity
  have e1 : (V - σ * (ρ * α * (1 / L))) / (1 + 1 / L * (1 - ρ) * α) = (L * V - σ * (α * ρ)) / (L + α * (1 - ρ)) := by
    rw [div_eq_div_iff hh hLb0.ne']; field_simp
  have eq : L * V - σ * (α * ρ) - (L + α * (1 - ρ)) * x =
      -((L + α * (1 - ρ)) * (x - (V - σ * (ρ * α * (1 / L))) / (1 + 1 / L * (1 - ρ) * α))) := by
    rw [e1]; field_simp; ring
  rw [eq, abs_neg, abs_mul, abs_of_pos hLb0]
  exact mul_le_mul_of_nonneg_left h hLb0.le

section
variable {α ρ B' c1 C : ℝ} (hα : 0 ≤ α) (hρ : 0 ≤ ρ) (hρ1 : ρ ≤ 1) (hαB : α ≤ B) (h : PMags e B B' K c1 C N)
  (Pr : Precise F e) {a r : F} (ha : Stores e a α) (hr : Stores e r ρ)
include hα hρ hρ1 hαB h Pr ha hr

/-- Denominator and threshold of the elastic net. -/
theorem enet_parts {s : F} {L c : ℝ} (hL : 1 / B ≤ L) (k0 : c ≤ c1 * c) (k1 : 1 ≤ c1 * c) (k2 : c1 ≤ c1 * c)
    (as : Apx e s (1 / L) c) (m : K * (K * (K * (K * (c1 * c)))) * e ≤ 1) :
    Apx e (r *. a *. s) (ρ * α * (1 / L)) (K * (K * (c1 * c))) ∧
    Apx e (one +. s *. (one -. r) *. a) (1 + 1 / L * (1 - ρ) * α) (K * (K * (K * (K * (c1 * c))))) ∧
    0 ≤ ρ * α * (1 / L) ∧ ρ * α * (1 / L) ≤ B ^ 2 ∧ 0 ≤ 1 / L * (1 - ρ) * α := by
  have kk := h.kk
  have he := Pr.pos
  have hB := h.hB
  obtain ⟨s1, s2, s3, s4, s5, s6, s7⟩ := h.sizes
  have bα : |α| ≤ B' := by rw [abs_of_nonneg hα]; linarith
  have bρ : |ρ| ≤ B' := by rw [abs_of_nonneg hρ]; linarith
  have aα : Apx e a α c1 := ha.apx he.le bα h.hc1.ge
  have aρ : Apx e r ρ c1 := hr.apx he.le bρ h.hc1.ge
  have hσ0 : 0 ≤ 1 - ρ := by linarith
  have aone : ∀ {d : ℝ}, 0 ≤ d → Apx e (one : F) 1 d := fun hd => Den.apx he.le Pr.one hd
  have bσ : |1 - ρ| ≤ B' := by rw [abs_of_nonneg hσ0]; linarith
  have hL0 : 0 < L := lt_of_lt_of_le (by positivity) hL
  have hLi : 1 / L ≤ B := by
    rw [div_le_iff₀ hL0]
    rw [div_le_iff₀ (by linarith)] at hL
    linarith
  have hLi0 : 0 < 1 / L := by positivity
  have bLi : |1 / L| ≤ B' := by rw [abs_of_pos hLi0]; linarith
  obtain ⟨l1, -⟩ := h.chain k1
  obtain ⟨l1', l2⟩ := h.chain l1
  obtain ⟨l2', l3⟩ := h.chain l1'
  obtain ⟨l3', l4⟩ := h.chain l2'
  have l0 := (h.chain k1).2
  have sm : ∀ {d : ℝ}, d ≤ K * (K * (K * (K * (c1 * c)))) → d * e ≤ 1 := fun hd =>
    (mul_le_mul_of_nonneg_right hd he.le).trans m
  have q1 : ρ * α ≤ B := by nlinarith
  have q10 : 0 ≤ ρ * α := by positivity
  have q : ρ * α * (1 / L) ≤ B ^ 2 := by rw [pow_two]; exact mul_le_mul q1 hLi hLi0.le (by linarith)
  have q0 : 0 ≤ ρ * α * (1 / L) := by positivity
  have t1 := kk.mul Pr (aρ.mono he.le k2) (aα.mono he.le k2) k1 bρ bα (sm (by linarith))
  have t2 := kk.mul Pr t1 (as.mono he.le (k0.trans l0)) l1 (by rw [abs_of_nonneg q10]; linarith) bLi (sm (by linarith))
  have u1 := kk.sub Pr (aone (by linarith)) (aρ.mono he.le k2) k1 bσ (sm (by linarith))
  have u2 := kk.mul Pr (as.mono he.le (k0.trans l0)) u1 l1 bLi bσ (sm (by linarith))
  have hsig : 1 / L * (1 - ρ) ≤ B := by nlinarith
  have hsig0 : 0 ≤ 1 / L * (1 - ρ) := by positivity
  have u3 := kk.mul Pr u2 (aα.mono he.le (by linarith)) l1' (by rw [abs_of_nonneg hsig0]; linarith) bα (sm (by linarith))
  have hden : 1 / L * (1 - ρ) * α ≤ B ^ 2 := by rw [pow_two]; exact mul_le_mul hsig hαB hα (by linarith)
  have hden0 : 0 ≤ 1 / L * (1 - ρ) * α := by positivity
  have u4 := kk.add Pr (aone (by linarith)) u3 l2' (by rw [abs_of_nonneg (by linarith)]; linarith) m
  exact ⟨t2, u4, q0, q, hden0⟩

theorem enet_prox_apx (v s : F) (V L c : ℝ) (hc : 1 ≤ c) (hs : C * c * e ≤ 1) (hV : |V| ≤ B) (hL : 1 / B ≤ L) (hL2 : L ≤ B)
    (av : Apx e v V c) (as : Apx e s (1 / L) c) :
    ∃ t, Den ((L1PlusL2.mk a r).prox v s) t ∧ ∃ g ∈ subdiff (pen2 (α * ρ) (α * (1 - ρ))) t, |L * (V - t) - g| ≤ C * c * e := by
  have kk := h.kk
  have he := Pr.pos
  have hB := h.hB
  obtain ⟨s1, s2, s3, s4, s5, s6, s7⟩ := h.sizes
  have hKB : B' ≤ K := by have := kk.poly.2; linarith
  have hKB2 : 2 * B ≤ K := by have := h.hB'; nlinarith [kk.poly.2]
  obtain ⟨d1, d2, d3, d4, d5, d6, k0, k1, k2, rfl, rfl, rfl, rfl, e5, e6, l1, l2, l3, l4, l5, l6, eC, m1, m2, m3, m4, m5⟩ := h.steps hc hs
  obtain ⟨t2, u4, q0, q, hden0⟩ := enet_parts hα hρ hρ1 hαB h Pr ha hr hL k0 k1 k2 as m4
  have hL0 : 0 < L := lt_of_lt_of_le (by positivity) hL
  obtain ⟨dv, du, du2⟩ := id u4
  have hdpos : 0 < dv := by
    have h1 := (abs_le.mp du2).1
    have h2 := (kk.small (c := K * (K * (K * (K * (c1 * c))))) (by linarith) (by rw [← e5]; exact m5)).2.2
    linarith
  have hV' := abs_le.mp hV
  have v1 : |V - ρ * α * (1 / L)| ≤ B' := abs_le.mpr ⟨by linarith [hV'.1], by linarith [hV'.2]⟩
  have v2 : |V + ρ * α * (1 / L)| ≤ B' := abs_le.mpr ⟨by linarith [hV'.1], by linarith [hV'.2]⟩
  obtain ⟨t, ht, hcase⟩ := soft_apx kk Pr (av.mono he.le (by linarith)) t2 (by linarith) v1 v2 m3
  have hαρ0 : 0 ≤ α * ρ := by positivity
  have hb0 : 0 ≤ α * (1 - ρ) := mul_nonneg hα (by linarith)
  have hbB : α * (1 - ρ) ≤ B := by nlinarith
  have hLb : L + α * (1 - ρ) ≤ K := by linarith
  have hLb0 : 0 < L + α * (1 - ρ) := by linarith
  have hδ : 0 ≤ C * c * e := by rw [← eC]; exact mul_nonneg (by linarith) he.le
  have fin : (L + α * (1 - ρ)) * (d5 * e) ≤ C * c * e := by
    rw [← eC, e6, mul_assoc K _ e]
    exact mul_le_mul_of_nonneg_right hLb (mul_nonneg (by linarith) he.le)
  have fin0 : L * (K * (K * (K * (c1 * c))) * e) ≤ C * c * e := by
    refine le_trans ?_ fin
    refine mul_le_mul (by linarith) (mul_le_mul_of_nonneg_right (by linarith) he.le) (mul_nonneg (by linarith) he.le) hLb0.le
  have hdd : (1 : ℝ) / B' ≤ |1 + 1 / L * (1 - ρ) * α| := by
    rw [abs_of_nonneg (by linarith), div_le_iff₀ (by linarith)]
    nlinarith
  have m5' : K * (K * (K * (K * (K * (c1 * c))))) * e ≤ 1 := by rw [← e5]; exact m5
  unfold L1PlusL2.prox
  dsimp only
  rcases hcase with ⟨h1, h2⟩ | ⟨h1, h2⟩ | ⟨h1, h2⟩
  · obtain ⟨x, hx, hx2⟩ := kk.div Pr (r := V - ρ * α * (1 / L)) (c := K * (K * (K * (K * (c1 * c)))))
      (Apx.mono he.le ⟨t, ht, h2⟩ (by linarith)) u4 (by linarith) v1 hdd m5'
    refine ⟨x, hx, subgrad_near hαρ0 hb0 hδ ?_⟩
    have hsg := Pr.div_sign _ _ _ _ _ ht du hdpos.ne' hx
    have hq : 0 < t / dv := div_pos h1 hdpos
    have hx0 : 0 ≤ x := nonneg_of_mul_nonneg_left hsg hq
    have hb := (enet_real hL0 hb0 1 (η := d5 * e) (by rw [one_mul, e5]; exact hx2)).trans fin
    rw [one_mul] at hb
    rcases hx0.eq_or_lt with h0 | h0
    · refine Or.inr (Or.inr ⟨h0.symm, ?_⟩)
      rw [← h0, mul_zero, sub_zero] at hb
      have := abs_le.mp hb
      rw [abs_le]; constructor <;> linarith [this.1, this.2]
    · exact Or.inl ⟨h0, hb⟩
  · obtain ⟨x, hx, hx2⟩ := kk.div Pr (r := V + ρ * α * (1 / L)) (c := K * (K * (K * (K * (c1 * c)))))
      (Apx.mono he.le ⟨t, ht, h2⟩ (by linarith)) u4 (by linarith) v2 hdd m5'
    refine ⟨x, hx, subgrad_near hαρ0 hb0 hδ ?_⟩
    have hsg := Pr.div_sign _ _ _ _ _ ht du hdpos.ne' hx
    have hq : t / dv < 0 := div_neg_of_neg_of_pos h1 hdpos
    have hx0 : x ≤ 0 := by
      by_contra hc
      rw [not_le] at hc
      have := mul_neg_of_pos_of_neg hc hq
      linarith
    have hb := (enet_real hL0 hb0 (-1) (η := d5 * e) (by rw [neg_one_mul, sub_neg_eq_add, e5]; exact hx2)).trans fin
    rw [neg_one_mul, sub_neg_eq_add] at hb
    rcases hx0.eq_or_lt with h0 | h0
    · refine Or.inr (Or.inr ⟨h0, ?_⟩)
      rw [h0, mul_zero, sub_zero] at hb
      have := abs_le.mp hb
      rw [abs_le]; constructor <;> linarith [this.1, this.2]
    · exact Or.inr (Or.inl ⟨h0, hb⟩)
  · subst h1
    refine ⟨0, Pr.div_zero _ _ _ ht du hdpos.ne', subgrad_near hαρ0 hb0 hδ (Or.inr (Or.inr ⟨rfl, ?_⟩))⟩
    rw [abs_mul, abs_of_pos hL0]
    have := mul_le_mul_of_nonneg_left h2 hL0.le
    have e2 : L * (ρ * α * (1 / L) + K * (K * (K * (c1 * c))) * e) = α * ρ + L * (K * (K * (K * (c1 * c))) * e) := by
      rw [mul_add]; field_simp
    rw [e2] at this
    linarith

theorem enet_dist_apx (w g : F) (t G c : ℝ) (hc : 1 ≤ c) (hs : C * c * e ≤ 1) (ht : |t| ≤ B) (hG : |G| ≤ B) (dw : Den w t)
    (ag : Apx e g G c) : Apx e ((L1PlusL2.mk a r).dist w g) (enetScore α ρ t G) (C * c) := by
  have kk := h.kk
  have he := Pr.pos
  have hB := h.hB
  obtain ⟨s1, s2, s3, s4, s5, s6, s7⟩ := h.sizes
  have bα : |α| ≤ B' := by rw [abs_of_nonneg hα]; linarith
  have bρ : |ρ| ≤ B' := by rw [abs_of_nonneg hρ]; linarith
  have aα : Apx e a α c1 := ha.apx he.le bα h.hc1.ge
  have aρ : Apx e r ρ c1 := hr.apx he.le bρ h.hc1.ge
  have hαρ : α * ρ ≤ B := by nlinarith
  have hαρ0 : 0 ≤ α * ρ := by positivity
  have hσ0 : 0 ≤ 1 - ρ := by linarith
  have aone : ∀ {d : ℝ}, 0 ≤ d → Apx e (one : F) 1 d := fun hd => Den.apx he.le Pr.one hd
  have bσ : |1 - ρ| ≤ B' := by rw [abs_of_nonneg hσ0]; linarith
  have hB2 := h.hB'
  have hB3 : 2 * B + B ^ 2 ≤ B' := by nlinarith [mul_nonneg (sq_nonneg B) (by linarith : 0 ≤ B - 1)]
  have hB1 : B ≤ B ^ 2 := by nlinarith
  have hB0 : 0 ≤ B ^ 2 := sq_nonneg B
  obtain ⟨d1, d2, d3, d4, d5, d6, k0, k1, k2, rfl, rfl, rfl, rfl, rfl, e6, l1, l2, l3, l4, l5, l6, eC, m1, m2, m3, m4, m5⟩ := h.steps hc hs
  unfold L1PlusL2.dist enetScore
  have hG0 := abs_nonneg G
  by_cases h0 : t = 0
  · rw [if_pos ((den_beq dw den_zero).mpr h0), if_pos h0]
    have t1 := kk.mul Pr (aα.mono he.le k2) (aρ.mono he.le k2) k1 bα bρ m1
    have t2 := kk.sub Pr ((Consts.abs Pr ag).mono he.le (k0.trans l1)) t1 (by linarith) (abs_le.mpr ⟨by linarith, by linarith⟩) m2
    exact (Consts.max (Den.apx he.le den_zero (by linarith)) t2).mono he.le (by linarith)
  · rw [if_neg fun h => h0 ((den_beq dw den_zero).mp h), if_neg h0]
    have b1 : |(if t < 0 then -1 else 1) * ρ| ≤ 1 := by
      rw [abs_mul, abs_sign_le, one_mul, abs_of_nonneg hρ]; exact hρ1
    have b2 : |(1 - ρ) * t| ≤ B := by
      rw [abs_mul, abs_of_nonneg hσ0]
      nlinarith [abs_nonneg t]
    have t1 := kk.mul Pr (signum_apx Pr dw h0 (by linarith : 0 ≤ c1 * c)) (aρ.mono he.le k2) k1 (by rw [abs_sign_le]; exact s7) bρ m1
    have t2 := kk.sub Pr (aone (by linarith)) (aρ.mono he.le k2) k1 bσ m1
    have t3 := kk.mul Pr t2 (Den.apx he.le dw (by linarith : (0 : ℝ) ≤ K * (c1 * c))) (by linarith) bσ (by linarith) m2
    have b3 : |(if t < 0 then -1 else 1) * ρ + (1 - ρ) * t| ≤ 1 + B := (abs_add_le _ _).trans (by linarith)
    have t4 := kk.add Pr (t1.mono he.le l2) t3 (by linarith) (by linarith) m3
    have t5 := kk.mul Pr (aα.mono he.le (by linarith)) t4 (by linarith) bα (by linarith) m4
    have b4 : |α * ((if t < 0 then -1 else 1) * ρ + (1 - ρ) * t)| ≤ B + B ^ 2 := by
      rw [abs_mul, abs_of_nonneg hα, show B + B ^ 2 = B * (1 + B) by ring]
      exact mul_le_mul hαB b3 (abs_nonneg _) (by linarith)
    have t6 := kk.sub Pr ((Consts.neg Pr ag).mono he.le (by linarith)) t5 (by linarith) (by
      refine (abs_sub _ _).trans ?_
      rw [abs_neg]
      linarith) m5
    exact (Consts.abs Pr t6).mono he.le (by linarith)

/-- The elastic net penalty. -/
theorem enet_apx : PenApx e B C (L1PlusL2.mk a r) (Pen.enet α ρ).fn (scoreOf (.enet α ρ)) := by
  have e1 : (Pen.enet α ρ).fn = pen2 (α * ρ) (α * (1 - ρ)) := by
    funext z; show enet α ρ z = _; unfold enet pen2; ring
  rw [e1]
  exact ⟨safe_L1PlusL2 _, enet_prox_apx hα hρ hρ1 hαB h Pr ha hr, _, rfl, enet_dist_apx hα hρ hρ1 hαB h Pr ha hr⟩

end
end
end Sglm
