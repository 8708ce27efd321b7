import Verif.Proofs.Converge

/-!
# Coordinate descent with small errors

The analysis of `Verif.Proofs.Cyclic` and `Verif.Proofs.Converge` for updates, scores and objective comparisons which
are only accurate up to `ρ`.
-/

set_option linter.unusedSectionVars false

namespace Sglm
open Scalar Spec

section
variable {E : Type} [NormedAddCommGroup E] [InnerProductSpace ℝ E] {p : ℕ}

/-- An approximate update of coordinate `j`: the optimality condition of the proximal step holds up to `ρ`.
`Sd` is the subdifferential of the penalty. -/
structure PStep (R : RProb E p) (Sd : E → Set E) (ρ : ℝ) (w : Fin p → E) (j : Fin p) (w' : Fin p → E) : Prop where
  off : ∀ i, i ≠ j → w' i = w i
  zero : R.L j = 0 → w' j = w j
  opt : R.L j ≠ 0 → ∃ s ∈ Sd (w' j), ‖R.L j • (w j - w' j) - R.G w j - s‖ ≤ ρ

/-- An epoch of approximate updates. -/
inductive PEpoch (R : RProb E p) (Sd : E → Set E) (ρ : ℝ) : List (Fin p) → (Fin p → E) → (Fin p → E) → Prop
  | nil (w : Fin p → E) : PEpoch R Sd ρ [] w w
  | cons {i : Fin p} {l : List (Fin p)} {w u w' : Fin p → E} :
      PStep R Sd ρ w i u → PEpoch R Sd ρ l u w' → PEpoch R Sd ρ (i :: l) w w'

namespace PEpoch
variable {R : RProb E p} {Sd : E → Set E} {ρ : ℝ}

theorem off {l : List (Fin p)} {w w' : Fin p → E} (h : PEpoch R Sd ρ l w w') {j : Fin p} (hj : j ∉ l) :
    w' j = w j := by
  induction h with
  | nil w => rfl
  | cons h1 _ ih =>
    rw [List.mem_cons, not_or] at hj
    rw [ih hj.2, h1.off j hj.1]

theorem zeroOK {l : List (Fin p)} {w w' : Fin p → E} (h : PEpoch R Sd ρ l w w') (hz : ∀ j, R.L j = 0 → w j = 0) :
    ∀ j, R.L j = 0 → w' j = 0 := by
  induction h with
  | nil w => exact hz
  | @cons i l w u w' h1 _ ih =>
    refine ih fun j hj => ?_
    by_cases hij : j = i
    · subst hij; rw [h1.zero hj]; exact hz j hj
    · rw [h1.off j hij]; exact hz j hj

/-- The point at which a coordinate is updated. -/
theorem mid {l : List (Fin p)} (hl : l.Nodup) {w w' : Fin p → E} (h : PEpoch R Sd ρ l w w') {j : Fin p} (hj : j ∈ l) :
    ∃ u u' : Fin p → E, (∀ i, u i = w i ∨ u i = w' i) ∧ u j = w j ∧ w' j = u' j ∧ PStep R Sd ρ u j u' := by
  induction h with
  | nil w => cases hj
  | @cons i l w u w' h1 h2 ih =>
    rw [List.nodup_cons] at hl
    by_cases hij : j = i
    · subst hij
      exact ⟨w, u, fun i => Or.inl rfl, rfl, h2.off hl.1, h1⟩
    · obtain ⟨v, v', k1, k2, k3, k4⟩ := ih hl.2 ((List.mem_cons.mp hj).resolve_left hij)
      refine ⟨v, v', fun k => ?_, ?_, k3, k4⟩
      · rcases k1 k with h | h
        · by_cases hk : k = i
          · subst hk
            exact Or.inr (by rw [h, h2.off hl.1])
          · exact Or.inl (by rw [h, h1.off k hk])
        · exact Or.inr h
      · rw [k2, h1.off j hij]

end PEpoch

namespace RProb.Cvx
variable {R : RProb E p} {f : (Fin p → E) → ℝ} {a b : ℝ} (H : R.Cvx f a b)
include H

/-- Decrease of one approximate update. -/
theorem pstep_dec {ρ : ℝ} {w w' : Fin p → E} {j : Fin p} (h : PStep R (subdiff (pen2 a b)) ρ w j w') :
    R.F w' ≤ R.F w - R.L j / 2 * ‖w' j - w j‖ ^ 2 + ρ * ‖w' j - w j‖ := by
  have hup : w' = Function.update w j (w' j) := by
    funext i
    by_cases hi : i = j
    · subst hi; rw [Function.update_self]
    · rw [Function.update_of_ne hi, h.off i hi]
  by_cases h0 : R.L j = 0
  · have : w' = w := by
      rw [hup, h.zero h0, Function.update_eq_self]
    rw [this, h0]; simp
  · obtain ⟨s, hs, hsr⟩ := h.opt h0
    have h1 := hs (w j)
    have h2 := H.major w j (w' j)
    rw [← hup] at h2
    rw [H.obj, H.obj]
    have h3 : ∑ k, pen2 a b (w' k) = ∑ k, pen2 a b (w k) - pen2 a b (w j) + pen2 a b (w' j) := by
      conv_lhs => rw [hup]
      exact sum_update _ _ _ _
    have h4 : inner ℝ s (w j - w' j) =
        R.L j * ‖w' j - w j‖ ^ 2 + inner ℝ (R.G w j) (w' j - w j) -
          inner ℝ (R.L j • (w j - w' j) - R.G w j - s) (w j - w' j) := by
      have e : w' j - w j = -(w j - w' j) := by abel
      rw [e, norm_neg, inner_neg_right, inner_sub_left, inner_sub_left, inner_smul_left, real_inner_self_eq_norm_sq]
      simp only [conj_trivial]
      ring
    have h5 : inner ℝ (R.L j • (w j - w' j) - R.G w j - s) (w j - w' j) ≤ ρ * ‖w' j - w j‖ := by
      refine (real_inner_le_norm _ _).trans ?_
      rw [norm_sub_rev (w j)]
      exact mul_le_mul_of_nonneg_right hsr (norm_nonneg _)
    rw [h4] at h1
    rw [h3]
    linarith

theorem pstep_dec' {ρ μ : ℝ} (hμ : 0 < μ) (hμ2 : ∀ j, R.L j ≠ 0 → μ ≤ R.L j) {w w' : Fin p → E} {j : Fin p}
    (h : PStep R (subdiff (pen2 a b)) ρ w j w') : R.F w' ≤ R.F w - μ / 4 * ‖w' j - w j‖ ^ 2 + ρ ^ 2 / μ := by
  have hq : 0 ≤ ρ ^ 2 / μ := by positivity
  by_cases h0 : R.L j = 0
  · have := H.pstep_dec h
    rw [h.zero h0, sub_self, norm_zero] at this
    rw [h.zero h0, sub_self, norm_zero]
    linarith
  · have h1 := H.pstep_dec h
    have h2 : μ / 2 * ‖w' j - w j‖ ^ 2 ≤ R.L j / 2 * ‖w' j - w j‖ ^ 2 :=
      mul_le_mul_of_nonneg_right (by linarith [hμ2 j h0]) (by positivity)
    have h3 : ρ * ‖w' j - w j‖ ≤ μ / 4 * ‖w' j - w j‖ ^ 2 + ρ ^ 2 / μ := by
      have e : μ / 4 * ‖w' j - w j‖ ^ 2 + ρ ^ 2 / μ - ρ * ‖w' j - w j‖ =
          (μ * ‖w' j - w j‖ / 2 - ρ) ^ 2 / μ := by field_simp; ring
      have : 0 ≤ (μ * ‖w' j - w j‖ / 2 - ρ) ^ 2 / μ := by positivity
      linarith
    linarith

/-- Decrease of one epoch of approximate updates. -/
theorem pepoch_dec {ρ μ : ℝ} (hμ : 0 < μ) (hμ2 : ∀ j, R.L j ≠ 0 → μ ≤ R.L j) {l : List (Fin p)} (hl : l.Nodup)
    {w w' : Fin p → E} (h : PEpoch R (subdiff (pen2 a b)) ρ l w w') :
    R.F w' ≤ R.F w - μ / 4 * ∑ j, ‖w' j - w j‖ ^ 2 + l.length * (ρ ^ 2 / μ) := by
  induction h with
  | nil w => simp
  | @cons i l w u w' h1 h2 ih =>
    rw [List.nodup_cons] at hl
    have k1 := ih hl.2
    have k2 := H.pstep_dec' hμ hμ2 h1
    have h3 : ∑ j, ‖w' j - w j‖ ^ 2 = ∑ j, ‖w' j - u j‖ ^ 2 + ‖u i - w i‖ ^ 2 := by
      have : ∀ j, ‖w' j - w j‖ ^ 2 = ‖w' j - u j‖ ^ 2 + if j = i then ‖u i - w i‖ ^ 2 else 0 := by
        intro j
        by_cases hj : j = i
        · subst hj
          rw [if_pos rfl, h2.off hl.1, sub_self, norm_zero]; ring
        · rw [if_neg hj, h1.off j hj, add_zero]
      rw [Finset.sum_congr rfl fun j _ => this j, Finset.sum_add_distrib, Finset.sum_ite_eq' Finset.univ i]
      simp
    rw [h3, mul_add, List.length_cons]
    push_cast
    linarith

/-- The smallest positive step constant. -/
theorem exists_mu : ∃ μ, 0 < μ ∧ ∀ j, R.L j ≠ 0 → μ ≤ R.L j := by
  by_cases hne : (Finset.univ.filter fun j => R.L j ≠ 0).Nonempty
  · obtain ⟨k, hk, hk2⟩ := Finset.exists_min_image _ R.L hne
    refine ⟨R.L k, lt_of_le_of_ne (H.nonneg k) (Ne.symm (Finset.mem_filter.mp hk).2), fun j hj => ?_⟩
    exact hk2 j (Finset.mem_filter.mpr ⟨Finset.mem_univ j, hj⟩)
  · exact ⟨1, one_pos, fun j hj => absurd ⟨j, Finset.mem_filter.mpr ⟨Finset.mem_univ j, hj⟩⟩ hne⟩

/-- Decrease in terms of the total movement. -/
theorem pdecrease : ∃ κ m : ℝ, 0 < κ ∧ 0 ≤ m ∧ ∀ (ρ : ℝ) (l : List (Fin p)), l.Nodup → ∀ w w' : Fin p → E,
    PEpoch R (subdiff (pen2 a b)) ρ l w w' → κ * (∑ i, ‖w' i - w i‖) ^ 2 ≤ R.F w - R.F w' + m * ρ ^ 2 := by
  obtain ⟨μ, hμ, hμ2⟩ := H.exists_mu
  refine ⟨μ / (4 * (p + 1)), p / μ, by positivity, by positivity, fun ρ l hl w w' h => ?_⟩
  have h1 := H.pepoch_dec hμ hμ2 hl h
  have h2 : (∑ i, ‖w' i - w i‖) ^ 2 ≤ p * ∑ i, ‖w' i - w i‖ ^ 2 := by
    have := sq_sum_le_card_mul_sum_sq (s := (Finset.univ : Finset (Fin p))) (f := fun i => ‖w' i - w i‖)
    rwa [Finset.card_univ, Fintype.card_fin] at this
  have h3 : 0 ≤ ∑ i, ‖w' i - w i‖ ^ 2 := Finset.sum_nonneg fun i _ => by positivity
  have h4 : μ / (4 * (p + 1)) * (∑ i, ‖w' i - w i‖) ^ 2 ≤ μ / 4 * ∑ i, ‖w' i - w i‖ ^ 2 := by
    have h5 : (∑ i, ‖w' i - w i‖) ^ 2 ≤ (p + 1) * ∑ i, ‖w' i - w i‖ ^ 2 := by linarith
    have h6 := mul_le_mul_of_nonneg_left h5 (by positivity : 0 ≤ μ / (4 * ((p : ℝ) + 1)))
    refine h6.trans (le_of_eq ?_)
    field_simp
  have h7 : (l.length : ℝ) * (ρ ^ 2 / μ) ≤ p / μ * ρ ^ 2 := by
    have h8 : l.length ≤ p := by
      have := List.Nodup.length_le_card hl
      rwa [Fintype.card_fin] at this
    have h9 : (l.length : ℝ) ≤ p := by exact_mod_cast h8
    have := mul_le_mul_of_nonneg_right h9 (by positivity : 0 ≤ ρ ^ 2 / μ)
    refine this.trans (le_of_eq ?_)
    ring
  linarith

/-- Scores of the updated features after an epoch. -/
theorem pscore_after {ρ : ℝ} (hρ : 0 ≤ ρ) {l : List (Fin p)} (hl : l.Nodup) {w w' : Fin p → E}
    (h : PEpoch R (subdiff (pen2 a b)) ρ l w w') (hz : ∀ j, R.L j = 0 → w j = 0) {j : Fin p} (hj : j ∈ l) :
    R.sc (w' j) (R.G w' j) ≤ 2 * (∑ i, R.L i) * ∑ i, ‖w' i - w i‖ + ρ := by
  obtain ⟨u, u', h1, h2, h3, h4⟩ := h.mid hl hj
  have hS : 0 ≤ ∑ i, ‖w' i - w i‖ := Finset.sum_nonneg fun i _ => norm_nonneg _
  have hL : 0 ≤ ∑ i, R.L i := Finset.sum_nonneg fun i _ => H.nonneg i
  by_cases h0 : R.L j = 0
  · have : w' j = 0 := by rw [h3, h4.zero h0, h2, hz j h0]
    rw [this, H.grad_zero _ j h0]
    exact H.sc_zero_zero.trans (by positivity)
  · obtain ⟨s, hs, hsr⟩ := h4.opt h0
    rw [← h3] at hs hsr
    rw [h2] at hsr
    refine (H.sc_le hs).trans ?_
    have e : R.G w' j + s = (R.G w' j - R.G u j) + R.L j • (w j - w' j) -
        (R.L j • (w j - w' j) - R.G u j - s) := by abel
    rw [e]
    refine (norm_sub_le _ _).trans (add_le_add ?_ hsr)
    refine (norm_add_le _ _).trans ?_
    rw [norm_smul, Real.norm_eq_abs, abs_of_nonneg (H.nonneg j), norm_sub_rev (w j)]
    have k4 := (H.grad_lips w' u j).trans (mul_le_mul_of_nonneg_left (move_le h1).1 hL)
    have k5 : ‖w' j - w j‖ ≤ ∑ i, ‖w' i - w i‖ :=
      Finset.single_le_sum (f := fun i => ‖w' i - w i‖) (fun i _ => norm_nonneg _) (Finset.mem_univ j)
    have k6 := mul_le_mul (H.L_le j) k5 (norm_nonneg _) hL
    linarith

/-- At a zero coordinate the movement bounds the score. -/
theorem pscore_zero_step {ρ : ℝ} (hρ : 0 ≤ ρ) {u u' : Fin p → E} {j : Fin p} (h : PStep R (subdiff (pen2 a b)) ρ u j u') (hu : u j = 0) :
    R.sc 0 (R.G u j) ≤ (R.L j + b) * ‖u' j‖ + ρ := by
  have hb := H.hb
  have hLj := H.nonneg j
  by_cases h0 : R.L j = 0
  · rw [H.grad_zero u j h0]
    exact H.sc_zero_zero.trans (by positivity)
  · obtain ⟨s, hs, hsr⟩ := h.opt h0
    rw [hu, zero_sub] at hsr
    by_cases hx : u' j = 0
    · rw [hx] at hs
      rw [hx, neg_zero, smul_zero, zero_sub] at hsr
      refine (H.sc_le hs).trans ?_
      have e : R.G u j + s = -(-R.G u j - s) := by abel
      rw [e, norm_neg, hx, norm_zero, mul_zero, zero_add]
      exact hsr
    · have h1 := subdiff_enet_ne H.ha hb hx
      have h2 : s ∈ ({(a / ‖u' j‖ + b) • u' j} : Set E) := by rw [← h1]; exact hs
      rw [Set.mem_singleton_iff] at h2
      have hmem : (a / ‖u' j‖) • u' j ∈ subdiff (pen2 a b) (0 : E) := by
        have h4 := subdiff_enet_zero (E := E) H.ha hb
        have h5 : (a / ‖u' j‖) • u' j ∈ Metric.closedBall (0 : E) a := by
          rw [mem_closedBall_zero_iff, norm_smul, Real.norm_eq_abs, abs_of_nonneg (div_nonneg H.ha (norm_nonneg _)),
            div_mul_cancel₀ _ (norm_ne_zero_iff.mpr hx)]
        rw [← h4] at h5
        exact h5
      refine (H.sc_le hmem).trans ?_
      have e : R.G u j + (a / ‖u' j‖) • u' j = -((R.L j + b) • u' j) - (R.L j • -(u' j) - R.G u j - s) := by
        rw [h2, add_smul, add_smul, smul_neg]; abel
      rw [e]
      refine (norm_sub_le _ _).trans (add_le_add (le_of_eq ?_) hsr)
      rw [norm_neg, norm_smul, Real.norm_eq_abs, abs_of_nonneg (by positivity)]

/-- Scores before an epoch of features with zero coefficient. -/
theorem pscore_before {ρ : ℝ} (hρ : 0 ≤ ρ) {l : List (Fin p)} (hl : l.Nodup) {w w' : Fin p → E}
    (h : PEpoch R (subdiff (pen2 a b)) ρ l w w') {j : Fin p} (hj : j ∈ l) (hw : w j = 0) :
    R.sc 0 (R.G w j) ≤ (2 * (∑ i, R.L i) + b) * ∑ i, ‖w' i - w i‖ + ρ := by
  obtain ⟨u, u', h1, h2, h3, hst⟩ := h.mid hl hj
  have hL : 0 ≤ ∑ i, R.L i := Finset.sum_nonneg fun i _ => H.nonneg i
  have h4 := H.pscore_zero_step hρ hst (by rw [h2, hw])
  rw [← h3] at h4
  have h5 := H.sc_lips 0 (R.G w j) (R.G u j)
  have h6 := (H.grad_lips w u j).trans (mul_le_mul_of_nonneg_left (move_le h1).2 hL)
  have h7 : ‖w' j‖ ≤ ∑ i, ‖w' i - w i‖ := by
    have := Finset.single_le_sum (f := fun i => ‖w' i - w i‖) (fun i _ => norm_nonneg _) (Finset.mem_univ j)
    rwa [hw, sub_zero] at this
  have h8 : (R.L j + b) * ‖w' j‖ ≤ ((∑ i, R.L i) + b) * ∑ i, ‖w' i - w i‖ :=
    mul_le_mul (by linarith [H.L_le j]) h7 (norm_nonneg _) (add_nonneg hL H.hb)
  linarith

/-- Scores of all features after the first epoch of an iteration. -/
theorem pscore_all {ρ : ℝ} (hρ : 0 ≤ ρ) {l : List (Fin p)} (hl : l.Nodup) {w w' : Fin p → E}
    (h : PEpoch R (subdiff (pen2 a b)) ρ l w w') (hz : ∀ j, R.L j = 0 → w j = 0) (hsupp : ∀ j ∉ l, w j = 0)
    (hbest : ∀ j ∉ l, ∃ i ∈ l, w i = 0 ∧ R.sc (w j) (R.G w j) ≤ R.sc (w i) (R.G w i) + ρ) (j : Fin p) :
    R.sc (w' j) (R.G w' j) ≤ (3 * (∑ i, R.L i) + b) * ∑ i, ‖w' i - w i‖ + 2 * ρ := by
  have hS : 0 ≤ ∑ i, ‖w' i - w i‖ := Finset.sum_nonneg fun i _ => norm_nonneg _
  have hL : 0 ≤ ∑ i, R.L i := Finset.sum_nonneg fun i _ => H.nonneg i
  have hb := H.hb
  by_cases hj : j ∈ l
  · have h1 := H.pscore_after hρ hl h hz hj
    have h2 : 2 * (∑ i, R.L i) * ∑ i, ‖w' i - w i‖ ≤ (3 * (∑ i, R.L i) + b) * ∑ i, ‖w' i - w i‖ :=
      mul_le_mul_of_nonneg_right (by linarith) hS
    linarith
  · obtain ⟨i, h1, h2, h3⟩ := hbest j hj
    have h4 := H.pscore_before hρ hl h h1 h2
    rw [h2, hsupp j hj] at h3
    have h5 := H.sc_lips 0 (R.G w' j) (R.G w j)
    have h6 := H.grad_lips w' w j
    rw [h.off hj, hsupp j hj]
    linarith

/-- A small decrease in one epoch means that scores are small after it. -/
theorem psmall_scores (σ : ℝ) (hσ : 0 < σ) : ∃ δ ρ₀ : ℝ, 0 < δ ∧ 0 < ρ₀ ∧
    ∀ (ρ : ℝ), 0 ≤ ρ → ρ ≤ ρ₀ → ∀ (l : List (Fin p)), l.Nodup → ∀ s s' : Fin p → E, (∀ j, R.L j = 0 → s j = 0) →
    PEpoch R (subdiff (pen2 a b)) ρ l s s' → R.F s - R.F s' < δ →
    (∀ j ∈ l, R.sc (s' j) (R.G s' j) ≤ σ) ∧
    ((∀ j ∉ l, s j = 0) →
      (∀ j ∉ l, ∃ i ∈ l, s i = 0 ∧ R.sc (s j) (R.G s j) ≤ R.sc (s i) (R.G s i) + ρ) →
      ∀ j, R.sc (s' j) (R.G s' j) ≤ σ) := by
  obtain ⟨κ, m, hκ, hm, hdec⟩ := H.pdecrease
  have hL : 0 ≤ ∑ i, R.L i := Finset.sum_nonneg fun i _ => H.nonneg i
  have hb := H.hb
  set C := 3 * (∑ i, R.L i) + b + 1 with hC
  have hCpos : 0 < C := by positivity
  set δ := κ * (σ / (2 * C)) ^ 2 / 2 with hδ
  have hδpos : 0 < δ := by positivity
  refine ⟨δ, min (σ / 4) (min 1 (δ / (m + 1))), hδpos, by positivity, fun ρ hρ hρ0 l hl s s' hz h hlt => ?_⟩
  have r1 : ρ ≤ σ / 4 := hρ0.trans (min_le_left _ _)
  have r2 : ρ ≤ 1 := hρ0.trans ((min_le_right _ _).trans (min_le_left _ _))
  have r3 : ρ ≤ δ / (m + 1) := hρ0.trans ((min_le_right _ _).trans (min_le_right _ _))
  have r4 : m * ρ ^ 2 ≤ δ := by
    rw [le_div_iff₀ (by positivity)] at r3
    nlinarith [mul_nonneg hm hρ]
  have h1 := hdec ρ l hl s s' h
  have hS : 0 ≤ ∑ i, ‖s' i - s i‖ := Finset.sum_nonneg fun i _ => norm_nonneg _
  have h2 : ∑ i, ‖s' i - s i‖ ≤ σ / (2 * C) := by
    have h3 : κ * (∑ i, ‖s' i - s i‖) ^ 2 < κ * (σ / (2 * C)) ^ 2 := by
      have : κ * (σ / (2 * C)) ^ 2 = 2 * δ := by rw [hδ]; ring
      linarith
    have h4 := lt_of_mul_lt_mul_left h3 hκ.le
    exact (lt_of_pow_lt_pow_left₀ 2 (by positivity) h4).le
  have h5 : C * ∑ i, ‖s' i - s i‖ ≤ σ / 2 := by
    rw [le_div_iff₀ (by positivity)] at h2; linarith
  refine ⟨fun j hj => ?_, fun hsupp hbest j => ?_⟩
  · have h6 := H.pscore_after hρ hl h hz hj
    have h7 : 2 * (∑ i, R.L i) * ∑ i, ‖s' i - s i‖ ≤ C * ∑ i, ‖s' i - s i‖ :=
      mul_le_mul_of_nonneg_right (by rw [hC]; linarith) hS
    linarith
  · have h6 := H.pscore_all hρ hl h hz hsupp hbest j
    have h7 : (3 * (∑ i, R.L i) + b) * ∑ i, ‖s' i - s i‖ ≤ C * ∑ i, ‖s' i - s i‖ :=
      mul_le_mul_of_nonneg_right (by rw [hC]; linarith) hS
    linarith

end RProb.Cvx
end
end Sglm
