import Verif.Proofs.PertRun
import Verif.Proofs.WeakGap

/-!
# Coordinate descent with small errors, for weakly convex penalties
-/

set_option linter.unusedSectionVars false

namespace Sglm
open Scalar Spec

section
variable {E : Type} [NormedAddCommGroup E] [InnerProductSpace ℝ E] {p : ℕ}

namespace RProb.Weak
open RProb.Cvx
variable {R : RProb E p} {f : (Fin p → E) → ℝ} {φ : E → ℝ} {m b : ℝ} (H : R.Weak f φ m b)
include H

/-- Decrease of one approximate update. -/
theorem pstep_dec (hm : 0 ≤ m) {ρ : ℝ} {w w' : Fin p → E} {j : Fin p} (h : PStep R (frechetSubdiff φ) ρ w j w') :
    R.L j = 0 ∨ R.F w' ≤ R.F w - (R.L j - m) / 2 * ‖w' j - w j‖ ^ 2 + ρ * ‖w' j - w j‖ := by
  have hup : w' = Function.update w j (w' j) := by
    funext i
    by_cases hi : i = j
    · subst hi; rw [Function.update_self]
    · rw [Function.update_of_ne hi, h.off i hi]
  by_cases h0 : R.L j = 0
  · exact Or.inl h0
  · refine Or.inr ?_
    obtain ⟨s, hs, hsr⟩ := h.opt h0
    have h1 := frechet_weak hm H.weak hs (w j)
    have h2 := H.smooth.major w j (w' j)
    rw [← hup] at h2
    rw [H.mm.obj, H.mm.obj]
    have h3 : ∑ k, φ (w' k) = ∑ k, φ (w k) - φ (w j) + φ (w' j) := by
      conv_lhs => rw [hup]
      exact sum_update _ _ _ _
    have h4 : inner ℝ s (w j - w' j) =
        R.L j * ‖w' j - w j‖ ^ 2 + inner ℝ (R.G w j) (w' j - w j) -
          inner ℝ (R.L j • (w j - w' j) - R.G w j - s) (w j - w' j) := by
      have e : w' j - w j = -(w j - w' j) := by abel
      rw [e, norm_neg, inner_neg_right, inner_sub_left, inner_sub_left, inner_smul_left, real_inner_self_eq_norm_sq]
      simp only [conj_trivial]
      ring
    have h5 : inner ℝ (R.L j • (w j - w' j) - R.G w j - s) (w j - w' j) ≤ ρ * ‖w' j - w j‖ := by
      refine (real_inner_le_norm _ _).trans ?_
      rw [norm_sub_rev (w j)]
      exact mul_le_mul_of_nonneg_right hsr (norm_nonneg _)
    rw [h4, norm_sub_rev (w j)] at h1
    rw [h3]
    linarith

theorem pstep_dec' (hm : 0 ≤ m) {ρ μ : ℝ} (hμ : 0 < μ) (hμ2 : ∀ j, R.L j ≠ 0 → μ + m ≤ R.L j) {w w' : Fin p → E} {j : Fin p}
    (h : PStep R (frechetSubdiff φ) ρ w j w') : R.F w' ≤ R.F w - μ / 4 * ‖w' j - w j‖ ^ 2 + ρ ^ 2 / μ := by
  have hq : 0 ≤ ρ ^ 2 / μ := by positivity
  rcases H.pstep_dec hm h with h0 | h1
  · have hw : w' = w := by
      funext i
      by_cases hi : i = j
      · subst hi; exact h.zero h0
      · exact h.off i hi
    rw [hw, sub_self, norm_zero]
    linarith
  · by_cases h0 : R.L j = 0
    · have hw : w' = w := by
        funext i
        by_cases hi : i = j
        · subst hi; exact h.zero h0
        · exact h.off i hi
      rw [hw, sub_self, norm_zero]
      linarith
    have h2 : μ / 2 * ‖w' j - w j‖ ^ 2 ≤ (R.L j - m) / 2 * ‖w' j - w j‖ ^ 2 :=
      mul_le_mul_of_nonneg_right (by linarith [hμ2 j h0]) (by positivity)
    have h3 : ρ * ‖w' j - w j‖ ≤ μ / 4 * ‖w' j - w j‖ ^ 2 + ρ ^ 2 / μ := by
      have e : μ / 4 * ‖w' j - w j‖ ^ 2 + ρ ^ 2 / μ - ρ * ‖w' j - w j‖ =
          (μ * ‖w' j - w j‖ / 2 - ρ) ^ 2 / μ := by field_simp; ring
      have : 0 ≤ (μ * ‖w' j - w j‖ / 2 - ρ) ^ 2 / μ := by positivity
      linarith
    linarith

/-- Decrease of one epoch of approximate updates. -/
theorem pepoch_dec (hm : 0 ≤ m) {ρ μ : ℝ} (hμ : 0 < μ) (hμ2 : ∀ j, R.L j ≠ 0 → μ + m ≤ R.L j) {l : List (Fin p)} (hl : l.Nodup)
    {w w' : Fin p → E} (h : PEpoch R (frechetSubdiff φ) ρ l w w') :
    R.F w' ≤ R.F w - μ / 4 * ∑ j, ‖w' j - w j‖ ^ 2 + l.length * (ρ ^ 2 / μ) := by
  induction h with
  | nil w => simp
  | @cons i l w u w' h1 h2 ih =>
    rw [List.nodup_cons] at hl
    have k1 := ih hl.2
    have k2 := H.pstep_dec' hm hμ hμ2 h1
    have h3 : ∑ j, ‖w' j - w j‖ ^ 2 = ∑ j, ‖w' j - u j‖ ^ 2 + ‖u i - w i‖ ^ 2 := by
      have : ∀ j, ‖w' j - w j‖ ^ 2 = ‖w' j - u j‖ ^ 2 + if j = i then ‖u i - w i‖ ^ 2 else 0 := by
        intro j
        by_cases hj : j = i
        · subst hj
          rw [if_pos rfl, h2.off hl.1, sub_self, norm_zero]; ring
        · rw [if_neg hj, h1.off j hj, add_zero]
      rw [Finset.sum_congr rfl fun j _ => this j, Finset.sum_add_distrib, Finset.sum_ite_eq' Finset.univ i]
      simp
    rw [h3, mul_add, List.length_cons]
    push_cast
    linarith

/-- Decrease in terms of the total movement. -/
theorem pdecrease (hm : 0 ≤ m) {μ : ℝ} (hμ : 0 < μ) (hμ2 : ∀ j, R.L j ≠ 0 → μ + m ≤ R.L j) :
    ∃ κ m' : ℝ, 0 < κ ∧ 0 ≤ m' ∧ ∀ (ρ : ℝ) (l : List (Fin p)), l.Nodup → ∀ w w' : Fin p → E,
    PEpoch R (frechetSubdiff φ) ρ l w w' → κ * (∑ i, ‖w' i - w i‖) ^ 2 ≤ R.F w - R.F w' + m' * ρ ^ 2 := by
  refine ⟨μ / (4 * (p + 1)), p / μ, by positivity, by positivity, fun ρ l hl w w' h => ?_⟩
  have h1 := H.pepoch_dec hm hμ hμ2 hl h
  have h2 : (∑ i, ‖w' i - w i‖) ^ 2 ≤ p * ∑ i, ‖w' i - w i‖ ^ 2 := by
    have := sq_sum_le_card_mul_sum_sq (s := (Finset.univ : Finset (Fin p))) (f := fun i => ‖w' i - w i‖)
    rwa [Finset.card_univ, Fintype.card_fin] at this
  have h3 : 0 ≤ ∑ i, ‖w' i - w i‖ ^ 2 := Finset.sum_nonneg fun i _ => by positivity
  have h4 : μ / (4 * (p + 1)) * (∑ i, ‖w' i - w i‖) ^ 2 ≤ μ / 4 * ∑ i, ‖w' i - w i‖ ^ 2 := by
    have h5 : (∑ i, ‖w' i - w i‖) ^ 2 ≤ (p + 1) * ∑ i, ‖w' i - w i‖ ^ 2 := by linarith
    have h6 := mul_le_mul_of_nonneg_left h5 (by positivity : 0 ≤ μ / (4 * ((p : ℝ) + 1)))
    refine h6.trans (le_of_eq ?_)
    field_simp
  have h7 : (l.length : ℝ) * (ρ ^ 2 / μ) ≤ p / μ * ρ ^ 2 := by
    have h8 : l.length ≤ p := by
      have := List.Nodup.length_le_card hl
      rwa [Fintype.card_fin] at this
    have h9 : (l.length : ℝ) ≤ p := by exact_mod_cast h8
    have := mul_le_mul_of_nonneg_right h9 (by positivity : 0 ≤ ρ ^ 2 / μ)
    refine this.trans (le_of_eq ?_)
    ring
  linarith

theorem sumL_nonneg : 0 ≤ ∑ i, R.L i := Finset.sum_nonneg fun i _ => H.smooth.nonneg i

theorem le_sumL (j : Fin p) : R.L j ≤ ∑ i, R.L i := Finset.single_le_sum (fun i _ => H.smooth.nonneg i) (Finset.mem_univ j)

/-- Scores of the updated features after an epoch. -/
theorem pscore_after {ρ : ℝ} (hρ : 0 ≤ ρ) {l : List (Fin p)} (hl : l.Nodup) {w w' : Fin p → E}
    (h : PEpoch R (frechetSubdiff φ) ρ l w w') (hz : ∀ j, R.L j = 0 → w j = 0) {j : Fin p} (hj : j ∈ l) :
    R.sc (w' j) (R.G w' j) ≤ 2 * (∑ i, R.L i) * ∑ i, ‖w' i - w i‖ + ρ := by
  obtain ⟨u, u', h1, h2, h3, h4⟩ := h.mid hl hj
  have hS : 0 ≤ ∑ i, ‖w' i - w i‖ := Finset.sum_nonneg fun i _ => norm_nonneg _
  have hL := H.sumL_nonneg
  by_cases h0 : R.L j = 0
  · have : w' j = 0 := by rw [h3, h4.zero h0, h2, hz j h0]
    rw [this, H.smooth.grad_zero _ j h0]
    exact H.sc_zero_zero.trans (by positivity)
  · obtain ⟨s, hs, hsr⟩ := h4.opt h0
    rw [← h3] at hs hsr
    rw [h2] at hsr
    refine (H.sc_le hs).trans ?_
    have e : R.G w' j + s = (R.G w' j - R.G u j) + R.L j • (w j - w' j) -
        (R.L j • (w j - w' j) - R.G u j - s) := by abel
    rw [e]
    refine (norm_sub_le _ _).trans (add_le_add ?_ hsr)
    refine (norm_add_le _ _).trans ?_
    rw [norm_smul, Real.norm_eq_abs, abs_of_nonneg (H.smooth.nonneg j), norm_sub_rev (w j)]
    have k4 := (H.smooth.grad_lips H.le_sumL w' u j).trans (mul_le_mul_of_nonneg_left (move_le h1).1 hL)
    have k5 : ‖w' j - w j‖ ≤ ∑ i, ‖w' i - w i‖ :=
      Finset.single_le_sum (f := fun i => ‖w' i - w i‖) (fun i _ => norm_nonneg _) (Finset.mem_univ j)
    have k6 := mul_le_mul (H.le_sumL j) k5 (norm_nonneg _) hL
    linarith

/-- At a zero coordinate the movement bounds the score. -/
theorem pscore_zero_step {ρ : ℝ} (hρ : 0 ≤ ρ) {u u' : Fin p → E} {j : Fin p} (h : PStep R (frechetSubdiff φ) ρ u j u') (hu : u j = 0) :
    R.sc 0 (R.G u j) ≤ (R.L j + b) * ‖u' j‖ + ρ := by
  have hb := H.hb
  have hLj := H.smooth.nonneg j
  by_cases h0 : R.L j = 0
  · rw [H.smooth.grad_zero u j h0]
    exact H.sc_zero_zero.trans (by positivity)
  · obtain ⟨s, hs, hsr⟩ := h.opt h0
    rw [hu, zero_sub] at hsr
    obtain ⟨s', h1, h2⟩ := H.drop _ _ hs
    refine (H.sc_le h1).trans ?_
    have e : R.G u j + s' = -(R.L j • u' j) - (s - s') - (R.L j • -u' j - R.G u j - s) := by
      rw [smul_neg]; abel
    rw [e]
    refine (norm_sub_le _ _).trans (add_le_add ?_ hsr)
    refine (norm_sub_le _ _).trans ?_
    rw [norm_neg, norm_smul, Real.norm_eq_abs, abs_of_nonneg hLj]
    linarith

/-- Scores before an epoch of features with zero coefficient. -/
theorem pscore_before {ρ : ℝ} (hρ : 0 ≤ ρ) {l : List (Fin p)} (hl : l.Nodup) {w w' : Fin p → E}
    (h : PEpoch R (frechetSubdiff φ) ρ l w w') {j : Fin p} (hj : j ∈ l) (hw : w j = 0) :
    R.sc 0 (R.G w j) ≤ (2 * (∑ i, R.L i) + b) * ∑ i, ‖w' i - w i‖ + ρ := by
  obtain ⟨u, u', h1, h2, h3, hst⟩ := h.mid hl hj
  have hL := H.sumL_nonneg
  have h4 := H.pscore_zero_step hρ hst (by rw [h2, hw])
  rw [← h3] at h4
  have h5 := H.sc_lips 0 (R.G w j) (R.G u j)
  have h6 := (H.smooth.grad_lips H.le_sumL w u j).trans (mul_le_mul_of_nonneg_left (move_le h1).2 hL)
  have h7 : ‖w' j‖ ≤ ∑ i, ‖w' i - w i‖ := by
    have := Finset.single_le_sum (f := fun i => ‖w' i - w i‖) (fun i _ => norm_nonneg _) (Finset.mem_univ j)
    rwa [hw, sub_zero] at this
  have h8 : (R.L j + b) * ‖w' j‖ ≤ ((∑ i, R.L i) + b) * ∑ i, ‖w' i - w i‖ :=
    mul_le_mul (by linarith [H.le_sumL j]) h7 (norm_nonneg _) (add_nonneg hL H.hb)
  linarith

/-- A small decrease in one epoch means that scores are small. -/
theorem psmall_scores (hm : 0 ≤ m) {μ : ℝ} (hμ : 0 < μ) (hμ2 : ∀ j, R.L j ≠ 0 → μ + m ≤ R.L j) (σ : ℝ) (hσ : 0 < σ) :
    ∃ δ ρ₀ : ℝ, 0 < δ ∧ 0 < ρ₀ ∧
    ∀ (ρ : ℝ), 0 ≤ ρ → ρ ≤ ρ₀ → ∀ (l : List (Fin p)), l.Nodup → ∀ s s' : Fin p → E,
    PEpoch R (frechetSubdiff φ) ρ l s s' → R.F s - R.F s' < δ →
    ((∀ j, R.L j = 0 → s j = 0) → ∀ j ∈ l, R.sc (s' j) (R.G s' j) ≤ σ) ∧ ∀ j ∈ l, s j = 0 → R.sc 0 (R.G s j) ≤ σ := by
  obtain ⟨κ, q, hκ, hq, hdec⟩ := H.pdecrease hm hμ hμ2
  have hL := H.sumL_nonneg
  have hb := H.hb
  obtain ⟨C, hC⟩ : ∃ C, C = 2 * (∑ i, R.L i) + b + 1 := ⟨_, rfl⟩
  have hCpos : 0 < C := by rw [hC]; positivity
  obtain ⟨δ, hδ⟩ : ∃ δ, δ = κ * (σ / (2 * C)) ^ 2 / 2 := ⟨_, rfl⟩
  have hδpos : 0 < δ := by rw [hδ]; positivity
  refine ⟨δ, min (σ / 4) (min 1 (δ / (q + 1))), hδpos, by positivity, fun ρ hρ hρ0 l hl s s' h hlt => ?_⟩
  have r1 : ρ ≤ σ / 4 := hρ0.trans (min_le_left _ _)
  have r2 : ρ ≤ 1 := hρ0.trans ((min_le_right _ _).trans (min_le_left _ _))
  have r3 : ρ ≤ δ / (q + 1) := hρ0.trans ((min_le_right _ _).trans (min_le_right _ _))
  have r4 : q * ρ ^ 2 ≤ δ := by
    rw [le_div_iff₀ (by positivity)] at r3
    nlinarith [mul_nonneg hq hρ]
  have h1 := hdec ρ l hl s s' h
  have hS : 0 ≤ ∑ i, ‖s' i - s i‖ := Finset.sum_nonneg fun i _ => norm_nonneg _
  have h2 : ∑ i, ‖s' i - s i‖ ≤ σ / (2 * C) := by
    have h3 : κ * (∑ i, ‖s' i - s i‖) ^ 2 < κ * (σ / (2 * C)) ^ 2 := by
      have : κ * (σ / (2 * C)) ^ 2 = 2 * δ := by rw [hδ]; ring
      linarith
    have h4 := lt_of_mul_lt_mul_left h3 hκ.le
    exact (lt_of_pow_lt_pow_left₀ 2 (by positivity) h4).le
  have h5 : C * ∑ i, ‖s' i - s i‖ ≤ σ / 2 := by
    rw [le_div_iff₀ (by positivity)] at h2; linarith
  refine ⟨fun hz j hj => ?_, fun j hj hj0 => ?_⟩
  · have h6 := H.pscore_after hρ hl h hz hj
    have h7 : 2 * (∑ i, R.L i) * ∑ i, ‖s' i - s i‖ ≤ C * ∑ i, ‖s' i - s i‖ :=
      mul_le_mul_of_nonneg_right (by rw [hC]; linarith) hS
    linarith
  · have h6 := H.pscore_before hρ hl h hj hj0
    have h7 : (2 * (∑ i, R.L i) + b) * ∑ i, ‖s' i - s i‖ ≤ C * ∑ i, ‖s' i - s i‖ :=
      mul_le_mul_of_nonneg_right (by rw [hC]; linarith) hS
    linarith

/-- The growth of the objective is small. -/
theorem grow_exists (hm : 0 ≤ m) {μ : ℝ} (hμ : 0 < μ) (hμ2 : ∀ j, R.L j ≠ 0 → μ + m ≤ R.L j) :
    ∃ q : ℝ, 0 ≤ q ∧ ∀ ρ, 0 ≤ ρ → Pert.Grow R (frechetSubdiff φ) ρ (q * ρ ^ 2 + ρ) := by
  obtain ⟨κ, q, hκ, hq, hdec⟩ := H.pdecrease hm hμ hμ2
  refine ⟨q, hq, fun ρ hρ => ⟨by positivity, fun l hl w w' h => ?_⟩⟩
  have := hdec ρ l hl w w' h
  have h2 : 0 ≤ κ * (∑ i, ‖w' i - w i‖) ^ 2 := by positivity
  linarith

end RProb.Weak

namespace Pert
variable {F S B : Type} {sk : Skel F S B} {R : RProb E p} {f : (Fin p → E) → ℝ} {Sd : E → Set E} {ρ τ c : ℝ} {T m₀ : ℕ}
  {plain : ℕ → Prop} {abs : S → Fin p → E} {Inv : ℕ → S → Prop} {Out : S → Prop} {BInv : List (Fin p) → B → Prop}

/-- Iterations at which the test fails decrease the potential `V` by `δ`. -/
theorem outer_pot (P : Pert sk R Sd ρ τ c T m₀ plain abs Inv Out BInv) {ν : ℝ} (hρ : 0 ≤ ρ) (hν : Grow R Sd ρ ν) {δ : ℝ}
    (V : (Fin p → E) → ℝ)
    (hit : ∀ k s t, k ≤ T → Inv k s → (∃ j, τ - ρ < R.sc (abs s j) (R.G (abs s) j)) →
      IterOK R Sd ρ ν plain sk.maxEpochs (abs s) t → V t ≤ V (abs s) - δ) (hO : (∀ s, Out s) ∨ PlainTail plain sk.maxEpochs 0) :
    ∀ (m k : ℕ) (s : S), k + 2 * sk.maxEpochs * m ≤ T → Inv k s → Out s →
      Tri (fun _ => False) (sk.outer m s) (fun q => (∃ k', k' ≤ k + 2 * sk.maxEpochs * m ∧ Inv k' q.1) ∧ q.2 ≤ m ∧
        ((∃ kkt km, sk.viol q.1 = .ok (kkt, km) ∧ sk.done km = true) ∨ (m : ℝ) * δ ≤ V (abs s) - V (abs q.1)))
  | 0, k, s, hk, hs, _ => ⟨⟨k, by omega, hs⟩, le_rfl, Or.inr (by simp)⟩
  | m + 1, k, s, hk, hs, hos => by
    have hexp : 2 * sk.maxEpochs * (m + 1) = 2 * sk.maxEpochs * m + 2 * sk.maxEpochs := by ring
    unfold Skel.outer
    refine Tri.bind_eq (P.viol k s (by omega) hs hos) fun ⟨kkt, km⟩ hv ⟨h1, h2⟩ => ?_
    dsimp only at h1 h2 ⊢
    split
    · rename_i hd
      exact ⟨⟨k, by omega, hs⟩, Nat.zero_le _, Or.inl ⟨kkt, km, hv, hd⟩⟩
    · rename_i hd
      refine Tri.bind (P.mkWs k s kkt km (by omega) hs hos hv) fun ⟨ws, sz⟩ ⟨l, e1, e2, hl, hm, hoff, hbest⟩ => ?_
      dsimp only at e1 e2
      subst e1 e2
      refine Tri.bind (P.inner_spec hρ hν l hl hm km sk.maxEpochs 0 k _ s (by omega) hs (P.buf0 l hl hm) hoff)
        fun t ⟨⟨k', a1, a2⟩, a3, a4, a5, a6, a7, a8⟩ => ?_
      have hex : ∃ j, τ - ρ < R.sc (abs s j) (R.G (abs s) j) := by
        by_contra hc
        push Not at hc
        exact hd (h2 hc)
      have hi := hit k s (abs t) (by omega) hs hex ⟨l, hl, hoff, hbest, a3, a4, a5, a6⟩
      refine Tri.bind (outer_pot P hρ hν V hit hO m k' t (by omega) a2 (out_next hO hos a7 a8)) fun ⟨v, i⟩ ⟨⟨k'', b1, b2⟩, b3, b4⟩ => ?_
      refine ⟨⟨k'', by omega, b2⟩, Nat.succ_le_succ b3, b4.imp_right fun b4 => ?_⟩
      show ((m + 1 : ℕ) : ℝ) * δ ≤ _ - V (abs v)
      dsimp only at b4
      push_cast
      linarith

/-- **Termination in spite of errors**, for weakly convex penalties. -/
theorem terminates_weak {φ : E → ℝ} {m b : ℝ} (H : R.Weak f φ m b) (hm : 0 ≤ m) {μ : ℝ} (hμ : 0 < μ) (hμ2 : ∀ j, R.L j ≠ 0 → μ + m ≤ R.L j)
    (hτ : 0 < τ) : ∃ (N : ℕ) (ρ₀ ν₀ : ℝ), 0 < ρ₀ ∧ 0 < ν₀ ∧
    ∀ {F S B : Type} {sk : Skel F S B} {ρ ν : ℝ} {T m₀ : ℕ} {plain : ℕ → Prop} {abs : S → Fin p → E} {Inv : ℕ → S → Prop}
      {Out : S → Prop} {BInv : List (Fin p) → B → Prop}, Pert sk R (frechetSubdiff φ) ρ τ c T m₀ plain abs Inv Out BInv → 0 ≤ ρ → ρ ≤ ρ₀ →
      Grow R (frechetSubdiff φ) ρ ν → sk.maxEpochs * ν ≤ ν₀ → 0 < sk.maxEpochs → PlainTail plain sk.maxEpochs 0 →
      ∀ k s, k + 2 * sk.maxEpochs * N ≤ T → Inv k s → Out s →
      Tri (fun _ => False) (sk.outer N s) (fun q => (∃ k', k' ≤ k + 2 * sk.maxEpochs * N ∧ Inv k' q.1) ∧
        ∃ kkt km, sk.viol q.1 = .ok (kkt, km) ∧ sk.done km = true) := by
  classical
  obtain ⟨δ, ρ₀, hδ, hρ₀, hsmall⟩ := H.psmall_scores hm hμ hμ2 (τ / 4) (by positivity)
  obtain ⟨N, hN⟩ := exists_nat_gt ((c + δ / 4) / (δ / 8))
  refine ⟨N, min ρ₀ (τ / 4), δ / 8, by positivity, by positivity, ?_⟩
  intro F S B' sk ρ ν T m₀ plain abs Inv Out BInv P hρ hρ0 hν hmν hme hpl k s hk hs hos
  have hν0 := hν.1
  have r1 : ρ ≤ ρ₀ := hρ0.trans (min_le_left _ _)
  have r2 : ρ ≤ τ / 4 := hρ0.trans (min_le_right _ _)
  have hνm : ν ≤ sk.maxEpochs * ν := by
    have : (1 : ℝ) ≤ sk.maxEpochs := by exact_mod_cast hme
    nlinarith
  -- potential: the objective, plus an amount if scores on the support are large
  obtain ⟨V, hV⟩ : ∃ V : (Fin p → E) → ℝ, V = fun w => R.F w + if ∀ j, w j ≠ 0 → R.sc (w j) (R.G w j) ≤ τ / 4 then 0 else δ / 4 := ⟨_, rfl⟩
  have hV0 : ∀ w, 0 ≤ V w := fun w => by
    rw [hV]
    dsimp only
    have := H.F_nonneg w
    split_ifs <;> linarith
  have hVle : ∀ w, V w ≤ R.F w + δ / 4 := fun w => by
    rw [hV]
    dsimp only
    split_ifs <;> linarith
  refine Tri.mono (P.outer_pot hρ hν (δ := δ / 8) V ?_ (Or.inr hpl) N k s hk hs hos) fun ⟨v, i⟩ ⟨⟨k', b1, b2⟩, b3, b4⟩ => ?_
  · rintro k s t hk hs ⟨j, hj⟩ ⟨l, hl, h1, h2, h4, h6, h5, h7⟩
    obtain ⟨s1, e1, e3, e2⟩ := h5 hme
    obtain ⟨s', k1, k2, k3⟩ := h7 hme hpl
    by_cases hss : ∀ j, abs s j ≠ 0 → R.sc (abs s j) (R.G (abs s) j) ≤ τ / 4
    · -- a zero feature with a large score is in the working set
      have hj0 : abs s j = 0 := by
        by_contra hc
        linarith [hss j hc]
      obtain ⟨i, hi, hi0, hi2⟩ : ∃ i ∈ l, abs s i = 0 ∧ τ - 2 * ρ < R.sc (abs s i) (R.G (abs s) i) := by
        by_cases hjl : j ∈ l
        · exact ⟨j, hjl, hj0, by linarith⟩
        · obtain ⟨i, a1, a2, a3⟩ := h2 j hjl
          exact ⟨i, a1, a2, by linarith⟩
      rw [hi0] at hi2
      have hdec : δ ≤ R.F (abs s) - R.F s1 := by
        by_contra hc
        have := (hsmall ρ hρ r1 l hl (abs s) s1 e1 (not_le.mp hc)).2 i hi hi0
        linarith
      have hVs : V (abs s) = R.F (abs s) := by rw [hV]; dsimp only; rw [if_pos hss, add_zero]
      linarith [hVle t]
    · have hVs : V (abs s) = R.F (abs s) + δ / 4 := by rw [hV]; dsimp only; rw [if_neg hss]
      by_cases hdec : δ / 2 ≤ R.F (abs s) - R.F t
      · linarith [hVle t]
      · have hst : ∀ j, t j ≠ 0 → R.sc (t j) (R.G t j) ≤ τ / 4 := fun j hj => by
          have hjl : j ∈ l := by
            by_contra hc
            exact hj (h4 j hc)
          exact (hsmall ρ hρ r1 l hl s' t k3 (by linarith)).1 k1 j hjl
        have hVt : V t = R.F t := by rw [hV]; dsimp only; rw [if_pos hst, add_zero]
        linarith
  · refine ⟨⟨k', b1, b2⟩, ?_⟩
    rcases b4 with b4 | b4
    · exact b4
    · exfalso
      rw [div_lt_iff₀ (by positivity)] at hN
      have h3 := P.lev k s (by omega) hs
      have h4 := hVle (abs s)
      have h5 := hV0 (abs v)
      dsimp only at b4
      linarith

end Pert
end
end Sglm
