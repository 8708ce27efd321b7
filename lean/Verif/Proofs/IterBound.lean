import Verif.Proofs.Converge

/-!
# An explicit bound on the number of iterations

For losses which are convex and penalties which are weakly convex (the penalty plus `m ‖z‖² / 2` is convex, with `m` smaller
than the step constants): every second iteration decreases the objective by a fixed amount.
-/

set_option linter.unusedSectionVars false

namespace Sglm
open Scalar Spec

section
variable {E : Type} [NormedAddCommGroup E] [InnerProductSpace ℝ E] {p : ℕ}

/-- `φ` is convex up to `m ‖z‖² / 2`. -/
def WeaklyConvex (φ : E → ℝ) (m : ℝ) : Prop :=
  ∀ x z : E, ∀ t : ℝ, 0 ≤ t → t ≤ 1 → φ (x + t • (z - x)) ≤ (1 - t) * φ x + t * φ z + m * t * (1 - t) / 2 * ‖z - x‖ ^ 2

/-- Minimisers of `‖z - v‖² / 2 + s φ z` are strong minimisers. -/
theorem prox_strong {φ : E → ℝ} {m s : ℝ} (hs : 0 ≤ s) (hφ : WeaklyConvex φ m) {v x : E}
    (h : IsProx (fun z => s * φ z) v x) (z : E) :
    ‖x - v‖ ^ 2 / 2 + s * φ x + (1 - s * m) / 2 * ‖z - x‖ ^ 2 ≤ ‖z - v‖ ^ 2 / 2 + s * φ z := by
  have key : ∀ t : ℝ, 0 < t → t ≤ 1 → ‖x - v‖ ^ 2 / 2 + s * φ x + (1 - t) * ((1 - s * m) / 2 * ‖z - x‖ ^ 2) ≤
      ‖z - v‖ ^ 2 / 2 + s * φ z := by
    intro t ht ht1
    have h1 := h (x + t • (z - x))
    have h2 := mul_le_mul_of_nonneg_left (hφ x z t ht.le ht1) hs
    have e1 : ‖x + t • (z - x) - v‖ ^ 2 = ‖x - v‖ ^ 2 + 2 * t * inner ℝ (x - v) (z - x) + t ^ 2 * ‖z - x‖ ^ 2 := by
      rw [show x + t • (z - x) - v = (x - v) + t • (z - x) by abel, norm_add_sq_real, inner_smul_right, norm_smul,
        Real.norm_eq_abs, mul_pow, sq_abs]
      ring
    have e2 : ‖z - v‖ ^ 2 = ‖x - v‖ ^ 2 + 2 * inner ℝ (x - v) (z - x) + ‖z - x‖ ^ 2 := by
      rw [show z - v = (x - v) + (z - x) by abel, norm_add_sq_real]
    dsimp only at h1
    rw [e1] at h1
    rw [e2]
    have h3 : t * (‖x - v‖ ^ 2 / 2 + s * φ x + (1 - t) * ((1 - s * m) / 2 * ‖z - x‖ ^ 2)) ≤
        t * ((‖x - v‖ ^ 2 + 2 * inner ℝ (x - v) (z - x) + ‖z - x‖ ^ 2) / 2 + s * φ z) := by
      nlinarith
    exact le_of_mul_le_mul_left h3 ht
  obtain ⟨c, hc⟩ : ∃ c, c = (1 - s * m) / 2 * ‖z - x‖ ^ 2 := ⟨_, rfl⟩
  rw [← hc] at key ⊢
  refine le_of_forall_pos_le_add fun ε hε => ?_
  have h1 := key (min 1 (ε / (|c| + 1))) (by positivity) (min_le_left _ _)
  have h2 : min 1 (ε / (|c| + 1)) * c ≤ ε := by
    have h3 : min 1 (ε / (|c| + 1)) * c ≤ min 1 (ε / (|c| + 1)) * |c| :=
      mul_le_mul_of_nonneg_left (le_abs_self c) (by positivity)
    have h4 : min 1 (ε / (|c| + 1)) * |c| ≤ ε / (|c| + 1) * |c| := mul_le_mul_of_nonneg_right (min_le_right _ _) (abs_nonneg c)
    have h5 : ε / (|c| + 1) * |c| ≤ ε := by
      rw [div_mul_eq_mul_div, div_le_iff₀ (by positivity)]; nlinarith [abs_nonneg c]
    linarith
  linarith

/-- The optimality condition of the prox. -/
theorem prox_frechet {φ : E → ℝ} {L : ℝ} (hL : 0 < L) {v x : E} (h : IsProx (fun z => (1 / L) * φ z) v x) :
    L • (v - x) ∈ frechetSubdiff φ x := by
  intro ε hε
  refine ⟨2 * ε / L, by positivity, fun z hz => ?_⟩
  have h1 := mul_le_mul_of_nonneg_left (h z) hL.le
  have e2 : ‖z - v‖ ^ 2 = ‖x - v‖ ^ 2 + 2 * inner ℝ (x - v) (z - x) + ‖z - x‖ ^ 2 := by
    rw [show z - v = (x - v) + (z - x) by abel, norm_add_sq_real]
  have e3 : inner ℝ (L • (v - x)) (z - x) = -(L * inner ℝ (x - v) (z - x)) := by
    rw [show v - x = -(x - v) by abel, smul_neg, inner_neg_left, inner_smul_left]; simp
  dsimp only at h1
  rw [e2, mul_add, mul_add, ← mul_assoc, mul_one_div_cancel hL.ne', ← mul_assoc, mul_one_div_cancel hL.ne'] at h1
  rw [e3]
  rw [lt_div_iff₀ hL] at hz
  nlinarith [norm_nonneg (z - x)]

/-- For convex functions the two subdifferentials agree. -/
theorem frechet_convex {φ : E → ℝ} (hφ : WeaklyConvex φ 0) (x : E) : frechetSubdiff φ x = subdiff φ x := by
  refine Set.Subset.antisymm (fun g hg z => ?_) (subdiff_subset_frechet _ _)
  refine le_of_forall_pos_le_add fun ε hε => ?_
  obtain ⟨δ, hδ, h⟩ := hg (ε / (‖z - x‖ + 1)) (by positivity)
  obtain ⟨t, ht, ht1, ht2⟩ : ∃ t : ℝ, 0 < t ∧ t ≤ 1 ∧ t * ‖z - x‖ < δ := by
    refine ⟨min 1 (δ / (‖z - x‖ + 1) / 2), by positivity, min_le_left _ _, ?_⟩
    refine lt_of_le_of_lt (mul_le_mul_of_nonneg_right (min_le_right _ _) (norm_nonneg _)) ?_
    rw [div_div, div_mul_eq_mul_div, div_lt_iff₀ (by positivity)]
    nlinarith [norm_nonneg (z - x)]
  have h1 := h (x + t • (z - x)) (by
    rw [add_sub_cancel_left, norm_smul, Real.norm_eq_abs, abs_of_pos ht]; exact ht2)
  have h2 := hφ x z t ht.le ht1
  rw [add_sub_cancel_left, inner_smul_right, norm_smul, Real.norm_eq_abs, abs_of_pos ht] at h1
  have h3 : t * (φ x + inner ℝ g (z - x)) ≤ t * (φ z + ε / (‖z - x‖ + 1) * ‖z - x‖) := by
    have : (0 : ℝ) * t * (1 - t) / 2 * ‖z - x‖ ^ 2 = 0 := by ring
    rw [this] at h2
    nlinarith
  have h4 := le_of_mul_le_mul_left h3 ht
  have h5 : ε / (‖z - x‖ + 1) * ‖z - x‖ ≤ ε := by
    rw [div_mul_eq_mul_div, div_le_iff₀ (by positivity)]; nlinarith [norm_nonneg (z - x)]
  linarith

/-! ## Weakly convex penalties -/

theorem norm_seg (x z : E) {t : ℝ} (h0 : 0 ≤ t) (h1 : t ≤ 1) : ‖x + t • (z - x)‖ ≤ (1 - t) * ‖x‖ + t * ‖z‖ := by
  have e : x + t • (z - x) = (1 - t) • x + t • z := by rw [smul_sub, sub_smul, one_smul]; abel
  rw [e]
  refine (norm_add_le _ _).trans (le_of_eq ?_)
  rw [norm_smul, norm_smul, Real.norm_eq_abs, Real.norm_eq_abs, abs_of_nonneg h0, abs_of_nonneg (by linarith)]

theorem norm_sq_seg (x z : E) (t : ℝ) :
    ‖x + t • (z - x)‖ ^ 2 = (1 - t) * ‖x‖ ^ 2 + t * ‖z‖ ^ 2 - t * (1 - t) * ‖z - x‖ ^ 2 := by
  have e : z = x + (z - x) := by abel
  have h1 : ‖z‖ ^ 2 = ‖x‖ ^ 2 + 2 * inner ℝ x (z - x) + ‖z - x‖ ^ 2 := by
    conv_lhs => rw [e]
    exact norm_add_sq_real _ _
  rw [norm_add_sq_real, inner_smul_right, norm_smul, Real.norm_eq_abs, mul_pow, sq_abs, h1]
  ring

theorem pen2_weak {a b : ℝ} (ha : 0 ≤ a) (hb : 0 ≤ b) : WeaklyConvex (pen2 a b : E → ℝ) 0 := by
  intro x z t h0 h1
  unfold pen2
  rw [norm_sq_seg]
  have h2 := mul_le_mul_of_nonneg_left (norm_seg x z h0 h1) ha
  have h3 : 0 ≤ b * (t * (1 - t) * ‖z - x‖ ^ 2) / 2 := by
    have : 0 ≤ 1 - t := by linarith
    positivity
  linarith

theorem mcp_conj {α γ : ℝ} (hγ : 0 < γ) {θ : ℝ} (hθ : α ≤ θ) (z : E) :
    θ * ‖z‖ - γ * (θ ^ 2 - α ^ 2) / 2 ≤ mcp α γ z + ‖z‖ ^ 2 / (2 * γ) := by
  obtain ⟨r, hr⟩ : ∃ r, r = ‖z‖ / γ := ⟨_, rfl⟩
  have e : ‖z‖ = γ * r := by rw [hr]; field_simp
  unfold mcp
  rw [e]
  have e2 : (γ * r) ^ 2 / (2 * γ) = γ * r ^ 2 / 2 := by field_simp
  rw [e2]
  split_ifs with h
  · have h2 : r ≤ α := le_of_mul_le_mul_left h hγ
    have h3 : (θ - α) * (2 * r - θ - α) ≤ 0 := mul_nonpos_of_nonneg_of_nonpos (by linarith) (by linarith)
    nlinarith
  · nlinarith [sq_nonneg (θ - r)]

theorem mcp_conj_eq {α γ : ℝ} (hγ : 0 < γ) (z : E) :
    ∃ θ, α ≤ θ ∧ mcp α γ z + ‖z‖ ^ 2 / (2 * γ) = θ * ‖z‖ - γ * (θ ^ 2 - α ^ 2) / 2 := by
  unfold mcp
  split_ifs with h
  · exact ⟨α, le_rfl, by ring⟩
  · refine ⟨‖z‖ / γ, ?_, by field_simp; ring⟩
    rw [le_div_iff₀ hγ]; linarith [not_le.mp h]

theorem mcp_weak {α γ : ℝ} (hα : 0 ≤ α) (hγ : 0 < γ) : WeaklyConvex (mcp α γ : E → ℝ) (1 / γ) := by
  intro x z t h0 h1
  obtain ⟨θ, h2, h3⟩ := mcp_conj_eq (α := α) hγ (x + t • (z - x))
  have h4 := mul_le_mul_of_nonneg_left (mcp_conj hγ h2 x) (show 0 ≤ 1 - t by linarith)
  have h5 := mul_le_mul_of_nonneg_left (mcp_conj hγ h2 z) h0
  have h6 := mul_le_mul_of_nonneg_left (norm_seg x z h0 h1) (hα.trans h2)
  have h7 := norm_sq_seg x z t
  have e : ‖x + t • (z - x)‖ ^ 2 / (2 * γ) =
      (1 - t) * (‖x‖ ^ 2 / (2 * γ)) + t * (‖z‖ ^ 2 / (2 * γ)) - 1 / γ * t * (1 - t) / 2 * ‖z - x‖ ^ 2 := by
    rw [h7]; field_simp
  rw [e] at h3
  nlinarith

/-! ## Problems with a weakly convex penalty -/

/-- A convex loss and a weakly convex penalty, with correct proximal operator and scores. -/
structure RProb.Weak (R : RProb E p) (f : (Fin p → E) → ℝ) (φ : E → ℝ) (m b : ℝ) : Prop where
  mm : R.MM f φ
  smooth : R.Smooth f
  weak : WeaklyConvex φ m
  hb : 0 ≤ b
  pos : ∀ z, 0 ≤ φ z
  score : ∀ x g, IsDist (-g) (frechetSubdiff φ x) (R.sc x g)
  zero : (0 : E) ∈ frechetSubdiff φ 0
  drop : ∀ x, ∀ s ∈ frechetSubdiff φ x, ∃ s' ∈ frechetSubdiff φ 0, ‖s - s'‖ ≤ b * ‖x‖

namespace RProb.Weak
open RProb.Cvx
variable {R : RProb E p} {f : (Fin p → E) → ℝ} {φ : E → ℝ} {m b : ℝ} (H : R.Weak f φ m b)
include H

theorem F_nonneg (w : Fin p → E) : 0 ≤ R.F w := by
  rw [H.mm.obj]
  exact add_nonneg (H.smooth.low w) (Finset.sum_nonneg fun j _ => H.pos _)

theorem step_prox (w : Fin p → E) (j : Fin p) (h0 : R.L j ≠ 0) :
    IsProx (fun z => (1 / R.L j) * φ z) (w j - (1 / R.L j) • R.G w j) (R.step w j j) := by
  have e : R.step w j j = R.px (w j - (1 / R.L j) • R.G w j) (1 / R.L j) := by
    unfold RProb.step; rw [if_neg h0, Function.update_self]
  rw [e]
  exact H.mm.prox j _ h0

/-- The new value satisfies the optimality condition. -/
theorem step_sub (w : Fin p → E) (j : Fin p) (h0 : R.L j ≠ 0) :
    R.L j • (w j - R.step w j j) - R.G w j ∈ frechetSubdiff φ (R.step w j j) := by
  have hL : 0 < R.L j := lt_of_le_of_ne (H.smooth.nonneg j) (Ne.symm h0)
  have h := prox_frechet hL (H.step_prox w j h0)
  have e1 : R.L j • (w j - (1 / R.L j) • R.G w j - R.step w j j) = R.L j • (w j - R.step w j j) - R.G w j := by
    rw [smul_sub, smul_sub, smul_sub, smul_smul, mul_one_div_cancel h0, one_smul]; abel
  rwa [e1] at h

/-- Sufficient decrease of one update. -/
theorem step_dec (w : Fin p → E) (j : Fin p) :
    R.L j = 0 ∨ R.F (R.step w j) ≤ R.F w - (R.L j - m) / 2 * ‖R.step w j j - w j‖ ^ 2 := by
  by_cases h0 : R.L j = 0
  · exact Or.inl h0
  · refine Or.inr ?_
    have hL : 0 < R.L j := lt_of_le_of_ne (H.smooth.nonneg j) (Ne.symm h0)
    have h1 := mul_le_mul_of_nonneg_left (prox_strong (by positivity) H.weak (H.step_prox w j h0) (w j)) hL.le
    have h2 := H.smooth.major w j (R.step w j j)
    rw [← step_update] at h2
    rw [H.mm.obj, H.mm.obj]
    have h3 : ∑ k, φ (R.step w j k) = ∑ k, φ (w k) - φ (w j) + φ (R.step w j j) := by
      conv_lhs => rw [step_update]
      exact sum_update _ _ _ _
    obtain ⟨x, hx⟩ : ∃ x, x = R.step w j j := ⟨_, rfl⟩
    rw [← hx] at h1 h2 h3 ⊢
    have e1 : ‖x - (w j - (1 / R.L j) • R.G w j)‖ ^ 2 =
        ‖x - w j‖ ^ 2 + 2 * (1 / R.L j) * inner ℝ (R.G w j) (x - w j) + (1 / R.L j) ^ 2 * ‖R.G w j‖ ^ 2 := by
      rw [show x - (w j - (1 / R.L j) • R.G w j) = (x - w j) + (1 / R.L j) • R.G w j by abel, norm_add_sq_real,
        inner_smul_right, norm_smul, Real.norm_eq_abs, mul_pow, sq_abs, real_inner_comm]
      ring
    have e2 : ‖w j - (w j - (1 / R.L j) • R.G w j)‖ ^ 2 = (1 / R.L j) ^ 2 * ‖R.G w j‖ ^ 2 := by
      rw [sub_sub_cancel, norm_smul, Real.norm_eq_abs, mul_pow, sq_abs]
    rw [e1, e2, norm_sub_rev (w j) x] at h1
    have e3 : R.L j * ((‖x - w j‖ ^ 2 + 2 * (1 / R.L j) * inner ℝ (R.G w j) (x - w j) + (1 / R.L j) ^ 2 * ‖R.G w j‖ ^ 2) / 2 +
        1 / R.L j * φ x + (1 - 1 / R.L j * m) / 2 * ‖x - w j‖ ^ 2) =
        R.L j * ‖x - w j‖ ^ 2 / 2 + inner ℝ (R.G w j) (x - w j) + (1 / R.L j) * ‖R.G w j‖ ^ 2 / 2 + φ x +
          (R.L j - m) / 2 * ‖x - w j‖ ^ 2 := by
      field_simp
    have e4 : R.L j * ((1 / R.L j) ^ 2 * ‖R.G w j‖ ^ 2 / 2 + 1 / R.L j * φ (w j)) =
        (1 / R.L j) * ‖R.G w j‖ ^ 2 / 2 + φ (w j) := by
      field_simp
    rw [e3, e4] at h1
    rw [h3]
    linarith

theorem sc_le {x g s : E} (hs : s ∈ frechetSubdiff φ x) : R.sc x g ≤ ‖g + s‖ := by
  rw [(H.score x g).2]
  refine (Metric.infDist_le_dist_of_mem hs).trans (le_of_eq ?_)
  rw [dist_eq_norm, ← norm_neg]; congr 1; abel

theorem sc_lips (x g g' : E) : R.sc x g ≤ R.sc x g' + ‖g - g'‖ := by
  rw [(H.score x g).2, (H.score x g').2]
  refine (Metric.infDist_le_infDist_add_dist (y := -g')).trans (le_of_eq ?_)
  rw [dist_eq_norm, ← norm_neg (g - g')]; congr 2; abel

theorem sc_zero_zero : R.sc 0 0 ≤ 0 := (H.sc_le H.zero).trans (by simp)

/-- Sufficient decrease of one epoch. -/
theorem epoch_dec {μ : ℝ} (hμ : ∀ j, R.L j ≠ 0 → μ + m ≤ R.L j) (l : List (Fin p)) (hl : l.Nodup)
    (w : Fin p → E) :
    R.F (l.foldl R.step w) ≤ R.F w - μ / 2 * ∑ j, ‖l.foldl R.step w j - w j‖ ^ 2 := by
  induction l generalizing w with
  | nil => simp
  | cons i l ih =>
    rw [List.nodup_cons] at hl
    rw [List.foldl_cons]
    have h1 := ih hl.2 (R.step w i)
    have h3 : ∑ j, ‖l.foldl R.step (R.step w i) j - w j‖ ^ 2 =
        ∑ j, ‖l.foldl R.step (R.step w i) j - R.step w i j‖ ^ 2 + ‖R.step w i i - w i‖ ^ 2 := by
      have : ∀ j, ‖l.foldl R.step (R.step w i) j - w j‖ ^ 2 =
          ‖l.foldl R.step (R.step w i) j - R.step w i j‖ ^ 2 + if j = i then ‖R.step w i i - w i‖ ^ 2 else 0 := by
        intro j
        by_cases hj : j = i
        · subst hj
          rw [if_pos rfl, epoch_off l _ hl.1, sub_self, norm_zero]; ring
        · rw [if_neg hj, step_eq_of_ne w hj, add_zero]
      rw [Finset.sum_congr rfl fun j _ => this j, Finset.sum_add_distrib, Finset.sum_ite_eq' Finset.univ i]
      simp
    have h4 : R.F (R.step w i) ≤ R.F w - μ / 2 * ‖R.step w i i - w i‖ ^ 2 := by
      rcases H.step_dec w i with h0 | h
      · rw [step_eq_zero w h0, sub_self, norm_zero]; simp
      · by_cases h0 : R.L i = 0
        · rw [step_eq_zero w h0, sub_self, norm_zero]; simp
        · have := mul_le_mul_of_nonneg_right (show μ / 2 ≤ (R.L i - m) / 2 by linarith [hμ i h0])
            (by positivity : 0 ≤ ‖R.step w i i - w i‖ ^ 2)
          linarith
    rw [h3, mul_add]
    linarith

/-- Scores of the updated features after an epoch. -/
theorem score_after {Λ : ℝ} (hΛ : ∀ j, R.L j ≤ Λ) (l : List (Fin p)) (hl : l.Nodup) (w : Fin p → E) (hz : ZeroOK R w)
    {j : Fin p} (hj : j ∈ l) :
    R.sc (l.foldl R.step w j) (R.G (l.foldl R.step w) j) ≤ 2 * Λ * ∑ i, ‖l.foldl R.step w i - w i‖ := by
  obtain ⟨u, h1, h2, h3⟩ := epoch_mid (R := R) l hl w hj
  set w' := l.foldl R.step w with hw'
  have hS : 0 ≤ ∑ i, ‖w' i - w i‖ := Finset.sum_nonneg fun i _ => norm_nonneg _
  have hL : 0 ≤ Λ := (H.smooth.nonneg j).trans (hΛ j)
  by_cases h0 : R.L j = 0
  · have : w' j = 0 := by rw [h3, step_eq_zero u h0, h2, hz j h0]
    rw [this, H.smooth.grad_zero _ j h0]
    exact H.sc_zero_zero.trans (by positivity)
  · have hs := H.step_sub u j h0
    rw [← h3, h2] at hs
    refine (H.sc_le hs).trans ?_
    have e : R.G w' j + (R.L j • (w j - w' j) - R.G u j) = (R.G w' j - R.G u j) + R.L j • (w j - w' j) := by abel
    rw [e]
    refine (norm_add_le _ _).trans ?_
    rw [norm_smul, Real.norm_eq_abs, abs_of_nonneg (H.smooth.nonneg j), norm_sub_rev (w j)]
    have h4 := (H.smooth.grad_lips hΛ w' u j).trans (mul_le_mul_of_nonneg_left (move_le h1).1 hL)
    have h5 : ‖w' j - w j‖ ≤ ∑ i, ‖w' i - w i‖ :=
      Finset.single_le_sum (f := fun i => ‖w' i - w i‖) (fun i _ => norm_nonneg _) (Finset.mem_univ j)
    have h6 := mul_le_mul (hΛ j) h5 (norm_nonneg _) hL
    linarith

/-- At a zero coordinate the movement bounds the score. -/
theorem score_zero_step (u : Fin p → E) (j : Fin p) (hu : u j = 0) :
    R.sc 0 (R.G u j) ≤ (R.L j + b) * ‖R.step u j j‖ := by
  have hb := H.hb
  have hLj := H.smooth.nonneg j
  by_cases h0 : R.L j = 0
  · rw [H.smooth.grad_zero u j h0]
    exact H.sc_zero_zero.trans (by positivity)
  · have hs := H.step_sub u j h0
    rw [hu, zero_sub] at hs
    obtain ⟨s', h1, h2⟩ := H.drop _ _ hs
    refine (H.sc_le h1).trans ?_
    have e : R.G u j + s' = -(R.L j • R.step u j j) - (R.L j • -R.step u j j - R.G u j - s') := by
      rw [smul_neg]; abel
    rw [e]
    refine (norm_sub_le _ _).trans ?_
    rw [norm_neg, norm_smul, Real.norm_eq_abs, abs_of_nonneg hLj]
    linarith

/-- Scores before an epoch of features with zero coefficient. -/
theorem score_before {Λ : ℝ} (hΛ : ∀ j, R.L j ≤ Λ) (l : List (Fin p)) (hl : l.Nodup) (w : Fin p → E) {j : Fin p}
    (hj : j ∈ l) (hw : w j = 0) :
    R.sc 0 (R.G w j) ≤ (2 * Λ + b) * ∑ i, ‖l.foldl R.step w i - w i‖ := by
  obtain ⟨u, h1, h2, h3⟩ := epoch_mid (R := R) l hl w hj
  have hL : 0 ≤ Λ := (H.smooth.nonneg j).trans (hΛ j)
  have h4 := H.score_zero_step u j (by rw [h2, hw])
  rw [← h3] at h4
  have h5 := H.sc_lips 0 (R.G w j) (R.G u j)
  have h6 := (H.smooth.grad_lips hΛ w u j).trans (mul_le_mul_of_nonneg_left (move_le h1).2 hL)
  have h7 : ‖l.foldl R.step w j‖ ≤ ∑ i, ‖l.foldl R.step w i - w i‖ := by
    have := Finset.single_le_sum (f := fun i => ‖l.foldl R.step w i - w i‖) (fun i _ => norm_nonneg _) (Finset.mem_univ j)
    rwa [hw, sub_zero] at this
  have h8 : (R.L j + b) * ‖l.foldl R.step w j‖ ≤ (Λ + b) * ∑ i, ‖l.foldl R.step w i - w i‖ :=
    mul_le_mul (by linarith [hΛ j]) h7 (norm_nonneg _) (add_nonneg hL H.hb)
  linarith

/-- A small decrease of the objective in an epoch means little movement. -/
theorem small_move {μ Λ τ : ℝ} (hμ0 : 0 < μ) (hμ : ∀ j, R.L j ≠ 0 → μ + m ≤ R.L j) (hΛ : ∀ j, R.L j ≤ Λ) (hτ : 0 < τ)
    (l : List (Fin p)) (hl : l.Nodup) (w : Fin p → E)
    (hd : 2 * p * (2 * Λ + b) ^ 2 * (R.F w - R.F (l.foldl R.step w)) < μ * τ ^ 2) :
    (2 * Λ + b) * ∑ i, ‖l.foldl R.step w i - w i‖ < τ := by
  rcases Nat.eq_zero_or_pos p with hp | hp
  · subst hp
    simpa using hτ
  have hΛ0 : 0 ≤ Λ := (H.smooth.nonneg ⟨0, hp⟩).trans (hΛ _)
  have hb := H.hb
  have h1 := H.epoch_dec hμ l hl w
  have h2 : (∑ i, ‖l.foldl R.step w i - w i‖) ^ 2 ≤ p * ∑ i, ‖l.foldl R.step w i - w i‖ ^ 2 := by
    have := sq_sum_le_card_mul_sum_sq (s := (Finset.univ : Finset (Fin p))) (f := fun i => ‖l.foldl R.step w i - w i‖)
    rwa [Finset.card_univ, Fintype.card_fin] at this
  have hS : 0 ≤ ∑ i, ‖l.foldl R.step w i - w i‖ := Finset.sum_nonneg fun i _ => norm_nonneg _
  obtain ⟨S, hSe⟩ : ∃ S, S = ∑ i, ‖l.foldl R.step w i - w i‖ := ⟨_, rfl⟩
  obtain ⟨Q, hQe⟩ : ∃ Q, Q = ∑ i, ‖l.foldl R.step w i - w i‖ ^ 2 := ⟨_, rfl⟩
  rw [← hSe] at h2 hS ⊢
  rw [← hQe] at h1 h2
  have h3 : μ * ((2 * Λ + b) * S) ^ 2 < μ * τ ^ 2 := by
    have h4 : μ * ((2 * Λ + b) * S) ^ 2 ≤ 2 * p * (2 * Λ + b) ^ 2 * (μ / 2 * Q) := by
      have := mul_le_mul_of_nonneg_left h2 (by positivity : 0 ≤ μ * (2 * Λ + b) ^ 2)
      calc μ * ((2 * Λ + b) * S) ^ 2 = μ * (2 * Λ + b) ^ 2 * S ^ 2 := by ring
        _ ≤ μ * (2 * Λ + b) ^ 2 * (p * Q) := this
        _ = _ := by ring
    have h5 := mul_le_mul_of_nonneg_left (show μ / 2 * Q ≤ R.F w - R.F (l.foldl R.step w) by linarith)
      (by positivity : 0 ≤ 2 * p * (2 * Λ + b) ^ 2)
    linarith
  exact lt_of_pow_lt_pow_left₀ 2 hτ.le (lt_of_mul_lt_mul_left h3 hμ0.le)

variable [Coord E]

/-- Scores on the support are small. -/
def Settled (R : RProb E p) (τ : ℝ) (w : Fin p → E) : Prop := ∀ j, w j ≠ 0 → R.sc (w j) (R.G w j) ≤ τ

/-- **The number of iterations** is at most `4 p (2 Λ + b)² F(0) / (μ τ²)`. -/
theorem run_bound (hm0 : R.m0 = XR.ninf ∨ R.m0 = XR.fin 0) {μ Λ τ : ℝ} (hμ0 : 0 < μ)
    (hμ : ∀ j, R.L j ≠ 0 → μ + m ≤ R.L j) (hΛ : ∀ j, R.L j ≤ Λ) (hτ : 0 < τ)
    {srt : Argsort XR} (hs : ArgsortSpec srt) (cfg : Solver XR) (htol : cfg.tolerance = XR.fin τ) (hw : 0 < cfg.wsStartSize)
    (hme : 0 < cfg.maxEpochs) (hpl : PlainEnd cfg cfg.maxEpochs 0) (v : Fin p → E) (k : ℕ)
    (hrun : R.run srt cfg = .ok (v, k)) :
    k * (μ * τ ^ 2) ≤ 4 * p * (2 * Λ + b) ^ 2 * R.F fun _ => 0 := by
  classical
  have hE : ∀ l : List (Fin p), l.Nodup → ∀ w : Fin p → E, R.F (l.foldl R.step w) ≤ R.F w := fun l hl w => by
    have h1 := H.epoch_dec hμ l hl w
    have h2 : 0 ≤ μ / 2 * ∑ j, ‖l.foldl R.step w j - w j‖ ^ 2 :=
      mul_nonneg (by positivity) (Finset.sum_nonneg fun i _ => by positivity)
    linarith
  obtain ⟨A, hA⟩ : ∃ A, A = 2 * p * (2 * Λ + b) ^ 2 := ⟨_, rfl⟩
  have hA0 : 0 ≤ A := by rw [hA]; positivity
  -- potential: `A F + [not settled] μ τ² / 2`
  have iter : ∀ s t, ZeroOK R s → (R.skel srt cfg (ws0CD cfg p)).Iter s t → ZeroOK R t ∧ (False ∨
      A * R.F t + (if Settled R τ t then 0 else μ * τ ^ 2 / 2) ≤
        A * R.F s + (if Settled R τ s then 0 else μ * τ ^ 2 / 2) - μ * τ ^ 2 / 2) := by
    intro s t hz hit
    have hex : ∃ j, τ < R.sc (s j) (R.G s j) := by
      by_contra hc
      push Not at hc
      obtain ⟨kkt, km, ws, sz, h1, h2, -⟩ := hit
      injection h1 with h1
      have := R.viol_le_of (hm0.imp_right fun h => ⟨h, hτ.le⟩) hc
      rw [h1, ← htol] at this
      exact Bool.false_ne_true (h2.symm.trans this)
    obtain ⟨l, hl, h1, h2, h3, h4, h5, h6, h7⟩ := iter_spec_of hE hs cfg hw hme hz hit
    obtain ⟨s', k1, k2, k3⟩ := h7 hpl
    refine ⟨h3, Or.inr ?_⟩
    have hpos : 0 < μ * τ ^ 2 := by positivity
    have h6' := mul_le_mul_of_nonneg_left h6 hA0
    have hS : ∀ u : Fin p → E, 0 ≤ ∑ i, ‖l.foldl R.step u i - u i‖ := fun u => Finset.sum_nonneg fun i _ => norm_nonneg _
    have hb := H.hb
    by_cases hss : Settled R τ s
    · -- a zero feature with a large score is in the working set
      rw [if_pos hss]
      obtain ⟨j, hj⟩ := hex
      have hj0 : s j = 0 := by
        by_contra hc
        linarith [hss j hc]
      obtain ⟨i, hi, hi0, hi2⟩ : ∃ i ∈ l, s i = 0 ∧ τ < R.sc (s i) (R.G s i) := by
        by_cases hjl : j ∈ l
        · exact ⟨j, hjl, hj0, hj⟩
        · obtain ⟨i, a1, a2, a3⟩ := h2 j hjl
          exact ⟨i, a1, a2, lt_of_lt_of_le hj a3⟩
      rw [hi0] at hi2
      have hdec : μ * τ ^ 2 ≤ A * (R.F s - R.F t) := by
        by_contra hc
        have a1 : A * (R.F s - R.F (l.foldl R.step s)) ≤ A * (R.F s - R.F t) :=
          mul_le_mul_of_nonneg_left (by linarith) hA0
        have a2 := H.small_move hμ0 hμ hΛ hτ l hl s (by rw [← hA]; linarith [not_le.mp hc])
        have a3 := H.score_before hΛ l hl s hi hi0
        linarith
      split_ifs <;> linarith
    · rw [if_neg hss]
      by_cases hdec : μ * τ ^ 2 ≤ A * (R.F s - R.F t)
      · split_ifs <;> linarith
      · have hst : Settled R τ t := by
          intro j hj
          have hjl : j ∈ l := by
            by_contra hc
            exact hj (h4 j hc)
          have a1 : A * (R.F s' - R.F (l.foldl R.step s')) ≤ A * (R.F s - R.F t) := by
            rw [← k3]
            exact mul_le_mul_of_nonneg_left (by linarith) hA0
          have a2 := H.small_move hμ0 hμ hΛ hτ l hl s' (by rw [← hA]; linarith [not_le.mp hdec])
          have a3 := H.score_after hΛ l hl s' k1 hjl
          rw [← k3] at a2 a3
          have a4 : 2 * Λ * ∑ i, ‖t i - s' i‖ ≤ (2 * Λ + b) * ∑ i, ‖t i - s' i‖ :=
            mul_le_mul_of_nonneg_right (by linarith) (Finset.sum_nonneg fun i _ => norm_nonneg _)
          linarith
        rw [if_pos hst]
        linarith
  have count := Skel.outer_count (R.skel srt cfg (ws0CD cfg p)) (ZeroOK R) (fun _ => False)
    (fun w => A * R.F w + (if Settled R τ w then 0 else μ * τ ^ 2 / 2)) (μ * τ ^ 2 / 2) iter (fun _ _ _ h _ => h)
    cfg.maxIterations (fun _ => 0) v k (fun _ _ => rfl) hrun
  have h0 : Settled R τ (fun _ : Fin p => (0 : E)) := fun j hj => absurd rfl hj
  have h1 := count.2.2.resolve_left id
  rw [if_pos h0] at h1
  have h2 : 0 ≤ A * R.F v := mul_nonneg hA0 (H.F_nonneg v)
  have h3 : 0 ≤ (if Settled R τ v then 0 else μ * τ ^ 2 / 2) := by split_ifs <;> positivity
  have h4 : 4 * p * (2 * Λ + b) ^ 2 * (R.F fun _ => 0) = 2 * (A * R.F fun _ => 0) := by rw [hA]; ring
  rw [h4]
  linarith

end RProb.Weak

/-! ## Subdifferentials -/

theorem pen2_frechet {a b : ℝ} (ha : 0 ≤ a) (hb : 0 ≤ b) (x : E) : frechetSubdiff (pen2 a b) x = subdiff (pen2 a b) x :=
  frechet_convex (pen2_weak ha hb) x

theorem pen2_zero {a b : ℝ} (ha : 0 ≤ a) (hb : 0 ≤ b) : frechetSubdiff (pen2 a b) (0 : E) = Metric.closedBall 0 a :=
  (pen2_frechet ha hb 0).trans (subdiff_enet_zero ha hb)

theorem pen2_drop {a b : ℝ} (ha : 0 ≤ a) (hb : 0 ≤ b) (x : E) (s : E) (hs : s ∈ frechetSubdiff (pen2 a b) x) :
    ∃ s' ∈ frechetSubdiff (pen2 a b) (0 : E), ‖s - s'‖ ≤ b * ‖x‖ := by
  by_cases hx : x = 0
  · subst hx
    exact ⟨s, hs, by simp⟩
  · have h1 : s ∈ ({(a / ‖x‖ + b) • x} : Set E) := by
      rw [← subdiff_enet_ne ha hb hx]
      rw [pen2_frechet ha hb] at hs
      exact hs
    rw [Set.mem_singleton_iff] at h1
    refine ⟨(a / ‖x‖) • x, ?_, ?_⟩
    · rw [pen2_zero ha hb, mem_closedBall_zero_iff, norm_smul, Real.norm_eq_abs, abs_of_nonneg (div_nonneg ha (norm_nonneg _)),
        div_mul_cancel₀ _ (norm_ne_zero_iff.mpr hx)]
    · rw [h1, add_smul, add_sub_cancel_left, norm_smul, Real.norm_eq_abs, abs_of_nonneg hb]

theorem mcp_drop {α γ : ℝ} (hα : 0 ≤ α) (hγ : 0 < γ) (x : E) (s : E) (hs : s ∈ frechetSubdiff (mcp α γ) x) :
    ∃ s' ∈ frechetSubdiff (mcp α γ) (0 : E), ‖s - s'‖ ≤ 0 * ‖x‖ := by
  refine ⟨s, ?_, by simp⟩
  by_cases hx : x = 0
  · subst hx; exact hs
  · rw [frechet_mcp_zero hα hγ, mem_closedBall_zero_iff]
    rcases lt_or_ge ‖x‖ (γ * α) with h | h
    · rw [frechet_mcp_mid hx h, Set.mem_singleton_iff] at hs
      have hN : 0 < ‖x‖ := norm_pos_iff.mpr hx
      rw [hs, norm_smul, Real.norm_eq_abs]
      have h1 : 0 ≤ α / ‖x‖ - 1 / γ := by
        rw [sub_nonneg, div_le_div_iff₀ hγ hN]; linarith
      rw [abs_of_nonneg h1, sub_mul, div_mul_cancel₀ _ hN.ne']
      have : 0 ≤ 1 / γ * ‖x‖ := by positivity
      linarith
    · rw [frechet_mcp_out hα hγ hx h, Set.mem_singleton_iff] at hs
      rw [hs, norm_zero]; exact hα

theorem mcp_nonneg {α γ : ℝ} (hγ : 0 < γ) (z : E) : 0 ≤ mcp α γ z := by
  unfold mcp
  split_ifs with h1
  · have h2 : ‖z‖ ^ 2 / (2 * γ) ≤ α * ‖z‖ := by
      rw [div_le_iff₀ (by positivity)]
      nlinarith [norm_nonneg z, mul_le_mul_of_nonneg_right h1 (norm_nonneg z)]
    linarith
  · positivity

end

/-! ## The concrete problems -/

variable {n p T : ℕ}

theorem pen_fn_pen2 (pen : Pen) (hv : pen.Valid) (hc : pen.Convex) :
    ∃ a, 0 ≤ a ∧ 0 ≤ pen.modulus ∧ pen.fn = pen2 a pen.modulus := by
  cases pen with
  | l1 α =>
    refine ⟨α, hv, le_rfl, ?_⟩
    funext z; show α * |z| = α * ‖z‖ + 0 * ‖z‖ ^ 2 / 2; rw [Real.norm_eq_abs]; ring
  | enet α ρ =>
    obtain ⟨h1, h2, h3⟩ := hv
    refine ⟨α * ρ, mul_nonneg h1 h2, mul_nonneg h1 (by linarith), ?_⟩
    funext z; show enet α ρ z = α * ρ * ‖z‖ + α * (1 - ρ) * ‖z‖ ^ 2 / 2; unfold enet; ring
  | mcp α γ => exact hc.elim
  | l05 α => exact hc.elim

theorem prob1_smooth (hn : 0 < n) (D : Design n p) (hD : D.Canonical) (y : Fin n → ℝ) (k : LossKind)
    (hy : k.LabelsOK y) (pen : Pen) : (prob1 D y k pen).Smooth (fun w => k.loss y (fit D.matrix w)) := by
  have M := prob1_mm hn D hD y k hy (.l1 0) le_rfl trivial
  refine ⟨M.nonneg, M.major, ?_, ?_⟩
  · intro w w'
    refine le_trans (le_of_eq ?_) (loss_convex hn D.matrix y k w w')
    congr 1
    exact Finset.sum_congr rfl fun j _ => mul_comm _ _
  · intro w
    cases k with
    | quadratic => exact quadLoss_nonneg y (fit D.matrix w)
    | logistic => exact logLoss_nonneg y (fit D.matrix w)

theorem prob1_weak (hn : 0 < n) (D : Design n p) (hD : D.Canonical) (y : Fin n → ℝ) (k : LossKind)
    (hy : k.LabelsOK y) (pen : Pen) (hv : pen.Valid) (hst : pen.StepOK D k) (hne : ∀ α, pen ≠ .l05 α) :
    (prob1 D y k pen).Weak (fun w => k.loss y (fit D.matrix w)) pen.fn pen.concavity pen.modulus := by
  have M := prob1_mm hn D hD y k hy pen hv hst
  have S := prob1_smooth hn D hD y k hy pen
  have conv : pen.Convex → pen.concavity = 0 →
      (prob1 D y k pen).Weak (fun w => k.loss y (fit D.matrix w)) pen.fn pen.concavity pen.modulus := by
    intro hc h0
    obtain ⟨a, ha, hb, he⟩ := pen_fn_pen2 pen hv hc
    refine ⟨M, S, ?_, hb, ?_, ?_, ?_, ?_⟩
    · rw [h0, he]; exact pen2_weak ha hb
    · intro z; rw [he]; unfold pen2; positivity
    · intro x g
      have h1 := scoreOf_dist pen hv hc x g
      rw [he, ← pen2_frechet ha hb, ← he] at h1
      exact h1
    · rw [he, pen2_zero ha hb, mem_closedBall_zero_iff, norm_zero]; exact ha
    · rw [he]; exact pen2_drop ha hb
  cases pen with
  | l1 α => exact conv trivial rfl
  | enet α ρ => exact conv trivial rfl
  | mcp α γ =>
    refine ⟨M, S, mcp_weak hv.1 hv.2, le_rfl, mcp_nonneg hv.2, fun x g => mcpScore_dist hv.1 hv.2 x g, ?_,
      mcp_drop hv.1 hv.2⟩
    show (0 : ℝ) ∈ frechetSubdiff (mcp α γ : ℝ → ℝ) 0
    rw [frechet_mcp_zero hv.1 hv.2, mem_closedBall_zero_iff, norm_zero]; exact hv.1
  | l05 α => exact absurd rfl (hne α)

theorem probMT_weak (hn : 0 < n) (D : Design n p) (hD : D.Canonical) (Y : Fin n → Fin T → ℝ) (α : ℝ) (hα : 0 < α) :
    (probMT D Y (.l21 α)).Weak (fun W => mtLoss Y (fitMT D.matrix (fun j => (W j).ofLp))) (BPen.l21 α).fn 0 0 := by
  have hp : (BPen.l21 α).fn = pen2 (E := Euc T) α 0 := by
    funext z; show α * ‖z‖ = α * ‖z‖ + 0 * ‖z‖ ^ 2 / 2; ring
  have M := probMT_mm hn D hD Y (.l21 α) hα trivial
  refine ⟨M, (probMT_cvx hn D hD Y α hα).smooth, ?_, le_rfl, ?_, ?_, ?_, ?_⟩
  · rw [hp]; exact pen2_weak hα.le le_rfl
  · intro z; show 0 ≤ α * ‖z‖; positivity
  · intro x g
    rw [hp, pen2_frechet hα.le le_rfl, ← hp]
    exact l21Score_dist hα.le x g
  · rw [hp, pen2_zero hα.le le_rfl, mem_closedBall_zero_iff, norm_zero]; exact hα.le
  · rw [hp]; exact pen2_drop hα.le le_rfl

end Sglm
