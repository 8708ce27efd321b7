import Verif.Proofs.Cert
import Mathlib.Algebra.Order.Chebyshev

/-!
# Analysis of one epoch of cyclic coordinate descent

Convex losses with penalty `a ‖z‖ + b ‖z‖² / 2` per row.
-/

namespace Sglm
open Scalar Spec

section
variable {E : Type} [NormedAddCommGroup E] [InnerProductSpace ℝ E] {p : ℕ}

/-- The penalty of a row. -/
noncomputable def pen2 (a b : ℝ) (z : E) : ℝ := a * ‖z‖ + b * ‖z‖ ^ 2 / 2

/-- A convex loss with coordinatewise Lipschitz constants. -/
structure RProb.Smooth (R : RProb E p) (f : (Fin p → E) → ℝ) : Prop where
  nonneg : ∀ j, 0 ≤ R.L j
  major : ∀ w j v, f (Function.update w j v) ≤
    f w + inner ℝ (R.G w j) (v - w j) + R.L j * ‖v - w j‖ ^ 2 / 2
  convex : ∀ w w', f w + ∑ j, inner ℝ (R.G w j) (w' j - w j) ≤ f w'
  low : ∀ w, 0 ≤ f w

namespace RProb.Smooth
variable {R : RProb E p} {f : (Fin p → E) → ℝ} (H : R.Smooth f)
include H

/-- Zero step constant means zero gradient. -/
theorem grad_zero (w : Fin p → E) (j : Fin p) (h : R.L j = 0) : R.G w j = 0 := by
  by_contra hc
  have hpos : 0 < ‖R.G w j‖ ^ 2 := by positivity
  have h1 := H.major w j (w j - ((f w + 1) / ‖R.G w j‖ ^ 2) • R.G w j)
  have h2 := H.low (Function.update w j (w j - ((f w + 1) / ‖R.G w j‖ ^ 2) • R.G w j))
  have e : w j - ((f w + 1) / ‖R.G w j‖ ^ 2) • R.G w j - w j = -(((f w + 1) / ‖R.G w j‖ ^ 2) • R.G w j) := by abel
  rw [e, h, inner_neg_right, inner_smul_right, real_inner_self_eq_norm_sq, div_mul_cancel₀ _ hpos.ne'] at h1
  linarith

/-- Cocoercivity in one coordinate. -/
theorem coco (u v : Fin p → E) (j : Fin p) (h0 : R.L j ≠ 0) :
    f v + ∑ i, inner ℝ (R.G v i) (u i - v i) + ‖R.G u j - R.G v j‖ ^ 2 / (2 * R.L j) ≤ f u := by
  have hL : 0 < R.L j := lt_of_le_of_ne (H.nonneg j) (Ne.symm h0)
  set d := R.G u j - R.G v j with hd
  set z := Function.update u j (u j - (1 / R.L j) • d) with hz
  have h1 := H.convex v z
  have h2 := H.major u j (u j - (1 / R.L j) • d)
  have e : u j - (1 / R.L j) • d - u j = -((1 / R.L j) • d) := by abel
  rw [e, inner_neg_right, inner_smul_right, norm_neg, norm_smul, Real.norm_eq_abs, abs_of_pos (by positivity)] at h2
  have e2 : ∑ i, inner ℝ (R.G v i) (z i - v i) =
      ∑ i, inner ℝ (R.G v i) (u i - v i) - (1 / R.L j) * inner ℝ (R.G v j) d := by
    have : ∀ i, inner ℝ (R.G v i) (z i - v i) =
        inner ℝ (R.G v i) (u i - v i) - if i = j then (1 / R.L j) * inner ℝ (R.G v j) d else 0 := by
      intro i
      by_cases h : i = j
      · subst h
        rw [if_pos rfl, hz, Function.update_self, show u i - (1 / R.L i) • d - v i = (u i - v i) - (1 / R.L i) • d by abel,
          inner_sub_right, inner_smul_right]
      · rw [if_neg h, hz, Function.update_of_ne h, sub_zero]
    rw [Finset.sum_congr rfl fun i _ => this i, Finset.sum_sub_distrib, Finset.sum_ite_eq' Finset.univ j]
    simp
  rw [e2] at h1
  have e3 : inner ℝ (R.G u j) d - inner ℝ (R.G v j) d = ‖d‖ ^ 2 := by
    rw [← inner_sub_left, ← hd, real_inner_self_eq_norm_sq]
  have e4 : (1 / R.L j) * inner ℝ (R.G u j) d = (1 / R.L j) * inner ℝ (R.G v j) d + (1 / R.L j) * ‖d‖ ^ 2 := by
    rw [← e3]; ring
  have e5 : R.L j * (1 / R.L j * ‖d‖) ^ 2 / 2 = (1 / R.L j) * ‖d‖ ^ 2 / 2 := by field_simp
  have e6 : ‖d‖ ^ 2 / (2 * R.L j) = (1 / R.L j) * ‖d‖ ^ 2 / 2 := by field_simp
  rw [e5] at h2
  rw [e6]
  linarith

/-- Gradients are Lipschitz continuous. -/
theorem grad_lips {Λ : ℝ} (hΛ : ∀ j, R.L j ≤ Λ) (u v : Fin p → E) (j : Fin p) :
    ‖R.G u j - R.G v j‖ ≤ Λ * ∑ i, ‖u i - v i‖ := by
  obtain ⟨k, -, hk⟩ := Finset.exists_max_image Finset.univ (fun i => ‖R.G u i - R.G v i‖) ⟨j, Finset.mem_univ j⟩
  refine le_trans (hk j (Finset.mem_univ j)) ?_
  have hS : 0 ≤ ∑ i, ‖u i - v i‖ := Finset.sum_nonneg fun i _ => norm_nonneg _
  by_cases h0 : R.L k = 0
  · rw [H.grad_zero u k h0, H.grad_zero v k h0, sub_self, norm_zero]
    exact mul_nonneg ((H.nonneg j).trans (hΛ j)) hS
  have hL : 0 < R.L k := lt_of_le_of_ne (H.nonneg k) (Ne.symm h0)
  have h1 := H.coco u v k h0
  have h2 := H.coco v u k h0
  rw [norm_sub_rev] at h2
  have h3 : ∑ i, inner ℝ (R.G v i) (u i - v i) + ∑ i, inner ℝ (R.G u i) (v i - u i) =
      -∑ i, inner ℝ (R.G u i - R.G v i) (u i - v i) := by
    rw [← Finset.sum_add_distrib, ← Finset.sum_neg_distrib]
    refine Finset.sum_congr rfl fun i _ => ?_
    rw [inner_sub_left, show v i - u i = -(u i - v i) by abel, inner_neg_right]; ring
  have h4 : ∑ i, inner ℝ (R.G u i - R.G v i) (u i - v i) ≤ ‖R.G u k - R.G v k‖ * ∑ i, ‖u i - v i‖ := by
    rw [Finset.mul_sum]
    exact Finset.sum_le_sum fun i hi => (real_inner_le_norm _ _).trans
      (mul_le_mul_of_nonneg_right (hk i hi) (norm_nonneg _))
  have h5 : ‖R.G u k - R.G v k‖ ^ 2 / R.L k ≤ ‖R.G u k - R.G v k‖ * ∑ i, ‖u i - v i‖ := by
    have e : ‖R.G u k - R.G v k‖ ^ 2 / R.L k = ‖R.G u k - R.G v k‖ ^ 2 / (2 * R.L k) + ‖R.G u k - R.G v k‖ ^ 2 / (2 * R.L k) := by
      field_simp; ring
    rw [e]; linarith
  rw [div_le_iff₀ hL] at h5
  have h6 : ‖R.G u k - R.G v k‖ ≤ R.L k * ∑ i, ‖u i - v i‖ := by
    by_cases hz : ‖R.G u k - R.G v k‖ = 0
    · rw [hz]; exact mul_nonneg hL.le hS
    · have : 0 < ‖R.G u k - R.G v k‖ := lt_of_le_of_ne (norm_nonneg _) (Ne.symm hz)
      nlinarith
  exact h6.trans (mul_le_mul_of_nonneg_right (hΛ k) hS)

end RProb.Smooth

/-- A convex composite objective, with correct proximal operator and scores. -/
structure RProb.Cvx (R : RProb E p) (f : (Fin p → E) → ℝ) (a b : ℝ) : Prop where
  obj : ∀ w, R.F w = f w + ∑ j, pen2 a b (w j)
  ha : 0 ≤ a
  hb : 0 ≤ b
  hab : 0 < a + b
  nonneg : ∀ j, 0 ≤ R.L j
  major : ∀ w j v, f (Function.update w j v) ≤
    f w + inner ℝ (R.G w j) (v - w j) + R.L j * ‖v - w j‖ ^ 2 / 2
  convex : ∀ w w', f w + ∑ j, inner ℝ (R.G w j) (w' j - w j) ≤ f w'
  low : ∀ w, 0 ≤ f w
  prox : ∀ j v, R.L j ≠ 0 → v - R.px v (1 / R.L j) ∈
    subdiff (fun z => (1 / R.L j) * pen2 a b z) (R.px v (1 / R.L j))
  score : ∀ x g, IsDist (-g) (subdiff (pen2 a b) x) (R.sc x g)

namespace RProb.Cvx
variable {R : RProb E p} {f : (Fin p → E) → ℝ} {a b : ℝ} (H : R.Cvx f a b)
include H

/-- The new value of a coordinate satisfies the optimality condition of the prox. -/
theorem step_sub (w : Fin p → E) (j : Fin p) (h0 : R.L j ≠ 0) :
    R.L j • (w j - R.step w j j) - R.G w j ∈ subdiff (pen2 a b) (R.step w j j) := by
  have hL : 0 < R.L j := lt_of_le_of_ne (H.nonneg j) (Ne.symm h0)
  have e : R.step w j j = R.px (w j - (1 / R.L j) • R.G w j) (1 / R.L j) := by
    unfold RProb.step; rw [if_neg h0, Function.update_self]
  have h := H.prox j (w j - (1 / R.L j) • R.G w j) h0
  rw [← e] at h
  intro z
  have h1 := mul_le_mul_of_nonneg_left (h z) hL.le
  have e1 : R.L j • (w j - R.step w j j) - R.G w j =
      R.L j • (w j - (1 / R.L j) • R.G w j - R.step w j j) := by
    rw [smul_sub, smul_sub, smul_sub, smul_smul, mul_one_div_cancel h0, one_smul]; abel
  rw [e1, inner_smul_left]
  have e2 : ∀ x : ℝ, R.L j * (1 / R.L j * x) = x := fun x => by field_simp
  rw [mul_add, e2, e2] at h1
  simpa using h1

omit [InnerProductSpace ℝ E] H in
theorem step_eq_of_ne [InnerProductSpace ℝ E] (w : Fin p → E) {i j : Fin p} (h : i ≠ j) : R.step w j i = w i := by
  unfold RProb.step
  split
  · rfl
  · exact Function.update_of_ne h _ _

omit H in
theorem step_eq_zero (w : Fin p → E) {j : Fin p} (h : R.L j = 0) : R.step w j = w := by
  unfold RProb.step; rw [if_pos h]

omit H in
theorem step_update (w : Fin p → E) (j : Fin p) : R.step w j = Function.update w j (R.step w j j) := by
  funext i
  by_cases h : i = j
  · subst h; rw [Function.update_self]
  · rw [Function.update_of_ne h, step_eq_of_ne w h]

/-- Sufficient decrease of one update. -/
theorem step_dec (w : Fin p → E) (j : Fin p) :
    R.F (R.step w j) ≤ R.F w - R.L j / 2 * ‖R.step w j j - w j‖ ^ 2 := by
  by_cases h0 : R.L j = 0
  · rw [step_eq_zero w h0, h0]; simp
  · have h1 := H.step_sub w j h0 (w j)
    have h2 := H.major w j (R.step w j j)
    rw [← step_update] at h2
    rw [H.obj, H.obj]
    have h3 : ∑ k, pen2 a b (R.step w j k) = ∑ k, pen2 a b (w k) - pen2 a b (w j) + pen2 a b (R.step w j j) := by
      conv_lhs => rw [step_update]
      exact sum_update _ _ _ _
    rw [inner_sub_left, inner_smul_left, real_inner_self_eq_norm_sq, norm_sub_rev] at h1
    have h4 : inner ℝ (R.G w j) (w j - R.step w j j) = - inner ℝ (R.G w j) (R.step w j j - w j) := by
      rw [← inner_neg_right, neg_sub]
    rw [h4] at h1
    simp only [conj_trivial] at h1
    rw [h3]
    linarith

theorem smooth : R.Smooth f := ⟨H.nonneg, H.major, H.convex, H.low⟩

/-- Zero step constant means zero gradient. -/
theorem grad_zero (w : Fin p → E) (j : Fin p) (h : R.L j = 0) : R.G w j = 0 := H.smooth.grad_zero w j h

/-- Cocoercivity in one coordinate. -/
theorem coco (u v : Fin p → E) (j : Fin p) (h0 : R.L j ≠ 0) :
    f v + ∑ i, inner ℝ (R.G v i) (u i - v i) + ‖R.G u j - R.G v j‖ ^ 2 / (2 * R.L j) ≤ f u := H.smooth.coco u v j h0

/-- The sum of the step constants. -/
theorem L_le (j : Fin p) : R.L j ≤ ∑ i, R.L i :=
  Finset.single_le_sum (fun i _ => H.nonneg i) (Finset.mem_univ j)

/-- Gradients are Lipschitz continuous. -/
theorem grad_lips (u v : Fin p → E) (j : Fin p) :
    ‖R.G u j - R.G v j‖ ≤ (∑ i, R.L i) * ∑ i, ‖u i - v i‖ := H.smooth.grad_lips H.L_le u v j

/-! ### Scores -/

theorem sc_le {x g s : E} (hs : s ∈ subdiff (pen2 a b) x) : R.sc x g ≤ ‖g + s‖ := by
  rw [(H.score x g).2]
  refine (Metric.infDist_le_dist_of_mem hs).trans (le_of_eq ?_)
  rw [dist_eq_norm, ← norm_neg]; congr 1; abel

theorem sc_lips (x g g' : E) : R.sc x g ≤ R.sc x g' + ‖g - g'‖ := by
  rw [(H.score x g).2, (H.score x g').2]
  refine (Metric.infDist_le_infDist_add_dist (y := -g')).trans (le_of_eq ?_)
  rw [dist_eq_norm, ← norm_neg (g - g')]; congr 2; abel

theorem sc_zero_zero : R.sc 0 0 ≤ 0 := by
  refine (H.sc_le (s := 0) fun z => ?_).trans (by simp)
  unfold pen2
  rw [norm_zero, inner_zero_left]
  have := H.ha; have := H.hb
  have h : 0 ≤ a * ‖z‖ + b * ‖z‖ ^ 2 / 2 := by positivity
  simpa using h

theorem sc_nonneg (x g : E) : 0 ≤ R.sc x g := by
  rw [(H.score x g).2]; exact Metric.infDist_nonneg

/-! ### One epoch -/

omit H in
theorem epoch_off (l : List (Fin p)) (w : Fin p → E) {j : Fin p} (h : j ∉ l) : l.foldl R.step w j = w j := by
  induction l generalizing w with
  | nil => rfl
  | cons i l ih =>
    rw [List.mem_cons, not_or] at h
    rw [List.foldl_cons, ih _ h.2, step_eq_of_ne w h.1]

omit H in
/-- The point at which a coordinate is updated. -/
theorem epoch_mid (l : List (Fin p)) (hl : l.Nodup) (w : Fin p → E) {j : Fin p} (h : j ∈ l) :
    ∃ u : Fin p → E, (∀ i, u i = w i ∨ u i = l.foldl R.step w i) ∧ u j = w j ∧
      l.foldl R.step w j = R.step u j j := by
  induction l generalizing w with
  | nil => cases h
  | cons i l ih =>
    rw [List.nodup_cons] at hl
    rw [List.foldl_cons]
    by_cases hij : j = i
    · subst hij
      exact ⟨w, fun i => Or.inl rfl, rfl, epoch_off l _ hl.1⟩
    · obtain ⟨u, h1, h2, h3⟩ := ih hl.2 (R.step w i) ((List.mem_cons.mp h).resolve_left hij)
      refine ⟨u, fun k => ?_, ?_, h3⟩
      · rcases h1 k with h | h
        · by_cases hk : k = i
          · subst hk
            exact Or.inr (by rw [h, epoch_off l _ hl.1])
          · exact Or.inl (by rw [h, step_eq_of_ne w hk])
        · exact Or.inr h
      · rw [h2, step_eq_of_ne w hij]

/-- Sufficient decrease of one epoch. -/
theorem epoch_dec {μ : ℝ} (hμ : ∀ j, R.L j ≠ 0 → μ ≤ R.L j) (l : List (Fin p)) (hl : l.Nodup)
    (w : Fin p → E) :
    R.F (l.foldl R.step w) ≤ R.F w - μ / 2 * ∑ j, ‖l.foldl R.step w j - w j‖ ^ 2 := by
  induction l generalizing w with
  | nil => simp
  | cons i l ih =>
    rw [List.nodup_cons] at hl
    rw [List.foldl_cons]
    have h1 := ih hl.2 (R.step w i)
    have h2 := H.step_dec w i
    have h3 : ∑ j, ‖l.foldl R.step (R.step w i) j - w j‖ ^ 2 =
        ∑ j, ‖l.foldl R.step (R.step w i) j - R.step w i j‖ ^ 2 + ‖R.step w i i - w i‖ ^ 2 := by
      have : ∀ j, ‖l.foldl R.step (R.step w i) j - w j‖ ^ 2 =
          ‖l.foldl R.step (R.step w i) j - R.step w i j‖ ^ 2 + if j = i then ‖R.step w i i - w i‖ ^ 2 else 0 := by
        intro j
        by_cases hj : j = i
        · subst hj
          rw [if_pos rfl, epoch_off l _ hl.1, sub_self, norm_zero]; ring
        · rw [if_neg hj, step_eq_of_ne w hj, add_zero]
      rw [Finset.sum_congr rfl fun j _ => this j, Finset.sum_add_distrib, Finset.sum_ite_eq' Finset.univ i]
      simp
    have h4 : μ / 2 * ‖R.step w i i - w i‖ ^ 2 ≤ R.L i / 2 * ‖R.step w i i - w i‖ ^ 2 := by
      by_cases h0 : R.L i = 0
      · rw [step_eq_zero w h0, sub_self, norm_zero]; simp
      · exact mul_le_mul_of_nonneg_right (by linarith [hμ i h0]) (by positivity)
    rw [h3, mul_add]
    linarith

omit H [InnerProductSpace ℝ E] in
/-- Movement between two states of an epoch. -/
theorem move_le {w w' u : Fin p → E} (hu : ∀ i, u i = w i ∨ u i = w' i) :
    ∑ i, ‖w' i - u i‖ ≤ ∑ i, ‖w' i - w i‖ ∧ ∑ i, ‖w i - u i‖ ≤ ∑ i, ‖w' i - w i‖ := by
  constructor
  · refine Finset.sum_le_sum fun i _ => ?_
    rcases hu i with h | h
    · rw [h]
    · rw [h, sub_self, norm_zero]; exact norm_nonneg _
  · refine Finset.sum_le_sum fun i _ => ?_
    rcases hu i with h | h
    · rw [h, sub_self, norm_zero]; exact norm_nonneg _
    · rw [h, norm_sub_rev]

/-- Scores of the updated features after an epoch. -/
theorem score_after (l : List (Fin p)) (hl : l.Nodup) (w : Fin p → E) (hz : ∀ j, R.L j = 0 → w j = 0) {j : Fin p}
    (hj : j ∈ l) :
    R.sc (l.foldl R.step w j) (R.G (l.foldl R.step w) j) ≤
      2 * (∑ i, R.L i) * ∑ i, ‖l.foldl R.step w i - w i‖ := by
  obtain ⟨u, h1, h2, h3⟩ := epoch_mid (R := R) l hl w hj
  set w' := l.foldl R.step w with hw'
  have hS : 0 ≤ ∑ i, ‖w' i - w i‖ := Finset.sum_nonneg fun i _ => norm_nonneg _
  have hL : 0 ≤ ∑ i, R.L i := Finset.sum_nonneg fun i _ => H.nonneg i
  by_cases h0 : R.L j = 0
  · have : w' j = 0 := by rw [h3, step_eq_zero u h0, h2, hz j h0]
    rw [this, H.grad_zero _ j h0]
    exact H.sc_zero_zero.trans (by positivity)
  · have hs := H.step_sub u j h0
    rw [← h3, h2] at hs
    refine (H.sc_le hs).trans ?_
    have e : R.G w' j + (R.L j • (w j - w' j) - R.G u j) = (R.G w' j - R.G u j) + R.L j • (w j - w' j) := by abel
    rw [e]
    refine (norm_add_le _ _).trans ?_
    rw [norm_smul, Real.norm_eq_abs, abs_of_nonneg (H.nonneg j), norm_sub_rev (w j)]
    have h4 := (H.grad_lips w' u j).trans (mul_le_mul_of_nonneg_left (move_le h1).1 hL)
    have h5 : ‖w' j - w j‖ ≤ ∑ i, ‖w' i - w i‖ :=
      Finset.single_le_sum (f := fun i => ‖w' i - w i‖) (fun i _ => norm_nonneg _) (Finset.mem_univ j)
    have h6 := mul_le_mul (H.L_le j) h5 (norm_nonneg _) hL
    linarith

/-- At a zero coordinate the movement bounds the score. -/
theorem score_zero_step (u : Fin p → E) (j : Fin p) (hu : u j = 0) :
    R.sc 0 (R.G u j) ≤ (R.L j + b) * ‖R.step u j j‖ := by
  have hb := H.hb
  have hLj := H.nonneg j
  by_cases h0 : R.L j = 0
  · rw [H.grad_zero u j h0]
    exact H.sc_zero_zero.trans (by positivity)
  · have hs := H.step_sub u j h0
    rw [hu, zero_sub] at hs
    by_cases hx : R.step u j j = 0
    · rw [hx, neg_zero, smul_zero, zero_sub] at hs
      refine (H.sc_le (x := 0) (s := -R.G u j) (by exact hs)).trans ?_
      rw [add_neg_cancel, norm_zero]; positivity
    · have h1 := subdiff_enet_ne H.ha hb hx
      have h2 : R.L j • -(R.step u j j) - R.G u j ∈ ({(a / ‖R.step u j j‖ + b) • R.step u j j} : Set E) := by
        rw [← h1]; exact hs
      rw [Set.mem_singleton_iff] at h2
      have h3 : R.G u j = -((R.L j + b) • R.step u j j + (a / ‖R.step u j j‖) • R.step u j j) := by
        rw [add_smul, smul_neg] at h2
        rw [add_smul]
        have : R.G u j = -(R.L j • R.step u j j) - (-(R.L j • R.step u j j) - R.G u j) := by abel
        rw [this, h2]; abel
      have hmem : (a / ‖R.step u j j‖) • R.step u j j ∈ subdiff (pen2 a b) (0 : E) := by
        have h4 := subdiff_enet_zero (E := E) H.ha hb
        have h5 : (a / ‖R.step u j j‖) • R.step u j j ∈ Metric.closedBall (0 : E) a := by
          rw [mem_closedBall_zero_iff, norm_smul, Real.norm_eq_abs, abs_of_nonneg (div_nonneg H.ha (norm_nonneg _)),
            div_mul_cancel₀ _ (norm_ne_zero_iff.mpr hx)]
        rw [← h4] at h5
        exact h5
      refine (H.sc_le hmem).trans (le_of_eq ?_)
      rw [h3, neg_add, neg_add_cancel_right, norm_neg, norm_smul, Real.norm_eq_abs, abs_of_nonneg (by positivity)]

/-- Scores before an epoch of features with zero coefficient. -/
theorem score_before (l : List (Fin p)) (hl : l.Nodup) (w : Fin p → E) {j : Fin p} (hj : j ∈ l) (hw : w j = 0) :
    R.sc 0 (R.G w j) ≤ (2 * (∑ i, R.L i) + b) * ∑ i, ‖l.foldl R.step w i - w i‖ := by
  obtain ⟨u, h1, h2, h3⟩ := epoch_mid (R := R) l hl w hj
  have hL : 0 ≤ ∑ i, R.L i := Finset.sum_nonneg fun i _ => H.nonneg i
  have h4 := H.score_zero_step u j (by rw [h2, hw])
  rw [← h3] at h4
  have h5 := H.sc_lips 0 (R.G w j) (R.G u j)
  have h6 := (H.grad_lips w u j).trans (mul_le_mul_of_nonneg_left (move_le h1).2 hL)
  have h7 : ‖l.foldl R.step w j‖ ≤ ∑ i, ‖l.foldl R.step w i - w i‖ := by
    have := Finset.single_le_sum (f := fun i => ‖l.foldl R.step w i - w i‖) (fun i _ => norm_nonneg _) (Finset.mem_univ j)
    rwa [hw, sub_zero] at this
  have h8 : (R.L j + b) * ‖l.foldl R.step w j‖ ≤ ((∑ i, R.L i) + b) * ∑ i, ‖l.foldl R.step w i - w i‖ :=
    mul_le_mul (by linarith [H.L_le j]) h7 (norm_nonneg _) (add_nonneg hL H.hb)
  linarith

/-- Scores of all features after the first epoch of an iteration. -/
theorem score_all (l : List (Fin p)) (hl : l.Nodup) (w : Fin p → E) (hz : ∀ j, R.L j = 0 → w j = 0)
    (hsupp : ∀ j ∉ l, w j = 0)
    (hbest : ∀ j ∉ l, ∃ i ∈ l, w i = 0 ∧ R.sc (w j) (R.G w j) ≤ R.sc (w i) (R.G w i)) (j : Fin p) :
    R.sc (l.foldl R.step w j) (R.G (l.foldl R.step w) j) ≤
      (3 * (∑ i, R.L i) + b) * ∑ i, ‖l.foldl R.step w i - w i‖ := by
  have hS : 0 ≤ ∑ i, ‖l.foldl R.step w i - w i‖ := Finset.sum_nonneg fun i _ => norm_nonneg _
  have hL : 0 ≤ ∑ i, R.L i := Finset.sum_nonneg fun i _ => H.nonneg i
  have hb := H.hb
  by_cases hj : j ∈ l
  · refine (H.score_after l hl w hz hj).trans (mul_le_mul_of_nonneg_right (by linarith) hS)
  · obtain ⟨i, h1, h2, h3⟩ := hbest j hj
    have h4 := H.score_before l hl w h1 h2
    rw [h2, hsupp j hj] at h3
    have h5 := H.sc_lips 0 (R.G (l.foldl R.step w) j) (R.G w j)
    have h6 := H.grad_lips (l.foldl R.step w) w j
    rw [epoch_off l w hj, hsupp j hj]
    linarith

/-! ### Gap and level sets -/

/-- Small scores certify a small gap; differences of gradients are controlled as well. -/
theorem gap {v : Fin p → E} {σ : ℝ} (hσ : ∀ j, R.sc (v j) (R.G v j) ≤ σ) (u : Fin p → E) (j : Fin p) :
    R.F v + ‖R.G u j - R.G v j‖ ^ 2 / (2 * R.L j) ≤ R.F u + σ * ∑ i, ‖v i - u i‖ := by
  have key : ∑ j, pen2 a b (v j) - ∑ j, pen2 a b (u j) ≤
      ∑ j, inner ℝ (R.G v j) (u j - v j) + σ * ∑ j, ‖v j - u j‖ := by
    rw [← Finset.sum_sub_distrib, Finset.mul_sum, ← Finset.sum_add_distrib]
    refine Finset.sum_le_sum fun j _ => ?_
    have h1 := subdiff_gap (H.score (v j) (R.G v j)) (u j)
    have h2 := mul_le_mul_of_nonneg_right (hσ j) (norm_nonneg (v j - u j))
    linarith
  rw [H.obj, H.obj]
  by_cases h0 : R.L j = 0
  · have := H.convex v u
    rw [h0, mul_zero, div_zero]
    linarith
  · have := H.coco u v j h0
    linarith

theorem F_nonneg (w : Fin p → E) : 0 ≤ R.F w := by
  rw [H.obj]
  refine add_nonneg (H.low w) (Finset.sum_nonneg fun j _ => ?_)
  unfold pen2
  have := H.ha; have := H.hb
  positivity

theorem gap' {v : Fin p → E} {σ : ℝ} (hσ : ∀ j, R.sc (v j) (R.G v j) ≤ σ) (u : Fin p → E) :
    R.F v ≤ R.F u + σ * ∑ i, ‖v i - u i‖ := by
  rw [H.obj, H.obj]
  have := cert_gap (H.convex v u) fun j => ⟨_, H.score (v j) (R.G v j), hσ j⟩
  linarith

/-- Level sets are bounded. -/
theorem level (c : ℝ) : ∃ B, 0 ≤ B ∧ ∀ w, R.F w ≤ c → ∑ j, ‖w j‖ ≤ B := by
  have hab := H.hab
  have ha := H.ha
  have hb := H.hb
  refine ⟨p * ((|c| + b) / (a + b) + 1), by positivity, fun w hw => ?_⟩
  have h1 : ∀ j, ‖w j‖ ≤ (|c| + b) / (a + b) + 1 := by
    intro j
    have h2 : pen2 a b (w j) ≤ c := by
      rw [H.obj] at hw
      have h3 : pen2 a b (w j) ≤ ∑ j, pen2 a b (w j) :=
        Finset.single_le_sum (f := fun j => pen2 a b (w j)) (fun i _ => by unfold pen2; positivity) (Finset.mem_univ j)
      linarith [H.low w]
    unfold pen2 at h2
    have h3 : (a + b) * ‖w j‖ ≤ |c| + b := by
      have := le_abs_self c
      nlinarith [sq_nonneg (‖w j‖ - 1), norm_nonneg (w j)]
    have h4 : ‖w j‖ ≤ (|c| + b) / (a + b) := by rw [le_div_iff₀ hab]; linarith
    linarith
  calc ∑ j, ‖w j‖ ≤ ∑ _j : Fin p, ((|c| + b) / (a + b) + 1) := Finset.sum_le_sum fun j _ => h1 j
    _ = _ := by rw [Finset.sum_const, Finset.card_univ, Fintype.card_fin, nsmul_eq_mul]

/-- Sufficient decrease in terms of the total movement. -/
theorem decrease : ∃ κ, 0 < κ ∧ ∀ (l : List (Fin p)), l.Nodup → ∀ w : Fin p → E,
    κ * (∑ i, ‖l.foldl R.step w i - w i‖) ^ 2 ≤ R.F w - R.F (l.foldl R.step w) := by
  obtain ⟨μ, hμ, hμ2⟩ : ∃ μ, 0 < μ ∧ ∀ j, R.L j ≠ 0 → μ ≤ R.L j := by
    by_cases hne : (Finset.univ.filter fun j => R.L j ≠ 0).Nonempty
    · obtain ⟨k, hk, hk2⟩ := Finset.exists_min_image _ R.L hne
      refine ⟨R.L k, lt_of_le_of_ne (H.nonneg k) (Ne.symm (Finset.mem_filter.mp hk).2), fun j hj => ?_⟩
      exact hk2 j (Finset.mem_filter.mpr ⟨Finset.mem_univ j, hj⟩)
    · exact ⟨1, one_pos, fun j hj => absurd ⟨j, Finset.mem_filter.mpr ⟨Finset.mem_univ j, hj⟩⟩ hne⟩
  refine ⟨μ / (2 * (p + 1)), by positivity, fun l hl w => ?_⟩
  have h1 := H.epoch_dec hμ2 l hl w
  have h2 : (∑ i, ‖l.foldl R.step w i - w i‖) ^ 2 ≤ p * ∑ i, ‖l.foldl R.step w i - w i‖ ^ 2 := by
    have := sq_sum_le_card_mul_sum_sq (s := (Finset.univ : Finset (Fin p))) (f := fun i => ‖l.foldl R.step w i - w i‖)
    rwa [Finset.card_univ, Fintype.card_fin] at this
  have h3 : 0 ≤ ∑ i, ‖l.foldl R.step w i - w i‖ ^ 2 := Finset.sum_nonneg fun i _ => by positivity
  have h4 : μ / (2 * (p + 1)) * (∑ i, ‖l.foldl R.step w i - w i‖) ^ 2 ≤ μ / 2 * ∑ i, ‖l.foldl R.step w i - w i‖ ^ 2 := by
    have h5 : (∑ i, ‖l.foldl R.step w i - w i‖) ^ 2 ≤ (p + 1) * ∑ i, ‖l.foldl R.step w i - w i‖ ^ 2 := by linarith
    have h6 := mul_le_mul_of_nonneg_left h5 (by positivity : 0 ≤ μ / (2 * ((p : ℝ) + 1)))
    refine h6.trans (le_of_eq ?_)
    field_simp
  linarith

end RProb.Cvx
end
end Sglm
