import Verif.Proofs.ConstraintSim

/-!
# Runs on constrained problems: descent and the number of iterations
-/

set_option linter.unusedSectionVars false

namespace Sglm
open Scalar Spec
variable {n p : ℕ}

/-- A convex loss and a convex constrained penalty, with correct proximal operator and scores. -/
structure RProb.Cons (R : RProb ℝ p) (f : (Fin p → ℝ) → ℝ) (φ : ℝ → ℝ) (D : Set ℝ) : Prop where
  smooth : R.Smooth f
  zero : (0 : ℝ) ∈ D
  obj : ∀ w, Feasible D w → R.F w = f w + ∑ j, φ (w j)
  out : ∀ w, ¬ Feasible D w → R.F (fun _ => 0) + 1 ≤ R.F w
  prox : ∀ j v, R.L j ≠ 0 → R.px v (1 / R.L j) ∈ D ∧ R.L j * (v - R.px v (1 / R.L j)) ∈ subdiffOn φ D (R.px v (1 / R.L j))
  score : ∀ x ∈ D, ∀ g, (subdiffOn φ D x).Nonempty ∧ R.sc x g = Metric.infDist (-g) (subdiffOn φ D x)

/-- The optimality condition of the prox. -/
theorem prox_subdiffOn {φ : ℝ → ℝ} {D : Set ℝ} (hφ : ConvexOn ℝ D φ) {L v x : ℝ} (hL : 0 < L) (hx : x ∈ D)
    (h : ∀ z ∈ D, (x - v) ^ 2 / 2 + 1 / L * φ x ≤ (z - v) ^ 2 / 2 + 1 / L * φ z) : L * (v - x) ∈ subdiffOn φ D x := by
  intro z hz
  refine le_of_forall_pos_le_add fun ε hε => ?_
  obtain ⟨t, ht, ht1, ht2⟩ : ∃ t : ℝ, 0 < t ∧ t ≤ 1 ∧ t * (L * (z - x) ^ 2) ≤ 2 * ε := by
    refine ⟨min 1 (2 * ε / (L * (z - x) ^ 2 + 1)), by positivity, min_le_left _ _, ?_⟩
    refine (mul_le_mul_of_nonneg_right (min_le_right _ _) (by positivity)).trans ?_
    rw [div_mul_eq_mul_div, div_le_iff₀ (by positivity)]
    nlinarith [mul_nonneg hL.le (sq_nonneg (z - x))]
  have h1 := hφ.2 hx hz (show 0 ≤ 1 - t by linarith) ht.le (by ring)
  have h2 := mul_le_mul_of_nonneg_left (h _ (hφ.1 hx hz (show 0 ≤ 1 - t by linarith) ht.le (by ring))) hL.le
  simp only [smul_eq_mul] at h1 h2
  have e : ∀ a b : ℝ, L * (a + 1 / L * b) = L * a + b := fun a b => by field_simp
  rw [e, e] at h2
  have h3 : t * (φ x + L * (v - x) * (z - x)) ≤ t * (φ z + ε) := by nlinarith
  exact le_of_mul_le_mul_left h3 ht

namespace RProb.Cons
open RProb.Cvx
variable {R : RProb ℝ p} {f : (Fin p → ℝ) → ℝ} {φ : ℝ → ℝ} {D : Set ℝ} (H : R.Cons f φ D)
include H

theorem of_lt {w : Fin p → ℝ} (h : R.F w ≤ R.F fun _ => 0) : Feasible D w := by
  by_contra hc
  linarith [H.out w hc]

theorem step_eq (w : Fin p → ℝ) (j : Fin p) (h0 : R.L j ≠ 0) :
    R.step w j j ∈ D ∧ R.L j * (w j - R.step w j j) - R.G w j ∈ subdiffOn φ D (R.step w j j) := by
  have e : R.step w j j = R.px (w j - (1 / R.L j) • R.G w j) (1 / R.L j) := by
    unfold RProb.step; rw [if_neg h0, Function.update_self]
  have h := H.prox j (w j - (1 / R.L j) • R.G w j) h0
  rw [← e] at h
  refine ⟨h.1, ?_⟩
  have e2 : R.L j * (w j - (1 / R.L j) • R.G w j - R.step w j j) = R.L j * (w j - R.step w j j) - R.G w j := by
    rw [smul_eq_mul]; field_simp; ring
  rw [← e2]
  exact h.2

theorem step_feasible (w : Fin p → ℝ) (hw : Feasible D w) (j : Fin p) : Feasible D (R.step w j) := by
  by_cases h0 : R.L j = 0
  · rw [step_eq_zero w h0]; exact hw
  · intro i
    by_cases hi : i = j
    · subst hi; exact (H.step_eq w i h0).1
    · rw [step_eq_of_ne w hi]; exact hw i

/-- Sufficient decrease of one update. -/
theorem step_dec (w : Fin p → ℝ) (hw : Feasible D w) (j : Fin p) :
    R.F (R.step w j) ≤ R.F w - R.L j / 2 * (R.step w j j - w j) ^ 2 := by
  by_cases h0 : R.L j = 0
  · rw [step_eq_zero w h0, h0]; simp
  · have h1 := (H.step_eq w j h0).2 (w j) (hw j)
    have h2 := H.smooth.major w j (R.step w j j)
    rw [← step_update] at h2
    rw [H.obj _ (H.step_feasible w hw j), H.obj w hw]
    have h3 : ∑ k, φ (R.step w j k) = ∑ k, φ (w k) - φ (w j) + φ (R.step w j j) := by
      conv_lhs => rw [step_update]
      exact sum_update _ _ _ _
    rw [h3]
    rw [Real.norm_eq_abs, sq_abs, show inner ℝ (R.G w j) (R.step w j j - w j) = R.G w j * (R.step w j j - w j) by
      simp [mul_comm]] at h2
    nlinarith

theorem step_inv (w : Fin p → ℝ) (j : Fin p) (hw : R.Inv D w) : R.Inv D (R.step w j) := by
  refine ⟨H.step_feasible w hw.1 j, le_trans ?_ hw.2⟩
  have h1 := H.step_dec w hw.1 j
  have h2 : 0 ≤ R.L j / 2 * (R.step w j j - w j) ^ 2 := mul_nonneg (by linarith [H.smooth.nonneg j]) (sq_nonneg _)
  linarith

theorem zero_inv : R.Inv D fun _ => 0 := ⟨fun _ => H.zero, le_rfl⟩

/-- Runs keep the constraint. -/
theorem run_inv {srt : Argsort XR} (hs : ArgsortSpec srt) (cfg : Solver XR) (v : Fin p → ℝ) (k : ℕ)
    (hr : R.run srt cfg = .ok (v, k)) : R.Inv D v := by
  refine (Tri.elim_ok ((R.hoare hs cfg (Nat.min_le_right _ _) (R.Inv D) (fun w j hw => H.step_inv w j hw)
    (fun w l pt hw _ hlt => ?_)).outer cfg.maxIterations (fun _ => 0) H.zero_inv) hr).1
  exact ⟨H.of_lt (hlt.le.trans hw.2), hlt.le.trans hw.2⟩

/-- Epochs: invariant and sufficient decrease. -/
theorem epoch_dec {μ : ℝ} (hμ : ∀ j, R.L j ≠ 0 → μ ≤ R.L j) (l : List (Fin p)) (hl : l.Nodup)
    (w : Fin p → ℝ) (hw : R.Inv D w) :
    R.Inv D (l.foldl R.step w) ∧ R.F (l.foldl R.step w) ≤ R.F w - μ / 2 * ∑ j, ‖l.foldl R.step w j - w j‖ ^ 2 := by
  induction l generalizing w with
  | nil => exact ⟨hw, by simp⟩
  | cons i l ih =>
    rw [List.nodup_cons] at hl
    rw [List.foldl_cons]
    obtain ⟨h0, h1⟩ := ih hl.2 (R.step w i) (H.step_inv w i hw)
    refine ⟨h0, ?_⟩
    have h3 : ∑ j, ‖l.foldl R.step (R.step w i) j - w j‖ ^ 2 =
        ∑ j, ‖l.foldl R.step (R.step w i) j - R.step w i j‖ ^ 2 + ‖R.step w i i - w i‖ ^ 2 := by
      have : ∀ j, ‖l.foldl R.step (R.step w i) j - w j‖ ^ 2 =
          ‖l.foldl R.step (R.step w i) j - R.step w i j‖ ^ 2 + if j = i then ‖R.step w i i - w i‖ ^ 2 else 0 := by
        intro j
        by_cases hj : j = i
        · subst hj
          rw [if_pos rfl, epoch_off l _ hl.1, sub_self, norm_zero]; ring
        · rw [if_neg hj, step_eq_of_ne w hj, add_zero]
      rw [Finset.sum_congr rfl fun j _ => this j, Finset.sum_add_distrib, Finset.sum_ite_eq' Finset.univ i]
      simp
    have h4 : R.F (R.step w i) ≤ R.F w - μ / 2 * ‖R.step w i i - w i‖ ^ 2 := by
      by_cases h0 : R.L i = 0
      · rw [step_eq_zero w h0, sub_self, norm_zero]; simp
      · have h5 := H.step_dec w hw.1 i
        have := mul_le_mul_of_nonneg_right (show μ / 2 ≤ R.L i / 2 by linarith [hμ i h0])
          (by positivity : 0 ≤ ‖R.step w i i - w i‖ ^ 2)
        rw [Real.norm_eq_abs, sq_abs] at this ⊢
        linarith
    rw [h3, mul_add]
    linarith

theorem sc_le {x : ℝ} (hx : x ∈ D) {g s : ℝ} (hs : s ∈ subdiffOn φ D x) : R.sc x g ≤ ‖g + s‖ := by
  rw [(H.score x hx g).2]
  refine (Metric.infDist_le_dist_of_mem hs).trans (le_of_eq ?_)
  rw [dist_eq_norm, ← norm_neg]; congr 1; ring

theorem sc_lips {x : ℝ} (hx : x ∈ D) (g g' : ℝ) : R.sc x g ≤ R.sc x g' + ‖g - g'‖ := by
  rw [(H.score x hx g).2, (H.score x hx g').2]
  refine (Metric.infDist_le_infDist_add_dist (y := -g')).trans (le_of_eq ?_)
  rw [dist_eq_norm, ← norm_neg (g - g')]; congr 2; ring

theorem sc_zero_zero (hz : (0 : ℝ) ∈ subdiffOn φ D 0) : R.sc 0 0 ≤ 0 := (H.sc_le H.zero hz).trans (by simp)

/-- Scores of the updated features after an epoch. -/
theorem score_after (hz0 : ∀ j, R.L j = 0 → (0 : ℝ) ∈ subdiffOn φ D 0) {Λ : ℝ} (hΛ : ∀ j, R.L j ≤ Λ) (l : List (Fin p)) (hl : l.Nodup)
    (w : Fin p → ℝ) (hz : ZeroOK R w) {j : Fin p} (hj : j ∈ l) :
    R.sc (l.foldl R.step w j) (R.G (l.foldl R.step w) j) ≤ 2 * Λ * ∑ i, ‖l.foldl R.step w i - w i‖ := by
  obtain ⟨u, h1, h2, h3⟩ := epoch_mid (R := R) l hl w hj
  set w' := l.foldl R.step w with hw'
  have hS : 0 ≤ ∑ i, ‖w' i - w i‖ := Finset.sum_nonneg fun i _ => norm_nonneg _
  have hL : 0 ≤ Λ := (H.smooth.nonneg j).trans (hΛ j)
  by_cases h0 : R.L j = 0
  · have : w' j = 0 := by rw [h3, step_eq_zero u h0, h2, hz j h0]
    rw [this, H.smooth.grad_zero _ j h0]
    exact (H.sc_zero_zero (hz0 j h0)).trans (by positivity)
  · obtain ⟨hD, hs⟩ := H.step_eq u j h0
    rw [← h3, h2] at hs
    rw [← h3] at hD
    refine (H.sc_le hD hs).trans ?_
    have e : R.G w' j + (R.L j * (w j - w' j) - R.G u j) = (R.G w' j - R.G u j) + R.L j * (w j - w' j) := by ring
    rw [e]
    refine (norm_add_le _ _).trans ?_
    rw [norm_mul, Real.norm_eq_abs (R.L j), abs_of_nonneg (H.smooth.nonneg j), norm_sub_rev (w j)]
    have h4 := (H.smooth.grad_lips hΛ w' u j).trans (mul_le_mul_of_nonneg_left (move_le h1).1 hL)
    have h5 : ‖w' j - w j‖ ≤ ∑ i, ‖w' i - w i‖ :=
      Finset.single_le_sum (f := fun i => ‖w' i - w i‖) (fun i _ => norm_nonneg _) (Finset.mem_univ j)
    have h6 := mul_le_mul (hΛ j) h5 (norm_nonneg _) hL
    linarith

/-- The objective of zero coefficients, above its lower bound. -/
theorem gap_nonneg {c : ℝ} (hc : ∀ z ∈ D, c ≤ φ z) {w : Fin p → ℝ} (hw : Feasible D w) : f w ≤ R.F w - p * c ∧ 0 ≤ R.F w - p * c := by
  have h1 : (p : ℝ) * c ≤ ∑ j, φ (w j) := by
    have := Finset.sum_le_sum fun (j : Fin p) (_ : j ∈ Finset.univ) => hc (w j) (hw j)
    simpa using this
  rw [H.obj w hw]
  exact ⟨by linarith, by linarith [H.smooth.low w]⟩

/-- Gradients on the level set. -/
theorem grad_sq {c : ℝ} (hc : ∀ z ∈ D, c ≤ φ z) {Λ : ℝ} (hΛ : ∀ j, R.L j ≤ Λ) {u : Fin p → ℝ} (hu : R.Inv D u) (j : Fin p)
    (h0 : R.L j ≠ 0) : R.G u j ^ 2 ≤ 2 * Λ * (R.F (fun _ => 0) - p * c) := by
  have hL : 0 < R.L j := lt_of_le_of_ne (H.smooth.nonneg j) (Ne.symm h0)
  have h1 := H.smooth.major u j (u j - 1 / R.L j * R.G u j)
  have h2 := H.smooth.low (Function.update u j (u j - 1 / R.L j * R.G u j))
  have e : u j - 1 / R.L j * R.G u j - u j = -(1 / R.L j * R.G u j) := by ring
  rw [e, Real.norm_eq_abs, sq_abs, show inner ℝ (R.G u j) (-(1 / R.L j * R.G u j)) = -(1 / R.L j * R.G u j) * R.G u j by simp] at h1
  have h3 : R.G u j ^ 2 / (2 * R.L j) ≤ f u := by
    have e2 : -(1 / R.L j * R.G u j) * R.G u j + R.L j * (-(1 / R.L j * R.G u j)) ^ 2 / 2 = -(R.G u j ^ 2 / (2 * R.L j)) := by
      field_simp; ring
    linarith
  rw [div_le_iff₀ (by positivity)] at h3
  have h4 := (H.gap_nonneg hc hu.1).1
  have h5 := (H.gap_nonneg hc hu.1).2
  have h6 := hu.2
  have h7 : f u ≤ R.F (fun _ => 0) - p * c := by linarith
  have h8 := H.smooth.low u
  nlinarith [hΛ j]

/-- At a zero coordinate the movement bounds the score. -/
theorem score_zero_step (hz0 : ∀ j, R.L j = 0 → (0 : ℝ) ∈ subdiffOn φ D 0) {c b B : ℝ} (hr : RegularOn φ D c b B) {Λ : ℝ}
    (hΛ : ∀ j, R.L j ≤ Λ) (hB : 2 * √(2 * Λ * (R.F (fun _ => 0) - p * c)) ≤ B) (u : Fin p → ℝ) (hI : R.Inv D u) (j : Fin p) (hu : u j = 0) :
    R.sc 0 (R.G u j) ≤ (R.L j + b) * ‖R.step u j j‖ := by
  have hb := hr.bound
  have hLj := H.smooth.nonneg j
  by_cases h0 : R.L j = 0
  · rw [H.smooth.grad_zero u j h0]
    exact (H.sc_zero_zero (hz0 j h0)).trans (by positivity)
  · obtain ⟨hD, hs⟩ := H.step_eq u j h0
    rw [hu, zero_sub] at hs
    obtain ⟨Δ, hΔ⟩ : ∃ Δ, Δ = R.F (fun _ => 0) - p * c := ⟨_, rfl⟩
    rw [← hΔ] at hB
    have hg : |R.G u j| ≤ √(2 * Λ * Δ) := by
      rw [← Real.sqrt_sq_eq_abs]
      exact Real.sqrt_le_sqrt (by rw [hΔ]; exact H.grad_sq hr.low hΛ hI j h0)
    have hx : |R.L j * R.step u j j| ≤ √(2 * Λ * Δ) := by
      rw [← Real.sqrt_sq_eq_abs]
      refine Real.sqrt_le_sqrt ?_
      have h1 := H.step_dec u hI.1 j
      rw [hu, sub_zero] at h1
      have h2 := (H.gap_nonneg hr.low (H.step_feasible u hI.1 j)).2
      have h3 := hI.2
      have h4 : R.L j * R.step u j j ^ 2 ≤ 2 * Δ := by linarith
      have h5 : 0 ≤ R.L j * R.step u j j ^ 2 := mul_nonneg hLj (sq_nonneg _)
      have h6 := mul_le_mul (hΛ j) h4 h5 (hLj.trans (hΛ j))
      calc (R.L j * R.step u j j) ^ 2 = R.L j * (R.L j * R.step u j j ^ 2) := by ring
        _ ≤ Λ * (2 * Δ) := h6
        _ = _ := by ring
    obtain ⟨s', h1, h2⟩ := hr.near _ hD _ hs (by
      have := abs_sub (R.L j * -R.step u j j) (R.G u j)
      rw [mul_neg, abs_neg] at this
      rw [mul_neg]
      linarith)
    refine (H.sc_le H.zero h1).trans ?_
    have e : R.G u j + s' = -(R.L j * R.step u j j) - (R.L j * -R.step u j j - R.G u j - s') := by ring
    rw [e]
    refine (norm_sub_le _ _).trans ?_
    rw [norm_neg, norm_mul, Real.norm_eq_abs (R.L j), abs_of_nonneg hLj, Real.norm_eq_abs, Real.norm_eq_abs]
    linarith

/-- The point at which a coordinate is updated. -/
theorem epoch_mid (l : List (Fin p)) (hl : l.Nodup) (w : Fin p → ℝ) (hw : R.Inv D w) {j : Fin p} (h : j ∈ l) :
    ∃ u : Fin p → ℝ, R.Inv D u ∧ (∀ i, u i = w i ∨ u i = l.foldl R.step w i) ∧ u j = w j ∧
      l.foldl R.step w j = R.step u j j := by
  induction l generalizing w with
  | nil => cases h
  | cons i l ih =>
    rw [List.nodup_cons] at hl
    rw [List.foldl_cons]
    by_cases hij : j = i
    · subst hij
      exact ⟨w, hw, fun i => Or.inl rfl, rfl, epoch_off l _ hl.1⟩
    · obtain ⟨u, h0, h1, h2, h3⟩ := ih hl.2 (R.step w i) (H.step_inv w i hw) ((List.mem_cons.mp h).resolve_left hij)
      refine ⟨u, h0, fun k => ?_, ?_, h3⟩
      · rcases h1 k with h | h
        · by_cases hk : k = i
          · subst hk
            exact Or.inr (by rw [h, epoch_off l _ hl.1])
          · exact Or.inl (by rw [h, step_eq_of_ne w hk])
        · exact Or.inr h
      · rw [h2, step_eq_of_ne w hij]

/-- Scores before an epoch of features with zero coefficient. -/
theorem score_before (hz0 : ∀ j, R.L j = 0 → (0 : ℝ) ∈ subdiffOn φ D 0) {c b B : ℝ} (hr : RegularOn φ D c b B) {Λ : ℝ}
    (hΛ : ∀ j, R.L j ≤ Λ) (hB : 2 * √(2 * Λ * (R.F (fun _ => 0) - p * c)) ≤ B) (l : List (Fin p)) (hl : l.Nodup) (w : Fin p → ℝ)
    (hI : R.Inv D w) {j : Fin p} (hj : j ∈ l) (hw : w j = 0) :
    R.sc 0 (R.G w j) ≤ (2 * Λ + b) * ∑ i, ‖l.foldl R.step w i - w i‖ := by
  obtain ⟨u, h0, h1, h2, h3⟩ := H.epoch_mid l hl w hI hj
  have hL : 0 ≤ Λ := (H.smooth.nonneg j).trans (hΛ j)
  have h4 := H.score_zero_step hz0 hr hΛ hB u h0 j (by rw [h2, hw])
  rw [← h3] at h4
  have h5 := H.sc_lips H.zero (R.G w j) (R.G u j)
  have h6 := (H.smooth.grad_lips hΛ w u j).trans (mul_le_mul_of_nonneg_left (move_le h1).2 hL)
  have h7 : ‖l.foldl R.step w j‖ ≤ ∑ i, ‖l.foldl R.step w i - w i‖ := by
    have := Finset.single_le_sum (f := fun i => ‖l.foldl R.step w i - w i‖) (fun i _ => norm_nonneg _) (Finset.mem_univ j)
    rwa [hw, sub_zero] at this
  have h8 : (R.L j + b) * ‖l.foldl R.step w j‖ ≤ (Λ + b) * ∑ i, ‖l.foldl R.step w i - w i‖ :=
    mul_le_mul (by linarith [hΛ j]) h7 (norm_nonneg _) (add_nonneg hL hr.bound)
  linarith

/-- A small decrease of the objective in an epoch means little movement. -/
theorem small_move {b : ℝ} {μ Λ τ : ℝ} (hμ0 : 0 < μ) (hμ : ∀ j, R.L j ≠ 0 → μ ≤ R.L j) (hΛ : ∀ j, R.L j ≤ Λ) (hτ : 0 < τ)
    (l : List (Fin p)) (hl : l.Nodup) (w : Fin p → ℝ) (hw : R.Inv D w)
    (hd : 2 * p * (2 * Λ + b) ^ 2 * (R.F w - R.F (l.foldl R.step w)) < μ * τ ^ 2) :
    (2 * Λ + b) * ∑ i, ‖l.foldl R.step w i - w i‖ < τ := by
  rcases Nat.eq_zero_or_pos p with hp | hp
  · subst hp
    simpa using hτ
  have hΛ0 : 0 ≤ Λ := (H.smooth.nonneg ⟨0, hp⟩).trans (hΛ _)
  have h1 := (H.epoch_dec hμ l hl w hw).2
  have h2 : (∑ i, ‖l.foldl R.step w i - w i‖) ^ 2 ≤ p * ∑ i, ‖l.foldl R.step w i - w i‖ ^ 2 := by
    have := sq_sum_le_card_mul_sum_sq (s := (Finset.univ : Finset (Fin p))) (f := fun i => ‖l.foldl R.step w i - w i‖)
    rwa [Finset.card_univ, Fintype.card_fin] at this
  have hS : 0 ≤ ∑ i, ‖l.foldl R.step w i - w i‖ := Finset.sum_nonneg fun i _ => norm_nonneg _
  obtain ⟨S, hSe⟩ : ∃ S, S = ∑ i, ‖l.foldl R.step w i - w i‖ := ⟨_, rfl⟩
  obtain ⟨Q, hQe⟩ : ∃ Q, Q = ∑ i, ‖l.foldl R.step w i - w i‖ ^ 2 := ⟨_, rfl⟩
  rw [← hSe] at h2 hS ⊢
  rw [← hQe] at h1 h2
  have h3 : μ * ((2 * Λ + b) * S) ^ 2 < μ * τ ^ 2 := by
    have h4 : μ * ((2 * Λ + b) * S) ^ 2 ≤ 2 * p * (2 * Λ + b) ^ 2 * (μ / 2 * Q) := by
      have := mul_le_mul_of_nonneg_left h2 (by positivity : 0 ≤ μ * (2 * Λ + b) ^ 2)
      calc μ * ((2 * Λ + b) * S) ^ 2 = μ * (2 * Λ + b) ^ 2 * S ^ 2 := by ring
        _ ≤ μ * (2 * Λ + b) ^ 2 * (p * Q) := this
        _ = _ := by ring
    have h5 := mul_le_mul_of_nonneg_left (show μ / 2 * Q ≤ R.F w - R.F (l.foldl R.step w) by linarith)
      (by positivity : 0 ≤ 2 * p * (2 * Λ + b) ^ 2)
    linarith
  exact lt_of_pow_lt_pow_left₀ 2 hτ.le (lt_of_mul_lt_mul_left h3 hμ0.le)

/-- Epochs keep the invariant and do not increase the objective. -/
theorem epoch_inv (l : List (Fin p)) (hl : l.Nodup) (w : Fin p → ℝ) (hw : R.Inv D w) :
    R.Inv D (l.foldl R.step w) ∧ R.F (l.foldl R.step w) ≤ R.F w := by
  have h := H.epoch_dec (μ := 0) (fun j _ => H.smooth.nonneg j) l hl w hw
  exact ⟨h.1, by linarith [h.2]⟩

/-- What an inner loop achieves. -/
theorem inner_spec {srt : Argsort XR} (cfg : Solver XR) (ws0 : ℕ) (l : List (Fin p)) (hl : l.Nodup) (sz : ℕ) (km : XR) :
    ∀ (r e : ℕ) (bf : ℕ → ℕ → ℝ) (s : Fin p → ℝ), R.Inv D s → ZeroOK R s →
      (∀ j, R.L j = 0 → BufZero ℝ j (l.map Fin.val) bf) → (∀ j ∉ l, s j = 0) →
      Tri (fun _ => True) ((R.skel srt cfg ws0).inner (l.map Fin.val) sz km r e bf s) (fun t =>
        R.Inv D t ∧ ZeroOK R t ∧ (∀ j ∉ l, t j = 0) ∧ R.F t ≤ R.F s ∧ (0 < r → R.F t ≤ R.F (l.foldl R.step s)) ∧
        (0 < r → PlainEnd cfg r e → ∃ s', R.Inv D s' ∧ ZeroOK R s' ∧ R.F s' ≤ R.F s ∧ t = l.foldl R.step s') ∧
        (r = 0 → t = s))
  | 0, e, bf, s, hI, hs, _, hoff =>
    ⟨hI, hs, hoff, le_rfl, fun h => absurd h (lt_irrefl _), fun h => absurd h (lt_irrefl _), fun _ => rfl⟩
  | r + 1, e, bf, s, hI, hs, hb, hoff => by
    unfold Skel.inner
    have e1 : (R.skel srt cfg ws0).epoch (l.map Fin.val) s = .ok (l.foldl R.step s) := by
      show Except.ok ((finws p (l.map Fin.val)).foldl R.step s) = _
      rw [finws_map]
    rw [e1]
    show Tri _ ((R.skel srt cfg ws0).accel (l.map Fin.val) e bf (l.foldl R.step s) >>= _) _
    have e2 : (R.skel srt cfg ws0).accel (l.map Fin.val) e bf (l.foldl R.step s) =
        R.accel cfg l e bf (l.foldl R.step s) := by
      show R.accel cfg (finws p (l.map Fin.val)) e bf _ = _
      rw [finws_map]
    rw [e2]
    have hs1 := epoch_zeroOK (R := R) l s hs
    have hoff1 : ∀ j ∉ l, l.foldl R.step s j = 0 := fun j hj => by rw [epoch_off l s hj, hoff j hj]
    obtain ⟨hI1, hle⟩ := H.epoch_inv l hl s hI
    refine Tri.bind_eq (accel_all (srt := srt) cfg l e bf _ hs1 hb hoff1) fun ⟨b2, s2⟩ heq ⟨h1, h2, h3, h4⟩ => ?_
    dsimp only at h1 h2 h3 h4
    have hI2 : R.Inv D s2 := ⟨H.of_lt (h4.trans hI1.2), h4.trans hI1.2⟩
    have plain : cfg.useAcceleration = false ∨ e % (cfg.K + 1) ≠ cfg.K → s2 = l.foldl R.step s := fun h => by
      obtain ⟨b', h5⟩ := R.accel_plain cfg l e bf (l.foldl R.step s) h
      rw [h5] at heq
      injection heq with heq
      exact (congrArg Prod.snd heq).symm
    show Tri _ (if (decide (e > 0 ∧ e % 10 = 0) && (if sz = p then _ else _)) = true then _ else _) _
    generalize (if sz = p then ((R.viol s2 (finws p (l.map Fin.val))).2 <=. cfg.tolerance)
      else ((R.viol s2 (finws p (l.map Fin.val))).2 <. lit 3 10 *. km)) = c
    split
    · rename_i hst
      rw [Bool.and_eq_true, decide_eq_true_iff] at hst
      exact ⟨hI2, h2, h3, h4.trans hle, fun _ => h4, fun _ hp =>
        ⟨s, hI, hs, le_rfl, plain (hp e le_rfl (by omega) (Or.inr hst.1))⟩, fun h => absurd h (Nat.succ_ne_zero r)⟩
    · refine Tri.mono (inner_spec cfg ws0 l hl sz km r (e + 1) b2 s2 hI2 h2 h1 h3) fun t ⟨g0, g1, g2, g3, g4, g5, g6⟩ =>
        ⟨g0, g1, g2, g3.trans (h4.trans hle), fun _ => g3.trans h4, fun _ hp => ?_, fun h => absurd h (Nat.succ_ne_zero r)⟩
      rcases Nat.eq_zero_or_pos r with hr | hr
      · refine ⟨s, hI, hs, le_rfl, ?_⟩
        rw [g6 hr]
        exact plain (hp e le_rfl (by omega) (Or.inl (by omega)))
      · obtain ⟨s', k0, k1, k2, k3⟩ := g5 hr fun i hi hi2 hi3 => hp i (by omega) (by omega) (by
          rcases hi3 with h | h
          · exact Or.inl (by omega)
          · exact Or.inr h)
        exact ⟨s', k0, k1, k2.trans (h4.trans hle), k3⟩

/-- What one iteration achieves. -/
theorem iter_spec {srt : Argsort XR} (hs : ArgsortSpec srt) (cfg : Solver XR) (hw0 : 0 < cfg.wsStartSize)
    (hme : 0 < cfg.maxEpochs) {s t : Fin p → ℝ} (hI : R.Inv D s) (hz : ZeroOK R s)
    (hit : (R.skel srt cfg (ws0CD cfg p)).Iter s t) :
    ∃ l : List (Fin p), l.Nodup ∧ (∀ j ∉ l, s j = 0) ∧
      (∀ j ∉ l, ∃ i ∈ l, s i = 0 ∧ R.sc (s j) (R.G s j) ≤ R.sc (s i) (R.G s i)) ∧
      R.Inv D t ∧ ZeroOK R t ∧ (∀ j ∉ l, t j = 0) ∧ R.F t ≤ R.F (l.foldl R.step s) ∧ R.F t ≤ R.F s ∧
      (PlainEnd cfg cfg.maxEpochs 0 → ∃ s', R.Inv D s' ∧ ZeroOK R s' ∧ R.F s' ≤ R.F s ∧ t = l.foldl R.step s') := by
  obtain ⟨kkt, km, ws, sz, h1, -, h3, h4⟩ := hit
  have : R.scores s (List.finRange p) = kkt := by
    injection h1 with h1; exact congrArg Prod.fst h1
  subst this
  obtain ⟨ws', h5, ⟨l, h6, h7, -, -⟩, h8⟩ := R.pick_ok hs (Nat.min_le_right cfg.wsStartSize p) s
  have h3 : pickWs srt (R.scores s (List.finRange p)) p (nz s) (min cfg.wsStartSize p) = .ok (ws, sz) := h3
  rw [h5] at h3
  injection h3 with h3
  injection h3 with h9 h10
  subst h9
  subst h6
  have best : (∀ j ∉ l, s j = 0) ∧
      ∀ j ∉ l, ∃ i ∈ l, s i = 0 ∧ R.sc (s j) (R.G s j) ≤ R.sc (s i) (R.G s i) := by
    rcases Nat.eq_zero_or_pos p with hp | hp
    · subst hp
      exact ⟨fun j => j.elim0, fun j => j.elim0⟩
    · exact ws_best (by omega) h8
  have key := Tri.elim_ok (H.inner_spec (srt := srt) cfg (ws0CD cfg p) l h7 sz km cfg.maxEpochs 0
    ((R.skel srt cfg (ws0CD cfg p)).buf0 sz) s hI hz (fun _ _ _ _ _ _ => rfl) best.1) h4
  obtain ⟨k0, k1, k2, k3, k4, k5, -⟩ := key
  exact ⟨l, h7, best.1, best.2, k0, k1, k2, k4 hme, k3, k5 hme⟩

/-- **The number of iterations** is at most `4 p (2 Λ + b)² (F(0) - p c) / (μ τ²)`. -/
theorem run_bound (hm0 : R.m0 = XR.ninf ∨ R.m0 = XR.fin 0) (hz0 : ∀ j, R.L j = 0 → (0 : ℝ) ∈ subdiffOn φ D 0) {c b B : ℝ}
    (hr : RegularOn φ D c b B) {μ Λ τ : ℝ} (hμ0 : 0 < μ)
    (hμ : ∀ j, R.L j ≠ 0 → μ ≤ R.L j) (hΛ : ∀ j, R.L j ≤ Λ) (hB : 2 * √(2 * Λ * (R.F (fun _ => 0) - p * c)) ≤ B) (hτ : 0 < τ)
    {srt : Argsort XR} (hs : ArgsortSpec srt) (cfg : Solver XR) (htol : cfg.tolerance = XR.fin τ) (hw : 0 < cfg.wsStartSize)
    (hme : 0 < cfg.maxEpochs) (hpl : PlainEnd cfg cfg.maxEpochs 0) (v : Fin p → ℝ) (k : ℕ)
    (hrun : R.run srt cfg = .ok (v, k)) :
    k * (μ * τ ^ 2) ≤ 4 * p * (2 * Λ + b) ^ 2 * ((R.F fun _ => 0) - p * c) := by
  classical
  obtain ⟨A, hA⟩ : ∃ A, A = 2 * p * (2 * Λ + b) ^ 2 := ⟨_, rfl⟩
  have hA0 : 0 ≤ A := by rw [hA]; positivity
  have hb := hr.bound
  -- potential: `A F + [not settled] μ τ² / 2`
  have iter : ∀ s t, R.Inv D s ∧ ZeroOK R s → (R.skel srt cfg (ws0CD cfg p)).Iter s t → (R.Inv D t ∧ ZeroOK R t) ∧ (False ∨
      A * R.F t + (if Weak.Settled R τ t then 0 else μ * τ ^ 2 / 2) ≤
        A * R.F s + (if Weak.Settled R τ s then 0 else μ * τ ^ 2 / 2) - μ * τ ^ 2 / 2) := by
    rintro s t ⟨hI, hz⟩ hit
    have hex : ∃ j, τ < R.sc (s j) (R.G s j) := by
      by_contra hc
      push Not at hc
      obtain ⟨kkt, km, ws, sz, h1, h2, -⟩ := hit
      injection h1 with h1
      have := R.viol_le_of (hm0.imp_right fun h => ⟨h, hτ.le⟩) hc
      rw [h1, ← htol] at this
      exact Bool.false_ne_true (h2.symm.trans this)
    obtain ⟨l, hl, h1, h2, h0, h3, h4, h5, h6, h7⟩ := H.iter_spec hs cfg hw hme hI hz hit
    obtain ⟨s', k0, k1, k2, k3⟩ := h7 hpl
    refine ⟨⟨h0, h3⟩, Or.inr ?_⟩
    have hpos : 0 < μ * τ ^ 2 := by positivity
    have h6' := mul_le_mul_of_nonneg_left h6 hA0
    have hS : ∀ u : Fin p → ℝ, 0 ≤ ∑ i, ‖l.foldl R.step u i - u i‖ := fun u => Finset.sum_nonneg fun i _ => norm_nonneg _
    by_cases hss : Weak.Settled R τ s
    · -- a zero feature with a large score is in the working set
      rw [if_pos hss]
      obtain ⟨j, hj⟩ := hex
      have hj0 : s j = 0 := by
        by_contra hc
        linarith [hss j hc]
      obtain ⟨i, hi, hi0, hi2⟩ : ∃ i ∈ l, s i = 0 ∧ τ < R.sc (s i) (R.G s i) := by
        by_cases hjl : j ∈ l
        · exact ⟨j, hjl, hj0, hj⟩
        · obtain ⟨i, a1, a2, a3⟩ := h2 j hjl
          exact ⟨i, a1, a2, lt_of_lt_of_le hj a3⟩
      rw [hi0] at hi2
      have hdec : μ * τ ^ 2 ≤ A * (R.F s - R.F t) := by
        by_contra hc
        have a1 : A * (R.F s - R.F (l.foldl R.step s)) ≤ A * (R.F s - R.F t) :=
          mul_le_mul_of_nonneg_left (by linarith) hA0
        have a2 := H.small_move hμ0 hμ hΛ hτ l hl s hI (by rw [← hA]; linarith [not_le.mp hc])
        have a3 := H.score_before hz0 hr hΛ hB l hl s hI hi hi0
        linarith
      split_ifs <;> linarith
    · rw [if_neg hss]
      by_cases hdec : μ * τ ^ 2 ≤ A * (R.F s - R.F t)
      · split_ifs <;> linarith
      · have hst : Weak.Settled R τ t := by
          intro j hj
          have hjl : j ∈ l := by
            by_contra hc
            exact hj (h4 j hc)
          have a1 : A * (R.F s' - R.F (l.foldl R.step s')) ≤ A * (R.F s - R.F t) := by
            rw [← k3]
            exact mul_le_mul_of_nonneg_left (by linarith) hA0
          have a2 := H.small_move hμ0 hμ hΛ hτ l hl s' k0 (by rw [← hA]; linarith [not_le.mp hdec])
          have a3 := H.score_after hz0 hΛ l hl s' k1 hjl
          rw [← k3] at a2 a3
          have a4 : 2 * Λ * ∑ i, ‖t i - s' i‖ ≤ (2 * Λ + b) * ∑ i, ‖t i - s' i‖ :=
            mul_le_mul_of_nonneg_right (by linarith) (Finset.sum_nonneg fun i _ => norm_nonneg _)
          linarith
        rw [if_pos hst]
        linarith
  have count := Skel.outer_count (R.skel srt cfg (ws0CD cfg p)) (fun s => R.Inv D s ∧ ZeroOK R s) (fun _ => False)
    (fun w => A * R.F w + (if Weak.Settled R τ w then 0 else μ * τ ^ 2 / 2)) (μ * τ ^ 2 / 2) iter (fun _ _ _ h _ => h)
    cfg.maxIterations (fun _ => 0) v k ⟨H.zero_inv, fun _ _ => rfl⟩ hrun
  have h0 : Weak.Settled R τ (fun _ : Fin p => (0 : ℝ)) := fun j hj => absurd rfl hj
  have h1 := count.2.2.resolve_left id
  rw [if_pos h0] at h1
  have h2 := mul_nonneg hA0 (H.gap_nonneg hr.low count.1.1.1).2
  have h3 : 0 ≤ (if Weak.Settled R τ v then 0 else μ * τ ^ 2 / 2) := by split_ifs <;> positivity
  have h4 : 4 * p * (2 * Λ + b) ^ 2 * ((R.F fun _ => 0) - p * c) = 2 * (A * ((R.F fun _ => 0) - p * c)) := by rw [hA]; ring
  rw [h4]
  linarith

/-- Features with vanishing step constants keep the coefficient zero. -/
theorem run_zero {srt : Argsort XR} (hs : ArgsortSpec srt) (cfg : Solver XR) (hw : 0 < cfg.wsStartSize)
    (hme : 0 < cfg.maxEpochs) (v : Fin p → ℝ) (k : ℕ) (hrun : R.run srt cfg = .ok (v, k)) : ZeroOK R v := by
  have iter : ∀ s t, R.Inv D s ∧ ZeroOK R s → (R.skel srt cfg (ws0CD cfg p)).Iter s t → (R.Inv D t ∧ ZeroOK R t) ∧ (False ∨
      (0 : ℝ) ≤ 0 - 0) := by
    rintro s t ⟨hI, hz⟩ hit
    obtain ⟨l, hl, h1, h2, h0, h3, -⟩ := H.iter_spec hs cfg hw hme hI hz hit
    exact ⟨⟨h0, h3⟩, Or.inr (by norm_num)⟩
  exact (Skel.outer_count (R.skel srt cfg (ws0CD cfg p)) (fun s => R.Inv D s ∧ ZeroOK R s) (fun _ => False)
    (fun _ => (0 : ℝ)) 0 iter (fun _ _ _ h _ => h) cfg.maxIterations (fun _ => 0) v k ⟨H.zero_inv, fun _ _ => rfl⟩ hrun).1.2

end RProb.Cons

section Call
variable {DM DF P : Type} [DesignMatrix XR DM] [Datafit XR DM DF] [Penalty XR P]
  {ds : Dataset DM XR} {df0 : DF} {pen : P} {f : (Fin n → ℝ) → ℝ} {X : Fin n → Fin p → ℝ} {L : Fin p → ℝ} {φ : ℝ → ℝ} {D : Set ℝ}

/-- The solver runs on the constrained problem over the reals. -/
theorem constrained_run (hX : StorageOK ds.designMatrix X) (hf : LossOK f X L) (hd : DatafitOK ds df0 f X L)
    (hp : ConstrainedOK pen φ D L) : ∃ R : RProb ℝ p,
      (∀ w, Feasible D w → R.F w = customObjective f X φ w) ∧ (∀ w j, R.G w j = fderiv ℝ f (fit X w) (column X j)) ∧ R.L = L ∧
      (∀ x g, R.sc x g = Metric.infDist (-g) (subdiffOn φ D x)) ∧ (R.m0 = XR.ninf ∨ R.m0 = XR.fin 0) ∧
      R.Cons (fun w => f (fit X w)) φ D ∧
      ∀ {srt : Argsort XR}, ArgsortSpec srt → ∀ cfg : Solver XR,
        runCD srt ds df0 pen cfg = (fun q => (⟨vec q.1, vec (fit X q.1)⟩, q.2)) <$> R.run srt cfg := by
  classical
  obtain ⟨hn, df, hi, hval, hgrad, hfull, hstep⟩ := hd
  choose px hpx using fun (v s : ℝ) => (show ∃ x, 0 < s → Penalty.prox pen (XR.fin v) (XR.fin s) = .ok (XR.fin x) ∧
      ((∃ j, L j ≠ 0 ∧ s = 1 / L j) → x ∈ D ∧ ∀ z ∈ D, (x - v) ^ 2 / 2 + s * φ x ≤ (z - v) ^ 2 / 2 + s * φ z) by
    by_cases h : 0 < s
    · obtain ⟨x, hx⟩ := hp.prox v s h
      exact ⟨x, fun _ => hx⟩
    · exact ⟨0, fun h' => absurd h' h⟩)
  obtain ⟨m0, hm0, hsc⟩ := hp.scores
  have hD : @DSem DM DF _ (fixInit DM df) ds df n p X f (fun u j => fderiv ℝ f u (column X j)) L :=
    @DSem.mk DM DF _ (fixInit DM df) ds df n p X f (fun u j => fderiv ℝ f u (column X j)) L
      hn hX.features (fun _ => rfl) hval hgrad hfull hstep hX.update hX.combine
  have hP : OnSem pen φ D px m0 := by
    refine ⟨hp.zero, hp.value, fun v s h => (hpx v s h).1, fun {q} w g l hw => ?_⟩
    obtain ⟨m, h1, h2, h3⟩ := hsc w g l hw
    rw [h1]
    split
    · rename_i h; rw [h2 h]
    · rename_i h
      obtain ⟨r, h4, h5⟩ := h3 h
      obtain ⟨r', h6, h7, h8⟩ := maxDist_fin (l.map fun j => Metric.infDist (-g j) (subdiffOn φ D (w j))) (by simpa using h)
      rw [List.map_map] at h8
      have e : r = r' := by
        refine h5.unique ⟨?_, ?_⟩
        · obtain ⟨j, hj, hj'⟩ := List.mem_map.mp h6
          exact ⟨j, hj, hj'.symm⟩
        · rintro a ⟨j, hj, rfl⟩
          exact h7 _ (List.mem_map.mpr ⟨j, hj, rfl⟩)
      rw [h4, e]
      exact congrArg (fun x => Except.ok (_, x)) h8.symm
  obtain ⟨R, hR⟩ : ∃ R, R = probOn X f (fun u j => fderiv ℝ f u (column X j)) L φ D px m0 := ⟨_, rfl⟩
  have hG : ∀ w j, R.G w j = fderiv ℝ f (fit X w) (column X j) := fun w j => by rw [hR]; rfl
  have hL : R.L = L := by rw [hR]; rfl
  have hF : ∀ w, Feasible D w → R.F w = customObjective f X φ w := fun w hw => by
    rw [hR]; exact (probOn_feasible hp.zero).2 hw
  have H : R.Cons (fun w => f (fit X w)) φ D := by
    refine ⟨⟨by rw [hL]; exact hf.steps, fun w j v => ?_, fun w w' => ?_, fun w => hf.nonneg _⟩, hp.zero, fun w hw => hF w hw,
      fun w hw => by rw [hR]; exact (probOn_feasible hp.zero).1 hw, fun j v h0 => ?_,
      fun x hx g => ⟨hp.subdiff x hx, by rw [hR]; rfl⟩⟩
    · rw [hG, hL, fit_update_column, Real.norm_eq_abs, sq_abs]
      exact line_major hf (fit X w) j (v - w j)
    · have h1 := tangent_le hf.convex hf.diff (fit X w) (fit X w')
      rw [fit_sub_columns, map_sum] at h1
      refine le_trans (le_of_eq ?_) h1
      congr 1
      refine Finset.sum_congr rfl fun j _ => ?_
      rw [hG, map_smul]
      rfl
    · rw [hL] at h0 ⊢
      have h1 : 0 < L j := lt_of_le_of_ne (hf.steps j) (Ne.symm h0)
      have h2 := (hpx v (1 / L j) (by positivity)).2 ⟨j, h0, rfl⟩
      rw [show R.px = px by rw [hR]; rfl]
      exact ⟨h2.1, prox_subdiffOn hp.convex h1 h2.1 h2.2⟩
  refine ⟨R, hF, hG, hL, fun x g => by rw [hR]; rfl, by rw [hR]; exact hm0, H, fun hs cfg => ?_⟩
  rw [hR] at H ⊢
  exact run_on_init hi hD hP hf.steps (fun w j hw => H.step_inv w j hw) hs cfg
end Call
end Sglm
