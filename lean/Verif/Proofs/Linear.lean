import Verif.Proofs.IterCount
import Verif.Proofs.WeakGap
import Verif.Proofs.Strong

/-!
# Linear convergence for strongly convex objectives
-/

namespace Sglm
open Scalar Spec

/-! ## Sequences -/

/-- `a (k + 1) ≤ A (a k - a (k + 2))` for a decreasing sequence means linear decrease. -/
theorem seq_linear {a : ℕ → ℝ} {A : ℝ} (hA : 0 ≤ A) {N : ℕ} (hmono : ∀ k < N, a (k + 1) ≤ a k)
    (h : ∀ k, k + 2 ≤ N → a (k + 1) ≤ A * (a k - a (k + 2))) :
    ∀ k ≤ N, a k ≤ (A / (A + 1)) ^ (k / 2) * a 0
  | 0, _ => by simp
  | 1, hk => by simpa using hmono 0 hk
  | k + 2, hk => by
    have ih := seq_linear hA hmono h k (by omega)
    have h1 := h k hk
    have h2 := hmono (k + 1) (by omega)
    have h3 : a (k + 2) ≤ A / (A + 1) * a k := by
      rw [div_mul_eq_mul_div, le_div_iff₀ (by linarith)]
      have h2 : a (k + 2) ≤ a (k + 1) := h2
      linarith
    have e : (k + 2) / 2 = k / 2 + 1 := by omega
    rw [e, pow_succ, mul_comm (_ ^ _) (A / (A + 1)), mul_assoc]
    exact h3.trans (mul_le_mul_of_nonneg_left ih (by positivity))

/-- Logarithmic number of steps: `1 < (A / (A + 1)) ^ i * C` implies `i ≤ (A + 1) log (1 + C)`. -/
theorem log_steps {A C : ℝ} (hA : 0 ≤ A) (hC : 0 ≤ C) {i : ℕ} (h : 1 < (A / (A + 1)) ^ i * C) :
    (i : ℝ) ≤ (A + 1) * Real.log (1 + C) := by
  have h1 : A / (A + 1) ≤ Real.exp (-(1 / (A + 1))) := by
    have e : A / (A + 1) = -(1 / (A + 1)) + 1 := by field_simp; ring
    rw [e]
    exact Real.add_one_le_exp _
  have h2 : (A / (A + 1)) ^ i ≤ Real.exp (-(i / (A + 1))) := by
    refine (pow_le_pow_left₀ (by positivity) h1 i).trans (le_of_eq ?_)
    rw [← Real.exp_nat_mul]; congr 1; field_simp
  have h3 : Real.exp (i / (A + 1)) ≤ 1 + C := by
    have h4 : 1 < Real.exp (-(i / (A + 1))) * C := lt_of_lt_of_le h (mul_le_mul_of_nonneg_right h2 hC)
    rw [Real.exp_neg, inv_mul_eq_div, lt_div_iff₀ (Real.exp_pos _), one_mul] at h4
    linarith
  have h4 := (Real.le_log_iff_exp_le (by linarith)).mpr h3
  rw [div_le_iff₀ (by linarith)] at h4
  linarith

variable {E : Type} [NormedAddCommGroup E] [InnerProductSpace ℝ E] {p : ℕ}

namespace RProb
open RProb.Cvx Coord

/-- Scores bound the gap to every other point, for strongly convex objectives. -/
theorem Weak.gap_sq {R : RProb E p} {f : (Fin p → E) → ℝ} {φ : E → ℝ} {m b : ℝ} (H : R.Weak f φ m b) (hm : 0 ≤ m) {σ : ℝ}
    (hσ : 0 < σ) (hsc : StrongConv R.F σ) {v : Fin p → E} {τ : ℝ} (hτ : ∀ j, R.sc (v j) (R.G v j) ≤ τ) (w : Fin p → E) :
    R.F v - R.F w ≤ p * τ ^ 2 / (2 * σ) := by
  obtain ⟨S, hS⟩ : ∃ S, S = ∑ j, ‖v j - w j‖ ^ 2 := ⟨_, rfl⟩
  obtain ⟨B, hB⟩ : ∃ B, B = ∑ j, ‖v j - w j‖ := ⟨_, rfl⟩
  have hS0 : 0 ≤ S := by rw [hS]; exact Finset.sum_nonneg fun _ _ => sq_nonneg _
  have key : ∀ t : ℝ, 0 < t → t ≤ 1 → R.F v - R.F w + σ / 2 * (1 - t) * S ≤ τ * B + m / 2 * t * S := by
    intro t ht ht1
    have h1 := hsc v w t ht.le ht1
    have h2 := H.smooth.convex v (fun j => v j + t • (w j - v j))
    have h3 : ∑ j, φ (v j) ≤ ∑ j, φ (v j + t • (w j - v j)) + ∑ j, inner ℝ (R.G v j) (v j + t • (w j - v j) - v j) +
        (m / 2 * t ^ 2 * S + τ * (t * B)) := by
      rw [hS, hB, Finset.mul_sum, Finset.mul_sum, Finset.mul_sum, ← Finset.sum_add_distrib, ← Finset.sum_add_distrib,
        ← Finset.sum_add_distrib]
      refine Finset.sum_le_sum fun j _ => ?_
      have h5 := frechet_weak_near hm H.weak (H.score (v j) (R.G v j)) (v j + t • (w j - v j))
      rw [add_sub_cancel_left] at h5 ⊢
      rw [norm_smul, Real.norm_eq_abs, abs_of_pos ht, inner_neg_left, norm_sub_rev (w j) (v j)] at h5
      have h6 := mul_le_mul_of_nonneg_right (hτ j) (by positivity : 0 ≤ t * ‖v j - w j‖)
      nlinarith
    rw [H.mm.obj, ← hS] at h1
    rw [H.mm.obj v, H.mm.obj w] at *
    have h4 : t * (f v + ∑ j, φ (v j) - (f w + ∑ j, φ (w j)) + σ / 2 * (1 - t) * S) ≤ t * (τ * B + m / 2 * t * S) := by
      nlinarith
    exact le_of_mul_le_mul_left h4 ht
  have hgap : R.F v - R.F w + σ / 2 * S ≤ τ * B := by
    by_contra hc
    obtain ⟨g, hg'⟩ : ∃ g, g = R.F v - R.F w + σ / 2 * S - τ * B := ⟨_, rfl⟩
    have hg0 : 0 < g := by rw [hg']; linarith
    have hq : 0 ≤ (σ / 2 + m / 2) * S := by positivity
    have hd : 0 < g + (σ / 2 + m / 2) * S := by linarith
    obtain ⟨t, ht⟩ : ∃ t, t = g / (g + (σ / 2 + m / 2) * S) / 2 := ⟨_, rfl⟩
    have h0 : g / (g + (σ / 2 + m / 2) * S) ≤ 1 := by rw [div_le_one hd]; linarith
    have h1 := key t (by rw [ht]; positivity) (by rw [ht]; linarith)
    have h2 : t * ((σ / 2 + m / 2) * S) ≤ g / 2 := by
      rw [ht, div_mul_eq_mul_div]
      refine div_le_div_of_nonneg_right ?_ (by norm_num)
      rw [div_mul_eq_mul_div, div_le_iff₀ hd]
      nlinarith
    nlinarith
  have h3 := sum_sq_le (fun j => ‖v j - w j‖)
  rw [← hS, ← hB] at h3
  rw [le_div_iff₀ (by positivity)]
  rcases Nat.eq_zero_or_pos p with hp | hp
  · subst hp
    have : B = 0 := by rw [hB]; simp
    have : R.F v - R.F w ≤ 0 := by rw [this] at hgap; nlinarith
    rw [Nat.cast_zero, zero_mul]
    nlinarith
  · have hp' : (0 : ℝ) < p := by exact_mod_cast hp
    have h4 : 2 * τ * B * (σ * p) ≤ (p * τ) ^ 2 + (σ * B) ^ 2 := by nlinarith [sq_nonneg (p * τ - σ * B)]
    have h5 : (2 * σ * (R.F v - R.F w)) * p ≤ (p * τ ^ 2) * p := by
      have h6 := mul_le_mul_of_nonneg_left h3 (sq_nonneg σ)
      have h7 := mul_le_mul_of_nonneg_left hgap (by positivity : 0 ≤ 2 * σ * p)
      nlinarith
    have := le_of_mul_le_mul_right h5 hp'
    linarith

variable [Coord E] {R : RProb E p}

/-- What an iteration says about the scores before and after it, in terms of the decrease of the objective. -/
theorem iter_scores {d : E → E → ℝ} {f : (Fin p → E) → ℝ} {φ : E → ℝ} {m b : ℝ} (H : (R.withScore d).Weak f φ m b)
    {μ Λ : ℝ} (hμ0 : 0 < μ) (hμ : ∀ j, R.L j ≠ 0 → μ + m ≤ R.L j) (hΛ : ∀ j, R.L j ≤ Λ)
    {srt : Argsort XR} (hs : ArgsortSpec srt) (cfg : Solver XR) (hw : 0 < cfg.wsStartSize)
    (hc : (∀ g g', R.sc 0 g ≤ R.sc 0 g' → d 0 g ≤ d 0 g') ∨ p ≤ cfg.wsStartSize)
    (hme : 0 < cfg.maxEpochs) (hpl : PlainEnd cfg cfg.maxEpochs 0) {s t : Fin p → E} (hz : ZeroOK R s)
    (hit : (R.skel srt cfg (ws0CD cfg p)).Iter s t) :
    ZeroOK R t ∧ R.F t ≤ R.F s ∧
    (∀ j, t j ≠ 0 → d (t j) (R.G t j) ^ 2 ≤ 2 * p * (2 * Λ + b) ^ 2 / μ * (R.F s - R.F t)) ∧
    ∀ j, s j = 0 → d (s j) (R.G s j) ^ 2 ≤ 2 * p * (2 * Λ + b) ^ 2 / μ * (R.F s - R.F t) := by
  have hb := H.hb
  have dnn : ∀ x g, 0 ≤ d x g := fun x g => by
    have : d x g = _ := (H.score x g).2
    rw [this]; exact Metric.infDist_nonneg
  have dec : ∀ l : List (Fin p), l.Nodup → ∀ w : Fin p → E, 0 ≤ μ / 2 * ∑ j, ‖l.foldl R.step w j - w j‖ ^ 2 ∧
      R.F (l.foldl R.step w) ≤ R.F w - μ / 2 * ∑ j, ‖l.foldl R.step w j - w j‖ ^ 2 := fun l hl w =>
    ⟨mul_nonneg (by positivity) (Finset.sum_nonneg fun i _ => by positivity), H.epoch_dec hμ l hl w⟩
  -- movements
  have move : ∀ l : List (Fin p), l.Nodup → ∀ w : Fin p → E,
      ((2 * Λ + b) * ∑ i, ‖l.foldl R.step w i - w i‖) ^ 2 ≤
        2 * p * (2 * Λ + b) ^ 2 / μ * (R.F w - R.F (l.foldl R.step w)) := by
    intro l hl w
    obtain ⟨-, h1⟩ := dec l hl w
    have h2 := sum_sq_le (fun i => ‖l.foldl R.step w i - w i‖)
    obtain ⟨S, hSe⟩ : ∃ S, S = ∑ i, ‖l.foldl R.step w i - w i‖ := ⟨_, rfl⟩
    obtain ⟨Q, hQe⟩ : ∃ Q, Q = ∑ i, ‖l.foldl R.step w i - w i‖ ^ 2 := ⟨_, rfl⟩
    rw [← hSe] at h2 ⊢
    rw [← hQe] at h1 h2
    rw [div_mul_eq_mul_div, le_div_iff₀ hμ0]
    have h3 := mul_le_mul_of_nonneg_left h2 (by positivity : 0 ≤ μ * (2 * Λ + b) ^ 2)
    have h4 := mul_le_mul_of_nonneg_left (show μ / 2 * Q ≤ R.F w - R.F (l.foldl R.step w) by linarith)
      (by positivity : 0 ≤ 2 * p * (2 * Λ + b) ^ 2)
    nlinarith
  have hE : ∀ l : List (Fin p), l.Nodup → ∀ w : Fin p → E, R.F (l.foldl R.step w) ≤ R.F w := fun l hl w => by
    obtain ⟨h1, h2⟩ := dec l hl w
    linarith
  obtain ⟨l, hl, h1, h2, h3, h4, h5, h6, h7, h8⟩ := iter_spec_len hE hs cfg hw hme hz hit
  obtain ⟨s', k1, k2, k3⟩ := h7 hpl
  have hB : 0 ≤ 2 * p * (2 * Λ + b) ^ 2 / μ := by positivity
  have hnn : ∀ w : Fin p → E, 0 ≤ ∑ i, ‖l.foldl R.step w i - w i‖ := fun w => Finset.sum_nonneg fun i _ => norm_nonneg _
  refine ⟨h3, h6, fun j hj => ?_, fun j hj => ?_⟩
  · have hjl : j ∈ l := by
      by_contra hc
      exact hj (h4 j hc)
    have a3 : d (l.foldl R.step s' j) (R.G (l.foldl R.step s') j) ≤ 2 * Λ * ∑ i, ‖l.foldl R.step s' i - s' i‖ :=
      H.score_after hΛ l hl s' k1 hjl
    have a4 : 2 * Λ * ∑ i, ‖l.foldl R.step s' i - s' i‖ ≤ (2 * Λ + b) * ∑ i, ‖l.foldl R.step s' i - s' i‖ :=
      mul_le_mul_of_nonneg_right (by linarith) (hnn s')
    have a5 := pow_le_pow_left₀ (dnn _ _) (a3.trans a4) 2
    have a6 := a5.trans (move l hl s')
    rw [← k3] at a6
    exact a6.trans (mul_le_mul_of_nonneg_left (by linarith) hB)
  · obtain ⟨i, hi, hi0, hi2⟩ : ∃ i ∈ l, s i = 0 ∧ d 0 (R.G s j) ≤ d 0 (R.G s i) := by
      by_cases hjl : j ∈ l
      · exact ⟨j, hjl, hj, le_rfl⟩
      · obtain ⟨i, a1, a2, a3⟩ := h2 j hjl
        rw [hj, a2] at a3
        rcases hc with hc | hc
        · exact ⟨i, a1, a2, hc _ _ a3⟩
        · exact absurd (h8 hc j) hjl
    rw [hj]
    have a3 : d 0 (R.G s i) ≤ (2 * Λ + b) * ∑ i, ‖l.foldl R.step s i - s i‖ := H.score_before hΛ l hl s hi hi0
    have a5 := pow_le_pow_left₀ (dnn _ _) (hi2.trans a3) 2
    exact (a5.trans (move l hl s)).trans (mul_le_mul_of_nonneg_left (by linarith) hB)

/-- **Linear convergence**: the points reached after `i ≤ N` iterations, their objectives, and the scores at the start of the last
iteration. -/
theorem run_linear {d : E → E → ℝ} {f : (Fin p → E) → ℝ} {φ : E → ℝ} {m b : ℝ} (H : (R.withScore d).Weak f φ m b) (hm : 0 ≤ m)
    {μ Λ σ : ℝ} (hμ0 : 0 < μ) (hμ : ∀ j, R.L j ≠ 0 → μ + m ≤ R.L j) (hΛ : ∀ j, R.L j ≤ Λ) (hσ : 0 < σ) (hsc : StrongConv R.F σ)
    {srt : Argsort XR} (hs : ArgsortSpec srt) (cfg : Solver XR) (hw : 0 < cfg.wsStartSize)
    (hc : (∀ g g', R.sc 0 g ≤ R.sc 0 g' → d 0 g ≤ d 0 g') ∨ p ≤ cfg.wsStartSize)
    (hme : 0 < cfg.maxEpochs) (hpl : PlainEnd cfg cfg.maxEpochs 0) (N : ℕ) (v : Fin p → E)
    (hrun : (R.skel srt cfg (ws0CD cfg p)).outer N (fun _ => 0) = .ok (v, N)) :
    ∃ u : ℕ → Fin p → E, (∀ i ≤ N, (R.skel srt cfg (ws0CD cfg p)).outer i (fun _ => 0) = .ok (u i, i)) ∧
      (∀ i ≤ N, ∀ w, R.F (u i) - R.F w ≤
        (p ^ 2 * (2 * Λ + b) ^ 2 / (μ * σ) / (p ^ 2 * (2 * Λ + b) ^ 2 / (μ * σ) + 1)) ^ (i / 2) * (R.F (fun _ => 0) - R.F w)) ∧
      ∀ i, i + 2 ≤ N → ∀ j, d (u (i + 1) j) (R.G (u (i + 1)) j) ^ 2 ≤
        2 * p * (2 * Λ + b) ^ 2 / μ * (R.F (u i) - R.F (u (i + 2))) := by
  have hb := H.hb
  obtain ⟨B, hBe⟩ : ∃ B, B = 2 * p * (2 * Λ + b) ^ 2 / μ := ⟨_, rfl⟩
  have hB0 : 0 ≤ B := by rw [hBe]; positivity
  have hit : ∀ s t, ZeroOK R s → (R.skel srt cfg (ws0CD cfg p)).Iter s t → _ := fun s t hz h =>
    iter_scores H hμ0 hμ hΛ hs cfg hw hc hme hpl hz h
  rw [← hBe] at hit
  obtain ⟨-, c2, -⟩ := Skel.count_bad (R.skel srt cfg (ws0CD cfg p)) (ZeroOK R) (fun _ => False) R.F 0
    (fun s t hz h => ⟨(hit s t hz h).1, by rw [if_neg not_false, sub_zero]; exact (hit s t hz h).2.1⟩)
    (s := fun _ => 0) (fun _ _ => rfl) N v hrun
  obtain ⟨u, hu⟩ : ∃ u, u = (R.skel srt cfg (ws0CD cfg p)).point fun _ => 0 := ⟨_, rfl⟩
  rw [← hu] at c2
  have iter : ∀ i < N, (R.skel srt cfg (ws0CD cfg p)).Iter (u i) (u (i + 1)) := by
    intro i hi
    obtain ⟨x, h1, h2⟩ := Skel.outer_last _ (c2 (i + 1) hi)
    rw [c2 i (by omega)] at h1
    injection h1 with h1
    injection h1 with h1 _
    rw [h1]; exact h2
  have h0 : u 0 = fun _ => 0 := by
    have := c2 0 (Nat.zero_le _)
    injection this with this
    injection this with this _
    exact this.symm
  have zok : ∀ i ≤ N, ZeroOK R (u i) := by
    intro i
    induction i with
    | zero => intro _; rw [h0]; exact fun _ _ => rfl
    | succ i ih => intro hi; exact (hit _ _ (ih (by omega)) (iter i hi)).1
  have all : ∀ i, i + 2 ≤ N → ∀ j, d (u (i + 1) j) (R.G (u (i + 1)) j) ^ 2 ≤ B * (R.F (u i) - R.F (u (i + 2))) := by
    intro i hi j
    obtain ⟨-, a1, a2, -⟩ := hit _ _ (zok i (by omega)) (iter i (by omega))
    obtain ⟨-, b1, -, b2⟩ := hit _ _ (zok (i + 1) (by omega)) (iter (i + 1) (by omega))
    by_cases hj : u (i + 1) j = 0
    · exact (b2 j hj).trans (mul_le_mul_of_nonneg_left (by linarith) hB0)
    · exact (a2 j hj).trans (mul_le_mul_of_nonneg_left (by linarith) hB0)
  refine ⟨u, c2, fun i hi w => ?_, by rw [← hBe]; exact all⟩
  obtain ⟨A, hA⟩ : ∃ A, A = p ^ 2 * (2 * Λ + b) ^ 2 / (μ * σ) := ⟨_, rfl⟩
  have hA0 : 0 ≤ A := by rw [hA]; positivity
  have hAB : A = p * B / (2 * σ) := by rw [hA, hBe]; field_simp
  rw [← hA, ← h0]
  refine seq_linear (a := fun i => R.F (u i) - R.F w) hA0 (N := N) (fun k hk => ?_) (fun k hk => ?_) i hi
  · have := (hit _ _ (zok k (by omega)) (iter k hk)).2.1
    linarith
  · have hΔ : 0 ≤ R.F (u k) - R.F (u (k + 2)) := by
      have a1 := (hit _ _ (zok k (by omega)) (iter k (by omega))).2.1
      have b1 := (hit _ _ (zok (k + 1) (by omega)) (iter (k + 1) (by omega))).2.1
      have b1 : R.F (u (k + 2)) ≤ R.F (u (k + 1)) := b1
      linarith
    have h1 : ∀ j, (R.withScore d).sc (u (k + 1) j) ((R.withScore d).G (u (k + 1)) j) ≤
        Real.sqrt (B * (R.F (u k) - R.F (u (k + 2)))) := fun j => Real.le_sqrt_of_sq_le (all k hk j)
    have h2 : R.F (u (k + 1)) - R.F w ≤ p * Real.sqrt (B * (R.F (u k) - R.F (u (k + 2)))) ^ 2 / (2 * σ) :=
      H.gap_sq hm hσ hsc h1 w
    rw [Real.sq_sqrt (mul_nonneg hB0 hΔ)] at h2
    refine h2.trans (le_of_eq ?_)
    rw [hAB]
    ring

/-- **Logarithmic number of iterations**, for correct scores. -/
theorem run_log {f : (Fin p → E) → ℝ} {φ : E → ℝ} {m b : ℝ} (H : R.Weak f φ m b) (hm : 0 ≤ m)
    (hm0 : R.m0 = XR.ninf ∨ R.m0 = XR.fin 0)
    {μ Λ σ τ : ℝ} (hμ0 : 0 < μ) (hμ : ∀ j, R.L j ≠ 0 → μ + m ≤ R.L j) (hΛ : ∀ j, R.L j ≤ Λ) (hσ : 0 < σ) (hsc : StrongConv R.F σ)
    (hτ : 0 < τ) {srt : Argsort XR} (hs : ArgsortSpec srt) (cfg : Solver XR) (ht : cfg.tolerance = XR.fin τ) (hw : 0 < cfg.wsStartSize)
    (hme : 0 < cfg.maxEpochs) (hpl : PlainEnd cfg cfg.maxEpochs 0) (N : ℕ) (v : Fin p → E)
    (hrun : (R.skel srt cfg (ws0CD cfg p)).outer N (fun _ => 0) = .ok (v, N)) :
    (N : ℝ) ≤ 3 + 2 * (p ^ 2 * (2 * Λ + b) ^ 2 / (μ * σ) + 1) *
      Real.log (1 + 2 * p * (2 * Λ + b) ^ 2 * R.F (fun _ => 0) / (μ * τ ^ 2)) := by
  have hF0 : 0 ≤ R.F fun _ => 0 := H.F_nonneg _
  have hC : 0 ≤ 2 * p * (2 * Λ + b) ^ 2 * R.F (fun _ => 0) / (μ * τ ^ 2) := by positivity
  have hA : 0 ≤ p ^ 2 * (2 * Λ + b) ^ 2 / (μ * σ) := by positivity
  have hlog : 0 ≤ Real.log (1 + 2 * p * (2 * Λ + b) ^ 2 * R.F (fun _ => 0) / (μ * τ ^ 2)) := Real.log_nonneg (by linarith)
  by_cases hN : N < 2
  · have : (N : ℝ) ≤ 2 := by exact_mod_cast hN.le
    have : 0 ≤ 2 * (p ^ 2 * (2 * Λ + b) ^ 2 / (μ * σ) + 1) *
      Real.log (1 + 2 * p * (2 * Λ + b) ^ 2 * R.F (fun _ => 0) / (μ * τ ^ 2)) := by positivity
    linarith
  obtain ⟨M, rfl⟩ : ∃ M, N = M + 2 := ⟨N - 2, by omega⟩
  obtain ⟨u, h1, h2, h3⟩ := run_linear (d := R.sc) H hm hμ0 hμ hΛ hσ hsc hs cfg hw (Or.inl fun _ _ h => h) hme hpl (M + 2) v hrun
  -- the last iteration starts with a large score
  obtain ⟨x, k1, k2⟩ := Skel.outer_last _ (h1 (M + 2) le_rfl)
  rw [h1 (M + 1) (by omega)] at k1
  injection k1 with k1
  injection k1 with k1 _
  subst k1
  obtain ⟨kkt, km, ws, sz, hv, hd, -, -⟩ := k2
  obtain ⟨j, hj⟩ : ∃ j, τ < R.sc (u (M + 1) j) (R.G (u (M + 1)) j) := by
    by_contra hcon
    push Not at hcon
    have h4 := R.viol_le_of (w := u (M + 1)) (hm0.imp_right fun h => ⟨h, hτ.le⟩) (τ := τ) hcon
    have h5 : R.viol (u (M + 1)) (List.finRange p) = (kkt, km) := by
      injection hv
    rw [h5] at h4
    have hd : (km <=. cfg.tolerance) = false := hd
    rw [ht] at hd
    rw [h4] at hd
    cases hd
  have h4 := h3 M le_rfl j
  have h5 := h2 M (by omega) (u (M + 2))
  obtain ⟨q, hq⟩ : ∃ q, q = (p ^ 2 * (2 * Λ + b) ^ 2 / (μ * σ) / (p ^ 2 * (2 * Λ + b) ^ 2 / (μ * σ) + 1)) ^ (M / 2) := ⟨_, rfl⟩
  have hq0 : 0 ≤ q := by rw [hq]; positivity
  rw [← hq] at h5
  have h6 : 1 < q * (2 * p * (2 * Λ + b) ^ 2 * R.F (fun _ => 0) / (μ * τ ^ 2)) := by
    have h7 : R.F (u M) - R.F (u (M + 2)) ≤ q * R.F (fun _ => 0) :=
      h5.trans (mul_le_mul_of_nonneg_left (by have := H.F_nonneg (u (M + 2)); linarith) hq0)
    have h8 : τ ^ 2 < 2 * p * (2 * Λ + b) ^ 2 / μ * (q * R.F fun _ => 0) := by
      have h9 : τ ^ 2 < R.sc (u (M + 1) j) (R.G (u (M + 1)) j) ^ 2 := by
        have := hj
        nlinarith
      exact h9.trans_le (h4.trans (mul_le_mul_of_nonneg_left h7 (by positivity)))
    rw [div_mul_eq_mul_div, lt_div_iff₀ hμ0] at h8
    rw [← mul_div_assoc, lt_div_iff₀ (by positivity)]
    linarith
  rw [hq] at h6
  have h7 := log_steps hA hC h6
  have h8 : (M : ℝ) ≤ 2 * ((M / 2 : ℕ) : ℝ) + 1 := by
    have : M ≤ 2 * (M / 2) + 1 := by omega
    exact_mod_cast this
  push_cast
  linarith

end RProb
end Sglm
