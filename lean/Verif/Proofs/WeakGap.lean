import Verif.Proofs.IterBound
import Verif.Proofs.Quality
import Verif.Props.Certificate

/-!
# Weakly convex penalties and least squares: gap and monotonicity
-/

namespace Sglm
open Scalar Spec
variable {n p T : ℕ}

section
variable {E : Type} [NormedAddCommGroup E] [InnerProductSpace ℝ E]

/-- Fréchet subgradients of weakly convex functions are subgradients up to the concavity. -/
theorem frechet_weak {φ : E → ℝ} {m : ℝ} (hm : 0 ≤ m) (hφ : WeaklyConvex φ m) {x g : E} (hg : g ∈ frechetSubdiff φ x) (z : E) :
    φ x + inner ℝ g (z - x) ≤ φ z + m / 2 * ‖z - x‖ ^ 2 := by
  refine le_of_forall_pos_le_add fun ε hε => ?_
  obtain ⟨δ, hδ, h⟩ := hg (ε / (‖z - x‖ + 1)) (by positivity)
  obtain ⟨t, ht, ht1, ht2⟩ : ∃ t : ℝ, 0 < t ∧ t ≤ 1 ∧ t * ‖z - x‖ < δ := by
    refine ⟨min 1 (δ / (‖z - x‖ + 1) / 2), by positivity, min_le_left _ _, ?_⟩
    refine lt_of_le_of_lt (mul_le_mul_of_nonneg_right (min_le_right _ _) (norm_nonneg _)) ?_
    rw [div_div, div_mul_eq_mul_div, div_lt_iff₀ (by positivity)]
    nlinarith [norm_nonneg (z - x)]
  have h1 := h (x + t • (z - x)) (by
    rw [add_sub_cancel_left, norm_smul, Real.norm_eq_abs, abs_of_pos ht]; exact ht2)
  have h2 := hφ x z t ht.le ht1
  rw [add_sub_cancel_left, inner_smul_right, norm_smul, Real.norm_eq_abs, abs_of_pos ht] at h1
  have h3 : t * (φ x + inner ℝ g (z - x)) ≤ t * (φ z + m / 2 * ‖z - x‖ ^ 2 + ε / (‖z - x‖ + 1) * ‖z - x‖) := by
    have : m * t * (1 - t) / 2 * ‖z - x‖ ^ 2 ≤ t * (m / 2 * ‖z - x‖ ^ 2) := by
      have : 0 ≤ m * t * t / 2 * ‖z - x‖ ^ 2 := by positivity
      nlinarith
    nlinarith
  have h4 := le_of_mul_le_mul_left h3 ht
  have h5 : ε / (‖z - x‖ + 1) * ‖z - x‖ ≤ ε := by
    rw [div_mul_eq_mul_div, div_le_iff₀ (by positivity)]; nlinarith [norm_nonneg (z - x)]
  linarith

/-- The same for elements which are close to the subdifferential. -/
theorem frechet_weak_near {φ : E → ℝ} {m : ℝ} (hm : 0 ≤ m) (hφ : WeaklyConvex φ m) {x g : E} {d : ℝ}
    (h : IsDist g (frechetSubdiff φ x) d) (z : E) :
    φ x + inner ℝ g (z - x) ≤ φ z + m / 2 * ‖z - x‖ ^ 2 + d * ‖z - x‖ := by
  refine le_of_forall_pos_le_add fun ε hε => ?_
  have hpos : 0 < ‖z - x‖ + 1 := by positivity
  obtain ⟨s, hs, hd⟩ := (Metric.infDist_lt_iff h.1).mp
    (show Metric.infDist g (frechetSubdiff φ x) < d + ε / (‖z - x‖ + 1) by
      rw [← h.2]; linarith [div_pos hε hpos])
  have h1 := frechet_weak hm hφ hs z
  have h2 : inner ℝ g (z - x) - inner ℝ s (z - x) ≤ dist g s * ‖z - x‖ := by
    rw [← inner_sub_left, dist_eq_norm]
    exact real_inner_le_norm _ _
  have h3 : dist g s * ‖z - x‖ ≤ (d + ε / (‖z - x‖ + 1)) * ‖z - x‖ :=
    mul_le_mul_of_nonneg_right hd.le (norm_nonneg _)
  have h4 : ε / (‖z - x‖ + 1) * ‖z - x‖ ≤ ε := by
    rw [div_mul_eq_mul_div, div_le_iff₀ hpos]
    nlinarith [norm_nonneg (z - x)]
  nlinarith

/-- Least squares plus a weakly convex penalty: approximate stationarity bounds the gap to every other point, up to the concavity of
the penalty, and improved by the curvature of the loss. -/
theorem lsq_weak_gap (hn : 0 < n) (X : Fin n → Fin p → ℝ) (Y : Fin n → E) {φ : E → ℝ} {m τ : ℝ} (hm : 0 ≤ m)
    (hφ : WeaklyConvex φ m) {v : Fin p → E}
    (hd : ∀ j, ∃ d, IsDist (-grd X Y v j) (frechetSubdiff φ (v j)) d ∧ d ≤ τ) (w : Fin p → E) :
    lsq X Y v + ∑ j, φ (v j) - (lsq X Y w + ∑ j, φ (w j)) +
      (sqFit X (fun j => v j - w j) / (2 * n) - m / 2 * ∑ j, ‖v j - w j‖ ^ 2) ≤ τ * ∑ j, ‖v j - w j‖ := by
  have h1 := lsq_expand hn X Y v (fun j => w j - v j) 1
  have e : (fun j => v j + (1 : ℝ) • (w j - v j)) = w := by funext j; rw [one_smul]; abel
  rw [e, one_mul, one_pow, one_mul, sqFit_sub_comm X w v] at h1
  have h2 : ∑ j, φ (v j) ≤ ∑ j, φ (w j) + ∑ j, inner ℝ (grd X Y v j) (w j - v j) + m / 2 * ∑ j, ‖v j - w j‖ ^ 2 +
      τ * ∑ j, ‖v j - w j‖ := by
    rw [Finset.mul_sum, Finset.mul_sum, ← Finset.sum_add_distrib, ← Finset.sum_add_distrib, ← Finset.sum_add_distrib]
    refine Finset.sum_le_sum fun j _ => ?_
    obtain ⟨d, h3, h4⟩ := hd j
    have h5 := frechet_weak_near hm hφ h3 (w j)
    have h6 := mul_le_mul_of_nonneg_right h4 (norm_nonneg (w j - v j))
    rw [inner_neg_left] at h5
    rw [norm_sub_rev (v j) (w j)]
    linarith
  linarith

/-- One coordinate: two approximate solutions of `g - L x ∈ ∂φ(x)` are close if the curvature `L` exceeds the concavity of `φ`. -/
theorem weak_near {φ : E → ℝ} {m L τ : ℝ} (hm : 0 ≤ m) (hφ : WeaklyConvex φ m) (hL : m < L) {g x s : E} {d : ℝ}
    (hx : IsDist (g - L • x) (frechetSubdiff φ x) d) (hd : d ≤ τ) (hs : g - L • s ∈ frechetSubdiff φ s) :
    ‖x - s‖ ≤ τ / (L - m) := by
  have h1 := frechet_weak_near hm hφ hx s
  have h2 := frechet_weak hm hφ hs x
  have h3 := mul_le_mul_of_nonneg_right hd (norm_nonneg (s - x))
  have e : inner ℝ (g - L • x) (s - x) + inner ℝ (g - L • s) (x - s) = L * ‖x - s‖ ^ 2 := by
    rw [show s - x = -(x - s) by abel, inner_neg_right, neg_add_eq_sub, ← inner_sub_left,
      show g - L • s - (g - L • x) = L • (x - s) by rw [smul_sub]; abel, inner_smul_left, real_inner_self_eq_norm_sq]
    rfl
  rw [norm_sub_rev s x] at h1 h3
  have h4 : (L - m) * ‖x - s‖ ^ 2 ≤ τ * ‖x - s‖ := by nlinarith
  rw [le_div_iff₀ (by linarith)]
  rcases (norm_nonneg (x - s)).eq_or_lt with h0 | h0
  · rw [← h0, zero_mul]
    have := h3
    have hd0 : 0 ≤ d := by rw [hx.2]; exact Metric.infDist_nonneg
    linarith
  · refine le_of_mul_le_mul_right ?_ h0
    nlinarith

end

/-! ## One task -/

/-- The stationarity condition of least squares in terms of correlations with the residual. -/
theorem stationary_corr (hn : 0 < n) {D : Design n p} {y : Fin n → ℝ} {S : ℝ → Set ℝ} {v : Fin p → ℝ} {τ : ℝ}
    (h : ApproxStationary D y .quadratic S v τ) (j : Fin p) : ∃ d, IsDist (residCorr D y v j) (S (v j)) d ∧ d ≤ τ := by
  obtain ⟨g, d, h1, h2, h3⟩ := h j
  have e : g = -residCorr D y v j := by
    have h4 := loss_partial hn D.matrix y .quadratic v j
    have h5 : g = gradOf D.matrix y .quadratic (fit D.matrix v) j := HasDerivAt.unique h1 h4
    rw [h5]
    show (_ - _) / _ = -(_ / _)
    rw [← neg_div, ← Finset.sum_sub_distrib, ← Finset.sum_neg_distrib]
    congr 1
    exact Finset.sum_congr rfl fun i _ => by ring
  rw [e, neg_neg] at h2
  exact ⟨d, h2, h3⟩

end Sglm
