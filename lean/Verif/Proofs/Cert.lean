import Verif.Proofs.ScoreDist
import Verif.Proofs.Descent

/-!
# Optimality certificates
-/

namespace Sglm
open Scalar Spec
variable {n p T : ℕ}

section
variable {E : Type} [NormedAddCommGroup E] [InnerProductSpace ℝ E]

/-- Close to the subdifferential means almost a subgradient. -/
theorem subdiff_gap {φ : E → ℝ} {x g : E} {d : ℝ} (h : IsDist (-g) (subdiff φ x) d) (z : E) :
    φ x - φ z ≤ inner ℝ g (z - x) + d * ‖x - z‖ := by
  refine le_of_forall_pos_le_add fun ε hε => ?_
  have hpos : 0 < ‖x - z‖ + 1 := by positivity
  obtain ⟨s, hs, hd⟩ := (Metric.infDist_lt_iff h.1).mp
    (show Metric.infDist (-g) (subdiff φ x) < d + ε / (‖x - z‖ + 1) by
      rw [← h.2]; linarith [div_pos hε hpos])
  have h1 := hs z
  have h2 : inner ℝ (-g) (z - x) - inner ℝ s (z - x) ≤ dist (-g) s * ‖x - z‖ := by
    rw [← inner_sub_left, dist_eq_norm, norm_sub_rev x z]
    exact real_inner_le_norm _ _
  have h3 : dist (-g) s * ‖x - z‖ ≤ (d + ε / (‖x - z‖ + 1)) * ‖x - z‖ :=
    mul_le_mul_of_nonneg_right hd.le (norm_nonneg _)
  have h4 : ε / (‖x - z‖ + 1) * ‖x - z‖ ≤ ε := by
    rw [div_mul_eq_mul_div, div_le_iff₀ hpos]
    nlinarith [norm_nonneg (x - z)]
  rw [inner_neg_left] at h2
  nlinarith

/-- Small scores certify a small gap. -/
theorem cert_gap {f : (Fin p → E) → ℝ} {G : Fin p → E} {φ : E → ℝ} {w w' : Fin p → E} {τ : ℝ}
    (hf : f w + ∑ j, inner ℝ (G j) (w' j - w j) ≤ f w')
    (hd : ∀ j, ∃ d, IsDist (-(G j)) (subdiff φ (w j)) d ∧ d ≤ τ) :
    f w + ∑ j, φ (w j) - (f w' + ∑ j, φ (w' j)) ≤ τ * ∑ j, ‖w j - w' j‖ := by
  have key : ∑ j, φ (w j) - ∑ j, φ (w' j) ≤ ∑ j, inner ℝ (G j) (w' j - w j) + τ * ∑ j, ‖w j - w' j‖ := by
    rw [← Finset.sum_sub_distrib, Finset.mul_sum, ← Finset.sum_add_distrib]
    refine Finset.sum_le_sum fun j _ => ?_
    obtain ⟨d, h1, h2⟩ := hd j
    have := subdiff_gap h1 (w' j)
    have := mul_le_mul_of_nonneg_right h2 (norm_nonneg (w j - w' j))
    linarith
  linarith
end

theorem loss_convex (hn : 0 < n) (X : Fin n → Fin p → ℝ) (y : Fin n → ℝ) (k : LossKind) (w w' : Fin p → ℝ) :
    k.loss y (fit X w) + ∑ j, gradOf X y k (fit X w) j * (w' j - w j) ≤ k.loss y (fit X w') := by
  cases k
  · exact quad_convex hn X y w w'
  · exact log_convex hn X y w w'

theorem loss_partial (hn : 0 < n) (X : Fin n → Fin p → ℝ) (y : Fin n → ℝ) (k : LossKind) (w : Fin p → ℝ)
    (j : Fin p) : IsPartial (fun w => k.loss y (fit X w)) w j (gradOf X y k (fit X w) j) := by
  cases k
  · exact quad_partial hn X y w j
  · exact log_partial X y w j

/-- The scores of the convex penalties are distances to subdifferentials. -/
theorem scoreOf_dist (pen : Pen) (hv : pen.Valid) (hc : pen.Convex) (a b : ℝ) :
    IsDist (-b) (subdiff pen.fn a) (scoreOf pen a b) := by
  cases pen with
  | l1 α => exact l1Score_dist hv a b
  | enet α ρ => exact enetScore_dist hv.1 hv.2.1 hv.2.2 a b
  | mcp α γ => exact hc.elim
  | l05 α => exact hc.elim

/-- What the score of the multi-task elastic net guarantees. -/
theorem blockEnetScore_bound {α ρ τ : ℝ} (hα : 0 ≤ α) (hρ0 : 0 ≤ ρ) (hρ1 : ρ ≤ 1) (a b : Euc T)
    (h : blockEnetScore α ρ a b ≤ τ) :
    ∃ d, IsDist (-b) (subdiff (fun z : Euc T => enet α ρ z) a) d ∧ d ≤ max τ (Real.sqrt (α * ρ + τ) - α * ρ) := by
  have ha : 0 ≤ α * ρ := by positivity
  have hb : 0 ≤ α * (1 - ρ) := mul_nonneg hα (by linarith)
  by_cases h0 : a = 0
  · refine ⟨max 0 (‖b‖ - α * ρ), ?_, ?_⟩
    · have e : (fun z : Euc T => enet α ρ z) = fun z => (α * ρ) * ‖z‖ + (α * (1 - ρ)) * ‖z‖ ^ 2 / 2 := by
        funext z; unfold enet; ring
      rw [e, h0, subdiff_enet_zero ha hb]
      exact isDist_ball ha b
    · unfold blockEnetScore at h
      rw [if_pos h0] at h
      have h1 := le_trans (le_max_left _ _) h
      have h2 := le_trans (le_max_right _ _) h
      refine max_le (le_max_of_le_left h1) (le_max_of_le_right ?_)
      have : ‖b‖ ≤ Real.sqrt (α * ρ + τ) := Real.le_sqrt_of_sq_le (by linarith)
      linarith
  · exact ⟨_, blockEnetScore_dist hα hρ0 hρ1 a b (fun h => absurd h h0), le_max_of_le_left h⟩

end Sglm
