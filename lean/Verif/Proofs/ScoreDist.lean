import Verif.Proofs.BSem

/-!
# The scores are distances to subdifferentials
-/

namespace Sglm
open Spec

theorem sign_smul {c : ℝ} {x : ℝ} (hx : x ≠ 0) : (c / ‖x‖) • x = (if x < 0 then -1 else 1) * c := by
  rw [Real.norm_eq_abs, smul_eq_mul]
  split_ifs with h
  · rw [abs_of_neg h]; field_simp
  · rw [abs_of_pos (lt_of_le_of_ne (not_lt.mp h) (Ne.symm hx))]; field_simp

theorem enetScore_dist {α ρ : ℝ} (hα : 0 ≤ α) (hρ0 : 0 ≤ ρ) (hρ1 : ρ ≤ 1) (a b : ℝ) :
    IsDist (-b) (subdiff (fun z : ℝ => enet α ρ z) a) (enetScore α ρ a b) := by
  have ha : 0 ≤ α * ρ := by positivity
  have hb : 0 ≤ α * (1 - ρ) := mul_nonneg hα (by linarith)
  have e : (fun z : ℝ => enet α ρ z) = fun z => (α * ρ) * ‖z‖ + (α * (1 - ρ)) * ‖z‖ ^ 2 / 2 := by
    funext z; unfold enet; ring
  rw [e]
  unfold enetScore
  by_cases h : a = 0
  · rw [if_pos h, h, subdiff_enet_zero ha hb]; exact isDist_ball ha b
  · rw [if_neg h, subdiff_enet_ne ha hb h]
    have := isDist_singleton b ((α * ρ / ‖a‖ + α * (1 - ρ)) • a)
    refine (congrArg (IsDist _ _) ?_).mpr this
    rw [add_smul, sign_smul h, Real.norm_eq_abs, smul_eq_mul, ← abs_neg]
    congr 1; ring

theorem l1Score_dist {α : ℝ} (hα : 0 ≤ α) (a b : ℝ) :
    IsDist (-b) (subdiff (fun z : ℝ => α * ‖z‖) a) (l1Score α a b) := by
  have e : (fun z : ℝ => α * ‖z‖) = fun z => enet α 1 z := by funext z; unfold enet; ring
  have e2 : l1Score α a b = enetScore α 1 a b := by
    unfold l1Score enetScore
    rw [mul_one, sub_self, zero_mul, add_zero, mul_one, mul_comm]
  rw [e, e2]
  exact enetScore_dist hα zero_le_one le_rfl a b

theorem mcpScore_dist {α γ : ℝ} (hα : 0 ≤ α) (hγ : 0 < γ) (a b : ℝ) :
    IsDist (-b) (frechetSubdiff (fun z : ℝ => mcp α γ z) a) (mcpScore α γ a b) := by
  show IsDist _ (frechetSubdiff (mcp α γ : ℝ → ℝ) _) _
  unfold mcpScore
  by_cases h : a = 0
  · rw [if_pos h, h, frechet_mcp_zero hα hγ]; exact isDist_ball hα b
  · rw [if_neg h]
    by_cases h2 : |a| < α * γ
    · rw [if_pos h2, frechet_mcp_mid h (by rw [Real.norm_eq_abs, mul_comm]; exact h2)]
      have := isDist_singleton b ((α / ‖a‖ - 1 / γ) • a)
      refine (congrArg (IsDist _ _) ?_).mpr this
      rw [sub_smul, sign_smul h, Real.norm_eq_abs, smul_eq_mul]
      congr 1; ring
    · rw [if_neg h2, frechet_mcp_out hα hγ h (by rw [Real.norm_eq_abs, mul_comm]; exact not_lt.mp h2)]
      have := isDist_singleton b (0:ℝ)
      rwa [add_zero] at this

theorem l21Score_dist {T : ℕ} {α : ℝ} (hα : 0 ≤ α) (a b : Euc T) :
    IsDist (-b) (subdiff (fun z : Euc T => α * ‖z‖) a) (l21Score α a b) := by
  have e : (fun z : Euc T => α * ‖z‖) = fun z => α * ‖z‖ + 0 * ‖z‖ ^ 2 / 2 := by funext z; ring
  rw [e]
  unfold l21Score
  split_ifs with h
  · rw [h, subdiff_enet_zero hα le_rfl]; exact isDist_ball hα b
  · rw [subdiff_enet_ne hα le_rfl h, add_zero]
    exact isDist_singleton b _

/-- The scores of the block elastic net, where correct. -/
theorem blockEnetScore_dist {T : ℕ} {α ρ : ℝ} (hα : 0 ≤ α) (hρ0 : 0 ≤ ρ) (hρ1 : ρ ≤ 1) (a b : Euc T)
    (h0 : a = 0 → ‖b‖ ≤ α * ρ ∧ ‖b‖ ^ 2 ≤ α * ρ) :
    IsDist (-b) (subdiff (fun z : Euc T => enet α ρ z) a) (blockEnetScore α ρ a b) := by
  have ha : 0 ≤ α * ρ := by positivity
  have hb : 0 ≤ α * (1 - ρ) := mul_nonneg hα (by linarith)
  have e : (fun z : Euc T => enet α ρ z) = fun z => (α * ρ) * ‖z‖ + (α * (1 - ρ)) * ‖z‖ ^ 2 / 2 := by
    funext z; unfold enet; ring
  rw [e]
  unfold blockEnetScore
  split_ifs with h
  · obtain ⟨h1, h2⟩ := h0 h
    rw [h, subdiff_enet_zero ha hb, max_eq_left (by linarith)]
    have := isDist_ball ha b
    rwa [max_eq_left (by linarith)] at this
  · rw [subdiff_enet_ne ha hb h]
    exact isDist_singleton b _

end Sglm
