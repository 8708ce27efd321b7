import Verif.Spec.Prox
import Verif.Proofs.XRBasic
import Verif.Model.Penalties

/-!
# Real-analysis lemmas about proximal operators
-/

namespace Sglm
open Spec

section General
variable {E : Type*} [NormedAddCommGroup E] [InnerProductSpace ℝ E]

theorem norm_sub_sq_split (z x v : E) :
    ‖z - v‖ ^ 2 = ‖z - x‖ ^ 2 - 2 * inner ℝ (v - x) (z - x) + ‖x - v‖ ^ 2 := by
  have h : z - v = (z - x) + (x - v) := by abel
  rw [h, norm_add_sq_real]
  have : inner ℝ (z - x) (x - v) = - inner ℝ (v - x) (z - x) := by
    rw [real_inner_comm, ← inner_neg_left]; congr 1; abel
  rw [this]; ring

theorem prox_of_subdiff {f : E → ℝ} {v x : E} (h : v - x ∈ subdiff f x) : IsUniqueProx f v x := by
  intro z hz
  have h1 := h z
  have h2 := norm_sub_sq_split z x v
  have h3 : 0 < ‖z - x‖ ^ 2 := by
    have : z - x ≠ 0 := sub_ne_zero.mpr hz
    positivity
  nlinarith

omit [InnerProductSpace ℝ E] in
theorem IsUniqueProx.isProx {f : E → ℝ} {v x : E} (h : IsUniqueProx f v x) : IsProx f v x := by
  intro z
  by_cases hz : z = x
  · rw [hz]
  · exact (h z hz).le

end General

/-- Real soft-thresholding. -/
noncomputable def softR (v t : ℝ) : ℝ := if t < v then v - t else if v < -t then v + t else 0

theorem softThresholding_fin (v t : ℝ) :
    softThresholding (XR.fin v) (XR.fin t) = XR.fin (softR v t) := by
  unfold softThresholding softR
  simp only [XR.s_lt, XR.s_neg, XR.s_sub, XR.s_add, XR.s_zero, decide_eq_true_eq]
  split_ifs <;> rfl

/-- Subgradient inequality characterising elastic-net type proximal points on the line. -/
theorem enet_subdiff_real {a b v : ℝ} (ha : 0 ≤ a) (hb : 0 ≤ b) :
    v - softR v a / (1 + b) ∈ subdiff (fun z : ℝ => a * ‖z‖ + b * ‖z‖ ^ 2 / 2) (softR v a / (1 + b)) := by
  intro z
  simp only [Real.norm_eq_abs, sq_abs]
  have hb1 : (0:ℝ) < 1 + b := by linarith
  set x := softR v a / (1 + b) with hx
  have hxs : x * (1 + b) = softR v a := by rw [hx]; field_simp
  show a * |x| + b * x ^ 2 / 2 + inner ℝ (v - x) (z - x) ≤ a * |z| + b * z ^ 2 / 2
  have hin : inner ℝ (v - x) (z - x) = (z - x) * (v - x) := by simp [inner]
  rw [hin]
  have hz1 := le_abs_self z
  have hz2 := neg_abs_le z
  have hsq : b * x * (z - x) ≤ b * z ^ 2 / 2 - b * x ^ 2 / 2 := by nlinarith [sq_nonneg (z - x)]
  unfold softR at hxs
  split_ifs at hxs with h1 h2
  · have hxp : 0 < x := by
      by_contra hc
      have : x * (1 + b) ≤ 0 := mul_nonpos_of_nonpos_of_nonneg (not_lt.mp hc) hb1.le
      linarith
    rw [abs_of_pos hxp]
    have : v - x = a + b * x := by linarith
    rw [this]; nlinarith
  · have hxp : x < 0 := by
      by_contra hc
      have : 0 ≤ x * (1 + b) := mul_nonneg (not_lt.mp hc) hb1.le
      linarith
    rw [abs_of_neg hxp]
    have : v - x = -a + b * x := by linarith
    rw [this]; nlinarith
  · have hx0 : x = 0 := by
      rcases mul_eq_zero.mp hxs with h | h
      · exact h
      · linarith
    rw [hx0]; simp only [abs_zero, mul_zero, sub_zero]
    have h3 : |v| ≤ a := abs_le.mpr ⟨by linarith, by linarith⟩
    have h4 : z * v ≤ |z| * |v| := by rw [← abs_mul]; exact le_abs_self _
    have h5 : |z| * |v| ≤ |z| * a := mul_le_mul_of_nonneg_left h3 (abs_nonneg z)
    nlinarith [sq_nonneg z]

/-! ### MCP on the half-line/line -/

/-- Real MCP proximal map. -/
noncomputable def mcpProxR (α γ v s : ℝ) : ℝ :=
  if |v| ≤ α * s then 0
  else if γ / s * (α * s) < |v| then v
  else (if v < 0 then -1 else 1) * (|v| - α * s) / (1 - 1 / (γ / s))

theorem mcp_prox_fin {α γ s : ℝ} (v : ℝ) (hs : 0 < s) (hγ : 0 < γ) (hsγ : s ≤ γ) :
    (MCP.mk (XR.fin α) (XR.fin γ)).prox (XR.fin v) (XR.fin s) = XR.fin (mcpProxR α γ v s) := by
  unfold MCP.prox mcpProxR
  have hg : γ / s ≠ 0 := by positivity
  simp only [XR.s_mul, XR.s_div _ _ hs.ne', XR.s_abs, XR.s_le, XR.s_lt, XR.s_zero, XR.s_one,
    XR.s_div _ _ hg, XR.s_signum, XR.s_sub, decide_eq_true_eq]
  split_ifs with h1 h2 h3
  · rfl
  · rfl
  all_goals
    rw [XR.s_div]
    have h4 : γ / s * (α * s) = γ * α := by field_simp
    rw [h4] at h2
    have h5 : s < γ := by
      rcases lt_or_eq_of_le hsγ with h | h
      · exact h
      · exfalso; subst h; apply h2; rw [mul_comm]; exact not_le.mp h1
    have h6 : 1 / (γ / s) = s / γ := by field_simp
    rw [h6]
    have : s / γ < 1 := (div_lt_one hγ).mpr h5
    linarith

/-- The scalar MCP proximal inequality in terms of absolute values: for `v, u ≥ 0` the value
`x = prox(v) ≥ 0` minimises `(u - v)²/2 + s·mcp(u)`. -/
theorem mcp_prox_nonneg {α γ v s : ℝ} (hα : 0 ≤ α) (hγ : 0 < γ) (hs : 0 < s) (hsγ : s ≤ γ)
    (hv : 0 ≤ v) (u : ℝ) (hu : 0 ≤ u) :
    0 ≤ mcpProxR α γ v s ∧
    (mcpProxR α γ v s - v) ^ 2 / 2 + s * mcp α γ (mcpProxR α γ v s) ≤
      (u - v) ^ 2 / 2 + s * mcp α γ u := by
  have hk0 : 0 ≤ γ - s := by linarith
  have hga : 0 ≤ γ * α := by positivity
  have h4 : γ / s * (α * s) = γ * α := by field_simp
  unfold mcpProxR
  rw [h4]
  rw [abs_of_nonneg hv]
  unfold mcp
  simp only [Real.norm_eq_abs, abs_of_nonneg hu]
  have hquad : ∀ r : ℝ, s * (α * r - r ^ 2 / (2 * γ)) = s * α * r - (s / γ) * r ^ 2 / 2 := by
    intro r; field_simp
  have hcst : s * (γ * α ^ 2 / 2) = (s/γ) * (γ * α) ^ 2 / 2 := by field_simp
  have hq1 : s / γ ≤ 1 := (div_le_one hγ).mpr hsγ
  have hq0 : 0 < s / γ := by positivity
  have hqsa : (s / γ) * (γ * α) = s * α := by field_simp
  set q := s / γ with hq
  set G := γ * α with hG
  by_cases c1 : v ≤ α * s
  · simp only [c1, if_true, abs_zero, hga]
    refine ⟨le_rfl, ?_⟩
    split_ifs with c2
    · rw [hquad, hquad]
      have : v * u ≤ α * s * u := mul_le_mul_of_nonneg_right c1 hu
      nlinarith [sq_nonneg u]
    · rw [hcst, hquad]
      have hGu : G < u := not_le.mp c2
      have : v * u ≤ q * G * u := by rw [hqsa]; nlinarith
      nlinarith [mul_nonneg hq0.le (sq_nonneg (u - G)), mul_nonneg (sub_nonneg.mpr hq1) (sq_nonneg u)]
  · rw [if_neg c1]
    by_cases c2 : G < v
    · simp only [c2, if_true, abs_of_nonneg hv, not_le.mpr c2, if_false]
      refine ⟨hv, ?_⟩
      rw [hcst]
      split_ifs with c3
      · rw [hquad]
        have h7 : (G - u) ^ 2 ≤ (u - v) ^ 2 := by
          have : (u - v)^2 = (v - u)^2 := by ring
          rw [this]; apply pow_le_pow_left₀ (by linarith); linarith
        have h8 : q * (G - u) ^ 2 ≤ (u - v) ^ 2 := by nlinarith [sq_nonneg (G - u)]
        nlinarith
      · rw [hcst]; nlinarith [sq_nonneg (u - v)]
    · rw [if_neg c2, if_neg (not_lt.mpr hv)]
      have hvG := not_lt.mp c2
      have hvs := not_le.mp c1
      have h6 : 1 - 1 / (γ / s) = 1 - q := by rw [hq]; field_simp
      rw [h6, one_mul]
      have hlt : q < 1 := by
        by_contra hc
        have h1 : q = 1 := le_antisymm hq1 (not_lt.mp hc)
        rw [h1] at hqsa; linarith
      have hk : 0 < 1 - q := by linarith
      set x := (v - α * s) / (1 - q) with hx
      have hxk : x * (1 - q) = v - α * s := by rw [hx]; field_simp
      have hx0 : 0 ≤ x := by rw [hx]; apply div_nonneg <;> linarith
      have hxG : x ≤ G := by
        rw [hx, div_le_iff₀ hk]; nlinarith
      refine ⟨hx0, ?_⟩
      rw [abs_of_nonneg hx0, if_pos hxG, hquad]
      have key : ∀ r, 0 ≤ r → (x - v) ^ 2 / 2 + (s * α * x - q * x ^ 2 / 2) ≤
          (r - v) ^ 2 / 2 + (s * α * r - q * r ^ 2 / 2) := by
        intro r hr
        have e : (r - v) ^ 2 / 2 + (s * α * r - q * r ^ 2 / 2) -
            ((x - v) ^ 2 / 2 + (s * α * x - q * x ^ 2 / 2)) = (1 - q) * (r - x) ^ 2 / 2 := by
          have : v = x * (1 - q) + α * s := by linarith
          rw [this]; ring
        nlinarith [mul_nonneg hk.le (sq_nonneg (r - x))]
      split_ifs with c3
      · rw [hquad]; exact key u hu
      · rw [hcst]
        have hGu := not_le.mp c3
        have h1 := key G hga
        have h2 : s * α * G = q * G ^ 2 := by rw [← hqsa]; ring
        nlinarith

theorem mcpProxR_neg (α γ v s : ℝ) (hα : 0 ≤ α) (hs : 0 < s) :
    mcpProxR α γ (-v) s = - mcpProxR α γ v s := by
  unfold mcpProxR
  rw [abs_neg]
  split_ifs with h1 h2 h3 h4 h5
  · simp
  · rfl
  · linarith
  · ring
  · ring
  · exfalso
    have : v = 0 := by linarith
    subst this
    apply h1; rw [abs_zero]; positivity

theorem mcp_neg {E : Type*} [NormedAddCommGroup E] (α γ : ℝ) (z : E) : mcp α γ (-z) = mcp α γ z := by
  unfold mcp; rw [norm_neg]

theorem mcp_norm {E : Type*} [NormedAddCommGroup E] (α γ : ℝ) (z : E) : mcp α γ ‖z‖ = mcp α γ z := by
  unfold mcp; rw [norm_norm]

theorem mcp_prox_real {α γ v s : ℝ} (hα : 0 ≤ α) (hγ : 0 < γ) (hs : 0 < s) (hsγ : s ≤ γ) :
    IsProx (fun z : ℝ => s * mcp α γ z) v (mcpProxR α γ v s) := by
  have main : ∀ v : ℝ, 0 ≤ v → IsProx (fun z : ℝ => s * mcp α γ z) v (mcpProxR α γ v s) := by
    intro v hv z
    obtain ⟨_, h⟩ := mcp_prox_nonneg hα hγ hs hsγ hv |z| (abs_nonneg z)
    simp only [Real.norm_eq_abs, sq_abs]
    rw [show mcp α γ |z| = mcp α γ z from mcp_norm α γ z] at h
    refine h.trans ?_
    have h2 : (|z| - v) ^ 2 ≤ (z - v) ^ 2 := by
      have := le_abs_self z
      nlinarith [sq_abs z]
    linarith
  rcases le_total 0 v with hv | hv
  · exact main v hv
  · intro z
    have h := main (-v) (by linarith) (-z)
    rw [mcpProxR_neg α γ v s hα hs] at h
    simp only [mcp_neg] at h
    have e1 : ∀ a b : ℝ, ‖-a - -b‖ = ‖a - b‖ := by
      intro a b; rw [← norm_neg]; congr 1; ring
    rw [e1, e1] at h
    exact h

end Sglm
