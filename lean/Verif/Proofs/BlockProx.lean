import Verif.Proofs.Prox

/-!
# Block proximal operators
-/

namespace Sglm
open Spec

section
variable {n : ℕ}

theorem sum_sq_eq_norm (v : Euc n) : ∑ i, v.ofLp i * v.ofLp i = ‖v‖ ^ 2 := by
  rw [EuclideanSpace.real_norm_sq_eq]
  exact Finset.sum_congr rfl (fun i _ => by ring)

theorem norm2_evec (v : Euc n) : norm2 (evec v) = XR.fin ‖v‖ := by
  unfold norm2
  rw [dot_vec, sum_sq_eq_norm, XR.s_sqrt _ (by positivity), Real.sqrt_sq (norm_nonneg _)]

theorem sqrt_sum_sq_evec (v : Euc n) :
    Scalar.sqrt (Scalar.sum ((evec v).map Scalar.sq)) = XR.fin ‖v‖ := by
  rw [map_vec v.ofLp Scalar.sq (fun x => x ^ 2) (fun i => XR.s_sq _), sum_vec,
    ← EuclideanSpace.real_norm_sq_eq, XR.s_sqrt _ (by positivity), Real.sqrt_sq (norm_nonneg _)]

theorem map_evec_smul (v : Euc n) (g : XR → XR) (c : ℝ) (hg : ∀ x, g (XR.fin x) = XR.fin (c * x)) :
    (evec v).map g = evec (c • v) := by
  rw [map_vec v.ofLp g (fun x => c * x) (fun i => hg _)]
  rfl

theorem zeros_evec : List.replicate n (XR.fin 0) = evec (0 : Euc n) := by
  rw [replicate_zero_eq_vec]; rfl

/-- Real block soft-thresholding. -/
noncomputable def blockSoftR (v : Euc n) (t : ℝ) : Euc n :=
  if ‖v‖ < t then 0 else (1 - t / ‖v‖) • v

theorem blockSoftThresholding_fin (v : Euc n) (t : ℝ) (h : 0 < t ∨ v ≠ 0) :
    blockSoftThresholding (evec v) (XR.fin t) = evec (blockSoftR v t) := by
  unfold blockSoftThresholding blockSoftR
  simp only [sqrt_sum_sq_evec, XR.s_lt, decide_eq_true_eq, vec_length, XR.s_zero, XR.s_one]
  split_ifs with h1
  · exact zeros_evec
  · have hv : ‖v‖ ≠ 0 := by
      rcases h with h | h
      · intro h0; rw [h0] at h1; exact h1 h
      · exact norm_ne_zero_iff.mpr h
    rw [XR.s_div _ _ hv, XR.s_sub]
    exact map_evec_smul v _ _ (fun x => by rw [XR.s_mul, mul_comm])

theorem block_enet_subdiff {a b : ℝ} (v : Euc n) (ha : 0 ≤ a) (hb : 0 ≤ b) (h : 0 < a ∨ v ≠ 0) :
    v - (1 / (1 + b)) • blockSoftR v a ∈
      subdiff (fun z : Euc n => a * ‖z‖ + b * ‖z‖ ^ 2 / 2) ((1 / (1 + b)) • blockSoftR v a) := by
  intro z
  have hb1 : (0:ℝ) < 1 + b := by linarith
  by_cases h1 : ‖v‖ < a
  · simp only [blockSoftR, h1, if_true, smul_zero, sub_zero, norm_zero]
    have := real_inner_le_norm v z
    nlinarith [norm_nonneg z, norm_nonneg v, mul_nonneg hb (sq_nonneg ‖z‖)]
  · have hN : 0 < ‖v‖ := by
      rcases h with h | h
      · linarith
      · exact norm_pos_iff.mpr h
    set N := ‖v‖ with hNdef
    simp only [blockSoftR, ← hNdef, h1, if_false, smul_smul]
    set c := 1 / (1 + b) * (1 - a / N) with hc
    have haN : a / N ≤ 1 := (div_le_one hN).mpr (not_lt.mp h1)
    have hc0 : 0 ≤ c := mul_nonneg (by positivity) (by linarith)
    have hcb : (1 + b) * c = 1 - a / N := by rw [hc]; field_simp
    have e1 : v - c • v = (a / N) • v + b • (c • v) := by
      rw [smul_smul, ← add_smul]
      nth_rw 1 [← one_smul ℝ v]
      rw [← sub_smul]; congr 1; linarith
    rw [e1, inner_add_left, inner_smul_left, inner_smul_left (c • v)]
    simp only [conj_trivial]
    have h2 : inner ℝ v (z - c • v) ≤ N * ‖z‖ - c * N ^ 2 := by
      rw [inner_sub_right, inner_smul_right, real_inner_self_eq_norm_sq]
      have := real_inner_le_norm v z
      linarith
    have h3 : ‖c • v‖ = c * N := by rw [norm_smul, Real.norm_of_nonneg hc0]
    have h4 : a / N * inner ℝ v (z - c • v) ≤ a * ‖z‖ - a * (c * N) := by
      have : a / N * (N * ‖z‖ - c * N ^ 2) = a * ‖z‖ - a * (c * N) := by field_simp
      rw [← this]
      exact mul_le_mul_of_nonneg_left h2 (by positivity)
    have h5 : 2 * inner ℝ (c • v) (z - c • v) ≤ ‖z‖ ^ 2 - ‖c • v‖ ^ 2 := by
      have e : z = c • v + (z - c • v) := by abel
      have := norm_add_sq_real (c • v) (z - c • v)
      rw [← e] at this
      nlinarith [sq_nonneg ‖z - c • v‖]
    rw [h3] at h5 ⊢
    nlinarith [mul_le_mul_of_nonneg_left h5 hb]

/-- Real block MCP proximal map. -/
noncomputable def blockMcpProxR (α γ : ℝ) (v : Euc n) (s : ℝ) : Euc n :=
  if ‖v‖ ≤ α * s then 0
  else if γ / s * (α * s) < ‖v‖ then v
  else ((1 - α * s / ‖v‖) / (1 - 1 / (γ / s))) • v

theorem blockMcp_prox_fin {α γ s : ℝ} (v : Euc n) (hα : 0 ≤ α) (hs : 0 < s) (hγ : 0 < γ)
    (hsγ : s ≤ γ) :
    (BlockMCP.mk (XR.fin α) (XR.fin γ)).prox (evec v) (XR.fin s) = evec (blockMcpProxR α γ v s) := by
  unfold BlockMCP.prox blockMcpProxR
  have hg : γ / s ≠ 0 := by positivity
  simp only [norm2_evec, XR.s_mul, XR.s_div _ _ hs.ne', XR.s_le, XR.s_lt, XR.s_zero,
    XR.s_lit, decide_eq_true_eq, vec_length]
  split_ifs with h1 h2
  · exact zeros_evec
  · rfl
  · have hv : ‖v‖ ≠ 0 := by
      intro h0; rw [h0] at h1; apply h1; positivity
    have h4 : γ / s * (α * s) = γ * α := by field_simp
    rw [h4] at h2
    have h5 : s < γ := by
      rcases lt_or_eq_of_le hsγ with h | h
      · exact h
      · exfalso; subst h; apply h2; rw [mul_comm]; exact not_le.mp h1
    have h6 : 1 / (γ / s) = s / γ := by field_simp
    have h7 : (1:ℝ) - 1 / (γ / s) ≠ 0 := by
      rw [h6]
      have : s / γ < 1 := (div_lt_one hγ).mpr h5
      linarith
    apply map_evec_smul
    intro x
    have h1' : ((1:ℤ):ℝ) / ((1:ℕ):ℝ) = 1 := by norm_num
    rw [h1', XR.s_div _ _ hv, XR.s_div _ _ hg, XR.s_sub, XR.s_sub, XR.s_mul, XR.s_div _ _ h7]
    congr 1; ring

theorem norm_blockMcpProxR {α γ s : ℝ} (v : Euc n) (hα : 0 ≤ α) (hs : 0 < s) (hγ : 0 < γ)
    (hsγ : s ≤ γ) :
    ‖blockMcpProxR α γ v s‖ = mcpProxR α γ ‖v‖ s ∧
    ‖blockMcpProxR α γ v s - v‖ = |mcpProxR α γ ‖v‖ s - ‖v‖| := by
  unfold blockMcpProxR mcpProxR
  rw [abs_of_nonneg (norm_nonneg v)]
  split_ifs with h1 h2 h3
  · simp
  · simp
  · exact absurd h3 (not_lt.mpr (norm_nonneg v))
  · have hv : 0 < ‖v‖ := lt_of_le_of_lt (by positivity) (not_le.mp h1)
    have h6 : 1 / (γ / s) = s / γ := by field_simp
    have h4 : γ / s * (α * s) = γ * α := by field_simp
    rw [h4] at h2
    rw [h6]
    have h5 : s < γ := by
      rcases lt_or_eq_of_le hsγ with h | h
      · exact h
      · exfalso; subst h; apply h2; rw [mul_comm]; exact not_le.mp h1
    have hk : 0 < 1 - s / γ := by
      have : s / γ < 1 := (div_lt_one hγ).mpr h5
      linarith
    have hc : ((1 - α * s / ‖v‖) / (1 - s / γ)) * ‖v‖ = 1 * (‖v‖ - α * s) / (1 - s / γ) := by
      field_simp
    have hc0 : 0 ≤ (1 - α * s / ‖v‖) / (1 - s / γ) := by
      apply div_nonneg _ hk.le
      have : α * s / ‖v‖ ≤ 1 := (div_le_one hv).mpr (not_le.mp h1).le
      linarith
    constructor
    · rw [norm_smul, Real.norm_of_nonneg hc0, hc]
    · set c := (1 - α * s / ‖v‖) / (1 - s / γ)
      rw [← hc]
      have : c • v - v = (c - 1) • v := by rw [sub_smul, one_smul]
      rw [this, norm_smul, Real.norm_eq_abs, show c * ‖v‖ - ‖v‖ = (c - 1) * ‖v‖ by ring, abs_mul,
        abs_of_nonneg (norm_nonneg v)]

theorem block_mcp_prox {α γ s : ℝ} (v : Euc n) (hα : 0 ≤ α) (hγ : 0 < γ) (hs : 0 < s) (hsγ : s ≤ γ) :
    IsProx (fun z : Euc n => s * mcp α γ z) v (blockMcpProxR α γ v s) := by
  intro z
  obtain ⟨h1, h2⟩ := norm_blockMcpProxR v hα hs hγ hsγ
  obtain ⟨_, h⟩ := mcp_prox_nonneg hα hγ hs hsγ (norm_nonneg v) ‖z‖ (norm_nonneg z)
  simp only
  rw [h2, sq_abs, ← mcp_norm α γ (blockMcpProxR α γ v s), h1, ← mcp_norm α γ z]
  refine h.trans ?_
  have h3 : (‖z‖ - ‖v‖) ^ 2 ≤ ‖z - v‖ ^ 2 := by
    rw [← sq_abs]
    exact pow_le_pow_left₀ (abs_nonneg _) (abs_norm_sub_norm_le z v) 2
  linarith

end
end Sglm
