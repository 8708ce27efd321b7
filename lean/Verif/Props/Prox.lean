import Verif.Proofs.BlockProx
import Verif.Proofs.ProxL05

/-!
# Proximal operators (C01 - C07)

All statements are about the `prox` methods of the penalties in exact arithmetic.
-/

namespace Sglm
open Spec

/-! ## C01 -/

/-- **C01.** `L1::prox` returns the unique minimiser of `(z-v)²/2 + s·α·|z|`. -/
theorem C01_l1_prox_exact (α s v : ℝ) (hα : 0 ≤ α) (hs : 0 < s) :
    ∃ x : ℝ, Penalty.prox (L1.mk (XR.fin α)) (XR.fin v) (XR.fin s) = .ok (XR.fin x) ∧
      IsUniqueProx (fun z : ℝ => s * (α * ‖z‖)) v x := by
  refine ⟨softR v (α * s), ?_, ?_⟩
  · show Except.ok (softThresholding _ _) = _
    rw [XR.s_mul, softThresholding_fin]
  · have h := enet_subdiff_real (a := α * s) (b := 0) (v := v) (by positivity) le_rfl
    have e : (fun z : ℝ => α * s * ‖z‖ + 0 * ‖z‖ ^ 2 / 2) = fun z => s * (α * ‖z‖) := by
      funext z; ring
    rw [e, add_zero, div_one] at h
    exact prox_of_subdiff h

/-- `soft_thresholding(v, t)` is the unique minimiser of `(z-v)²/2 + t·|z|`. -/
theorem C01_soft_thresholding (v t : ℝ) (ht : 0 ≤ t) :
    ∃ x : ℝ, softThresholding (XR.fin v) (XR.fin t) = XR.fin x ∧ IsUniqueProx (fun z : ℝ => t * ‖z‖) v x := by
  obtain ⟨x, hx, h⟩ := C01_l1_prox_exact t 1 v ht one_pos
  refine ⟨x, ?_, ?_⟩
  · injection hx with hx
    rw [← hx]
    show _ = softThresholding _ _
    rw [XR.s_mul, mul_one]
  · simpa using h

example : (0:ℝ) ≤ 1 ∧ (0:ℝ) < 1 / 2 := by norm_num

/-! ## C02 -/

/-- **C02.** `L1PlusL2::prox` returns the unique minimiser of
`(z-v)²/2 + s·α·(ρ|z| + (1-ρ)z²/2)`. -/
theorem C02_enet_prox_exact (α ρ s v : ℝ) (hα : 0 ≤ α) (hρ0 : 0 ≤ ρ) (hρ1 : ρ ≤ 1) (hs : 0 < s) :
    ∃ x : ℝ, Penalty.prox (L1PlusL2.mk (XR.fin α) (XR.fin ρ)) (XR.fin v) (XR.fin s) = .ok (XR.fin x) ∧
      IsUniqueProx (fun z : ℝ => s * enet α ρ z) v x := by
  have hb : 0 ≤ s * (1 - ρ) * α := mul_nonneg (mul_nonneg hs.le (by linarith)) hα
  refine ⟨softR v (ρ * α * s) / (1 + s * (1 - ρ) * α), ?_, ?_⟩
  · show Except.ok (L1PlusL2.prox _ _ _) = _
    unfold L1PlusL2.prox
    simp only [XR.s_mul, softThresholding_fin, XR.s_one, XR.s_sub, XR.s_add]
    rw [XR.s_div _ _ (by linarith)]
  · have h := enet_subdiff_real (a := ρ * α * s) (b := s * (1 - ρ) * α) (v := v) (by positivity) hb
    have e : (fun z : ℝ => ρ * α * s * ‖z‖ + s * (1 - ρ) * α * ‖z‖ ^ 2 / 2) =
        fun z => s * enet α ρ z := by
      funext z; unfold enet; ring
    rw [e] at h
    exact prox_of_subdiff h

example : (0:ℝ) ≤ 2 ∧ (0:ℝ) ≤ 1 / 2 ∧ (1:ℝ) / 2 ≤ 1 ∧ (0:ℝ) < 3 := by norm_num

/-! ## C03 -/

/-- The full statement of C03: `MCP::prox` returns a minimiser for all steps and all `γ` accepted by the
parameter validation. -/
def C03_full : Prop :=
  ∀ α γ s v : ℝ, 0 ≤ α → 1 ≤ γ → 0 < s →
    ∃ x : ℝ, Penalty.prox (MCP.mk (XR.fin α) (XR.fin γ)) (XR.fin v) (XR.fin s) = .ok (XR.fin x) ∧
      IsProx (fun z : ℝ => s * mcp α γ z) v x

/-- **C03 (partial).** `MCP::prox` returns a global minimiser of `(z-v)²/2 + s·MCP(z)` when the step does
not exceed `γ`.  Missing with respect to `C03_full`: steps `s > γ`, for which it is false. -/
theorem C03_mcp_prox_exact_partial (α γ s v : ℝ) (hα : 0 ≤ α) (hγ : 0 < γ) (hs : 0 < s) (hsγ : s ≤ γ) :
    ∃ x : ℝ, Penalty.prox (MCP.mk (XR.fin α) (XR.fin γ)) (XR.fin v) (XR.fin s) = .ok (XR.fin x) ∧
      IsProx (fun z : ℝ => s * mcp α γ z) v x :=
  ⟨mcpProxR α γ v s, congrArg Except.ok (mcp_prox_fin v hs hγ hsγ), mcp_prox_real hα hγ hs hsγ⟩

example : (0:ℝ) ≤ 1 ∧ (0:ℝ) < 3 ∧ (0:ℝ) < 2 ∧ (2:ℝ) ≤ 3 := by norm_num

/-- **C03 is false of the code**: with `α = γ = 1`, step 2 and `v = 1.9` the code returns 0, which is
not a minimiser. -/
theorem C03_false : ¬ C03_full := by
  intro h
  obtain ⟨x, hx, hp⟩ := h 1 1 2 (19 / 10) (by norm_num) (by norm_num) (by norm_num)
  have h0 : Penalty.prox (MCP.mk (XR.fin 1) (XR.fin 1)) (XR.fin (19/10)) (XR.fin 2) = .ok (XR.fin 0) := by
    show Except.ok (MCP.prox _ _ _) = _
    unfold MCP.prox
    have : |(19/10 : ℝ)| ≤ 1 * 2 := by rw [abs_of_pos] <;> norm_num
    simp only [XR.s_mul, XR.s_abs, XR.s_le, this, decide_true, if_true, XR.s_zero]
  rw [h0] at hx
  have hx0 : x = 0 := by injection hx with h1; exact (XR.fin_inj.mp h1).symm
  subst hx0
  have := hp (19 / 10)
  unfold mcp at this
  norm_num at this

/-- It is false for every step larger than `γ`: some values are set to zero which should be kept. -/
theorem C03_large_steps (α γ s : ℝ) (hα : 0 < α) (hγ : 0 < γ) (hs : γ < s) :
    ∃ v, Penalty.prox (MCP.mk (XR.fin α) (XR.fin γ)) (XR.fin v) (XR.fin s) = .ok (XR.fin 0) ∧
      ¬ IsProx (fun z : ℝ => s * mcp α γ z) v 0 := by
  have hs0 : 0 < s := hγ.trans hs
  refine ⟨α * s, ?_, ?_⟩
  · show Except.ok (MCP.prox _ _ _) = _
    unfold MCP.prox
    have : |α * s| ≤ α * s := le_of_eq (abs_of_pos (by positivity))
    simp only [XR.s_mul, XR.s_abs, XR.s_le, this, decide_true, if_true, XR.s_zero]
  · intro h
    have h1 := h (α * s)
    unfold mcp at h1
    have h2 : ¬ α * s ≤ γ * α := by
      rw [not_le, mul_comm α s]
      exact mul_lt_mul_of_pos_right hs hα
    have h3 : (0:ℝ) ≤ γ * α := by positivity
    simp only [zero_sub, norm_neg, sub_self, norm_zero, Real.norm_of_nonneg (mul_pos hα hs0).le, if_neg h2, if_pos h3, zero_pow two_ne_zero,
      zero_div, mul_zero] at h1
    nlinarith [mul_pos (mul_pos (mul_pos hα hα) hs0) (sub_pos.mpr hs)]

example : (0:ℝ) < 1 ∧ (0:ℝ) < 3 ∧ (3:ℝ) < 4 := by norm_num

/-! ## C04 -/

/-- **C04.** `L05::prox` returns a global minimiser of `(z-v)²/2 + s·α·sqrt|z|`. -/
theorem C04_l05_prox_exact (α s v : ℝ) (hα : 0 < α) (hs : 0 < s) :
    ∃ x : ℝ, Penalty.prox (L05.mk (XR.fin α)) (XR.fin v) (XR.fin s) = .ok (XR.fin x) ∧
      IsProx (fun z : ℝ => s * (α * Real.sqrt ‖z‖)) v x := by
  refine ⟨prox05R v (s * α), ?_, ?_⟩
  · show Except.ok (prox05 _ _) = _
    rw [XR.s_mul, prox05_fin (by positivity)]
  · have h := (prox05_core (lam := s * α) (by positivity) v).1
    have e : (fun z : ℝ => s * α * Real.sqrt |z|) = fun z => s * (α * Real.sqrt ‖z‖) := by
      funext z; rw [Real.norm_eq_abs]; ring
    rw [← e]; exact h

example : (0:ℝ) < 1 ∧ (0:ℝ) < 2 := by norm_num

/-! ## C05 -/

/-- The full statement of C05: `L21::prox` is exact for all vectors and all `α ≥ 0`. -/
def C05_full : Prop :=
  ∀ (n : ℕ) (v : Euc n) (α s : ℝ), 0 ≤ α → 0 < s →
    ∃ x : Euc n, MTPenalty.prox (L21.mk (XR.fin α)) (evec v) (XR.fin s) = .ok (evec x) ∧
      IsUniqueProx (fun z : Euc n => s * (α * ‖z‖)) v x

/-- **C05 (partial).** `L21::prox` returns the unique minimiser of `‖z-v‖²/2 + s·α·‖z‖`, unless both
`α = 0` and `v = 0`.  Missing with respect to `C05_full`: that one case, for which it is false. -/
theorem C05_l21_prox_exact_partial {n : ℕ} (v : Euc n) (α s : ℝ) (hα : 0 ≤ α) (hs : 0 < s)
    (h : 0 < α ∨ v ≠ 0) :
    ∃ x : Euc n, MTPenalty.prox (L21.mk (XR.fin α)) (evec v) (XR.fin s) = .ok (evec x) ∧
      IsUniqueProx (fun z : Euc n => s * (α * ‖z‖)) v x := by
  have h' : 0 < α * s ∨ v ≠ 0 := h.imp (fun h => by positivity) id
  refine ⟨blockSoftR v (α * s), ?_, ?_⟩
  · show Except.ok (blockSoftThresholding _ _) = _
    rw [XR.s_mul, blockSoftThresholding_fin v _ h']
  · have h := block_enet_subdiff (a := α * s) (b := 0) v (by positivity) le_rfl h'
    have e : (fun z : Euc n => α * s * ‖z‖ + 0 * ‖z‖ ^ 2 / 2) = fun z => s * (α * ‖z‖) := by
      funext z; ring
    rw [e] at h
    simp only [add_zero, div_one, one_smul] at h
    exact prox_of_subdiff h

example : (0:ℝ) ≤ 0 ∧ (0:ℝ) < 1 ∧ ((0:ℝ) < 0 ∨ (EuclideanSpace.single (0 : Fin 2) (1:ℝ) : Euc 2) ≠ 0) := by
  refine ⟨le_rfl, one_pos, Or.inr ?_⟩
  simp

/-- With `α = 0` and a zero vector, `L21::prox` returns NaN in every coordinate. -/
theorem C05_nan (n : ℕ) (s : ℝ) :
    MTPenalty.prox (L21.mk (XR.fin 0)) (evec (0 : Euc n)) (XR.fin s) =
      .ok (List.replicate n XR.nan) := by
  show Except.ok (blockSoftThresholding _ _) = _
  unfold blockSoftThresholding
  simp only [sqrt_sum_sq_evec, XR.s_mul, XR.s_lt, norm_zero, zero_mul, lt_irrefl, decide_false,
    Bool.false_eq_true, if_false, XR.s_one]
  rw [XR.s_div_zero, show XR.infTimes 0 = XR.nan by simp [XR.infTimes]]
  congr 1
  rw [← zeros_evec, List.map_replicate]
  rfl

/-- **C05 is false of the code**, for every number of tasks `n ≥ 1`. -/
theorem C05_false : ¬ C05_full := by
  intro h
  obtain ⟨x, hx, _⟩ := h 1 0 0 1 le_rfl one_pos
  rw [C05_nan] at hx
  injection hx with h1
  have h2 := congrArg (fun l => l[0]?) h1
  simp [vec] at h2

/-! ## C06 -/

/-- **C06.** `BlockL1PlusL2::prox` returns the unique minimiser of
`‖z-v‖²/2 + s·α·(ρ‖z‖ + (1-ρ)‖z‖²/2)` whenever `α ρ > 0` or `v ≠ 0`. -/
theorem C06_block_enet_prox_exact {n : ℕ} (v : Euc n) (α ρ s : ℝ) (hα : 0 ≤ α) (hρ0 : 0 ≤ ρ)
    (hρ1 : ρ ≤ 1) (hs : 0 < s) (h : 0 < α * ρ ∨ v ≠ 0) :
    ∃ x : Euc n, MTPenalty.prox (BlockL1PlusL2.mk (XR.fin α) (XR.fin ρ)) (evec v) (XR.fin s) =
        .ok (evec x) ∧
      IsUniqueProx (fun z : Euc n => s * enet α ρ z) v x := by
  have hb : 0 ≤ s * (1 - ρ) * α := mul_nonneg (mul_nonneg hs.le (by linarith)) hα
  have h' : 0 < α * s * ρ ∨ v ≠ 0 := h.imp (fun h => by nlinarith) id
  refine ⟨(1 / (1 + s * (1 - ρ) * α)) • blockSoftR v (α * s * ρ), ?_, ?_⟩
  · show Except.ok (BlockL1PlusL2.prox _ _ _) = _
    unfold BlockL1PlusL2.prox
    simp only [XR.s_mul, blockSoftThresholding_fin v _ h', XR.s_one, XR.s_sub, XR.s_add]
    rw [map_evec_smul _ _ (1 / (1 + s * (1 - ρ) * α))]
    intro x
    rw [XR.s_div _ _ (by linarith)]; congr 1; ring
  · have h := block_enet_subdiff (a := α * s * ρ) (b := s * (1 - ρ) * α) v (by positivity) hb h'
    have e : (fun z : Euc n => α * s * ρ * ‖z‖ + s * (1 - ρ) * α * ‖z‖ ^ 2 / 2) =
        fun z => s * enet α ρ z := by
      funext z; unfold enet; ring
    rw [e] at h
    exact prox_of_subdiff h

example : (0:ℝ) ≤ 1 ∧ (0:ℝ) ≤ 1 / 2 ∧ (1:ℝ) / 2 ≤ 1 ∧ (0:ℝ) < 1 ∧ (0:ℝ) < 1 * (1 / 2) := by norm_num

/-! ## C07 -/

/-- The full statement of C07 (for `γ ≥ 1`, the documented domain). -/
def C07_full : Prop :=
  ∀ (n : ℕ) (v : Euc n) (α γ s : ℝ), 0 ≤ α → 1 ≤ γ → 0 < s →
    ∃ x : Euc n, MTPenalty.prox (BlockMCP.mk (XR.fin α) (XR.fin γ)) (evec v) (XR.fin s) =
        .ok (evec x) ∧
      IsProx (fun z : Euc n => s * mcp α γ z) v x

/-- **C07 (partial).** `BlockMCP::prox` returns a global minimiser of `‖z-v‖²/2 + s·MCP(‖z‖)` when the
step does not exceed `γ`.  Missing with respect to `C07_full`: steps `s > γ`, for which it is false. -/
theorem C07_block_mcp_prox_exact_partial {n : ℕ} (v : Euc n) (α γ s : ℝ) (hα : 0 ≤ α) (hγ : 0 < γ)
    (hs : 0 < s) (hsγ : s ≤ γ) :
    ∃ x : Euc n, MTPenalty.prox (BlockMCP.mk (XR.fin α) (XR.fin γ)) (evec v) (XR.fin s) =
        .ok (evec x) ∧
      IsProx (fun z : Euc n => s * mcp α γ z) v x :=
  ⟨blockMcpProxR α γ v s, congrArg Except.ok (blockMcp_prox_fin v hα hs hγ hsγ),
    block_mcp_prox v hα hγ hs hsγ⟩

example : (0:ℝ) ≤ 1 ∧ (0:ℝ) < 3 ∧ (0:ℝ) < 2 ∧ (2:ℝ) ≤ 3 := by norm_num

/-- **C07 is false of the code**: `α = γ = 1`, step 2, `v = (1.9)`. -/
theorem C07_false : ¬ C07_full := by
  intro h
  set v : Euc 1 := EuclideanSpace.single 0 (19/10 : ℝ) with hv
  have hn : ‖v‖ = 19 / 10 := by
    rw [hv, PiLp.norm_single, Real.norm_of_nonneg (by norm_num)]
  obtain ⟨x, hx, hp⟩ := h 1 v 1 1 2 (by norm_num) (by norm_num) (by norm_num)
  have h0 : MTPenalty.prox (BlockMCP.mk (XR.fin 1) (XR.fin 1)) (evec v) (XR.fin 2) =
      .ok (evec (0 : Euc 1)) := by
    show Except.ok (BlockMCP.prox _ _ _) = _
    unfold BlockMCP.prox
    have : (19/10 : ℝ) ≤ 1 * 2 := by norm_num
    simp only [XR.s_mul, norm2_evec, hn, XR.s_le, this, decide_true, if_true, XR.s_zero, vec_length]
    rw [zeros_evec]
  rw [h0] at hx
  have hx0 : x = 0 := by
    injection hx with h1
    have h2 := vec_inj.mp h1
    ext i; rw [← h2]
  subst hx0
  have := hp v
  unfold mcp at this
  simp only [zero_sub, norm_neg, hn, norm_zero, sub_self] at this
  norm_num at this

/-- It is false for every step larger than `γ`. -/
theorem C07_large_steps {n : ℕ} (hn : 0 < n) (α γ s : ℝ) (hα : 0 < α) (hγ : 0 < γ) (hs : γ < s) :
    ∃ v : Euc n, MTPenalty.prox (BlockMCP.mk (XR.fin α) (XR.fin γ)) (evec v) (XR.fin s) = .ok (evec (0 : Euc n)) ∧
      ¬ IsProx (fun z : Euc n => s * mcp α γ z) v 0 := by
  have hs0 : 0 < s := hγ.trans hs
  set v : Euc n := EuclideanSpace.single ⟨0, hn⟩ (α * s) with hv
  have hN : ‖v‖ = α * s := by
    rw [hv, PiLp.norm_single, Real.norm_of_nonneg (by positivity)]
  refine ⟨v, ?_, ?_⟩
  · show Except.ok (BlockMCP.prox _ _ _) = _
    unfold BlockMCP.prox
    simp only [XR.s_mul, norm2_evec, hN, XR.s_le, le_refl, decide_true, if_true, XR.s_zero, vec_length]
    rw [zeros_evec]
  · intro h
    have h1 := h v
    unfold mcp at h1
    have h2 : ¬ α * s ≤ γ * α := by
      rw [not_le, mul_comm α s]
      exact mul_lt_mul_of_pos_right hs hα
    have h3 : (0:ℝ) ≤ γ * α := by positivity
    simp only [hN, if_neg h2, norm_zero, if_pos h3, zero_sub, norm_neg, sub_self, zero_pow two_ne_zero, zero_div, mul_zero] at h1
    nlinarith [mul_pos (mul_pos (mul_pos hα hα) hs0) (sub_pos.mpr hs)]

example : 0 < 2 ∧ (0:ℝ) < 1 ∧ (0:ℝ) < 3 ∧ (3:ℝ) < 4 := by norm_num

end Sglm
