import Verif.Proofs.PSem

/-!
# Block penalties on real data
-/

namespace Sglm
open Scalar Spec

variable {T : ℕ}

/-- What `L21::subdiff_distance` computes for a row of weights `a` with gradient `b`. -/
noncomputable def l21Score (α : ℝ) (a b : Euc T) : ℝ :=
  open Classical in
  if a = 0 then max 0 (‖b‖ - α) else ‖b + (α / ‖a‖) • a‖

theorem l21_dist_fin (α : ℝ) (a b : Euc T) :
    (L21.mk (XR.fin α)).dist (evec a) (evec b) = .ok (XR.fin (l21Score α a b)) := by
  unfold L21.dist l21Score
  by_cases h : a = 0
  · have h1 : ¬ (anyNonzero (evec a) = true) := by
      rw [anyNonzero_evec]; exact not_not.mpr h
    rw [if_neg h1, if_pos h, norm2_evec, XR.s_sub, XR.s_zero, XR.s_fmax]
  · have h1 : anyNonzero (evec a) = true := (anyNonzero_evec _).mpr h
    have hN : ‖a‖ ≠ 0 := norm_ne_zero_iff.mpr h
    rw [if_pos h1, if_neg h, norm2_evec]
    simp only
    rw [foldl_sq_evec (F := fun gw => gw.1 +. XR.fin α *. gw.2 /. XR.fin ‖a‖) (c := α / ‖a‖)]
    intro x y
    simp only [XR.s_mul, XR.s_div _ _ hN, XR.s_add]
    congr 1; ring

/-- What `BlockL1PlusL2::subdiff_distance` computes for a row of weights `a` with gradient `b`. -/
noncomputable def blockEnetScore (α ρ : ℝ) (a b : Euc T) : ℝ :=
  open Classical in
  if a = 0 then max 0 (‖b‖ ^ 2 - α * ρ) else ‖b + (α * ρ / ‖a‖ + α * (1 - ρ)) • a‖

theorem blockEnet_dist_fin (α ρ : ℝ) (a b : Euc T) :
    (BlockL1PlusL2.mk (XR.fin α) (XR.fin ρ)).dist (evec a) (evec b) = .ok (XR.fin (blockEnetScore α ρ a b)) := by
  unfold BlockL1PlusL2.dist blockEnetScore
  by_cases h : a = 0
  · have h1 : ¬ (anyNonzero (evec a) = true) := by
      rw [anyNonzero_evec]; exact not_not.mpr h
    rw [if_neg h1, if_pos h]
    simp only [dot_vec, sum_sq_eq_norm, XR.s_mul, XR.s_zero, XR.s_sub, XR.s_fmax]
  · have h1 : anyNonzero (evec a) = true := (anyNonzero_evec _).mpr h
    have hN : ‖a‖ ≠ 0 := norm_ne_zero_iff.mpr h
    rw [if_pos h1, if_neg h, norm2_evec]
    simp only
    rw [foldl_sq_evec (F := fun gw => Scalar.add gw.1 (Scalar.mul (XR.fin α)
      (Scalar.add (Scalar.mul (Scalar.div gw.2 (XR.fin ‖a‖)) (XR.fin ρ))
        (Scalar.mul (Scalar.sub Scalar.one (XR.fin ρ)) gw.2))))
      (c := α * ρ / ‖a‖ + α * (1 - ρ))]
    intro x y
    simp only [XR.s_mul, XR.s_div _ _ hN, XR.s_add, XR.s_one, XR.s_sub]
    congr 1; ring

/-- What `BlockMCP::subdiff_distance` computes for a row of weights `a` with gradient `b`. -/
noncomputable def blockMcpScore (α γ : ℝ) (a b : Euc T) : ℝ :=
  open Classical in
  if a = 0 then max 0 (‖b‖ - α)
  else if ‖a‖ < α * γ then ‖(α / ‖a‖ - 1 / γ) • a‖ else ‖b‖

theorem blockMcp_dist_fin (α γ : ℝ) (hγ : 0 < γ) (a b : Euc T) :
    (BlockMCP.mk (XR.fin α) (XR.fin γ)).dist (evec a) (evec b) = .ok (XR.fin (blockMcpScore α γ a b)) := by
  unfold BlockMCP.dist blockMcpScore
  by_cases h : a = 0
  · have h1 : ¬ (anyNonzero (evec a) = true) := by
      rw [anyNonzero_evec]; exact not_not.mpr h
    rw [if_pos h]
    simp only [h1, norm2_evec, XR.s_zero, XR.s_sub, XR.s_fmax]
    rfl
  · have h1 : anyNonzero (evec a) = true := (anyNonzero_evec _).mpr h
    have hN : ‖a‖ ≠ 0 := norm_ne_zero_iff.mpr h
    rw [if_neg h]
    simp only [h1, if_true, norm2_evec, XR.s_mul, XR.s_lt, decide_eq_true_eq]
    split_ifs with h2
    · simp only [XR.s_div _ _ hN, XR.s_one, XR.s_div _ _ hγ.ne', XR.s_sub]
      have e : ((evec a).map (fun x => Scalar.sq (Scalar.mul x (XR.fin (α / ‖a‖ - 1 / γ))))) =
          (evec ((α / ‖a‖ - 1 / γ) • a)).map Scalar.sq := by
        rw [← map_evec_smul a (fun x => Scalar.mul x (XR.fin (α / ‖a‖ - 1 / γ))) _
          (fun x => by rw [XR.s_mul, mul_comm]), List.map_map]
        rfl
      rw [e, sqrt_sum_sq_evec]
    · rfl

/-! ## Instances -/

theorem norms_emat {p : ℕ} (W : Fin p → Euc T) : (emat W).rows.map norm2 = vec (fun j => ‖W j‖) := by
  unfold emat mat vec
  rw [List.map_ofFn]
  congr 1
  funext j
  exact norm2_evec (W j)

theorem l21_sem (T : ℕ) (α : ℝ) (hα : 0 < α) :
    BSem (L21.mk (XR.fin α)) T (fun z => α * ‖z‖) (fun v s => blockSoftR v (α * s)) (l21Score α) XR.ninf where
  value W := by
    show Except.ok (L21.value _ _) = _
    unfold L21.value
    rw [norms_emat, sum_vec, XR.s_mul, Finset.mul_sum]
  prox v s hs := by
    show Except.ok (L21.prox _ _ _) = _
    unfold L21.prox
    rw [XR.s_mul, blockSoftThresholding_fin _ _ (Or.inl (by positivity))]
  dist W g l := blockDistances_list _ (l21Score α) (l21_dist_fin α) W g l

noncomputable def blockEnetProxR (α ρ : ℝ) (v : Euc T) (s : ℝ) : Euc T :=
  (1 / (1 + s * (1 - ρ) * α)) • blockSoftR v (α * s * ρ)

theorem blockEnet_sem (T : ℕ) (α ρ : ℝ) (hα : 0 < α) (hρ : 0 < ρ) (hρ1 : ρ ≤ 1) :
    BSem (BlockL1PlusL2.mk (XR.fin α) (XR.fin ρ)) T (enet α ρ) (blockEnetProxR α ρ) (blockEnetScore α ρ)
      XR.ninf where
  value W := by
    show Except.ok (BlockL1PlusL2.value _ _) = _
    unfold BlockL1PlusL2.value enet
    simp only [norms_emat, sum_vec, dot_vec, XR.s_mul, XR.s_add, XR.s_sub, XR.s_one, XR.s_lit]
    congr 2
    rw [← Finset.mul_sum, Finset.sum_add_distrib, Finset.mul_sum, Finset.mul_sum]
    congr 2
    apply Finset.sum_congr rfl
    intro j _
    push_cast
    ring
  prox v s hs := by
    have hb : 0 ≤ s * (1 - ρ) * α := mul_nonneg (mul_nonneg hs.le (by linarith)) hα.le
    show Except.ok (BlockL1PlusL2.prox _ _ _) = _
    unfold BlockL1PlusL2.prox blockEnetProxR
    simp only [XR.s_mul, XR.s_one, XR.s_sub, XR.s_add]
    rw [blockSoftThresholding_fin _ _ (Or.inl (by positivity))]
    congr 1
    apply map_evec_smul
    intro x
    rw [XR.s_div _ _ (by linarith)]
    congr 1; ring
  dist W g l := blockDistances_list _ (blockEnetScore α ρ) (blockEnet_dist_fin α ρ) W g l

theorem blockMcp_sem (T : ℕ) (α γ : ℝ) (hα : 0 ≤ α) (hγ : 0 < γ) :
    BSem (BlockMCP.mk (XR.fin α) (XR.fin γ)) T (mcp α γ) (blockMcpProxR α γ) (blockMcpScore α γ) XR.ninf where
  value W := by
    show Except.ok (BlockMCP.value _ _) = _
    unfold BlockMCP.value
    dsimp only
    rw [norms_emat, map_vec (fun j => ‖W j‖) _ (fun z => mcp α γ z), iterSum_vec]
    · congr 2
      apply Finset.sum_congr rfl
      intro j _
      exact mcp_norm α γ (W j)
    intro i
    rw [← mcp_value_eq α γ hγ, mul_comm γ α, abs_norm]
    have h2 : (2 : ℝ) * γ ≠ 0 := by positivity
    simp only [XR.s_mul, XR.s_lt, decide_eq_true_eq, XR.s_lit, XR.s_sq]
    norm_num
    simp only [XR.s_div _ _ h2, XR.s_div _ _ (two_ne_zero (α := ℝ)), XR.s_sub]
    split_ifs <;> rfl
  prox v s hs := by
    show Except.ok (BlockMCP.prox _ _ _) = _
    congr 1
    by_cases hsγ : s ≤ γ
    · exact blockMcp_prox_fin v hα hs hγ hsγ
    · unfold BlockMCP.prox blockMcpProxR
      have hlt : γ / s < 1 := (div_lt_one hs).mpr (not_le.mp hsγ)
      simp only [norm2_evec, XR.s_mul, XR.s_div _ _ hs.ne', XR.s_le, XR.s_lt, XR.s_zero,
        XR.s_lit, decide_eq_true_eq, vec_length]
      split_ifs with h1 h2
      · exact zeros_evec
      · rfl
      · exfalso
        apply h2
        have : γ / s * (α * s) ≤ 1 * (α * s) := by gcongr
        linarith [not_le.mp h1]
  dist W g l := blockDistances_list _ (blockMcpScore α γ) (blockMcp_dist_fin α γ hγ) W g l

end Sglm
