import Verif.Proofs.MapRun

/-!
# Correspondences between problems: negated columns, isometries of the task space, scaling
-/

namespace Sglm
open Scalar Spec
variable {n p T T' : ℕ}

namespace RProb
variable {E E' : Type} [AddCommGroup E] [Module ℝ E] [AddCommGroup E'] [Module ℝ E'] {p : ℕ}
  {R : RProb E p} {R' : RProb E' p} {e : Fin p → E → E'} {β : ℝ}

theorem EMap.ofPx (hβ : 0 < β) (hz : ∀ j x, e j x = 0 ↔ x = 0) (hL : ∀ j, R'.L j = 0 ↔ R.L j = 0)
    (hpx : ∀ w j, R.L j ≠ 0 → R'.px (e j (w j) - (1 / R'.L j) • R'.G (fun i => e i (w i)) j) (1 / R'.L j) =
      e j (R.px (w j - (1 / R.L j) • R.G w j) (1 / R.L j)))
    (hsc : ∀ w j, R'.sc (e j (w j)) (R'.G (fun i => e i (w i)) j) = β * R.sc (w j) (R.G w j))
    (hm : R'.m0 = XR.fin β *. R.m0) : EMap R R' e β where
  pos := hβ
  zero := hz
  step w j := by
    funext i
    unfold RProb.step
    by_cases h0 : R.L j = 0
    · rw [if_pos h0, if_pos ((hL j).mpr h0)]
    · rw [if_neg h0, if_neg (fun h => h0 ((hL j).mp h))]
      by_cases hi : i = j
      · subst hi
        rw [Function.update_self, Function.update_self, hpx w i h0]
      · rw [Function.update_of_ne hi, Function.update_of_ne hi]
  sc := hsc
  m0 := hm

end RProb

theorem m0Of_scale (pen : Pen) {β : ℝ} (h : 0 < β) : m0Of pen = XR.fin β *. m0Of pen := by
  cases pen
  case l05 => show XR.fin 0 = XR.fin (β * 0); rw [mul_zero]
  all_goals exact (XR.scale_ninf h).symm

/-! ## Negated columns -/

theorem Spec.Negated.sq {D D' : Design n p} {s : Fin p → ℝ} (h : Negated D D' s) (j : Fin p) : s j * s j = 1 := by
  rcases h.sign j with h | h <;> rw [h] <;> norm_num

theorem Spec.Negated.fit_eq {D D' : Design n p} {s : Fin p → ℝ} (h : Negated D D' s) (w : Fin p → ℝ) :
    fit D'.matrix (fun j => s j * w j) = fit D.matrix w := by
  funext i
  unfold fit
  refine Finset.sum_congr rfl fun j _ => ?_
  rw [h.cols]
  linear_combination D.matrix i j * w j * h.sq j

theorem Spec.Negated.grad_eq {D D' : Design n p} {s : Fin p → ℝ} (h : Negated D D' s) (y u : Fin n → ℝ) (k : LossKind)
    (j : Fin p) : gradOf D'.matrix y k u j = s j * gradOf D.matrix y k u j := by
  cases k with
  | quadratic =>
    show quadGrad _ _ _ _ = s j * quadGrad _ _ _ _
    unfold quadGrad
    simp only [h.cols, mul_assoc, ← Finset.mul_sum]
    ring
  | logistic =>
    show logGrad _ _ _ _ = s j * logGrad _ _ _ _
    unfold logGrad
    simp only [h.cols, mul_assoc, ← Finset.mul_sum]
    ring

theorem Spec.Negated.steps_eq {D D' : Design n p} {s : Fin p → ℝ} (h : Negated D D' s) (hD : D.Canonical)
    (hD' : D'.Canonical) (k : LossKind) : stepsOf D' k = stepsOf D k := by
  rw [stepsOf_canonical D' hD', stepsOf_canonical D hD]
  funext j
  have hc : ∀ i, D'.matrix i j * D'.matrix i j = D.matrix i j * D.matrix i j := by
    intro i
    rw [h.cols]
    linear_combination (D.matrix i j * D.matrix i j) * h.sq j
  cases k with
  | quadratic =>
    show quadStep _ _ = quadStep _ _
    unfold quadStep
    simp only [hc]
  | logistic =>
    show logStep _ _ = logStep _ _
    unfold logStep
    simp only [hc]

theorem Spec.Negated.emap {D D' : Design n p} {s : Fin p → ℝ} (h : Negated D D' s) (hD : D.Canonical)
    (hD' : D'.Canonical) (y : Fin n → ℝ) (k : LossKind) (pen : Pen) (hv : pen.Valid) :
    RProb.EMap (prob1 D y k pen) (prob1 D' y k pen) (fun j x => s j * x) 1 := by
  have hL : (prob1 D' y k pen).L = (prob1 D y k pen).L := h.steps_eq hD hD' k
  have hG : ∀ w j, (prob1 D' y k pen).G (fun i => s i * w i) j = s j * (prob1 D y k pen).G w j := by
    intro w j
    show gradOf D'.matrix y k (fit D'.matrix fun i => s i * w i) j = _
    rw [h.fit_eq, h.grad_eq]
    rfl
  refine RProb.EMap.ofPx one_pos (fun j x => ?_) (fun j => by rw [hL]) (fun w j h0 => ?_) (fun w j => ?_)
    (m0Of_scale pen one_pos)
  · rw [mul_eq_zero, or_iff_right]
    rcases h.sign j with h | h <;> rw [h] <;> norm_num
  · have hs : 0 < 1 / (prob1 D y k pen).L j :=
      one_div_pos.mpr (lt_of_le_of_ne (stepsOf_nonneg D k j) (Ne.symm h0))
    rw [hG, hL]
    show proxOf pen _ _ = s j * proxOf pen _ _
    rcases h.sign j with h1 | h1
    · rw [h1]
      simp only [one_mul]
    · rw [h1]
      simp only [neg_mul, one_mul]
      rw [← proxOf_neg pen hv _ _ hs]
      congr 1
      rw [smul_neg]
      ring
  · rw [hG, one_mul]
    show scoreOf pen _ _ = scoreOf pen _ _
    rcases h.sign j with h1 | h1
    · rw [h1]
      simp only [one_mul]
    · rw [h1]
      simp only [neg_mul, one_mul]
      exact scoreOf_neg pen _ _

/-! ## Isometries of the task space -/

theorem blockSoftR_iso (U : Euc T →ₗᵢ[ℝ] Euc T') (v : Euc T) (t : ℝ) : blockSoftR (U v) t = U (blockSoftR v t) := by
  unfold blockSoftR
  rw [U.norm_map]
  split_ifs
  · rw [map_zero]
  · rw [map_smul]

theorem bproxOf_iso (U : Euc T →ₗᵢ[ℝ] Euc T') (pen : BPen) (v : Euc T) (s : ℝ) :
    bproxOf pen (U v) s = U (bproxOf pen v s) := by
  cases pen with
  | l21 α => exact blockSoftR_iso U v _
  | enet α ρ =>
    show blockEnetProxR α ρ (U v) s = U (blockEnetProxR α ρ v s)
    unfold blockEnetProxR
    rw [blockSoftR_iso, map_smul]
  | mcp α γ =>
    show blockMcpProxR α γ (U v) s = U (blockMcpProxR α γ v s)
    unfold blockMcpProxR
    rw [U.norm_map]
    split_ifs
    · rw [map_zero]
    · rfl
    · rw [map_smul]

theorem iso_zero (U : Euc T →ₗᵢ[ℝ] Euc T') (v : Euc T) : U v = 0 ↔ v = 0 := by
  rw [← norm_eq_zero, U.norm_map, norm_eq_zero]

theorem bscoreOf_iso (U : Euc T →ₗᵢ[ℝ] Euc T') (pen : BPen) (a b : Euc T) :
    bscoreOf pen (U a) (U b) = bscoreOf pen a b := by
  have key : ∀ c : ℝ, ‖U b + c • U a‖ = ‖b + c • a‖ := fun c => by rw [← map_smul, ← map_add, U.norm_map]
  have key2 : ∀ c : ℝ, ‖c • U a‖ = ‖c • a‖ := fun c => by rw [← map_smul, U.norm_map]
  cases pen with
  | l21 α =>
    show l21Score α (U a) (U b) = l21Score α a b
    unfold l21Score
    simp only [iso_zero, U.norm_map, key]
  | enet α ρ =>
    show blockEnetScore α ρ (U a) (U b) = blockEnetScore α ρ a b
    unfold blockEnetScore
    simp only [iso_zero, U.norm_map, key]
  | mcp α γ =>
    show blockMcpScore α γ (U a) (U b) = blockMcpScore α γ a b
    unfold blockMcpScore
    simp only [iso_zero, U.norm_map, key2]

/-- The predictor of one sample as a vector. -/
theorem fitMT_row (X : Fin n → Fin p → ℝ) (W : Fin p → Euc T) (i : Fin n) :
    WithLp.toLp 2 (fitMT X (fun j => (W j).ofLp) i) = ∑ j, X i j • W j := by
  ext t
  show fitMT X (fun j => (W j).ofLp) i t = _
  unfold fitMT
  rw [WithLp.ofLp_sum, Finset.sum_apply]
  rfl

/-- The gradient of one feature as a vector. -/
theorem mtGrad_row (X : Fin n → Fin p → ℝ) (Y u : Fin n → Fin T → ℝ) (j : Fin p) :
    WithLp.toLp 2 (mtGrad X Y u j) =
      (1 / (n : ℝ)) • (∑ i, X i j • WithLp.toLp 2 (u i) - ∑ i, X i j • WithLp.toLp 2 (Y i)) := by
  ext t
  show mtGrad X Y u j t = _
  unfold mtGrad
  rw [PiLp.smul_apply, PiLp.sub_apply, WithLp.ofLp_sum, WithLp.ofLp_sum, Finset.sum_apply, Finset.sum_apply, smul_eq_mul, one_div, mul_comm,
    div_eq_mul_inv]
  rfl

theorem Spec.Negated.emapMT {D D' : Design n p} {s : Fin p → ℝ} (h : Negated D D' s) (hD : D.Canonical)
    (hD' : D'.Canonical) (U : Euc T →ₗᵢ[ℝ] Euc T') (Y : Fin n → Fin T → ℝ) (pen : BPen) :
    RProb.EMap (probMT D Y pen) (probMT D' (mapTargets U Y) pen) (fun j x => s j • U x) 1 := by
  have hL : (probMT D' (mapTargets U Y) pen).L = (probMT D Y pen).L := h.steps_eq hD hD' .quadratic
  have hfit : ∀ (W : Fin p → Euc T) i, WithLp.toLp 2 (fitMT D'.matrix (fun j => (s j • U (W j)).ofLp) i) =
      U (WithLp.toLp 2 (fitMT D.matrix (fun j => (W j).ofLp) i)) := by
    intro W i
    rw [fitMT_row D'.matrix (fun j => s j • U (W j)), fitMT_row, map_sum]
    refine Finset.sum_congr rfl fun j _ => ?_
    rw [h.cols, map_smul, smul_smul, mul_right_comm, h.sq, one_mul]
  have hG : ∀ W j, (probMT D' (mapTargets U Y) pen).G (fun i => s i • U (W i)) j =
      s j • U ((probMT D Y pen).G W j) := by
    intro W j
    show WithLp.toLp 2 (mtGrad D'.matrix (mapTargets U Y) (fitMT D'.matrix fun j => (s j • U (W j)).ofLp) j) =
      s j • U (WithLp.toLp 2 (mtGrad D.matrix Y (fitMT D.matrix fun j => (W j).ofLp) j))
    rw [mtGrad_row, mtGrad_row, map_smul, map_sub, map_sum, map_sum]
    simp only [hfit, h.cols]
    rw [smul_comm (s j)]
    congr 1
    rw [smul_sub, Finset.smul_sum, Finset.smul_sum]
    congr 1
    · refine Finset.sum_congr rfl fun i _ => ?_
      rw [map_smul, smul_smul]
    · refine Finset.sum_congr rfl fun i _ => ?_
      rw [map_smul, smul_smul]
      rfl
  refine RProb.EMap.ofPx one_pos (fun j x => ?_) (fun j => by rw [hL]) (fun W j h0 => ?_) (fun W j => ?_)
    (XR.scale_ninf one_pos).symm
  · rw [smul_eq_zero, or_iff_right, iso_zero]
    rcases h.sign j with h | h <;> rw [h] <;> norm_num
  · rw [hG, hL]
    show bproxOf pen _ _ = s j • U (bproxOf pen _ _)
    rw [← bproxOf_iso, map_sub, map_smul]
    rcases h.sign j with h1 | h1
    · rw [h1]
      simp only [one_smul]
    · rw [h1]
      simp only [neg_smul, one_smul]
      rw [← bproxOf_neg]
      congr 1
      rw [smul_neg, neg_sub, sub_neg_eq_add, add_comm, ← sub_eq_add_neg]
  · rw [hG, one_mul]
    show bscoreOf pen _ _ = bscoreOf pen _ _
    rw [← bscoreOf_iso U]
    rcases h.sign j with h1 | h1
    · rw [h1]
      simp only [one_smul]
    · rw [h1]
      simp only [neg_smul, one_smul]
      exact bscoreOf_neg pen _ _

end Sglm
