import Verif.Spec.Statistics
import Verif.Proofs.Scale

/-!
# Least squares in terms of the Gram matrix and the correlations with the targets
-/

namespace Sglm
open Scalar Spec
variable {n n' p T : ℕ}

theorem quadGrad_gram (D : Design n p) (y : Fin n → ℝ) (w : Fin p → ℝ) (j : Fin p) :
    quadGrad D.matrix y (fit D.matrix w) j = ∑ k, gramMat D j k * w k - corr D y j := by
  unfold quadGrad gramMat corr fit
  rw [sub_div]
  congr 1
  simp only [Finset.mul_sum, div_mul_eq_mul_div, Finset.sum_mul]
  rw [Finset.sum_comm, Finset.sum_div]
  refine Finset.sum_congr rfl fun k _ => ?_
  rw [Finset.sum_div, Finset.sum_div]
  exact Finset.sum_congr rfl fun i _ => by ring

theorem quadStep_gram (D : Design n p) (hD : D.Canonical) (j : Fin p) : stepsOf D .quadratic j = gramMat D j j := by
  rw [stepsOf_canonical D hD]
  rfl

theorem quadLoss_gram (hn : 0 < n) (D : Design n p) (y : Fin n → ℝ) (w : Fin p → ℝ) :
    quadLoss y (fit D.matrix w) = (∑ j, w j * ∑ k, gramMat D j k * w k) / 2 - ∑ j, w j * corr D y j + (∑ i, y i ^ 2) / (2 * n) := by
  have hn' : (n : ℝ) ≠ 0 := by exact_mod_cast hn.ne'
  have e1 : ∑ j, w j * ∑ k, gramMat D j k * w k = (∑ i, fit D.matrix w i ^ 2) / n := by
    have h : ∀ j, ∑ k, gramMat D j k * w k = (∑ i, D.matrix i j * fit D.matrix w i) / n := by
      intro j
      have := quadGrad_gram D (fun _ => 0) w j
      unfold quadGrad corr at this
      simpa using this.symm
    simp only [h]
    rw [Finset.sum_div]
    simp only [Finset.sum_div, Finset.mul_sum]
    rw [Finset.sum_comm]
    refine Finset.sum_congr rfl fun i _ => ?_
    rw [pow_two]
    nth_rewrite 2 [fit]
    rw [Finset.sum_mul, Finset.sum_div]
    exact Finset.sum_congr rfl fun j _ => by ring
  have e2 : ∑ j, w j * corr D y j = (∑ i, fit D.matrix w i * y i) / n := by
    unfold corr fit
    simp only [Finset.sum_div, Finset.mul_sum, Finset.sum_mul]
    rw [Finset.sum_comm]
    exact Finset.sum_congr rfl fun i _ => Finset.sum_congr rfl fun j _ => by ring
  rw [e1, e2]
  unfold quadLoss
  have e3 : ∑ i, (y i - fit D.matrix w i) ^ 2 =
      ∑ i, y i ^ 2 - 2 * ∑ i, fit D.matrix w i * y i + ∑ i, fit D.matrix w i ^ 2 := by
    rw [Finset.mul_sum, ← Finset.sum_sub_distrib, ← Finset.sum_add_distrib]
    exact Finset.sum_congr rfl fun i _ => by ring
  rw [e3]
  field_simp
  ring

theorem mtLoss_tasks (Y U : Fin n → Fin T → ℝ) : mtLoss Y U = ∑ t, quadLoss (fun i => Y i t) (fun i => U i t) := by
  unfold mtLoss quadLoss
  rw [Finset.sum_comm, Finset.sum_div]

/-- Equal statistics: the problems differ by a constant. -/
theorem prob1_statistics (hn : 0 < n) (hn' : 0 < n') {D : Design n p} {D' : Design n' p} (hD : D.Canonical) (hD' : D'.Canonical)
    {y : Fin n → ℝ} {y' : Fin n' → ℝ} {β : ℝ} (hβ : 0 < β) (hg : ∀ j k, gramMat D' j k = β * gramMat D j k)
    (hc : ∀ j, corr D' y' j = β * corr D y j) {pen pen' : Pen} (hp : pen.Scaled 1 β pen') (hv : pen.Valid) :
    RProb.Scaling (prob1 D y .quadratic pen) (prob1 D' y' .quadratic pen') 1 β β := by
  have hL : ∀ j, (prob1 D' y' .quadratic pen').L j = β * (prob1 D y .quadratic pen).L j := by
    intro j
    show stepsOf D' .quadratic j = β * stepsOf D .quadratic j
    rw [quadStep_gram D' hD', quadStep_gram D hD, hg]
  have hone : ∀ w : Fin p → ℝ, (fun j => (1 : ℝ) • w j) = w := fun w => funext fun j => one_mul _
  have hG : ∀ w j, (prob1 D' y' .quadratic pen').G w j = β * (prob1 D y .quadratic pen).G w j := by
    intro w j
    show quadGrad D'.matrix y' (fit D'.matrix w) j = β * quadGrad D.matrix y (fit D.matrix w) j
    rw [quadGrad_gram, quadGrad_gram, hc, mul_sub, Finset.mul_sum]
    simp only [hg, mul_assoc]
  refine ⟨RProb.EMap.ofPx hβ (fun _ x => by rw [one_smul]) (fun j => ?_) (fun w j h0 => ?_) (fun w j => ?_) ?_, one_ne_zero,
    hβ, fun x c => by rw [one_smul, one_mul], (∑ i, y' i ^ 2) / (2 * n') - β * ((∑ i, y i ^ 2) / (2 * n)), fun w => ?_⟩
  · rw [hL, mul_eq_zero, or_iff_right hβ.ne']
  · have hs : 0 < 1 / (prob1 D y .quadratic pen).L j :=
      one_div_pos.mpr (lt_of_le_of_ne (stepsOf_nonneg D .quadratic j) (Ne.symm h0))
    rw [hone, hG, hL]
    have := proxOf_scale one_pos hβ hp hv (w j - (1 / (prob1 D y .quadratic pen).L j) • (prob1 D y .quadratic pen).G w j) hs
    show proxOf pen' _ _ = (1 : ℝ) * proxOf pen _ _
    rw [← this]
    simp only [smul_eq_mul, one_mul]
    congr 1 <;> field_simp
  · rw [hone, hG]
    exact scoreOf_scale one_pos hβ hp _ _
  · cases hp
    case l05 => show XR.fin 0 = XR.fin (β * 0); rw [mul_zero]
    all_goals exact (XR.scale_ninf hβ).symm
  · show quadLoss y' (fit D'.matrix fun j => (1 : ℝ) * w j) + ∑ j, pen'.fn (1 * w j) =
      β * (quadLoss y (fit D.matrix w) + ∑ j, pen.fn (w j)) + _
    have e : ∑ j, pen'.fn (1 * w j) = β * ∑ j, pen.fn (w j) := by
      rw [Finset.mul_sum]
      exact Finset.sum_congr rfl fun j _ => by rw [penFn_scale one_pos hβ hp, one_mul]
    rw [e]
    simp only [one_mul]
    rw [quadLoss_gram hn', quadLoss_gram hn]
    simp only [hg, hc]
    have e1 : ∑ j, w j * ∑ k, β * gramMat D j k * w k = β * ∑ j, w j * ∑ k, gramMat D j k * w k := by
      simp only [Finset.mul_sum]
      exact Finset.sum_congr rfl fun j _ => Finset.sum_congr rfl fun k _ => by ring
    have e2 : ∑ j, w j * (β * corr D y j) = β * ∑ j, w j * corr D y j := by
      rw [Finset.mul_sum]
      exact Finset.sum_congr rfl fun j _ => by ring
    rw [e1, e2]
    ring

/-- The same for several tasks. -/
theorem probMT_statistics (hn : 0 < n) (hn' : 0 < n') {D : Design n p} {D' : Design n' p} (hD : D.Canonical) (hD' : D'.Canonical)
    {Y : Fin n → Fin T → ℝ} {Y' : Fin n' → Fin T → ℝ} (hg : ∀ j k, gramMat D' j k = gramMat D j k)
    (hc : ∀ j, corrMT D' Y' j = corrMT D Y j) (pen : BPen) :
    RProb.Scaling (probMT D Y pen) (probMT D' Y' pen) 1 1 1 := by
  have hct : ∀ j t, corr D' (fun i => Y' i t) j = corr D (fun i => Y i t) j := fun j t => congrFun (congrArg WithLp.ofLp (hc j)) t
  have hL : ∀ j, (probMT D' Y' pen).L j = (probMT D Y pen).L j := by
    intro j
    show stepsOf D' .quadratic j = stepsOf D .quadratic j
    rw [quadStep_gram D' hD', quadStep_gram D hD, hg]
  have hG : ∀ W, (probMT D' Y' pen).G W = (probMT D Y pen).G W := by
    intro W
    funext j
    ext t
    show quadGrad D'.matrix (fun i => Y' i t) (fit D'.matrix fun j => (W j).ofLp t) j =
      quadGrad D.matrix (fun i => Y i t) (fit D.matrix fun j => (W j).ofLp t) j
    rw [quadGrad_gram, quadGrad_gram, hct]
    simp only [hg]
  have hone : ∀ W : Fin p → Euc T, (fun j => (1 : ℝ) • W j) = W := fun W => funext fun j => one_smul _ _
  refine ⟨RProb.EMap.ofPx one_pos (fun _ x => by rw [one_smul]) (fun j => by rw [hL]) (fun W j _ => ?_) (fun W j => ?_)
    (XR.scale_ninf one_pos).symm, one_ne_zero, one_pos, fun x c => by rw [one_smul, one_mul],
    ∑ t, ((∑ i, Y' i t ^ 2) / (2 * n') - (∑ i, Y i t ^ 2) / (2 * n)), fun W => ?_⟩
  · rw [hone, hG, hL]
    simp only [one_smul]
    rfl
  · rw [hone, hG, one_smul, one_mul]
    rfl
  · show mtLoss Y' (fitMT D'.matrix fun j => ((1 : ℝ) • W j).ofLp) + ∑ j, pen.fn ((1 : ℝ) • W j) =
      1 * (mtLoss Y (fitMT D.matrix fun j => (W j).ofLp) + ∑ j, pen.fn (W j)) + _
    simp only [one_smul, one_mul]
    rw [mtLoss_tasks, mtLoss_tasks]
    have : ∀ t, quadLoss (fun i => Y' i t) (fun i => fitMT D'.matrix (fun j => (W j).ofLp) i t) =
        quadLoss (fun i => Y i t) (fun i => fitMT D.matrix (fun j => (W j).ofLp) i t) +
          ((∑ i, Y' i t ^ 2) / (2 * n') - (∑ i, Y i t ^ 2) / (2 * n)) := by
      intro t
      show quadLoss (fun i => Y' i t) (fit D'.matrix fun j => (W j).ofLp t) =
        quadLoss (fun i => Y i t) (fit D.matrix fun j => (W j).ofLp t) + _
      rw [quadLoss_gram hn', quadLoss_gram hn]
      simp only [hg, hct]
      ring
    simp only [this, Finset.sum_add_distrib]
    ring

theorem softR_mul {c : ℝ} (hc : 0 < c) (v t : ℝ) : softR (c * v) (c * t) = c * softR v t := softR_scale hc v t

/-- A ridge on the Gram matrix, and no `l2` penalty: the Lasso in place of the elastic net. -/
theorem prob1_ridge (hn : 0 < n) (hn' : 0 < n') {D : Design n p} {D' : Design n' p} (hD : D.Canonical) (hD' : D'.Canonical)
    {y : Fin n → ℝ} {y' : Fin n' → ℝ} {β α ρ : ℝ} (hβ : 0 < β) (hα : 0 ≤ α) (hρ1 : ρ ≤ 1)
    (hg : ∀ j k, gramMat D' j k = β * (gramMat D j k + if j = k then α * (1 - ρ) else 0))
    (hc : ∀ j, corr D' y' j = β * corr D y j) (hnz : ∀ j, gramMat D j j ≠ 0) :
    RProb.Scaling (prob1 D y .quadratic (.enet α ρ)) (prob1 D' y' .quadratic (.l1 (β * (α * ρ)))) 1 β β := by
  have hδ : 0 ≤ α * (1 - ρ) := mul_nonneg hα (by linarith)
  obtain ⟨δ, hδe⟩ : ∃ δ, δ = α * (1 - ρ) := ⟨_, rfl⟩
  rw [← hδe] at hg hδ
  have hpos : ∀ j, 0 < gramMat D j j := fun j => by
    refine lt_of_le_of_ne ?_ (Ne.symm (hnz j))
    rw [← quadStep_gram D hD]
    exact stepsOf_nonneg D .quadratic j
  have hL : ∀ j, (prob1 D y .quadratic (.enet α ρ)).L j = gramMat D j j := quadStep_gram D hD
  have hL' : ∀ j, (prob1 D' y' .quadratic (.l1 (β * (α * ρ)))).L j = β * (gramMat D j j + δ) := by
    intro j
    show stepsOf D' .quadratic j = _
    rw [quadStep_gram D' hD', hg, if_pos rfl]
  have hsum : ∀ (w : Fin p → ℝ) j, ∑ k, gramMat D' j k * w k = β * (∑ k, gramMat D j k * w k + δ * w j) := by
    intro w j
    have : ∀ k, gramMat D' j k * w k = β * (gramMat D j k * w k + if j = k then δ * w k else 0) := by
      intro k
      rw [hg]
      split <;> ring
    simp only [this]
    rw [← Finset.mul_sum, Finset.sum_add_distrib, Finset.sum_ite_eq]
    simp
  have hone : ∀ w : Fin p → ℝ, (fun j => (1 : ℝ) • w j) = w := fun w => funext fun j => one_mul _
  have hG : ∀ w j, (prob1 D' y' .quadratic (.l1 (β * (α * ρ)))).G w j =
      β * ((prob1 D y .quadratic (.enet α ρ)).G w j + δ * w j) := by
    intro w j
    show quadGrad D'.matrix y' (fit D'.matrix w) j = β * (quadGrad D.matrix y (fit D.matrix w) j + δ * w j)
    rw [quadGrad_gram, quadGrad_gram, hc, hsum]
    ring
  refine ⟨RProb.EMap.ofPx hβ (fun _ x => by rw [one_smul]) (fun j => ?_) (fun w j h0 => ?_) (fun w j => ?_)
    (XR.scale_ninf hβ).symm, one_ne_zero,
    hβ, fun x c => by rw [one_smul, one_mul], (∑ i, y' i ^ 2) / (2 * n') - β * ((∑ i, y i ^ 2) / (2 * n)), fun w => ?_⟩
  · rw [hL, hL', mul_eq_zero, or_iff_right hβ.ne']
    have := hpos j
    constructor <;> intro h <;> linarith
  · rw [hone, hG, hL', hL]
    obtain ⟨g, hgg⟩ : ∃ g, g = (prob1 D y .quadratic (.enet α ρ)).G w j := ⟨_, rfl⟩
    rw [← hgg]
    have hl := hpos j
    obtain ⟨l, hle⟩ : ∃ l, l = gramMat D j j := ⟨_, rfl⟩
    rw [← hle] at hl ⊢
    show softR (1 * w j - 1 / (β * (l + δ)) * (β * (g + δ * w j))) (β * (α * ρ) * (1 / (β * (l + δ)))) =
      1 * enetProxR α ρ (w j - 1 / l * g) (1 / l)
    unfold enetProxR
    have hld : l + δ ≠ 0 := by linarith
    have e1 : (1 : ℝ) * w j - 1 / (β * (l + δ)) * (β * (g + δ * w j)) = l / (l + δ) * (w j - 1 / l * g) := by
      field_simp
      ring
    have e2 : β * (α * ρ) * (1 / (β * (l + δ))) = l / (l + δ) * (ρ * α * (1 / l)) := by
      field_simp
    rw [e1, e2, softR_mul (div_pos hl (by linarith)), one_mul,
      show 1 / l * (1 - ρ) * α = δ / l by rw [hδe]; ring]
    field_simp
  · rw [hone, hG]
    show l1Score (β * (α * ρ)) ((1 : ℝ) * w j) (β * (_ + δ * w j)) = β * enetScore α ρ (w j) _
    rw [one_mul]
    unfold l1Score enetScore
    split
    · rename_i h
      rw [← max_scale hβ, h, mul_zero, add_zero, abs_scale hβ, mul_sub]
    · rw [← abs_scale hβ]
      congr 1
      rw [hδe]
      ring
  · show quadLoss y' (fit D'.matrix fun j => (1 : ℝ) * w j) + ∑ j, β * (α * ρ) * |1 * w j| =
      β * (quadLoss y (fit D.matrix w) + ∑ j, enet α ρ (w j)) + _
    simp only [one_mul]
    have e : ∑ j, enet α ρ (w j) = ∑ j, α * ρ * |w j| + ∑ j, w j * (δ * w j) / 2 := by
      rw [← Finset.sum_add_distrib]
      refine Finset.sum_congr rfl fun j _ => ?_
      show α * (ρ * ‖w j‖ + (1 - ρ) * ‖w j‖ ^ 2 / 2) = _
      rw [Real.norm_eq_abs, sq_abs, hδe]
      ring
    have e3 : ∑ j, β * (α * ρ) * |w j| = β * ∑ j, α * ρ * |w j| := by
      rw [Finset.mul_sum]
      exact Finset.sum_congr rfl fun j _ => by ring
    rw [e, e3, quadLoss_gram hn', quadLoss_gram hn]
    simp only [hsum, hc]
    have e1 : ∑ j, w j * (β * (∑ k, gramMat D j k * w k + δ * w j)) =
        β * ∑ j, w j * ∑ k, gramMat D j k * w k + 2 * (β * ∑ j, w j * (δ * w j) / 2) := by
      rw [Finset.mul_sum, Finset.mul_sum, Finset.mul_sum, ← Finset.sum_add_distrib]
      exact Finset.sum_congr rfl fun j _ => by ring
    have e2 : ∑ j, w j * (β * corr D y j) = β * ∑ j, w j * corr D y j := by
      rw [Finset.mul_sum]
      exact Finset.sum_congr rfl fun j _ => by ring
    rw [e1, e2]
    ring

end Sglm
