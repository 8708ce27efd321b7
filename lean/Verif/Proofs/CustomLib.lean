import Verif.Proofs.CustomHuber

/-!
# The datafits and penalties of the library meet the contracts for user-supplied ones
-/

namespace Sglm
open Scalar Spec
variable {n p : ℕ}

theorem quadLoss_eq (y : Fin n → ℝ) : quadLoss y = fun u => ∑ i, (y i - u i) ^ 2 / (2 * n) := by
  funext u
  unfold quadLoss
  rw [Finset.sum_div]

theorem logLoss_eq (y : Fin n → ℝ) : logLoss y = fun u => ∑ i, Real.log (1 + Real.exp (-(y i * u i))) / n := by
  funext u
  unfold logLoss
  rw [Finset.sum_div]

theorem quad_deriv (y : Fin n → ℝ) (i : Fin n) (s : ℝ) :
    HasDerivAt (fun s => (y i - s) ^ 2 / (2 * (n : ℝ))) ((s - y i) / n) s := by
  have h : HasDerivAt (fun s => (y i - s) ^ 2) (2 * (y i - s) * -1) s := by
    have := ((hasDerivAt_id' s).const_sub (y i)).fun_pow 2
    simpa using this
  refine (h.div_const (2 * (n : ℝ))).congr_deriv ?_
  rcases eq_or_ne (n : ℝ) 0 with h0 | h0
  · rw [h0]; simp
  · field_simp; ring

theorem log_deriv (y : Fin n → ℝ) (i : Fin n) (s : ℝ) :
    HasDerivAt (fun s => Real.log (1 + Real.exp (-(y i * s))) / (n : ℝ)) (-(y i * sigm (-y i * s)) / n) s :=
  (hasDerivAt_logistic (y i) s).div_const _

theorem sigm_mono : Monotone sigm := by
  refine monotone_of_deriv_nonneg (fun x => (hasDerivAt_sigm x).differentiableAt) fun x => ?_
  rw [(hasDerivAt_sigm x).deriv]
  have h1 := sigm_pos x
  have h2 : sigm x ≤ 1 := by
    unfold sigm
    rw [div_le_one (by positivity)]
    linarith [Real.exp_pos (-x)]
  exact mul_nonneg h1.le (by linarith)

theorem log_slope_mono (c : ℝ) : Monotone fun s => -(c * sigm (-c * s)) := fun s t h => by
  rcases le_total 0 c with hc | hc
  · have := mul_le_mul_of_nonneg_left (sigm_mono (show -c * t ≤ -c * s by nlinarith)) hc
    exact neg_le_neg this
  · have := mul_le_mul_of_nonpos_left (sigm_mono (show -c * s ≤ -c * t by nlinarith)) hc
    exact neg_le_neg this

theorem library_lossOK (D : Design n p) (y : Fin n → ℝ) (k : LossKind) (hy : k.LabelsOK y) :
    LossOK (k.loss y) D.matrix (lipschitz D k) := by
  have hn : (0 : ℝ) ≤ n := Nat.cast_nonneg n
  cases k with
  | quadratic =>
    show LossOK (quadLoss y) _ _
    rw [quadLoss_eq]
    refine separable_loss D.matrix (ℓ := fun i s => (y i - s) ^ 2 / (2 * n)) (κ := fun _ => 1 / (n : ℝ)) (quad_deriv y)
      (fun i a b h => div_le_div_of_nonneg_right (by linarith) hn) (fun i s => by positivity) (fun i s t => ?_)
      (fun _ => by positivity) fun j => ?_
    · rw [← sub_div, abs_div, abs_of_nonneg hn, one_div_mul_eq_div]
      refine le_of_eq (congrArg (· / (n : ℝ)) (congrArg _ ?_))
      ring
    · rw [← Finset.mul_sum, one_div_mul_eq_div]
      exact le_rfl
  | logistic =>
    show LossOK (logLoss y) _ _
    rw [logLoss_eq]
    refine separable_loss D.matrix (ℓ := fun i s => Real.log (1 + Real.exp (-(y i * s))) / n) (κ := fun _ => 1 / (4 * (n : ℝ))) (log_deriv y)
      (fun i a b h => div_le_div_of_nonneg_right (log_slope_mono (y i) h) hn)
      (fun i s => div_nonneg (Real.log_nonneg (by linarith [Real.exp_pos (-(y i * s))])) hn) (fun i s t => ?_)
      (fun _ => by positivity) fun j => ?_
    · rw [← sub_div, abs_div, abs_of_nonneg hn]
      have h1 := sigm_lip (-y i * s) (-y i * t)
      have e : -y i * s - -y i * t = -y i * (s - t) := by ring
      rw [e, abs_mul, abs_neg] at h1
      have e2 : -(y i * sigm (-y i * s)) - -(y i * sigm (-y i * t)) = -(y i) * (sigm (-y i * s) - sigm (-y i * t)) := by ring
      rw [e2, abs_mul, abs_neg]
      have h2 := mul_le_mul_of_nonneg_left h1 (abs_nonneg (y i))
      have h3 : |y i| * (|y i| * |s - t| / 4) ≤ |s - t| / 4 := by
        have h4 := hy i
        have h5 : |y i| * |y i| ≤ 1 := by nlinarith [abs_nonneg (y i)]
        have := mul_le_mul_of_nonneg_right h5 (abs_nonneg (s - t))
        linarith
      rw [show 1 / (4 * (n : ℝ)) * |s - t| = |s - t| / 4 / n by rw [div_div]; ring]
      exact div_le_div_of_nonneg_right (h2.trans h3) hn
    · rw [← Finset.mul_sum, one_div_mul_eq_div]
      exact le_rfl

theorem library_fderiv (X : Fin n → Fin p → ℝ) (y : Fin n → ℝ) (k : LossKind) (u : Fin n → ℝ) (j : Fin p) :
    fderiv ℝ (k.loss y) u (column X j) = gradOf X y k u j := by
  cases k with
  | quadratic =>
    show fderiv ℝ (quadLoss y) u _ = quadGrad X y u j
    rw [quadLoss_eq, sum_fderiv_apply (quad_deriv y)]
    unfold quadGrad
    rw [← Finset.sum_sub_distrib, Finset.sum_div]
    exact Finset.sum_congr rfl fun i _ => by show _ * X i j = _; ring
  | logistic =>
    show fderiv ℝ (logLoss y) u _ = logGrad X y u j
    rw [logLoss_eq, sum_fderiv_apply (log_deriv y)]
    unfold logGrad
    rw [← Finset.sum_neg_distrib, Finset.sum_div]
    exact Finset.sum_congr rfl fun i _ => by show _ * X i j = _; ring

theorem datafitOK_of {DM DF : Type} [DesignMatrix XR DM] [Datafit XR DM DF] {ds : Dataset DM XR} {df : DF} {X : Fin n → Fin p → ℝ}
    {f : (Fin n → ℝ) → ℝ} {g : (Fin n → ℝ) → Fin p → ℝ} {L : Fin p → ℝ} (h : DSem ds df X f g L)
    (hg : ∀ u j, fderiv ℝ f u (column X j) = g u j) (df0 : DF) : DatafitOK ds df0 f X L :=
  ⟨h.nSamples, df, h.init df0, h.value, fun u j => by rw [hg]; exact h.grad u j, fun u => by
    rw [show (fun j => fderiv ℝ f u (column X j)) = g u from funext (hg u)]; exact h.fullGrad u, h.step⟩

theorem storageOK_of {DM DF : Type} [DesignMatrix XR DM] [Datafit XR DM DF] {ds : Dataset DM XR} {df : DF} {X : Fin n → Fin p → ℝ}
    {f : (Fin n → ℝ) → ℝ} {g : (Fin n → ℝ) → Fin p → ℝ} {L : Fin p → ℝ} (h : DSem ds df X f g L) : StorageOK ds.designMatrix X :=
  ⟨h.nFeatures, h.upd, h.extra⟩

theorem library_regular (pen : Pen) (hv : pen.Valid) (hne : ∀ α, pen ≠ .l05 α) : Regular pen.fn pen.concavity pen.modulus := by
  have conv : pen.Convex → pen.concavity = 0 → Regular pen.fn pen.concavity pen.modulus := fun hc h0 => by
    obtain ⟨a, ha, hb, he⟩ := pen_fn_pen2 pen hv hc
    refine ⟨?_, ?_, ?_, hb, ?_⟩
    · rw [he]; unfold pen2; simp
    · intro z; rw [he]; unfold pen2; positivity
    · refine convexOn_of_weakly ?_
      rw [h0, he]; exact pen2_weak ha hb
    · rw [he]; exact pen2_drop ha hb
  cases pen with
  | l1 α => exact conv trivial rfl
  | enet α ρ => exact conv trivial rfl
  | mcp α γ =>
    refine ⟨?_, mcp_nonneg hv.2, convexOn_of_weakly (mcp_weak hv.1 hv.2), le_rfl, mcp_drop hv.1 hv.2⟩
    show mcp α γ (0 : ℝ) = 0
    unfold mcp
    simp [mul_nonneg hv.2.le hv.1]
  | l05 α => exact absurd rfl (hne α)

end Sglm
