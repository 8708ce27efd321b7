import Verif.Spec.Probabilities
import Verif.Props.Stability
import Verif.Props.Bounds
import Verif.Props.Path
import Verif.Props.Selection

/-!
# Lemmas on logistic regression

`sample_major`, `sample_coco`: the loss of one sample is convex with a derivative of Lipschitz constant 1/4.  `cert_slope`: from a
certificate of approximate optimality to the slopes; `cert_slopes`: two certificates.
-/

namespace Sglm
open Scalar Spec
variable {n p : ℕ}

theorem slope_sigm (y u : ℝ) : -(y * sigm (-y * u)) = LossKind.logistic.slope y u := by
  show _ = -y / (1 + Real.exp (y * u))
  unfold sigm
  rw [show -(-y * u) = y * u by ring]
  ring

theorem slope_lip (y : ℝ) (hy : |y| ≤ 1) (u u' : ℝ) :
    |LossKind.logistic.slope y u - LossKind.logistic.slope y u'| ≤ 1 / 4 * |u - u'| := by
  rw [← slope_sigm, ← slope_sigm, show -(y * sigm (-y * u)) - -(y * sigm (-y * u')) = -y * (sigm (-y * u) - sigm (-y * u')) by ring,
    abs_mul, abs_neg]
  have h := sigm_lip (-y * u) (-y * u')
  rw [show -y * u - -y * u' = -y * (u - u') by ring, abs_mul, abs_neg] at h
  have h1 := mul_le_mul_of_nonneg_left h (abs_nonneg y)
  have h2 : |y| * |y| ≤ 1 := by nlinarith [abs_nonneg y]
  have h3 := mul_le_mul_of_nonneg_right h2 (abs_nonneg (u - u'))
  linarith

theorem sample_major (y : ℝ) (hy : |y| ≤ 1) (u u' : ℝ) :
    LossKind.logistic.sample y u' ≤ LossKind.logistic.sample y u + LossKind.logistic.slope y u * (u' - u) + (u' - u) ^ 2 / 8 := by
  have h := descent_lemma (a := u) (L := 1 / 4) (fun t => by
    have := hasDerivAt_logistic y t
    rw [slope_sigm] at this
    exact this) (fun t => slope_lip y hy t u) u'
  have e : 1 / 4 * (u' - u) ^ 2 / 2 = (u' - u) ^ 2 / 8 := by ring
  rw [e] at h
  exact h

theorem sample_coco (y : ℝ) (hy : |y| ≤ 1) (u u' : ℝ) :
    LossKind.logistic.sample y u + LossKind.logistic.slope y u * (u' - u) +
      2 * (LossKind.logistic.slope y u - LossKind.logistic.slope y u') ^ 2 ≤ LossKind.logistic.sample y u' := by
  have h1 := sample_convex .logistic y u (u' - 4 * (LossKind.logistic.slope y u' - LossKind.logistic.slope y u))
  have h2 := sample_major y hy u' (u' - 4 * (LossKind.logistic.slope y u' - LossKind.logistic.slope y u))
  nlinarith

/-- The linear part of the loss. -/
noncomputable def linPart (D : Design n p) (y : Fin n → ℝ) (v w : Fin p → ℝ) : ℝ :=
  (∑ i, LossKind.logistic.slope (y i) (fit D.matrix v i) * (fit D.matrix w i - fit D.matrix v i)) / n

theorem fit_seg (X : Fin n → Fin p → ℝ) (v w : Fin p → ℝ) (t : ℝ) (i : Fin n) :
    fit X (fun j => v j + t • (w j - v j)) i - fit X v i = t * (fit X w i - fit X v i) := by
  unfold fit
  rw [← Finset.sum_sub_distrib, ← Finset.sum_sub_distrib, Finset.mul_sum]
  refine Finset.sum_congr rfl fun j _ => ?_
  dsimp only
  rw [smul_eq_mul]; ring

/-- From a certificate to slopes. -/
theorem cert_slope (hn : 0 < n) {D : Design n p} {y : Fin n → ℝ} (hy : ∀ i, |y i| ≤ 1) {pen : Pen} (hv : pen.Valid) (hc : pen.Convex)
    {τ : ℝ} {v : Fin p → ℝ} (h : ∀ u, objective1 D y .logistic pen v - objective1 D y .logistic pen u ≤ τ * ∑ j, |v j - u j|)
    (w : Fin p → ℝ) : ∑ j, pen.fn (v j) - ∑ j, pen.fn (w j) ≤ linPart D y v w + τ * ∑ j, |v j - w j| := by
  have hn' : (0 : ℝ) < n := by exact_mod_cast hn
  obtain ⟨Q, hQ⟩ : ∃ Q, Q = (∑ i, (fit D.matrix w i - fit D.matrix v i) ^ 2) / (8 * n) := ⟨_, rfl⟩
  have hQ0 : 0 ≤ Q := by rw [hQ]; positivity
  have key : ∀ t : ℝ, 0 < t → t ≤ 1 →
      ∑ j, pen.fn (v j) - ∑ j, pen.fn (w j) ≤ linPart D y v w + τ * ∑ j, |v j - w j| + t * Q := by
    intro t t0 t1
    have h1 := h (fun j => v j + t • (w j - v j))
    have h2 : LossKind.logistic.loss y (fit D.matrix fun j => v j + t • (w j - v j)) ≤
        LossKind.logistic.loss y (fit D.matrix v) + t * linPart D y v w + t ^ 2 * Q := by
      rw [sample_loss, sample_loss, hQ]
      unfold linPart
      have e : (∑ i, LossKind.logistic.sample (y i) (fit D.matrix v i)) / n +
          t * ((∑ i, LossKind.logistic.slope (y i) (fit D.matrix v i) * (fit D.matrix w i - fit D.matrix v i)) / n) +
          t ^ 2 * ((∑ i, (fit D.matrix w i - fit D.matrix v i) ^ 2) / (8 * n)) =
          (∑ i, (LossKind.logistic.sample (y i) (fit D.matrix v i) +
            LossKind.logistic.slope (y i) (fit D.matrix v i) * (t * (fit D.matrix w i - fit D.matrix v i)) +
            (t * (fit D.matrix w i - fit D.matrix v i)) ^ 2 / 8)) / n := by
        have e1 : ∀ i, LossKind.logistic.slope (y i) (fit D.matrix v i) * (t * (fit D.matrix w i - fit D.matrix v i)) =
          t * (LossKind.logistic.slope (y i) (fit D.matrix v i) * (fit D.matrix w i - fit D.matrix v i)) := fun i => by ring
        have e2 : ∀ i, (t * (fit D.matrix w i - fit D.matrix v i)) ^ 2 / 8 = t ^ 2 / 8 * (fit D.matrix w i - fit D.matrix v i) ^ 2 :=
          fun i => by ring
        simp only [e1, e2, Finset.sum_add_distrib, ← Finset.mul_sum]
        field_simp
      rw [e]
      refine div_le_div_of_nonneg_right (Finset.sum_le_sum fun i _ => ?_) hn'.le
      have := sample_major (y i) (hy i) (fit D.matrix v i) (fit D.matrix (fun j => v j + t • (w j - v j)) i)
      rwa [fit_seg] at this
    have h3 : ∑ j, pen.fn (v j + t • (w j - v j)) ≤ (1 - t) * ∑ j, pen.fn (v j) + t * ∑ j, pen.fn (w j) := by
      rw [Finset.mul_sum, Finset.mul_sum, ← Finset.sum_add_distrib]
      refine Finset.sum_le_sum fun j _ => (pen_line pen hv hc (v j) (w j) t t0.le t1).trans ?_
      have h0 : 0 ≤ pen.modulus := by
        cases pen with
        | enet α ρ => exact mul_nonneg hv.1 (sub_nonneg.mpr hv.2.2)
        | l1 α => exact le_rfl
        | mcp α γ => exact hc.elim
        | l05 α => exact hc.elim
      have := mul_nonneg (mul_nonneg (half_pos one_pos).le h0) (mul_nonneg (mul_nonneg t0.le (sub_nonneg.mpr t1)) (sq_nonneg ‖v j - w j‖))
      nlinarith
    have h4 : ∑ j, |v j - (v j + t • (w j - v j))| = t * ∑ j, |v j - w j| := by
      rw [Finset.mul_sum]
      refine Finset.sum_congr rfl fun j _ => ?_
      rw [smul_eq_mul, show v j - (v j + t * (w j - v j)) = t * (v j - w j) by ring, abs_mul, abs_of_pos t0]
    rw [h4] at h1
    unfold objective1 at h1
    have h5 : t * (∑ j, pen.fn (v j) - ∑ j, pen.fn (w j)) ≤ t * (linPart D y v w + τ * ∑ j, |v j - w j| + t * Q) := by nlinarith
    exact le_of_mul_le_mul_left h5 t0
  refine le_of_forall_pos_le_add fun ε hε => ?_
  refine (key (min 1 (ε / (Q + 1))) (lt_min one_pos (by positivity)) (min_le_left _ _)).trans ?_
  have h1 : min 1 (ε / (Q + 1)) ≤ ε / (Q + 1) := min_le_right _ _
  have h2 : ε / (Q + 1) * Q ≤ ε := by
    rw [div_mul_eq_mul_div, div_le_iff₀ (by positivity)]
    nlinarith
  have h3 := mul_le_mul_of_nonneg_right h1 hQ0
  linarith

/-- The linear parts of two coefficients. -/
theorem linPart_coco (hn : 0 < n) (D : Design n p) {y : Fin n → ℝ} (hy : ∀ i, |y i| ≤ 1) (v w : Fin p → ℝ) :
    linPart D y v w + linPart D y w v +
      4 * (∑ i, (LossKind.logistic.slope (y i) (fit D.matrix v i) - LossKind.logistic.slope (y i) (fit D.matrix w i)) ^ 2) / n ≤ 0 := by
  have hn' : (0 : ℝ) < n := by exact_mod_cast hn
  unfold linPart
  rw [← add_div, ← add_div, div_nonpos_iff]
  refine Or.inr ⟨?_, hn'.le⟩
  rw [Finset.mul_sum, ← Finset.sum_add_distrib, ← Finset.sum_add_distrib]
  refine Finset.sum_nonpos fun i _ => ?_
  have h1 := sample_coco (y i) (hy i) (fit D.matrix v i) (fit D.matrix w i)
  have h2 := sample_coco (y i) (hy i) (fit D.matrix w i) (fit D.matrix v i)
  nlinarith

/-- Two certificates determine the slopes. -/
theorem cert_slopes (hn : 0 < n) {D : Design n p} {y : Fin n → ℝ} (hy : ∀ i, |y i| ≤ 1) {pen : Pen} (hv : pen.Valid) (hc : pen.Convex)
    {τ σ : ℝ} {v w : Fin p → ℝ}
    (h1 : ∀ u, objective1 D y .logistic pen v - objective1 D y .logistic pen u ≤ τ * ∑ j, |v j - u j|)
    (h2 : ∀ u, objective1 D y .logistic pen w - objective1 D y .logistic pen u ≤ σ * ∑ j, |w j - u j|) :
    ∑ i, (LossKind.logistic.slope (y i) (fit D.matrix v i) - LossKind.logistic.slope (y i) (fit D.matrix w i)) ^ 2 ≤
      n * ((τ + σ) * ∑ j, |v j - w j|) / 4 := by
  have hn' : (0 : ℝ) < n := by exact_mod_cast hn
  have a := cert_slope hn hy hv hc h1 w
  have b := cert_slope hn hy hv hc h2 v
  have c := linPart_coco hn D hy v w
  have g : ∑ j, |w j - v j| = ∑ j, |v j - w j| := Finset.sum_congr rfl fun j _ => abs_sub_comm _ _
  rw [g] at b
  have d : 4 * (∑ i, (LossKind.logistic.slope (y i) (fit D.matrix v i) - LossKind.logistic.slope (y i) (fit D.matrix w i)) ^ 2) / n ≤
      (τ + σ) * ∑ j, |v j - w j| := by linarith
  rw [div_le_iff₀ hn'] at d
  linarith

/-! ## Probabilities -/

theorem slope_probability {y : ℝ} (hy : y = 1 ∨ y = -1) (u : ℝ) :
    LossKind.logistic.slope y u = probability u - (1 + y) / 2 := by
  show -y / (1 + Real.exp (y * u)) = 1 / (1 + Real.exp (-u)) - (1 + y) / 2
  have h1 : (1 : ℝ) + Real.exp u ≠ 0 := by positivity
  have h2 : (1 : ℝ) + Real.exp (-u) ≠ 0 := by positivity
  have h3 : Real.exp u * Real.exp (-u) = 1 := by rw [← Real.exp_add]; simp
  rcases hy with rfl | rfl
  · rw [one_mul, div_eq_iff h1]
    field_simp
    nlinarith
  · norm_num

theorem binary_le {y : Fin n → ℝ} (hy : Binary y) (i : Fin n) : |y i| ≤ 1 := by
  rcases hy i with h | h <;> rw [h] <;> norm_num

theorem slope_sq_probability {y : Fin n → ℝ} (hy : Binary y) (u u' : Fin n → ℝ) :
    ∑ i, (LossKind.logistic.slope (y i) (u i) - LossKind.logistic.slope (y i) (u' i)) ^ 2 =
      ∑ i, (probability (u i) - probability (u' i)) ^ 2 := by
  refine Finset.sum_congr rfl fun i _ => ?_
  rw [slope_probability (hy i), slope_probability (hy i)]
  ring

theorem probability_mono : StrictMono probability := by
  intro a b hab
  unfold probability
  have h : Real.exp (-b) < Real.exp (-a) := Real.exp_lt_exp.mpr (by linarith)
  have h0 := Real.exp_pos (-b)
  exact one_div_lt_one_div_of_lt (by linarith) (by linarith)

theorem probability_zero : probability 0 = 1 / 2 := by unfold probability; norm_num

/-- Sizes, from the objective of the null model. -/
theorem size_log (hn : 0 < n) {D : Design n p} {y : Fin n → ℝ} {pen : Pen} (hc : pen.Convex) {κ ε : ℝ} (hκ0 : 0 < κ)
    (hκ : ∀ z, κ * |z| ≤ pen.fn z) {v : Fin p → ℝ} (h : objective1 D y .logistic pen v ≤ objective1 D y .logistic pen 0 + ε) :
    ∑ j, |v j| ≤ (Real.log 2 + ε) / κ := by
  refine size_of_objective hκ0 hκ (h.trans (le_of_eq ?_))
  rw [show objective1 D y .logistic pen 0 = Real.log 2 from objective1_zero_log hn D y pen (pen_zero_of hc)]

theorem probabilities_min (hn : 0 < n) {D : Design n p} {y : Fin n → ℝ} (hy : Binary y) {pen : Pen} (hv : pen.Valid) (hc : pen.Convex)
    {κ τ ε : ℝ} (hκ0 : 0 < κ) (hκ : ∀ z, κ * |z| ≤ pen.fn z) (hτ : 0 ≤ τ) {v w : Fin p → ℝ}
    (h0 : objective1 D y .logistic pen v ≤ objective1 D y .logistic pen 0 + ε)
    (h1 : ∀ u, objective1 D y .logistic pen v - objective1 D y .logistic pen u ≤ τ * ∑ j, |v j - u j|)
    (hw : ∀ u, objective1 D y .logistic pen w ≤ objective1 D y .logistic pen u) :
    ∑ i, (probability (fit D.matrix v i) - probability (fit D.matrix w i)) ^ 2 ≤ n * τ * (2 * Real.log 2 + ε) / (4 * κ) := by
  have a := size_log hn hc hκ0 hκ h0
  have b := size_log (v := w) (ε := 0) hn hc hκ0 hκ (by rw [add_zero]; exact hw 0)
  have c := cert_slopes (w := w) (σ := 0) hn (binary_le hy) hv hc h1 (fun u => by rw [zero_mul]; linarith [hw u])
  rw [slope_sq_probability hy, add_zero] at c
  refine c.trans ?_
  have d := sum_norm_sub_le v w
  simp only [Real.norm_eq_abs] at d
  have e : ∑ j, |v j - w j| ≤ (2 * Real.log 2 + ε) / κ := by
    refine d.trans ((add_le_add a b).trans (le_of_eq ?_))
    ring
  have f : n * τ * (2 * Real.log 2 + ε) / (4 * κ) = n * (τ * ((2 * Real.log 2 + ε) / κ)) / 4 := by field_simp
  rw [f]
  gcongr

/-! ## Zeros -/

theorem linPart_update (D : Design n p) (y : Fin n → ℝ) (v : Fin p → ℝ) (j : Fin p) :
    linPart D y v (Function.update v j 0) =
      -((∑ i, D.matrix i j * LossKind.logistic.slope (y i) (fit D.matrix v i)) / n) * v j := by
  have e : ∀ i, fit D.matrix (Function.update v j 0) i - fit D.matrix v i = -(D.matrix i j * v j) := by
    intro i
    unfold fit
    rw [← Finset.sum_sub_distrib, Finset.sum_eq_single j]
    · rw [Function.update_self]; ring
    · intro b _ hb; rw [Function.update_of_ne hb]; ring
    · intro h; exact absurd (Finset.mem_univ j) h
  unfold linPart
  rw [neg_mul, div_mul_eq_mul_div, ← neg_div, Finset.sum_mul, ← Finset.sum_neg_distrib]
  congr 1
  refine Finset.sum_congr rfl fun i _ => ?_
  rw [e]; ring

theorem excess_slope (D : Design n p) {y : Fin n → ℝ} (hy : Binary y) (v : Fin p → ℝ) (j : Fin p) :
    (∑ i, D.matrix i j * LossKind.logistic.slope (y i) (fit D.matrix v i)) / n = -excess D y v j := by
  unfold excess
  rw [← neg_div, ← Finset.sum_neg_distrib]
  congr 1
  refine Finset.sum_congr rfl fun i _ => ?_
  rw [slope_probability (hy i)]; ring

/-- A selected feature. -/
theorem selected_excess (hn : 0 < n) {D : Design n p} {y : Fin n → ℝ} (hy : Binary y) {pen : Pen} (hv : pen.Valid) (hc : pen.Convex)
    {τ : ℝ} {v : Fin p → ℝ} (h : ∀ u, objective1 D y .logistic pen v - objective1 D y .logistic pen u ≤ τ * ∑ j, |v j - u j|)
    (j : Fin p) (hj : v j ≠ 0) : pen.slope - τ ≤ |excess D y v j| := by
  have a := cert_slope hn (binary_le hy) hv hc h (Function.update v j 0)
  rw [linPart_update, excess_slope D hy, neg_neg] at a
  have b : ∑ i, pen.fn (v i) - ∑ i, pen.fn (Function.update v j 0 i) = pen.fn (v j) := by
    rw [← Finset.sum_sub_distrib, Finset.sum_eq_single j]
    · rw [Function.update_self, pen_zero_of hc, sub_zero]
    · intro i _ hi; rw [Function.update_of_ne hi, sub_self]
    · intro h; exact absurd (Finset.mem_univ j) h
  have c : ∑ i, |v i - Function.update v j 0 i| = |v j| := by
    rw [Finset.sum_eq_single j]
    · rw [Function.update_self, sub_zero]
    · intro i _ hi; rw [Function.update_of_ne hi, sub_self, abs_zero]
    · intro h; exact absurd (Finset.mem_univ j) h
  rw [b, c] at a
  have d := slope_le hv hc (v j)
  have e : excess D y v j * v j ≤ |excess D y v j| * |v j| := by rw [← abs_mul]; exact le_abs_self _
  have f : (pen.slope - τ) * |v j| ≤ |excess D y v j| * |v j| := by linarith
  exact le_of_mul_le_mul_right f (abs_pos.mpr hj)

theorem excess_near (hn : 0 < n) (D : Design n p) (y : Fin n → ℝ) (v w : Fin p → ℝ) (j : Fin p) {B : ℝ}
    (h : ∑ i, (probability (fit D.matrix v i) - probability (fit D.matrix w i)) ^ 2 ≤ B) :
    |excess D y v j| ≤ |excess D y w j| + Real.sqrt ((∑ i, D.matrix i j ^ 2) * B) / n := by
  have hn' : (0 : ℝ) < n := by exact_mod_cast hn
  have e : excess D y v j - excess D y w j =
      (∑ i, D.matrix i j * (probability (fit D.matrix w i) - probability (fit D.matrix v i))) / n := by
    unfold excess
    rw [← sub_div, ← Finset.sum_sub_distrib]
    congr 1
    refine Finset.sum_congr rfl fun i _ => ?_
    ring
  have b : |excess D y v j - excess D y w j| ≤ Real.sqrt ((∑ i, D.matrix i j ^ 2) * B) / n := by
    rw [e, abs_div, abs_of_pos hn']
    refine div_le_div_of_nonneg_right ?_ hn'.le
    refine (abs_inner_le_len (fun i => D.matrix i j) _).trans ?_
    unfold len
    rw [← Real.sqrt_mul (Finset.sum_nonneg fun _ _ => sq_nonneg _)]
    refine Real.sqrt_le_sqrt (mul_le_mul_of_nonneg_left ?_ (Finset.sum_nonneg fun _ _ => sq_nonneg _))
    refine le_trans (le_of_eq (Finset.sum_congr rfl fun i _ => ?_)) h
    ring
  have := abs_sub_abs_le_abs_sub (excess D y v j) (excess D y w j)
  linarith

end Sglm
