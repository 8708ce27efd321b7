import Verif.Spec.Stability
import Verif.Props.Linear
import Verif.Props.Orthogonal
import Verif.Props.Concave
import Verif.Props.Predictions

/-!
# Two fits of two data sets
-/

namespace Sglm
open Scalar Spec
variable {n p T : ℕ} {E : Type*} [NormedAddCommGroup E] [InnerProductSpace ℝ E]

theorem len_nonneg {m : ℕ} (z : Fin m → ℝ) : 0 ≤ len z := Real.sqrt_nonneg _

theorem len_sq {m : ℕ} (z : Fin m → ℝ) : len z ^ 2 = ∑ i, z i ^ 2 := Real.sq_sqrt (Finset.sum_nonneg fun _ _ => sq_nonneg _)

theorem inner_le_len {m : ℕ} (a b : Fin m → ℝ) : ∑ i, a i * b i ≤ len a * len b := Real.sum_mul_le_sqrt_mul_sqrt _ _ _

theorem abs_inner_le_len {m : ℕ} (a b : Fin m → ℝ) : |∑ i, a i * b i| ≤ len a * len b := by
  refine abs_le.mpr ⟨?_, inner_le_len a b⟩
  have h := inner_le_len (fun i => -a i) b
  have e : len (fun i => -a i) = len a := by unfold len; simp only [neg_sq]
  rw [e] at h
  simp only [neg_mul, Finset.sum_neg_distrib] at h
  linarith

theorem sum_abs_le_len {m : ℕ} (z : Fin m → ℝ) : ∑ i, |z i| ≤ Real.sqrt m * len z := by
  have h := sum_sq_le (fun i => |z i|)
  simp only [sq_abs] at h
  unfold len
  rw [← Real.sqrt_mul (Nat.cast_nonneg m)]
  exact Real.le_sqrt_of_sq_le h

theorem len_abs (d : Fin p → ℝ) : len (fun j => ‖d j‖) = len d := by
  unfold len; simp only [Real.norm_eq_abs, sq_abs]

omit [InnerProductSpace ℝ E] in
/-- From the two gaps to the distance of the coefficients. -/
theorem stability_core {v w : Fin p → E} {σ τ τ' a b a' b' g : ℝ} (hσ : 0 < σ) (hτ : 0 ≤ τ + τ') (hg0 : 0 ≤ g)
    (h1 : a - b + σ / 2 * ∑ j, ‖v j - w j‖ ^ 2 ≤ τ * ∑ j, ‖v j - w j‖)
    (h2 : a' - b' + σ / 2 * ∑ j, ‖v j - w j‖ ^ 2 ≤ τ' * ∑ j, ‖v j - w j‖)
    (hg : b - a + (b' - a') ≤ g * len (fun j => ‖v j - w j‖)) :
    len (fun j => ‖v j - w j‖) ≤ (g + Real.sqrt p * (τ + τ')) / σ := by
  obtain ⟨r, hr⟩ : ∃ r, r = len (fun j => ‖v j - w j‖) := ⟨_, rfl⟩
  have h3 := sum_abs_le_len (fun j => ‖v j - w j‖)
  have h4 := len_sq (fun j => ‖v j - w j‖)
  have h0 := len_nonneg (fun j => ‖v j - w j‖)
  simp only [abs_norm] at h3
  rw [← hr] at h3 h4 h0 hg ⊢
  rw [← h4] at h1 h2
  have h5 := mul_le_mul_of_nonneg_left h3 hτ
  have h6 : 0 ≤ Real.sqrt p * (τ + τ') := mul_nonneg (Real.sqrt_nonneg _) hτ
  rw [le_div_iff₀ hσ]
  rcases h0.eq_or_lt with h0 | h0
  · rw [← h0, zero_mul]; linarith
  · have : r * (r * σ) ≤ r * (g + Real.sqrt p * (τ + τ')) := by nlinarith
    exact le_of_mul_le_mul_left this h0

/-- The gap of a finished fit, with the curvature. -/
theorem stops_gap {srt : Argsort XR} (hs : ArgsortSpec srt) (hn : 0 < n) {D : Design n p} {y : Fin n → ℝ} {k : LossKind} {pen : Pen}
    (hv : pen.Valid) (hne : ∀ α, pen ≠ .l05 α) (hk : k = .quadratic ∨ pen.Convex) {c : ℝ} (hcurv : Curvature D k c)
    (hσ : 0 < c + pen.modulus - pen.concavity) {cfg : Solver XR} {τ : ℝ} (ht : cfg.tolerance = XR.fin τ) {v : Fin p → ℝ}
    (h : Stops srt cfg D y k pen v) (u : Fin p → ℝ) :
    objective1 D y k pen v - objective1 D y k pen u + (c + pen.modulus - pen.concavity) / 2 * ∑ j, ‖v j - u j‖ ^ 2 ≤
      τ * ∑ j, ‖v j - u j‖ := by
  have key : ∀ hc : pen.Convex, objective1 D y k pen v - objective1 D y k pen u +
      (c + pen.modulus - pen.concavity) / 2 * ∑ j, ‖v j - u j‖ ^ 2 ≤ τ * ∑ j, ‖v j - u j‖ := fun hc =>
    (strong_all hn D y k pen hv hne hk hcurv).gap hσ.le (stops_cert hs hn hv hc ht h).2 u
  cases pen with
  | l1 α => exact key trivial
  | enet α ρ => exact key trivial
  | mcp α γ =>
    rcases hk with rfl | hk
    · have := mcp_gap hn hv.1 hv.2 hcurv (stops_frechet hs hn hv hne ht h) u
      have e : c + (Pen.mcp α γ).modulus - (Pen.mcp α γ).concavity = c - 1 / γ := by
        show c + 0 - 1 / γ = _; ring
      rw [e, sum_norm_sq]
      simpa only [Real.norm_eq_abs] using this
    · exact hk.elim
  | l05 α => exact absurd rfl (hne α)

/-! ## Changed targets -/

theorem lsq_cross (hn : 0 < n) (X : Fin n → Fin p → ℝ) (Y Y' : Fin n → E) (v w : Fin p → E) :
    lsq X Y w - lsq X Y v + (lsq X Y' v - lsq X Y' w) = (∑ i, inner ℝ (Y i - Y' i) (fitG X v i - fitG X w i)) / n := by
  have hn' : (0 : ℝ) < n := by exact_mod_cast hn
  have e : ∑ i, ‖Y i - fitG X w i‖ ^ 2 - ∑ i, ‖Y i - fitG X v i‖ ^ 2 + (∑ i, ‖Y' i - fitG X v i‖ ^ 2 - ∑ i, ‖Y' i - fitG X w i‖ ^ 2) =
      2 * ∑ i, inner ℝ (Y i - Y' i) (fitG X v i - fitG X w i) := by
    rw [Finset.mul_sum, ← Finset.sum_sub_distrib, ← Finset.sum_sub_distrib, ← Finset.sum_add_distrib]
    refine Finset.sum_congr rfl fun i _ => ?_
    rw [norm_sub_sq_real, norm_sub_sq_real, norm_sub_sq_real, norm_sub_sq_real, inner_sub_left, inner_sub_right, inner_sub_right]
    ring
  unfold lsq
  field_simp
  linarith

theorem cross_corr (X : Fin n → Fin p → ℝ) (Z : Fin n → E) (v w : Fin p → E) :
    (∑ i, inner ℝ (Z i) (fitG X v i - fitG X w i)) / n = ∑ j, inner ℝ ((1 / n : ℝ) • ∑ i, X i j • Z i) (v j - w j) := by
  rw [Finset.sum_div]
  have e : ∀ i, inner ℝ (Z i) (fitG X v i - fitG X w i) / n = ∑ j, 1 / (n : ℝ) * (X i j * inner ℝ (Z i) (v j - w j)) := by
    intro i
    unfold fitG
    rw [← Finset.sum_sub_distrib, inner_sum, Finset.sum_div]
    refine Finset.sum_congr rfl fun j _ => ?_
    rw [← smul_sub, inner_smul_right]
    ring
  simp only [e]
  rw [Finset.sum_comm]
  refine Finset.sum_congr rfl fun j _ => ?_
  rw [real_inner_smul_left, sum_inner, Finset.mul_sum]
  exact Finset.sum_congr rfl fun i _ => by rw [real_inner_smul_left]

theorem sum_inner_le (a b : Fin p → E) : ∑ j, inner ℝ (a j) (b j) ≤ len (fun j => ‖a j‖) * len (fun j => ‖b j‖) :=
  (Finset.sum_le_sum fun j _ => real_inner_le_norm (a j) (b j)).trans (inner_le_len (fun j => ‖a j‖) (fun j => ‖b j‖))

/-- Predictions for two targets. -/
theorem lsq_targets (hn : 0 < n) (X : Fin n → Fin p → ℝ) (Y Y' : Fin n → E) {φ : E → ℝ} {τ τ' : ℝ}
    (hφ : ∀ x z : E, ∀ t : ℝ, 0 ≤ t → t ≤ 1 → φ (x + t • (z - x)) ≤ (1 - t) * φ x + t * φ z)
    {v w : Fin p → E} (hv : ∀ u, lsq X Y v + ∑ j, φ (v j) - (lsq X Y u + ∑ j, φ (u j)) ≤ τ * ∑ j, ‖v j - u j‖)
    (hw : ∀ u, lsq X Y' w + ∑ j, φ (w j) - (lsq X Y' u + ∑ j, φ (u j)) ≤ τ' * ∑ j, ‖w j - u j‖) :
    sqFit X (fun j => v j - w j) ≤ ∑ i, ‖Y i - Y' i‖ ^ 2 + 2 * n * ((τ + τ') * ∑ j, ‖v j - w j‖) := by
  have hn' : (0 : ℝ) < n := by exact_mod_cast hn
  have hφ' : ∀ x z : E, ∀ t : ℝ, 0 ≤ t → t ≤ 1 → φ (x + t • (z - x)) ≤ (1 - t) * φ x + t * φ z - 0 / 2 * (t * (1 - t)) * ‖x - z‖ ^ 2 :=
    fun x z t h0 h1 => by rw [zero_div, zero_mul, zero_mul, sub_zero]; exact hφ x z t h0 h1
  have h1 := lsq_gap hn X Y le_rfl hφ' hv w
  have h2 := lsq_gap hn X Y' le_rfl hφ' hw v
  have e1 : ∑ j, ‖w j - v j‖ = ∑ j, ‖v j - w j‖ := Finset.sum_congr rfl fun j _ => norm_sub_rev _ _
  rw [e1, sqFit_sub_comm] at h2
  have h3 := lsq_cross hn X Y Y' v w
  have h4 : ∑ i, inner ℝ (Y i - Y' i) (fitG X v i - fitG X w i) ≤ (∑ i, ‖Y i - Y' i‖ ^ 2 + sqFit X (fun j => v j - w j)) / 2 := by
    unfold sqFit
    rw [← Finset.sum_add_distrib, Finset.sum_div]
    refine Finset.sum_le_sum fun i _ => ?_
    rw [fitG_sub]
    have := real_inner_le_norm (Y i - Y' i) (fitG X v i - fitG X w i)
    nlinarith [sq_nonneg (‖Y i - Y' i‖ - ‖fitG X v i - fitG X w i‖)]
  obtain ⟨Q, hQ⟩ : ∃ Q, Q = sqFit X (fun j => v j - w j) := ⟨_, rfl⟩
  obtain ⟨I, hI⟩ : ∃ I, I = ∑ i, inner ℝ (Y i - Y' i) (fitG X v i - fitG X w i) := ⟨_, rfl⟩
  rw [← hQ] at h1 h2 h4 ⊢
  rw [← hI] at h3 h4
  have e3 : Q / (2 * n) = Q / n / 2 := by field_simp
  rw [e3] at h1 h2
  have h5 : Q / n ≤ (τ + τ') * ∑ j, ‖v j - w j‖ + I / n := by linarith
  rw [div_le_iff₀ hn', add_mul, div_mul_cancel₀ _ hn'.ne'] at h5
  linarith

/-! ## A replaced sample -/

theorem sample_loss (k : LossKind) (y u : Fin n → ℝ) : k.loss y u = (∑ i, k.sample (y i) (u i)) / n := by
  cases k with
  | quadratic =>
    show (∑ i, (y i - u i) ^ 2) / (2 * n) = (∑ i, (y i - u i) ^ 2 / 2) / n
    rw [← Finset.sum_div, div_div]
  | logistic => rfl

theorem sample_convex (k : LossKind) (y u u' : ℝ) : k.sample y u + k.slope y u * (u' - u) ≤ k.sample y u' := by
  cases k with
  | quadratic =>
    show (y - u) ^ 2 / 2 + (u - y) * (u' - u) ≤ (y - u') ^ 2 / 2
    nlinarith [sq_nonneg (u - u')]
  | logistic =>
    have h := logistic_convex y u u'
    have e : -(y * sigm (-y * u)) = -y / (1 + Real.exp (y * u)) := by
      unfold sigm
      rw [show -(-y * u) = y * u by ring]
      ring
    rw [e] at h
    exact h

theorem slope_logistic_le (y u : ℝ) : |LossKind.logistic.slope y u| ≤ |y| := by
  show |-y / (1 + Real.exp (y * u))| ≤ |y|
  have h := Real.exp_pos (y * u)
  rw [abs_div, abs_neg, abs_of_pos (by linarith : 0 < 1 + Real.exp (y * u))]
  exact div_le_self (abs_nonneg _) (by linarith)

theorem sample_logistic_lip (y u u' : ℝ) : |LossKind.logistic.sample y u - LossKind.logistic.sample y u'| ≤ |y| * |u - u'| := by
  have h1 := sample_convex .logistic y u u'
  have h2 := sample_convex .logistic y u' u
  have h3 : |LossKind.logistic.slope y u * (u' - u)| ≤ |y| * |u - u'| := by
    rw [abs_mul, abs_sub_comm u' u]
    exact mul_le_mul_of_nonneg_right (slope_logistic_le y u) (abs_nonneg _)
  have h4 : |LossKind.logistic.slope y u' * (u - u')| ≤ |y| * |u - u'| := by
    rw [abs_mul]
    exact mul_le_mul_of_nonneg_right (slope_logistic_le y u') (abs_nonneg _)
  rw [abs_le] at h3 h4 ⊢
  exact ⟨by linarith [h4.1], by linarith [h3.1]⟩

/-- Only the replaced sample contributes. -/
theorem replaced_cross {i₀ : Fin n} {D D' : Design n p} {y y' : Fin n → ℝ} (hS : SameExcept i₀ D D' y y') (k : LossKind) (v w : Fin p → ℝ) :
    k.loss y (fit D.matrix w) - k.loss y (fit D.matrix v) + (k.loss y' (fit D'.matrix v) - k.loss y' (fit D'.matrix w)) ≤
      (|k.slope (y i₀) (fit D.matrix w i₀)| * len (D.matrix i₀) + |k.slope (y' i₀) (fit D'.matrix v i₀)| * len (D'.matrix i₀)) / n *
        len (fun j => v j - w j) := by
  have e : k.loss y (fit D.matrix w) - k.loss y (fit D.matrix v) + (k.loss y' (fit D'.matrix v) - k.loss y' (fit D'.matrix w)) =
      (k.sample (y i₀) (fit D.matrix w i₀) - k.sample (y i₀) (fit D.matrix v i₀) +
        (k.sample (y' i₀) (fit D'.matrix v i₀) - k.sample (y' i₀) (fit D'.matrix w i₀))) / n := by
    simp only [sample_loss]
    rw [← sub_div, ← sub_div, ← add_div, ← Finset.sum_sub_distrib, ← Finset.sum_sub_distrib, ← Finset.sum_add_distrib]
    congr 1
    refine Finset.sum_eq_single i₀ (fun i _ hi => ?_) (fun h => absurd (Finset.mem_univ _) h)
    obtain ⟨h1, h2⟩ := hS i hi
    have h3 : ∀ u : Fin p → ℝ, fit D'.matrix u i = fit D.matrix u i := fun u => by unfold fit; rw [h2]
    rw [h1, h3, h3]
    ring
  have bound : ∀ (X : Fin n → Fin p → ℝ) (a : ℝ) (v w : Fin p → ℝ), k.sample a (fit X w i₀) - k.sample a (fit X v i₀) ≤
      |k.slope a (fit X w i₀)| * len (X i₀) * len (fun j => v j - w j) := by
    intro X a v w
    have h1 := sample_convex k a (fit X w i₀) (fit X v i₀)
    have h2 : -(k.slope a (fit X w i₀) * (fit X v i₀ - fit X w i₀)) ≤ |k.slope a (fit X w i₀)| * |fit X v i₀ - fit X w i₀| := by
      rw [← abs_mul]; exact neg_le_abs _
    have h3 : |fit X v i₀ - fit X w i₀| ≤ len (X i₀) * len (fun j => v j - w j) := by
      rw [← fit_sub]; exact abs_inner_le_len _ _
    have h4 := mul_le_mul_of_nonneg_left h3 (abs_nonneg (k.slope a (fit X w i₀)))
    linarith
  have h1 := bound D.matrix (y i₀) v w
  have h2 := bound D'.matrix (y' i₀) w v
  have e2 : len (fun j => w j - v j) = len (fun j => v j - w j) := by
    unfold len
    congr 1
    exact Finset.sum_congr rfl fun j _ => by ring
  rw [e2] at h2
  rw [e, div_mul_eq_mul_div]
  exact div_le_div_of_nonneg_right (by linarith) (Nat.cast_nonneg n)

end Sglm
