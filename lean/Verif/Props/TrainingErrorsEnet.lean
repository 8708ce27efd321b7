import Verif.Props.TrainingErrors
import Verif.Props.Gap

/-!
# C115: training errors of logistic regression with elastic net
-/

namespace Sglm
open Scalar Spec
variable {n p : ℕ}

theorem margin_eq (hn : 0 < n) (D : Design n p) (y : Fin n → ℝ) (u v : Fin p → ℝ) :
    ∑ i, y i * fit D.matrix u i * sigm (-y i * fit D.matrix v i) = n * ∑ j, u j * -gradOf D.matrix y .logistic (fit D.matrix v) j := by
  have hn' : (0 : ℝ) < n := by exact_mod_cast hn
  have h : ∀ j, n * (u j * -gradOf D.matrix y .logistic (fit D.matrix v) j) =
      ∑ i, u j * (D.matrix i j * (y i * sigm (-y i * fit D.matrix v i))) := fun j => by
    rw [← Finset.mul_sum]
    show (n : ℝ) * (u j * -(-(∑ i, D.matrix i j * (y i * sigm (-y i * fit D.matrix v i))) / n)) = _
    field_simp
  rw [Finset.mul_sum, Finset.sum_congr rfl fun j _ => h j, Finset.sum_comm]
  refine Finset.sum_congr rfl fun i _ => ?_
  have hf : fit D.matrix u i = ∑ j, D.matrix i j * u j := rfl
  rw [hf, Finset.mul_sum, Finset.sum_mul]
  exact Finset.sum_congr rfl fun j _ => by ring

theorem errors_of_margins {D : Design n p} {y : Fin n → ℝ} {u v : Fin p → ℝ} {m B : ℝ} {ξ : Fin n → ℝ} (hm : 0 < m)
    (hsep : SoftMargin D y u m ξ) (h : ∑ i, y i * fit D.matrix u i * sigm (-y i * fit D.matrix v i) ≤ B) :
    ((misclassified D y v).card : ℝ) ≤ 2 * (B + ∑ i, ξ i) / m := by
  have s0 : ∀ x, 0 < sigm x := fun x => by unfold sigm; positivity
  have s1 : ∀ x, sigm x ≤ 1 := fun x => by
    unfold sigm
    rw [div_le_one (by positivity)]
    linarith [Real.exp_pos (-x)]
  have b : m * ∑ i, sigm (-y i * fit D.matrix v i) ≤ ∑ i, y i * fit D.matrix u i * sigm (-y i * fit D.matrix v i) + ∑ i, ξ i := by
    rw [Finset.mul_sum, ← Finset.sum_add_distrib]
    refine Finset.sum_le_sum fun i _ => ?_
    have := hsep i
    nlinarith [s0 (-y i * fit D.matrix v i), s1 (-y i * fit D.matrix v i)]
  have c := misclassified_sum (D := D) (y := y) (v := v)
  rw [le_div_iff₀ hm]
  nlinarith [mul_le_mul_of_nonneg_left c hm.le]

/-- **Training errors with elastic net**: at most `2 (n (α ρ + tol) ‖u‖₁ + n √(2 α (1 - ρ) log 2) ‖u‖₂ + ∑ ξ) / m` training samples are
misclassified, whatever the linear classifier `u` with soft margin `m`. -/
theorem C115_enet {srt : Argsort XR} (hs : ArgsortSpec srt) (hn : 0 < n) (D : Design n p) (hD : D.Canonical) (y : Fin n → ℝ)
    (hy : ∀ i, |y i| ≤ 1) (α ρ : ℝ) (hα : 0 ≤ α) (hρ0 : 0 ≤ ρ) (hρ1 : ρ ≤ 1) (cfg : Solver XR) (τ : ℝ) (ht : cfg.tolerance = XR.fin τ)
    (v : Fin p → ℝ) (h : Stops srt cfg D y .logistic (.enet α ρ) v) (u : Fin p → ℝ) (m : ℝ) (hm : 0 < m) (ξ : Fin n → ℝ)
    (hsep : SoftMargin D y u m ξ) :
    ((misclassified D y v).card : ℝ) ≤
      2 * (n * ((α * ρ + τ) * (∑ j, |u j|) + √(2 * (α * (1 - ρ)) * Real.log 2) * √(∑ j, u j ^ 2)) + ∑ i, ξ i) / m := by
  have hn' : (0 : ℝ) < n := by exact_mod_cast hn
  have hv : (Pen.enet α ρ).Valid := ⟨hα, hρ0, hρ1⟩
  have hM : 0 ≤ α * (1 - ρ) := mul_nonneg hα (by linarith)
  refine errors_of_margins hm hsep ?_
  rw [margin_eq hn]
  refine mul_le_mul_of_nonneg_left ?_ hn'.le
  have a : ∀ j, |-gradOf D.matrix y .logistic (fit D.matrix v) j - α * (1 - ρ) * v j| ≤ α * ρ + τ := fun j =>
    (corr_of_score hv trivial (stops_scores hs hn hv ht h j)).1
  have b : ∑ j, u j * -gradOf D.matrix y .logistic (fit D.matrix v) j =
      ∑ j, u j * (-gradOf D.matrix y .logistic (fit D.matrix v) j - α * (1 - ρ) * v j) + ∑ j, u j * (α * (1 - ρ) * v j) := by
    rw [← Finset.sum_add_distrib]
    exact Finset.sum_congr rfl fun j _ => by ring
  rw [b]
  refine add_le_add ?_ ?_
  · rw [Finset.mul_sum]
    refine Finset.sum_le_sum fun j _ => (le_abs_self _).trans ?_
    rw [abs_mul, mul_comm]
    exact mul_le_mul_of_nonneg_right (a j) (abs_nonneg _)
  · have c := C93_log_loss hs hn D hD y hy (.enet α ρ) hv trivial cfg v h.1
    have l0 := logLoss_nonneg y (fit D.matrix v)
    have d : α * (1 - ρ) * (∑ j, v j ^ 2) / 2 ≤ ∑ j, (Pen.enet α ρ).fn (v j) := by
      rw [Finset.mul_sum, Finset.sum_div]
      refine Finset.sum_le_sum fun j _ => ?_
      show _ ≤ α * (ρ * ‖v j‖ + (1 - ρ) * ‖v j‖ ^ 2 / 2)
      rw [Real.norm_eq_abs, sq_abs]
      have := mul_nonneg hα (mul_nonneg hρ0 (abs_nonneg (v j)))
      linarith
    have e : ∑ j, (α * (1 - ρ) * v j) ^ 2 ≤ 2 * (α * (1 - ρ)) * Real.log 2 := by
      rw [Finset.sum_congr rfl fun j _ => mul_pow (α * (1 - ρ)) (v j) 2, ← Finset.mul_sum]
      have : α * (1 - ρ) * (∑ j, v j ^ 2) ≤ 2 * Real.log 2 := by linarith
      have := mul_le_mul_of_nonneg_left this hM
      linarith
    refine (Real.sum_mul_le_sqrt_mul_sqrt _ _ _).trans ?_
    rw [mul_comm]
    exact mul_le_mul_of_nonneg_right (Real.sqrt_le_sqrt e) (Real.sqrt_nonneg _)

/-! ## Example -/

-- with a weak penalty, at most two of the three samples are misclassified
example : ∃ (N : ℕ) (v : Fin 1 → ℝ), Stops argsortIns ⟨1, N, 50, XR.fin (1 / 1000), 5, false, true⟩ errD ![1, -1, -1] .logistic
    (.enet (1 / 1000) (1 / 2)) v ∧ (misclassified errD ![1, -1, -1] v).card ≤ 2 := by
  have hy : ∀ i, |(![1, -1, -1] : Fin 3 → ℝ) i| ≤ 1 := fun i => by fin_cases i <;> norm_num
  obtain ⟨N, h⟩ := stops_exists (n := 3) (by norm_num) errD trivial ![1, -1, -1] .logistic hy
    (.enet (1 / 1000) (1 / 2)) (by norm_num [Pen.Valid]) trivial (by norm_num [Pen.fn, enet]) (1 / 1000) (by norm_num)
  obtain ⟨v, hv⟩ := h 1 one_pos
  refine ⟨N, v, hv, ?_⟩
  have a := C115_enet argsortIns_spec (by norm_num) errD trivial ![1, -1, -1] hy (1 / 1000) (1 / 2) (by norm_num) (by norm_num) (by norm_num)
    _ (1 / 1000) rfl v hv ![1] 2 two_pos ![0, 0, 21 / 10] errD_margin
  have q : √(2 * (1 / 1000 * (1 - 1 / 2)) * Real.log 2) ≤ 3 / 100 := by
    rw [Real.sqrt_le_left (by norm_num)]
    have := Real.log_two_lt_d9
    norm_num
    linarith
  have u1 : ∑ j, |(![1] : Fin 1 → ℝ) j| = 1 := by rw [Fin.sum_univ_one]; norm_num
  have u2 : √(∑ j, (![1] : Fin 1 → ℝ) j ^ 2) = 1 := by rw [Fin.sum_univ_one]; norm_num
  have x : ∑ i, (![0, 0, 21 / 10] : Fin 3 → ℝ) i = 21 / 10 := by
    have e2 : (![0, 0, 21 / 10] : Fin 3 → ℝ) 2 = 21 / 10 := rfl
    rw [Fin.sum_univ_three, e2]
    norm_num
  have e : 2 * (((3 : ℕ) : ℝ) * ((1 / 1000 * (1 / 2) + 1 / 1000) * (∑ j, |(![1] : Fin 1 → ℝ) j|) +
      √(2 * (1 / 1000 * (1 - 1 / 2)) * Real.log 2) * √(∑ j, (![1] : Fin 1 → ℝ) j ^ 2)) + ∑ i, (![0, 0, 21 / 10] : Fin 3 → ℝ) i) / 2 < 3 := by
    rw [u1, u2, x]
    push_cast
    linarith
  have f : ((misclassified errD ![1, -1, -1] v).card : ℝ) < (3 : ℕ) := by push_cast; exact lt_of_le_of_lt a e
  have g : (misclassified errD ![1, -1, -1] v).card < 3 := by exact_mod_cast f
  omega

end Sglm
