import Verif.Spec.Calibration
import Verif.Props.TrainingErrors
import Verif.Props.Gap

/-!
# C116: calibration within groups of samples

For a group of samples whose indicator is a feature (an intercept column, a category), the mean of the predictions of a fit agrees with
the mean of the targets (frequency of the class), up to strength plus tolerance.
-/

namespace Sglm
open Scalar Spec
variable {n p T : ℕ}

theorem strength_grad {srt : Argsort XR} (hs : ArgsortSpec srt) (hn : 0 < n) {D : Design n p} {y : Fin n → ℝ} {k : LossKind} {α : ℝ}
    (hα : 0 ≤ α) {pen : Pen} (hpen : HasStrength α pen) {cfg : Solver XR} {τ : ℝ} (ht : cfg.tolerance = XR.fin τ) {v : Fin p → ℝ}
    (h : Stops srt cfg D y k pen v) (j : Fin p) : |gradOf D.matrix y k (fit D.matrix v) j| ≤ α + τ := by
  rcases hpen with rfl | ⟨γ, hγ, rfl⟩
  · exact lasso_grad hn hα (stops_cert (pen := .l1 α) hs hn hα trivial ht h).2 j
  · exact mcp_grad hα hγ (stops_scores (pen := .mcp α γ) hs hn ⟨hα, hγ⟩ ht h j)

/-- Gradient of the logistic loss in terms of predicted probabilities. -/
theorem label_prob {y f : ℝ} (hy : y = 1 ∨ y = -1) : y * sigm (-y * f) = (if y = 1 then 1 else 0) - predictedProb f := by
  have h1 : 0 < 1 + Real.exp (-f) := by positivity
  rcases hy with rfl | rfl
  · rw [if_pos rfl]
    unfold sigm predictedProb
    have h2 : 0 < 1 + Real.exp f := by positivity
    have h3 : Real.exp f * Real.exp (-f) = 1 := by rw [← Real.exp_add, add_neg_cancel, Real.exp_zero]
    rw [neg_one_mul, neg_neg, one_mul, eq_sub_iff_add_eq, div_add_div _ _ h2.ne' h1.ne', div_eq_one_iff_eq (by positivity)]
    linear_combination -h3
  · rw [if_neg (by norm_num)]
    unfold sigm predictedProb
    rw [neg_neg, one_mul]
    ring

theorem prob_of_grad (hn : 0 < n) {D : Design n p} {y : Fin n → ℝ} (hy : ∀ i, y i = 1 ∨ y i = -1) {f : Fin n → ℝ} {j : Fin p} {C : ℝ}
    (h : |gradOf D.matrix y .logistic f j| ≤ C) :
    |∑ i, D.matrix i j * ((if y i = 1 then 1 else 0) - predictedProb (f i))| ≤ n * C := by
  have hn' : (0 : ℝ) < n := by exact_mod_cast hn
  have e : gradOf D.matrix y .logistic f j = -(∑ i, D.matrix i j * ((if y i = 1 then 1 else 0) - predictedProb (f i))) / n := by
    show -(∑ i, D.matrix i j * (y i * sigm (-y i * f i))) / n = _
    rw [Finset.sum_congr rfl fun i _ => by rw [label_prob (hy i)]]
  rw [e, abs_div, abs_neg, abs_of_pos hn', div_le_iff₀ hn'] at h
  linarith

theorem resid_of_grad (hn : 0 < n) {D : Design n p} {y : Fin n → ℝ} {f : Fin n → ℝ} {j : Fin p} {C : ℝ}
    (h : |gradOf D.matrix y .quadratic f j| ≤ C) : |∑ i, D.matrix i j * (y i - f i)| ≤ n * C := by
  have hn' : (0 : ℝ) < n := by exact_mod_cast hn
  have e : gradOf D.matrix y .quadratic f j = -(∑ i, D.matrix i j * (y i - f i)) / n := by
    show (_ - _) / _ = _
    rw [← Finset.sum_sub_distrib, ← Finset.sum_neg_distrib]
    congr 1
    exact Finset.sum_congr rfl fun i _ => by ring
  rw [e, abs_div, abs_neg, abs_of_pos hn', div_le_iff₀ hn'] at h
  linarith

theorem indicator_sum {D : Design n p} {j : Fin p} {G : Finset (Fin n)} (hG : IsIndicator D j G) (r : Fin n → ℝ) :
    ∑ i, D.matrix i j * r i = ∑ i ∈ G, r i := by
  rw [Finset.sum_congr rfl fun i _ => by rw [hG i, ite_mul, one_mul, zero_mul], Finset.sum_ite_mem, Finset.univ_inter]

/-- **Calibration**: in a group `G` of samples whose indicator is a feature, the number of samples of class `1` differs from the sum
of the predicted probabilities by at most `n (α + tol)`. -/
theorem C116_probabilities {srt : Argsort XR} (hs : ArgsortSpec srt) (hn : 0 < n) (D : Design n p) (y : Fin n → ℝ)
    (hy : ∀ i, y i = 1 ∨ y i = -1) (α : ℝ) (hα : 0 ≤ α) (pen : Pen) (hpen : HasStrength α pen) (cfg : Solver XR) (τ : ℝ)
    (ht : cfg.tolerance = XR.fin τ) (v : Fin p → ℝ) (h : Stops srt cfg D y .logistic pen v) (j : Fin p) (G : Finset (Fin n))
    (hG : IsIndicator D j G) :
    |((G.filter fun i => y i = 1).card : ℝ) - ∑ i ∈ G, predictedProb (fit D.matrix v i)| ≤ n * (α + τ) := by
  have a := prob_of_grad hn hy (strength_grad hs hn hα hpen ht h j)
  rw [indicator_sum hG, Finset.sum_sub_distrib, Finset.sum_boole] at a
  exact a

/-- **Mean residuals**: for least squares, the residuals of the group add up to at most `n (α + tol)`. -/
theorem C116_residuals {srt : Argsort XR} (hs : ArgsortSpec srt) (hn : 0 < n) (D : Design n p) (y : Fin n → ℝ)
    (α : ℝ) (hα : 0 ≤ α) (pen : Pen) (hpen : HasStrength α pen) (cfg : Solver XR) (τ : ℝ)
    (ht : cfg.tolerance = XR.fin τ) (v : Fin p → ℝ) (h : Stops srt cfg D y .quadratic pen v) (j : Fin p) (G : Finset (Fin n))
    (hG : IsIndicator D j G) : |∑ i ∈ G, (y i - fit D.matrix v i)| ≤ n * (α + τ) := by
  have a := resid_of_grad hn (strength_grad hs hn hα hpen ht h j)
  rwa [indicator_sum hG] at a

/-- **Elastic net**: the residuals of the group add up to the shrinkage `n α (1 - ρ) wⱼ` by the ridge part, within `n (α ρ + tol)`. -/
theorem C116_enet {srt : Argsort XR} (hs : ArgsortSpec srt) (hn : 0 < n) (D : Design n p) (y : Fin n → ℝ) (α ρ : ℝ) (hα : 0 ≤ α)
    (hρ0 : 0 ≤ ρ) (hρ1 : ρ ≤ 1) (cfg : Solver XR) (τ : ℝ) (ht : cfg.tolerance = XR.fin τ) (v : Fin p → ℝ)
    (h : Stops srt cfg D y .quadratic (.enet α ρ) v) (j : Fin p) (G : Finset (Fin n)) (hG : IsIndicator D j G) :
    |∑ i ∈ G, (y i - fit D.matrix v i) - n * (α * (1 - ρ) * v j)| ≤ n * (α * ρ + τ) := by
  have hn' : (0 : ℝ) < n := by exact_mod_cast hn
  have hv : (Pen.enet α ρ).Valid := ⟨hα, hρ0, hρ1⟩
  have a : |-gradOf D.matrix y .quadratic (fit D.matrix v) j - α * (1 - ρ) * v j| ≤ α * ρ + τ :=
    (corr_of_score hv trivial (stops_scores hs hn hv ht h j)).1
  have e : n * -gradOf D.matrix y .quadratic (fit D.matrix v) j = ∑ i ∈ G, (y i - fit D.matrix v i) := by
    rw [← indicator_sum hG]
    show (n : ℝ) * -((_ - _) / _) = _
    rw [← Finset.sum_sub_distrib, ← neg_div, mul_div_cancel₀ _ hn'.ne', ← Finset.sum_neg_distrib]
    exact Finset.sum_congr rfl fun i _ => by ring
  rw [← e, ← mul_sub, abs_mul, abs_of_pos hn']
  exact mul_le_mul_of_nonneg_left a hn'.le

/-- Logistic regression with elastic net. -/
theorem C116_enet_probabilities {srt : Argsort XR} (hs : ArgsortSpec srt) (hn : 0 < n) (D : Design n p) (y : Fin n → ℝ)
    (hy : ∀ i, y i = 1 ∨ y i = -1) (α ρ : ℝ) (hα : 0 ≤ α) (hρ0 : 0 ≤ ρ) (hρ1 : ρ ≤ 1) (cfg : Solver XR) (τ : ℝ)
    (ht : cfg.tolerance = XR.fin τ) (v : Fin p → ℝ) (h : Stops srt cfg D y .logistic (.enet α ρ) v) (j : Fin p) (G : Finset (Fin n))
    (hG : IsIndicator D j G) :
    |((G.filter fun i => y i = 1).card : ℝ) - ∑ i ∈ G, predictedProb (fit D.matrix v i) - n * (α * (1 - ρ) * v j)| ≤ n * (α * ρ + τ) := by
  have hn' : (0 : ℝ) < n := by exact_mod_cast hn
  have hv : (Pen.enet α ρ).Valid := ⟨hα, hρ0, hρ1⟩
  have a : |-gradOf D.matrix y .logistic (fit D.matrix v) j - α * (1 - ρ) * v j| ≤ α * ρ + τ :=
    (corr_of_score hv trivial (stops_scores hs hn hv ht h j)).1
  have e : n * -gradOf D.matrix y .logistic (fit D.matrix v) j =
      ((G.filter fun i => y i = 1).card : ℝ) - ∑ i ∈ G, predictedProb (fit D.matrix v i) := by
    rw [← Finset.sum_boole, ← Finset.sum_sub_distrib, ← indicator_sum hG]
    show n * -(-(∑ i, D.matrix i j * (y i * sigm (-y i * fit D.matrix v i))) / n) = _
    rw [neg_div, neg_neg, mul_div_cancel₀ _ hn'.ne']
    exact Finset.sum_congr rfl fun i _ => by rw [label_prob (hy i)]
  rw [← e, ← mul_sub, abs_mul, abs_of_pos hn']
  exact mul_le_mul_of_nonneg_left a hn'.le

/-- **Mean residuals, multi-task Lasso**: the sums of the residuals of the group, one per task, have Euclidean norm at most
`n (α + tol)`; in particular each of them is at most that. -/
theorem C116_residuals_mt {srt : Argsort XR} (hs : ArgsortSpec srt) (hn : 0 < n) (D : Design n p) (Y : Fin n → Fin T → ℝ)
    (α : ℝ) (hα : 0 < α) (cfg : Solver XR) (τ : ℝ) (ht : cfg.tolerance = XR.fin τ) (V : Fin p → Euc T)
    (h : StopsMT srt cfg D Y (.l21 α) V) (j : Fin p) (G : Finset (Fin n)) (hG : IsIndicator D j G) :
    √(∑ t, (∑ i ∈ G, (Y i t - fitMT D.matrix (fun j => (V j).ofLp) i t)) ^ 2) ≤ n * (α + τ) ∧
      ∀ t, |∑ i ∈ G, (Y i t - fitMT D.matrix (fun j => (V j).ofLp) i t)| ≤ n * (α + τ) := by
  have hn' : (0 : ℝ) < n := by exact_mod_cast hn
  have hq : ‖residCorrMT D Y V j‖ ≤ α + τ := by
    rw [corrMT_grad]
    exact (corrMT_of_score hα.le (stopsMT_scores hs hn (show (BPen.l21 α).Valid from hα) ht h j)).1
  have e : ∀ t, ∑ i ∈ G, (Y i t - fitMT D.matrix (fun j => (V j).ofLp) i t) = n * residCorrMT D Y V j t := fun t => by
    rw [← indicator_sum hG]
    exact (mul_div_cancel₀ _ hn'.ne').symm
  have e2 : √(∑ t, (∑ i ∈ G, (Y i t - fitMT D.matrix (fun j => (V j).ofLp) i t)) ^ 2) = n * ‖residCorrMT D Y V j‖ := by
    rw [Finset.sum_congr rfl fun t _ => by rw [e t, mul_pow], ← Finset.mul_sum, Real.sqrt_mul (sq_nonneg _), Real.sqrt_sq hn'.le,
      EuclideanSpace.norm_eq]
    simp only [Real.norm_eq_abs, sq_abs]
  have b : √(∑ t, (∑ i ∈ G, (Y i t - fitMT D.matrix (fun j => (V j).ofLp) i t)) ^ 2) ≤ n * (α + τ) := by
    rw [e2]
    exact mul_le_mul_of_nonneg_left hq hn'.le
  refine ⟨b, fun t => le_trans ?_ b⟩
  rw [← Real.sqrt_sq_eq_abs]
  exact Real.sqrt_le_sqrt (Finset.single_le_sum (f := fun t => (∑ i ∈ G, (Y i t - fitMT D.matrix (fun j => (V j).ofLp) i t)) ^ 2)
    (fun _ _ => sq_nonneg _) (Finset.mem_univ t))

/-- **Floating point**: the same for all groups at once, with `tol + ε`, for the `l1` penalty. -/
theorem C116_float (hn : 0 < n) (hp : 0 < p) (D : Design n p) (hD : D.Canonical) (y : Fin n → ℝ) (hy : ∀ i, y i = 1 ∨ y i = -1) (α : ℝ)
    (hα : 0 < α) (τ : ℝ) (hτ : 0 < τ) :
    InFloat D y .logistic (.l1 α) τ fun ε v => ∀ j G, IsIndicator D j G →
      |((G.filter fun i => y i = 1).card : ℝ) - ∑ i ∈ G, predictedProb (fit D.matrix v i)| ≤ n * (α + (τ + ε)) := by
  refine inFloat_of hn hp D hD y .logistic (fun i => by rcases hy i with h | h <;> rw [h] <;> norm_num) (.l1 α) hα.le trivial
    (by simpa [Pen.fn] using hα) τ hτ fun _ _ _ _ h2 j G hG => ?_
  have a := prob_of_grad hn hy (lasso_grad hn hα.le h2 j)
  rw [indicator_sum hG, Finset.sum_sub_distrib, Finset.sum_boole] at a
  exact a

theorem C116_float_residuals (hn : 0 < n) (hp : 0 < p) (D : Design n p) (hD : D.Canonical) (y : Fin n → ℝ) (α : ℝ)
    (hα : 0 < α) (τ : ℝ) (hτ : 0 < τ) :
    InFloat D y .quadratic (.l1 α) τ fun ε v => ∀ j G, IsIndicator D j G →
      |∑ i ∈ G, (y i - fit D.matrix v i)| ≤ n * (α + (τ + ε)) := by
  refine inFloat_of hn hp D hD y .quadratic trivial (.l1 α) hα.le trivial
    (by simpa [Pen.fn] using hα) τ hτ fun _ _ _ _ h2 j G hG => ?_
  have a := resid_of_grad hn (lasso_grad hn hα.le h2 j)
  rwa [indicator_sum hG] at a

theorem C116_float_enet (hn : 0 < n) (hp : 0 < p) (D : Design n p) (hD : D.Canonical) (y : Fin n → ℝ) (α ρ : ℝ) (hα : 0 < α) (hρ0 : 0 < ρ)
    (hρ1 : ρ ≤ 1) (τ : ℝ) (hτ : 0 < τ) :
    InFloat D y .quadratic (.enet α ρ) τ fun ε v => ∀ j G, IsIndicator D j G →
      |∑ i ∈ G, (y i - fit D.matrix v i) - n * (α * (1 - ρ) * v j)| ≤ n * (α * ρ + (τ + ε)) := by
  have hn' : (0 : ℝ) < n := by exact_mod_cast hn
  have hv : (Pen.enet α ρ).Valid := ⟨hα.le, hρ0.le, hρ1⟩
  have h1 : 0 < (Pen.enet α ρ).fn 1 := by
    show 0 < α * (ρ * ‖(1 : ℝ)‖ + (1 - ρ) * ‖(1 : ℝ)‖ ^ 2 / 2)
    rw [norm_one]
    exact mul_pos hα (by linarith)
  refine inFloat_of hn hp D hD y .quadratic trivial (.enet α ρ) hv trivial h1 τ hτ fun ε _ v _ h2 j G hG => ?_
  have a : |residCorr D y v j - α * (1 - ρ) * v j| ≤ α * ρ + (τ + ε) := (corr_of_cert D y hv trivial h2 j).1
  have e : n * residCorr D y v j = ∑ i ∈ G, (y i - fit D.matrix v i) := by
    rw [← indicator_sum hG]
    exact mul_div_cancel₀ _ hn'.ne'
  rw [← e, ← mul_sub, abs_mul, abs_of_pos hn']
  exact mul_le_mul_of_nonneg_left a hn'.le

/-! ## Example: an intercept column and a group -/

/-- Three samples, the second feature is the indicator of the first two. -/
noncomputable def groupD : Design 3 2 := .dense ![![1, 1], ![1, 1], ![1, 0]]

theorem groupD_all : IsIndicator groupD 0 Finset.univ := fun i => by
  rw [if_pos (Finset.mem_univ i)]
  fin_cases i <;> rfl

theorem groupD_two : IsIndicator groupD 1 {0, 1} := fun i => by
  fin_cases i
  · rw [if_pos (by decide)]; rfl
  · rw [if_pos (by decide)]; rfl
  · rw [if_neg (by decide)]; rfl

-- one of the first two samples and two of all samples have class 1
example : ∃ (N : ℕ) (v : Fin 2 → ℝ), Stops argsortIns ⟨1, N, 50, XR.fin (1 / 100), 5, false, true⟩ groupD ![1, -1, 1] .logistic (.l1 (1 / 50)) v ∧
    |1 - ∑ i ∈ {0, 1}, predictedProb (fit groupD.matrix v i)| ≤ 9 / 100 ∧
    |2 - ∑ i, predictedProb (fit groupD.matrix v i)| ≤ 9 / 100 := by
  have hy : ∀ i, (![1, -1, 1] : Fin 3 → ℝ) i = 1 ∨ (![1, -1, 1] : Fin 3 → ℝ) i = -1 := fun i => by
    fin_cases i
    · exact Or.inl rfl
    · exact Or.inr rfl
    · exact Or.inl rfl
  obtain ⟨N, h⟩ := stops_exists (n := 3) (by norm_num) groupD trivial ![1, -1, 1] .logistic
    (fun i => by rcases hy i with h | h <;> rw [h] <;> norm_num)
    (.l1 (1 / 50)) (by norm_num [Pen.Valid]) trivial (by norm_num [Pen.fn]) (1 / 100) (by norm_num)
  obtain ⟨v, hv⟩ := h 1 one_pos
  have hne : ¬ ((-1 : ℝ) = 1) := by norm_num
  have f0 : (![1, -1, 1] : Fin 3 → ℝ) 0 = 1 := rfl
  have f1 : (![1, -1, 1] : Fin 3 → ℝ) 1 = -1 := rfl
  have f2 : (![1, -1, 1] : Fin 3 → ℝ) 2 = 1 := rfl
  have a := C116_probabilities argsortIns_spec (by norm_num) groupD ![1, -1, 1] hy (1 / 50) (by norm_num) _ (Or.inl rfl) _ (1 / 100) rfl
    v hv 1 {0, 1} groupD_two
  have b := C116_probabilities argsortIns_spec (by norm_num) groupD ![1, -1, 1] hy (1 / 50) (by norm_num) _ (Or.inl rfl) _ (1 / 100) rfl
    v hv 0 Finset.univ groupD_all
  rw [← Finset.sum_boole] at a b
  rw [Finset.sum_pair (by decide), f0, f1, if_pos rfl, if_neg hne] at a
  rw [Fin.sum_univ_three, f0, f1, f2, if_pos rfl, if_neg hne] at b
  refine ⟨N, v, hv, ?_, ?_⟩
  · norm_num at a ⊢; exact a
  · norm_num at b ⊢; exact b

-- mean residual of all samples
example : ∃ (N : ℕ) (v : Fin 2 → ℝ), Stops argsortIns ⟨1, N, 50, XR.fin (1 / 100), 5, false, true⟩ groupD ![1, 3, 7] .quadratic (.l1 (1 / 50)) v ∧
    |∑ i, ((![1, 3, 7] : Fin 3 → ℝ) i - fit groupD.matrix v i)| ≤ 9 / 100 := by
  obtain ⟨N, h⟩ := stops_exists (n := 3) (by norm_num) groupD trivial ![1, 3, 7] .quadratic trivial
    (.l1 (1 / 50)) (by norm_num [Pen.Valid]) trivial (by norm_num [Pen.fn]) (1 / 100) (by norm_num)
  obtain ⟨v, hv⟩ := h 1 one_pos
  refine ⟨N, v, hv, (C116_residuals argsortIns_spec (by norm_num) groupD ![1, 3, 7] (1 / 50) (by norm_num) _ (Or.inl rfl) _ (1 / 100) rfl
    v hv 0 Finset.univ groupD_all).trans (by norm_num)⟩

-- elastic net
example : ∃ (N : ℕ) (v : Fin 2 → ℝ), Stops argsortIns ⟨1, N, 50, XR.fin (1 / 100), 5, false, true⟩ groupD ![1, 3, 7] .quadratic
    (.enet (1 / 50) (1 / 2)) v ∧
    |∑ i, ((![1, 3, 7] : Fin 3 → ℝ) i - fit groupD.matrix v i) - 3 * (1 / 100 * v 0)| ≤ 6 / 100 := by
  obtain ⟨N, h⟩ := stops_exists (n := 3) (by norm_num) groupD trivial ![1, 3, 7] .quadratic trivial
    (.enet (1 / 50) (1 / 2)) (by norm_num [Pen.Valid]) trivial (by norm_num [Pen.fn, enet]) (1 / 100) (by norm_num)
  obtain ⟨v, hv⟩ := h 1 one_pos
  have a := C116_enet argsortIns_spec (by norm_num) groupD ![1, 3, 7] (1 / 50) (1 / 2) (by norm_num) (by norm_num) (by norm_num) _
    (1 / 100) rfl v hv 0 Finset.univ groupD_all
  refine ⟨N, v, hv, ?_⟩
  norm_num at a ⊢
  exact a

example : ∃ (N : ℕ) (v : Fin 2 → ℝ), Stops argsortIns ⟨1, N, 50, XR.fin (1 / 100), 5, false, true⟩ groupD ![1, -1, 1] .logistic
    (.enet (1 / 50) (1 / 2)) v ∧ |1 - ∑ i ∈ {0, 1}, predictedProb (fit groupD.matrix v i) - 3 * (1 / 100 * v 1)| ≤ 6 / 100 := by
  have hy : ∀ i, (![1, -1, 1] : Fin 3 → ℝ) i = 1 ∨ (![1, -1, 1] : Fin 3 → ℝ) i = -1 := fun i => by
    fin_cases i
    · exact Or.inl rfl
    · exact Or.inr rfl
    · exact Or.inl rfl
  obtain ⟨N, h⟩ := stops_exists (n := 3) (by norm_num) groupD trivial ![1, -1, 1] .logistic
    (fun i => by rcases hy i with h | h <;> rw [h] <;> norm_num)
    (.enet (1 / 50) (1 / 2)) (by norm_num [Pen.Valid]) trivial (by norm_num [Pen.fn, enet]) (1 / 100) (by norm_num)
  obtain ⟨v, hv⟩ := h 1 one_pos
  have hne : ¬ ((-1 : ℝ) = 1) := by norm_num
  have f0 : (![1, -1, 1] : Fin 3 → ℝ) 0 = 1 := rfl
  have f1 : (![1, -1, 1] : Fin 3 → ℝ) 1 = -1 := rfl
  have a := C116_enet_probabilities argsortIns_spec (by norm_num) groupD ![1, -1, 1] hy (1 / 50) (1 / 2) (by norm_num) (by norm_num)
    (by norm_num) _ (1 / 100) rfl v hv 1 {0, 1} groupD_two
  rw [← Finset.sum_boole, Finset.sum_pair (by decide), f0, f1, if_pos rfl, if_neg hne] at a
  refine ⟨N, v, hv, ?_⟩
  norm_num at a ⊢
  exact a

-- two tasks
example : ∃ (N : ℕ) (V : Fin 2 → Euc 2), StopsMT argsortIns ⟨1, N, 50, XR.fin (1 / 100), 5, false, true⟩ groupD ![![1, 0], ![3, 1], ![7, 5]]
    (.l21 (1 / 50)) V ∧ ∀ t, |∑ i ∈ {0, 1}, ((![![1, 0], ![3, 1], ![7, 5]] : Fin 3 → Fin 2 → ℝ) i t -
      fitMT groupD.matrix (fun j => (V j).ofLp) i t)| ≤ 9 / 100 := by
  obtain ⟨N, h⟩ := stopsMT_exists (n := 3) (by norm_num) groupD trivial ![![1, 0], ![3, 1], ![7, 5]] (1 / 50) (by norm_num) (1 / 100)
    (by norm_num)
  obtain ⟨V, hV⟩ := h 1 one_pos
  exact ⟨N, V, hV, fun t => ((C116_residuals_mt argsortIns_spec (by norm_num) groupD _ (1 / 50) (by norm_num) _ (1 / 100) rfl
    V hV 1 {0, 1} groupD_two).2 t).trans (by norm_num)⟩

-- the same in floating point
example : InFloat groupD ![1, 3, 7] .quadratic (.l1 (1 / 50)) (1 / 100) fun ε v => ∀ j G, IsIndicator groupD j G →
    |∑ i ∈ G, ((![1, 3, 7] : Fin 3 → ℝ) i - fit groupD.matrix v i)| ≤ ((3 : ℕ) : ℝ) * (1 / 50 + (1 / 100 + ε)) :=
  C116_float_residuals (by norm_num) two_pos groupD trivial ![1, 3, 7] (1 / 50) (by norm_num) (1 / 100) (by norm_num)

example : InFloat groupD ![1, 3, 7] .quadratic (.enet (1 / 50) (1 / 2)) (1 / 100) fun ε v => ∀ j G, IsIndicator groupD j G →
    |∑ i ∈ G, ((![1, 3, 7] : Fin 3 → ℝ) i - fit groupD.matrix v i) - ((3 : ℕ) : ℝ) * (1 / 50 * (1 - 1 / 2) * v j)| ≤
      ((3 : ℕ) : ℝ) * (1 / 50 * (1 / 2) + (1 / 100 + ε)) :=
  C116_float_enet (by norm_num) two_pos groupD trivial ![1, 3, 7] (1 / 50) (1 / 2) (by norm_num) (by norm_num) (by norm_num) (1 / 100)
    (by norm_num)

end Sglm
