import Verif.Spec.Bounds
import Verif.Props.Predictions
import Verif.Props.Rounding

/-!
# C93: bounds which every fit satisfies
-/

namespace Sglm
open Scalar Spec
variable {n p T : ℕ}

theorem pen_fn_nonneg (pen : Pen) (hv : pen.Valid) (z : ℝ) : 0 ≤ pen.fn z := by
  cases pen with
  | l1 α => exact pen_nonneg _ hv trivial z
  | enet α ρ => exact pen_nonneg _ hv trivial z
  | mcp α γ => exact mcp_nonneg hv.2 z
  | l05 α => exact mul_nonneg hv.le (Real.sqrt_nonneg _)

theorem pen_fn_zero (pen : Pen) (hv : pen.Valid) : pen.fn 0 = 0 := by
  cases pen with
  | l1 α => exact pen_zero_of trivial
  | enet α ρ => exact pen_zero_of trivial
  | mcp α γ =>
    have : 0 ≤ γ * α := mul_nonneg hv.2.le hv.1
    simp [Pen.fn, mcp, this]
  | l05 α => simp [Pen.fn]

theorem objective1_zero_log (hn : 0 < n) (D : Design n p) (y : Fin n → ℝ) (pen : Pen) (h0 : pen.fn 0 = 0) :
    objective1 D y .logistic pen (fun _ => 0) = Real.log 2 := by
  have hn' : (n : ℝ) ≠ 0 := by exact_mod_cast hn.ne'
  unfold objective1
  simp only [h0, Finset.sum_const_zero, add_zero, LossKind.loss, logLoss, fit, mul_zero, neg_zero, Real.exp_zero, Finset.sum_const,
    Finset.card_univ, Fintype.card_fin, nsmul_eq_mul]
  rw [one_add_one_eq_two]
  field_simp

/-! ## Every result, converged or not -/

/-- **Least squares**: whatever the settings, the residuals of a fit are not larger than the targets, and the penalty is bounded by
what the fit explains. -/
theorem C93_residuals {srt : Argsort XR} (hs : ArgsortSpec srt) (hn : 0 < n) (D : Design n p) (hD : D.Canonical)
    (y : Fin n → ℝ) (pen : Pen) (hv : pen.Valid) (hst : pen.StepOK D .quadratic)
    (cfg : Solver XR) (v : Fin p → ℝ) (hr : solve1 srt cfg D y .quadratic pen = .ok (vec v)) :
    ∑ i, (y i - fit D.matrix v i) ^ 2 + 2 * n * ∑ j, pen.fn (v j) ≤ ∑ i, y i ^ 2 := by
  have h := C28_result hs hn D hD y .quadratic trivial pen hv hst cfg v hr
  rw [objective1_zero D y pen (pen_fn_zero pen hv)] at h
  have hn' : (0 : ℝ) < n := by exact_mod_cast hn
  unfold objective1 LossKind.loss quadLoss at h
  dsimp only at h
  rw [div_add' _ _ _ (by positivity), div_le_div_iff_of_pos_right (by positivity)] at h
  linarith

/-- **Logistic regression**: whatever the settings, the loss is at most that of a coin flip. -/
theorem C93_log_loss {srt : Argsort XR} (hs : ArgsortSpec srt) (hn : 0 < n) (D : Design n p) (hD : D.Canonical)
    (y : Fin n → ℝ) (hy : ∀ i, |y i| ≤ 1) (pen : Pen) (hv : pen.Valid) (hst : pen.StepOK D .logistic)
    (cfg : Solver XR) (v : Fin p → ℝ) (hr : solve1 srt cfg D y .logistic pen = .ok (vec v)) :
    logLoss y (fit D.matrix v) + ∑ j, pen.fn (v j) ≤ Real.log 2 := by
  have h := C28_result hs hn D hD y .logistic hy pen hv hst cfg v hr
  rw [objective1_zero_log hn D y pen (pen_fn_zero pen hv)] at h
  exact h

/-- **Size of the coefficients**, Lasso and elastic net (`κ = α` and `κ = α ρ`), least squares. -/
theorem C93_size {srt : Argsort XR} (hs : ArgsortSpec srt) (hn : 0 < n) (D : Design n p) (hD : D.Canonical)
    (y : Fin n → ℝ) (pen : Pen) (hv : pen.Valid) (hc : pen.Convex) (κ : ℝ) (hκ0 : 0 < κ) (hκ : ∀ z, κ * |z| ≤ pen.fn z)
    (cfg : Solver XR) (v : Fin p → ℝ) (hr : solve1 srt cfg D y .quadratic pen = .ok (vec v)) :
    ∑ j, |v j| ≤ (∑ i, y i ^ 2) / (2 * n * κ) := by
  have hst : pen.StepOK D .quadratic := by cases pen <;> trivial
  have h := size_of_objective hκ0 hκ (C28_result hs hn D hD y .quadratic trivial pen hv hst cfg v hr)
  rwa [objective1_zero D y pen (pen_zero_of hc), div_div] at h

/-- **Size of the coefficients**, logistic regression; finite even if the classes are separable. -/
theorem C93_size_log {srt : Argsort XR} (hs : ArgsortSpec srt) (hn : 0 < n) (D : Design n p) (hD : D.Canonical)
    (y : Fin n → ℝ) (hy : ∀ i, |y i| ≤ 1) (pen : Pen) (hv : pen.Valid) (hc : pen.Convex) (κ : ℝ) (hκ0 : 0 < κ)
    (hκ : ∀ z, κ * |z| ≤ pen.fn z) (cfg : Solver XR) (v : Fin p → ℝ) (hr : solve1 srt cfg D y .logistic pen = .ok (vec v)) :
    ∑ j, |v j| ≤ Real.log 2 / κ := by
  have hst : pen.StepOK D .logistic := by cases pen <;> trivial
  have h := size_of_objective hκ0 hκ (C28_result hs hn D hD y .logistic hy pen hv hst cfg v hr)
  rwa [objective1_zero_log hn D y pen (pen_zero_of hc)] at h

theorem mcp_large {α γ z : ℝ} (hγ : 0 < γ) (hz : γ * α ≤ |z|) : mcp α γ z = γ * α ^ 2 / 2 := by
  unfold mcp
  rw [Real.norm_eq_abs]
  split
  · rw [le_antisymm ‹_› hz]
    field_simp
    ring
  · rfl

/-- **MCP**: the number of coefficients beyond `αγ`, which are not penalised any more, is bounded. -/
theorem C93_large_mcp {srt : Argsort XR} (hs : ArgsortSpec srt) (hn : 0 < n) (D : Design n p) (hD : D.Canonical)
    (y : Fin n → ℝ) (α γ : ℝ) (hα : 0 < α) (hγ : 0 < γ) (hst : ∀ j, lipschitz D .quadratic j ≠ 0 → 1 ≤ γ * lipschitz D .quadratic j)
    (cfg : Solver XR) (v : Fin p → ℝ) (hr : solve1 srt cfg D y .quadratic (.mcp α γ) = .ok (vec v)) :
    ((Finset.univ.filter fun j => γ * α ≤ |v j|).card : ℝ) ≤ (∑ i, y i ^ 2) / (n * γ * α ^ 2) := by
  have h := C93_residuals hs hn D hD y (.mcp α γ) ⟨hα.le, hγ⟩ hst cfg v hr
  have hn' : (0 : ℝ) < n := by exact_mod_cast hn
  rw [le_div_iff₀ (by positivity)]
  have h1 : ((Finset.univ.filter fun j => γ * α ≤ |v j|).card : ℝ) * (γ * α ^ 2 / 2) ≤ ∑ j, (Pen.mcp α γ).fn (v j) := by
    rw [← nsmul_eq_mul, ← Finset.sum_const]
    refine le_trans (Finset.sum_le_sum fun j hj => (mcp_large hγ (Finset.mem_filter.mp hj).2).ge) ?_
    exact Finset.sum_le_sum_of_subset_of_nonneg (Finset.filter_subset _ _) fun j _ _ => mcp_nonneg hγ _
  have h2 : 0 ≤ ∑ i, (y i - fit D.matrix v i) ^ 2 := Finset.sum_nonneg fun i _ => sq_nonneg _
  have h3 := mul_le_mul_of_nonneg_left h1 (by positivity : (0 : ℝ) ≤ 2 * n)
  calc _ = 2 * n * (((Finset.univ.filter fun j => γ * α ≤ |v j|).card : ℝ) * (γ * α ^ 2 / 2)) := by ring
    _ ≤ _ := by linarith

/-- **Multi-task fits** (all block penalties). -/
theorem C93_residuals_mt {srt : Argsort XR} (hs : ArgsortSpec srt) (hn : 0 < n) (D : Design n p) (hD : D.Canonical)
    (Y : Fin n → Fin T → ℝ) (pen : BPen) (hv : pen.Valid) (hst : pen.StepOK D)
    (cfg : Solver XR) (V : Fin p → Euc T) (hr : solveMT srt cfg D Y pen = .ok (emat V)) :
    ∑ i, ∑ t, (Y i t - fitMT D.matrix (fun j => (V j).ofLp) i t) ^ 2 + 2 * n * ∑ j, pen.fn (V j) ≤ ∑ i, ∑ t, Y i t ^ 2 := by
  have h := C28_result_mt hs hn D hD Y pen hv hst cfg V hr
  have hn' : (0 : ℝ) < n := by exact_mod_cast hn
  have e : objectiveMT D Y pen (fun _ => 0) = (∑ i, ∑ t, Y i t ^ 2) / (2 * n) := by
    have e0 : pen.fn (0 : Euc T) = 0 := by
      cases pen with
      | l21 α => simp [BPen.fn]
      | enet α ρ => simp [BPen.fn, enet]
      | mcp α γ =>
        have : 0 ≤ γ * α := mul_nonneg hv.2.le hv.1
        simp [BPen.fn, mcp, this]
    unfold objectiveMT mtLoss fitMT
    simp [e0]
  rw [e] at h
  unfold objectiveMT mtLoss at h
  rw [div_add' _ _ _ (by positivity), div_le_div_iff_of_pos_right (by positivity)] at h
  linarith

/-- The size of the coefficients of the multi-task Lasso. -/
theorem C93_size_mt {srt : Argsort XR} (hs : ArgsortSpec srt) (hn : 0 < n) (D : Design n p) (hD : D.Canonical)
    (Y : Fin n → Fin T → ℝ) (α : ℝ) (hα : 0 < α)
    (cfg : Solver XR) (V : Fin p → Euc T) (hr : solveMT srt cfg D Y (.l21 α) = .ok (emat V)) :
    ∑ j, ‖V j‖ ≤ (∑ i, ∑ t, Y i t ^ 2) / (2 * n * α) := by
  have h := C93_residuals_mt hs hn D hD Y (.l21 α) hα trivial cfg V hr
  have hn' : (0 : ℝ) < n := by exact_mod_cast hn
  rw [le_div_iff₀ (by positivity)]
  have h2 : 0 ≤ ∑ i, ∑ t, (Y i t - fitMT D.matrix (fun j => (V j).ofLp) i t) ^ 2 :=
    Finset.sum_nonneg fun i _ => Finset.sum_nonneg fun t _ => sq_nonneg _
  have h3 : ∑ j, (BPen.l21 α).fn (V j) = α * ∑ j, ‖V j‖ := by rw [Finset.mul_sum]; rfl
  rw [h3] at h
  linarith [mul_comm (2 * (n : ℝ) * α) (∑ j, ‖V j‖)]

/-! ## Converged results: loss and penalty balance -/

theorem stops_scores {srt : Argsort XR} (hs : ArgsortSpec srt) (hn : 0 < n) {D : Design n p} {y : Fin n → ℝ} {k : LossKind} {pen : Pen}
    (hv : pen.Valid) {cfg : Solver XR} {τ : ℝ} (ht : cfg.tolerance = XR.fin τ) {v : Fin p → ℝ}
    (h : Stops srt cfg D y k pen v) (j : Fin p) : scoreOf pen (v j) (gradOf D.matrix y k (fit D.matrix v) j) ≤ τ := by
  obtain ⟨h1, st, log, h2, h3⟩ := h
  obtain ⟨v', m, h4, -, h5⟩ := trace1_run hs hn D y k pen hv _ st log h2
  have hx := RProb.run_exit _ _ h4 (by rw [← h5 rfl]; exact h3)
  have h6 : solve1 srt cfg D y k pen = .ok (vec v') := by
    rw [solve1_eq hs hn D y k pen hv]
    have : (prob1 D y k pen).run srt cfg = .ok (v', m) := h4
    rw [this]; rfl
  rw [h1] at h6
  rw [vec_injective (Except.ok.inj h6)]
  exact (prob1 D y k pen).viol_le (w := v') (τ := τ) (by rw [← ht]; exact hx) j

theorem pull_score (pen : Pen) (hne : ∀ α, pen ≠ .l05 α) (a g : ℝ) : |a * g + pen.pull a| ≤ |a| * scoreOf pen a g := by
  rcases eq_or_ne a 0 with rfl | h0
  · cases pen <;> simp [Pen.pull]
  have sg : a * (if a < 0 then (-1 : ℝ) else 1) = |a| := by
    split
    · rw [abs_of_neg ‹_›]; ring
    · rw [abs_of_nonneg (not_lt.mp ‹_›)]; ring
  cases pen with
  | l1 α =>
    show _root_.abs (a * g + α * |a|) ≤ |a| * l1Score α a g
    unfold l1Score
    rw [if_neg h0, ← abs_mul, ← abs_neg (a * g + _)]
    refine le_of_eq (congrArg _ ?_)
    linear_combination α * sg
  | enet α ρ =>
    show _root_.abs (a * g + α * (ρ * |a| + (1 - ρ) * a ^ 2)) ≤ |a| * enetScore α ρ a g
    unfold enetScore
    rw [if_neg h0, ← abs_mul, ← abs_neg (a * g + _)]
    refine le_of_eq (congrArg _ ?_)
    linear_combination α * ρ * sg
  | mcp α γ =>
    show _root_.abs (a * g + (if |a| < α * γ then α * |a| - a ^ 2 / γ else 0)) ≤ |a| * mcpScore α γ a g
    unfold mcpScore
    rw [if_neg h0]
    by_cases hl : |a| < α * γ
    · rw [if_pos hl, if_pos hl, ← abs_mul]
      refine le_of_eq (congrArg _ ?_)
      linear_combination (-α) * sg
    · rw [if_neg hl, if_neg hl, ← abs_mul, add_zero]
  | l05 α => exact absurd rfl (hne α)

/-- **Balance**: at the result of a fit which stopped before `max_iterations`, the pull of the loss (the scalar product of the
coefficients and the negative partial derivatives) equals the pull of the penalty, up to the tolerance. -/
theorem C93_balance {srt : Argsort XR} (hs : ArgsortSpec srt) (hn : 0 < n) (D : Design n p) (y : Fin n → ℝ) (k : LossKind) (pen : Pen)
    (hv : pen.Valid) (hne : ∀ α, pen ≠ .l05 α) (cfg : Solver XR) (τ : ℝ) (ht : cfg.tolerance = XR.fin τ) (v : Fin p → ℝ)
    (h : Stops srt cfg D y k pen v) : ∃ g : Fin p → ℝ, (∀ j, IsPartial (fun w => k.loss y (fit D.matrix w)) v j (g j)) ∧
      |∑ j, v j * g j + ∑ j, pen.pull (v j)| ≤ τ * ∑ j, |v j| := by
  refine ⟨gradOf D.matrix y k (fit D.matrix v), loss_partial hn D.matrix y k v, ?_⟩
  rw [← Finset.sum_add_distrib, Finset.mul_sum]
  refine (Finset.abs_sum_le_sum_abs _ _).trans (Finset.sum_le_sum fun j _ => ?_)
  refine (pull_score pen hne _ _).trans ?_
  rw [mul_comm]
  exact mul_le_mul_of_nonneg_right (stops_scores hs hn hv ht h j) (abs_nonneg _)

theorem pull_nonneg (pen : Pen) (hv : pen.Valid) (z : ℝ) : 0 ≤ pen.pull z := by
  cases pen with
  | l1 α => exact mul_nonneg hv (abs_nonneg _)
  | enet α ρ => exact mul_nonneg hv.1 (add_nonneg (mul_nonneg hv.2.1 (abs_nonneg _)) (mul_nonneg (sub_nonneg.mpr hv.2.2) (sq_nonneg _)))
  | mcp α γ =>
    show 0 ≤ if |z| < α * γ then α * |z| - z ^ 2 / γ else 0
    split
    · have h : |z| < α * γ := ‹_›
      rw [sub_nonneg, div_le_iff₀ hv.2, ← sq_abs]
      nlinarith [abs_nonneg z]
    · exact le_rfl
  | l05 α => exact div_nonneg (mul_nonneg hv.le (Real.sqrt_nonneg _)) zero_le_two

theorem sum_mul_quadGrad (X : Fin n → Fin p → ℝ) (y : Fin n → ℝ) (v : Fin p → ℝ) :
    ∑ j, v j * quadGrad X y (fit X v) j = -(∑ i, fit X v i * (y i - fit X v i)) / n := by
  unfold quadGrad
  have h : ∀ j, v j * ((∑ i, X i j * fit X v i - ∑ i, X i j * y i) / n) = (∑ i, X i j * v j * (fit X v i - y i)) / n := fun j => by
    rw [← Finset.sum_sub_distrib, mul_div_assoc', Finset.mul_sum]
    congr 1
    exact Finset.sum_congr rfl fun i _ => by ring
  rw [Finset.sum_congr rfl fun j _ => h j, ← Finset.sum_div, Finset.sum_comm, ← Finset.sum_neg_distrib]
  congr 1
  refine Finset.sum_congr rfl fun i _ => ?_
  rw [← Finset.sum_mul]
  show fit X v i * _ = _
  ring

/-- **Shrinkage** (least squares): predictions and residuals of a converged fit have the scalar product `n` times the pull of the
penalty, up to the tolerance. -/
theorem C93_shrinkage {srt : Argsort XR} (hs : ArgsortSpec srt) (hn : 0 < n) (D : Design n p) (y : Fin n → ℝ) (pen : Pen)
    (hv : pen.Valid) (hne : ∀ α, pen ≠ .l05 α) (cfg : Solver XR) (τ : ℝ) (ht : cfg.tolerance = XR.fin τ) (v : Fin p → ℝ)
    (h : Stops srt cfg D y .quadratic pen v) :
    |(∑ i, fit D.matrix v i * (y i - fit D.matrix v i)) / n - ∑ j, pen.pull (v j)| ≤ τ * ∑ j, |v j| := by
  rw [← abs_neg]
  refine le_trans (le_of_eq ?_) (?_ : |∑ j, v j * quadGrad D.matrix y (fit D.matrix v) j + ∑ j, pen.pull (v j)| ≤ _)
  · rw [sum_mul_quadGrad, neg_div]
    congr 1
    ring
  · rw [← Finset.sum_add_distrib, Finset.mul_sum]
    refine (Finset.abs_sum_le_sum_abs _ _).trans (Finset.sum_le_sum fun j _ => ?_)
    refine (pull_score pen hne _ _).trans ?_
    rw [mul_comm]
    exact mul_le_mul_of_nonneg_right (stops_scores hs hn hv ht h j) (abs_nonneg _)

/-- **Explained and residual sum of squares** of a converged fit add up to at most the total sum of squares, up to the tolerance. -/
theorem C93_explained {srt : Argsort XR} (hs : ArgsortSpec srt) (hn : 0 < n) (D : Design n p) (y : Fin n → ℝ) (pen : Pen)
    (hv : pen.Valid) (hne : ∀ α, pen ≠ .l05 α) (cfg : Solver XR) (τ : ℝ) (ht : cfg.tolerance = XR.fin τ) (v : Fin p → ℝ)
    (h : Stops srt cfg D y .quadratic pen v) :
    ∑ i, fit D.matrix v i ^ 2 + ∑ i, (y i - fit D.matrix v i) ^ 2 + 2 * n * ∑ j, pen.pull (v j) ≤ ∑ i, y i ^ 2 + 2 * n * (τ * ∑ j, |v j|) := by
  have h1 := (abs_le.mp (C93_shrinkage hs hn D y pen hv hne cfg τ ht v h)).1
  have hn' : (0 : ℝ) < n := by exact_mod_cast hn
  have h2 : ∑ i, y i ^ 2 = ∑ i, fit D.matrix v i ^ 2 + ∑ i, (y i - fit D.matrix v i) ^ 2 +
      2 * ∑ i, fit D.matrix v i * (y i - fit D.matrix v i) := by
    rw [Finset.mul_sum, ← Finset.sum_add_distrib, ← Finset.sum_add_distrib]
    exact Finset.sum_congr rfl fun i _ => by ring
  rw [h2]
  have h3 := mul_le_mul_of_nonneg_left h1 (by positivity : (0 : ℝ) ≤ 2 * n)
  have h4 : 2 * (n : ℝ) * ((∑ i, fit D.matrix v i * (y i - fit D.matrix v i)) / n - ∑ j, pen.pull (v j)) =
      2 * ∑ i, fit D.matrix v i * (y i - fit D.matrix v i) - 2 * n * ∑ j, pen.pull (v j) := by field_simp
  rw [h4] at h3
  linarith

/-- Lasso and elastic net with `τ ≤ κ`: the predictions of a converged fit are not larger than the targets, and positively correlated
with the residuals. -/
theorem C93_predictions {srt : Argsort XR} (hs : ArgsortSpec srt) (hn : 0 < n) (D : Design n p) (y : Fin n → ℝ) (pen : Pen)
    (hv : pen.Valid) (hc : pen.Convex) (cfg : Solver XR) (τ : ℝ) (ht : cfg.tolerance = XR.fin τ)
    (hτ : ∀ z, τ * |z| ≤ pen.pull z) (v : Fin p → ℝ) (h : Stops srt cfg D y .quadratic pen v) :
    0 ≤ ∑ i, fit D.matrix v i * (y i - fit D.matrix v i) ∧
      ∑ i, fit D.matrix v i ^ 2 + ∑ i, (y i - fit D.matrix v i) ^ 2 ≤ ∑ i, y i ^ 2 := by
  have hne : ∀ α, pen ≠ .l05 α := by rintro α rfl; exact hc
  have hn' : (0 : ℝ) < n := by exact_mod_cast hn
  have h0 : τ * ∑ j, |v j| ≤ ∑ j, pen.pull (v j) := by rw [Finset.mul_sum]; exact Finset.sum_le_sum fun j _ => hτ _
  constructor
  · have h1 := (abs_le.mp (C93_shrinkage hs hn D y pen hv hne cfg τ ht v h)).1
    by_contra hneg
    have := div_neg_of_neg_of_pos (not_le.mp hneg) hn'
    linarith
  · have h1 := C93_explained hs hn D y pen hv hne cfg τ ht v h
    have := mul_le_mul_of_nonneg_left h0 (by positivity : (0 : ℝ) ≤ 2 * n)
    linarith

theorem sum_mul_logGrad (X : Fin n → Fin p → ℝ) (y : Fin n → ℝ) (v : Fin p → ℝ) :
    ∑ j, v j * logGrad X y (fit X v) j = -(∑ i, y i * fit X v i / (1 + Real.exp (y i * fit X v i))) / n := by
  unfold logGrad sigm
  have h : ∀ j, v j * (-(∑ i, X i j * (y i * (1 / (1 + Real.exp (-(-y i * fit X v i)))))) / n) =
      (∑ i, X i j * v j * -(y i / (1 + Real.exp (y i * fit X v i)))) / n := fun j => by
    rw [mul_div_assoc', mul_neg, Finset.mul_sum, ← Finset.sum_neg_distrib]
    congr 1
    refine Finset.sum_congr rfl fun i _ => ?_
    rw [neg_mul, neg_neg]
    ring
  rw [Finset.sum_congr rfl fun j _ => h j, ← Finset.sum_div, Finset.sum_comm, ← Finset.sum_neg_distrib]
  congr 1
  refine Finset.sum_congr rfl fun i _ => ?_
  rw [← Finset.sum_mul]
  show fit X v i * _ = _
  ring

/-- **Margins** (logistic regression): the margins `y_i (Xv)_i` of a converged fit, weighted with the probabilities of the wrong label,
average to the pull of the penalty, up to the tolerance. -/
theorem C93_margins {srt : Argsort XR} (hs : ArgsortSpec srt) (hn : 0 < n) (D : Design n p) (y : Fin n → ℝ) (pen : Pen)
    (hv : pen.Valid) (hne : ∀ α, pen ≠ .l05 α) (cfg : Solver XR) (τ : ℝ) (ht : cfg.tolerance = XR.fin τ) (v : Fin p → ℝ)
    (h : Stops srt cfg D y .logistic pen v) :
    |(∑ i, y i * fit D.matrix v i / (1 + Real.exp (y i * fit D.matrix v i))) / n - ∑ j, pen.pull (v j)| ≤ τ * ∑ j, |v j| := by
  rw [← abs_neg]
  refine le_trans (le_of_eq ?_) (?_ : |∑ j, v j * logGrad D.matrix y (fit D.matrix v) j + ∑ j, pen.pull (v j)| ≤ _)
  · rw [sum_mul_logGrad, neg_div]
    congr 1
    ring
  · rw [← Finset.sum_add_distrib, Finset.mul_sum]
    refine (Finset.abs_sum_le_sum_abs _ _).trans (Finset.sum_le_sum fun j _ => ?_)
    refine (pull_score pen hne _ _).trans ?_
    rw [mul_comm]
    exact mul_le_mul_of_nonneg_right (stops_scores hs hn hv ht h j) (abs_nonneg _)

/-! ## Several tasks -/

theorem stopsMT_scores {srt : Argsort XR} (hs : ArgsortSpec srt) (hn : 0 < n) {D : Design n p} {Y : Fin n → Fin T → ℝ} {pen : BPen}
    (hv : pen.Valid) {cfg : Solver XR} {τ : ℝ} (ht : cfg.tolerance = XR.fin τ) {V : Fin p → Euc T}
    (h : StopsMT srt cfg D Y pen V) (j : Fin p) :
    bscoreOf pen (V j) (WithLp.toLp 2 (mtGrad D.matrix Y (fitMT D.matrix fun j => (V j).ofLp) j)) ≤ τ := by
  obtain ⟨h1, st, log, h2, h3⟩ := h
  obtain ⟨V', m, h4, -, h5⟩ := traceMT_run hs hn D Y pen hv _ st log h2
  have hx := RProb.run_exit _ _ h4 (by rw [← h5 rfl]; exact h3)
  have h6 : solveMT srt cfg D Y pen = .ok (emat V') := by
    rw [solveMT_eq hs hn D Y pen hv]
    have : (probMT D Y pen).run srt cfg = .ok (V', m) := h4
    rw [this]; rfl
  rw [h1] at h6
  rw [emat_injective (Except.ok.inj h6)]
  exact (probMT D Y pen).viol_le (w := V') (τ := τ) (by rw [← ht]; exact hx) j

theorem bpull_score (pen : BPen) (hc : pen.Convex) (a g : Euc T) : |inner ℝ a g + pen.pull a| ≤ ‖a‖ * bscoreOf pen a g := by
  rcases eq_or_ne a 0 with rfl | h0
  · cases pen <;> simp [BPen.pull]
  have hn : ‖a‖ ≠ 0 := norm_ne_zero_iff.mpr h0
  have key : ∀ c : ℝ, |inner ℝ a g + c * ‖a‖ ^ 2| ≤ ‖a‖ * ‖g + c • a‖ := fun c => by
    have e : inner ℝ a g + c * ‖a‖ ^ 2 = inner ℝ a (g + c • a) := by
      rw [inner_add_right, inner_smul_right, real_inner_self_eq_norm_sq]
    rw [e]
    exact abs_real_inner_le_norm _ _
  cases pen with
  | l21 α =>
    show |inner ℝ a g + α * ‖a‖| ≤ ‖a‖ * l21Score α a g
    unfold l21Score
    rw [if_neg h0]
    refine le_trans (le_of_eq (congrArg _ ?_)) (key (α / ‖a‖))
    field_simp
  | enet α ρ =>
    show |inner ℝ a g + α * (ρ * ‖a‖ + (1 - ρ) * ‖a‖ ^ 2)| ≤ ‖a‖ * blockEnetScore α ρ a g
    unfold blockEnetScore
    rw [if_neg h0]
    refine le_trans (le_of_eq (congrArg _ ?_)) (key (α * ρ / ‖a‖ + α * (1 - ρ)))
    field_simp
  | mcp α γ => exact hc.elim

theorem sum_inner_mtGrad (X : Fin n → Fin p → ℝ) (Y : Fin n → Fin T → ℝ) (V : Fin p → Euc T) :
    ∑ j, inner ℝ (V j) (WithLp.toLp 2 (mtGrad X Y (fitMT X fun j => (V j).ofLp) j) : Euc T) =
      -(∑ i, ∑ t, fitMT X (fun j => (V j).ofLp) i t * (Y i t - fitMT X (fun j => (V j).ofLp) i t)) / n := by
  have h := fun t => sum_mul_quadGrad X (fun i => Y i t) (fun j => (V j).ofLp t)
  have e : ∀ j, inner ℝ (V j) (WithLp.toLp 2 (mtGrad X Y (fitMT X fun j => (V j).ofLp) j) : Euc T) =
      ∑ t, (V j).ofLp t * quadGrad X (fun i => Y i t) (fit X fun j => (V j).ofLp t) j := fun j => by
    rw [PiLp.inner_apply]
    exact Finset.sum_congr rfl fun t _ => mul_comm _ _
  rw [Finset.sum_congr rfl fun j _ => e j, Finset.sum_comm, Finset.sum_congr rfl fun t _ => h t, ← Finset.sum_div,
    Finset.sum_neg_distrib, Finset.sum_comm (f := fun i t => fitMT X (fun j => (V j).ofLp) i t * _)]
  rfl

/-- **Shrinkage**, multi-task Lasso and elastic net (also where the stopping test of the latter is wrong about zero rows). -/
theorem C93_shrinkage_mt {srt : Argsort XR} (hs : ArgsortSpec srt) (hn : 0 < n) (D : Design n p) (Y : Fin n → Fin T → ℝ) (pen : BPen)
    (hv : pen.Valid) (hc : pen.Convex) (cfg : Solver XR) (τ : ℝ) (ht : cfg.tolerance = XR.fin τ) (V : Fin p → Euc T)
    (h : StopsMT srt cfg D Y pen V) :
    |(∑ i, ∑ t, fitMT D.matrix (fun j => (V j).ofLp) i t * (Y i t - fitMT D.matrix (fun j => (V j).ofLp) i t)) / n - ∑ j, pen.pull (V j)| ≤
      τ * ∑ j, ‖V j‖ := by
  rw [← abs_neg]
  refine le_trans (le_of_eq ?_) (?_ : |∑ j, inner ℝ (V j)
    (WithLp.toLp 2 (mtGrad D.matrix Y (fitMT D.matrix fun j => (V j).ofLp) j) : Euc T) + ∑ j, pen.pull (V j)| ≤ _)
  · rw [sum_inner_mtGrad, neg_div]
    congr 1
    ring
  · rw [← Finset.sum_add_distrib, Finset.mul_sum]
    refine (Finset.abs_sum_le_sum_abs _ _).trans (Finset.sum_le_sum fun j _ => ?_)
    refine (bpull_score pen hc _ _).trans ?_
    rw [mul_comm]
    exact mul_le_mul_of_nonneg_right (stopsMT_scores hs hn hv ht h j) (norm_nonneg _)

/-! ## Examples -/

theorem solve1_exists (hn : 0 < n) (D : Design n p) (y : Fin n → ℝ) (k : LossKind) (pen : Pen) (hv : pen.Valid) (cfg : Solver XR)
    (hu : cfg.useAcceleration = false) : ∃ v : Fin p → ℝ, solve1 argsortIns cfg D y k pen = .ok (vec v) := by
  obtain ⟨v, m, h⟩ := (prob1 D y k pen).run_ok argsortIns_spec cfg (fun h => by rw [hu] at h; cases h)
  refine ⟨v, ?_⟩
  rw [solve1_eq argsortIns_spec hn D y k pen hv, h]
  rfl

-- three iterations of MCP: at most two coefficients are not penalised
example : ∃ v : Fin 2 → ℝ, solve1 argsortIns ⟨1, 3, 5, XR.fin (1 / 1000), 5, false, true⟩ cvD ![1, -2] .quadratic (.mcp 1 1) = .ok (vec v) ∧
    ((Finset.univ.filter fun j => 1 * 1 ≤ |v j|).card : ℝ) ≤ 5 / 2 := by
  obtain ⟨v, h⟩ := solve1_exists two_pos cvD ![1, -2] .quadratic (.mcp 1 1) ⟨zero_le_one, one_pos⟩ ⟨1, 3, 5, XR.fin (1 / 1000), 5, false, true⟩ rfl
  refine ⟨v, h, (C93_large_mcp argsortIns_spec two_pos cvD trivial ![1, -2] 1 1 one_pos one_pos (fun j _ => ?_) _ v h).trans ?_⟩
  · fin_cases j <;> norm_num [lipschitz, cvD, Design.matrix, Fin.sum_univ_two]
  · norm_num [Fin.sum_univ_two]

-- separable classes: one iteration of logistic regression
example : ∃ v : Fin 2 → ℝ, solve1 argsortIns ⟨1, 1, 5, XR.fin (1 / 1000), 5, false, true⟩ cvD ![1, -1] .logistic (.l1 (1 / 10)) = .ok (vec v) ∧
    ∑ j, |v j| ≤ Real.log 2 / (1 / 10) ∧ logLoss ![1, -1] (fit cvD.matrix v) ≤ Real.log 2 := by
  have hy : ∀ i, |(![1, -1] : Fin 2 → ℝ) i| ≤ 1 := by intro i; fin_cases i <;> simp
  have hv : (Pen.l1 (1 / 10)).Valid := by norm_num [Pen.Valid]
  obtain ⟨v, h⟩ := solve1_exists two_pos cvD ![1, -1] .logistic (.l1 (1 / 10)) hv ⟨1, 1, 5, XR.fin (1 / 1000), 5, false, true⟩ rfl
  refine ⟨v, h, C93_size_log argsortIns_spec two_pos cvD trivial _ hy _ hv trivial (1 / 10) (by norm_num) (pen_slope_l1 _) _ v h, ?_⟩
  have h1 := C93_log_loss argsortIns_spec two_pos cvD trivial _ hy _ hv trivial _ v h
  have h2 := Finset.sum_nonneg fun j (_ : j ∈ Finset.univ) => pen_fn_nonneg _ hv (v j)
  linarith

-- a converged Lasso
example : ∃ (N : ℕ) (v : Fin 2 → ℝ), Stops argsortIns ⟨1, N, 50, XR.fin (1 / 1000), 5, false, true⟩ cvD ![1, -2] .quadratic (.l1 (1 / 10)) v ∧
    0 ≤ ∑ i, fit cvD.matrix v i * (![1, -2] i - fit cvD.matrix v i) ∧
    ∑ i, fit cvD.matrix v i ^ 2 + ∑ i, (![1, -2] i - fit cvD.matrix v i) ^ 2 ≤ 5 ∧ ∑ j, |v j| ≤ 25 / 2 := by
  have hv : (Pen.l1 (1 / 10)).Valid := by norm_num [Pen.Valid]
  obtain ⟨N, h⟩ := stops_exists two_pos cvD trivial ![1, -2] .quadratic trivial (.l1 (1 / 10)) hv trivial (by norm_num [Pen.fn])
    (1 / 1000) (by norm_num)
  obtain ⟨v, h1⟩ := h 1 one_pos
  obtain ⟨h2, h3⟩ := C93_predictions argsortIns_spec two_pos cvD ![1, -2] (.l1 (1 / 10)) hv trivial _ (1 / 1000) rfl
    (fun z => mul_le_mul_of_nonneg_right (by norm_num) (abs_nonneg z)) v h1
  refine ⟨N, v, h1, h2, h3.trans (by norm_num [Fin.sum_univ_two]), ?_⟩
  refine (C93_size argsortIns_spec two_pos cvD trivial ![1, -2] _ hv trivial (1 / 10) (by norm_num) (pen_slope_l1 _) _ v h1.1).trans ?_
  norm_num [Fin.sum_univ_two]

-- converged logistic regression
example : ∃ (N : ℕ) (v : Fin 2 → ℝ), Stops argsortIns ⟨1, N, 50, XR.fin (1 / 1000), 5, false, true⟩ cvD ![1, -1] .logistic (.enet (1 / 10) (1 / 2)) v ∧
    |(∑ i, (![1, -1] : Fin 2 → ℝ) i * fit cvD.matrix v i / (1 + Real.exp ((![1, -1] : Fin 2 → ℝ) i * fit cvD.matrix v i))) / (2 : ℕ) -
      ∑ j, (Pen.enet (1 / 10) (1 / 2)).pull (v j)| ≤ 1 / 1000 * ∑ j, |v j| := by
  have hv : (Pen.enet (1 / 10) (1 / 2)).Valid := ⟨by norm_num, by norm_num, by norm_num⟩
  obtain ⟨N, h⟩ := stops_exists two_pos cvD trivial ![1, -1] .logistic (by intro i; fin_cases i <;> simp) (.enet (1 / 10) (1 / 2)) hv trivial
    (by norm_num [Pen.fn, enet]) (1 / 1000) (by norm_num)
  obtain ⟨v, h1⟩ := h 1 one_pos
  exact ⟨N, v, h1, C93_margins argsortIns_spec two_pos cvD _ _ hv (by intro; simp) _ (1 / 1000) rfl v h1⟩

-- multi-task Lasso
example : ∃ (N : ℕ) (V : Fin 2 → Euc 2),
    StopsMT argsortIns ⟨1, N, 50, XR.fin (1 / 1000), 5, false, true⟩ dupD ![![1, 2], ![0, -1]] (.l21 (1 / 10)) V ∧ ∑ j, ‖V j‖ ≤ 15 ∧
    |(∑ i, ∑ t, fitMT dupD.matrix (fun j => (V j).ofLp) i t * (![![1, 2], ![0, -1]] i t - fitMT dupD.matrix (fun j => (V j).ofLp) i t)) / (2 : ℕ) -
      ∑ j, (BPen.l21 (1 / 10)).pull (V j)| ≤ 1 / 1000 * ∑ j, ‖V j‖ := by
  obtain ⟨N, h⟩ := stopsMT_exists two_pos dupD trivial ![![1, 2], ![0, -1]] (1 / 10) (by norm_num) (1 / 1000) (by norm_num)
  obtain ⟨V, h1⟩ := h 1 one_pos
  have hv : (BPen.l21 (1 / 10)).Valid := by norm_num [BPen.Valid]
  refine ⟨N, V, h1, ?_, C93_shrinkage_mt argsortIns_spec two_pos dupD _ _ hv trivial _ (1 / 1000) rfl V h1⟩
  refine (C93_size_mt argsortIns_spec two_pos dupD trivial _ (1 / 10) (by norm_num) _ V h1.1).trans ?_
  norm_num [Fin.sum_univ_two]

end Sglm
