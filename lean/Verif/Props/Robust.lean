import Verif.Spec.Robust
import Verif.Props.Calibration
import Verif.Props.Selection

/-!
# C119: predictions of new samples are robust

The predictions of two samples whose features differ by at most `δ` differ by at most `δ` times a constant of the training targets and
the strength alone.
-/

namespace Sglm
open Scalar Spec
variable {n p T : ℕ}

theorem near_predicted {δ B : ℝ} {x x' w : Fin p → ℝ} (hx : Near δ x x') (hδ : 0 ≤ δ) (hw : ∑ j, |w j| ≤ B) :
    |predicted w x - predicted w x'| ≤ δ * B := by
  have e : predicted w x - predicted w x' = ∑ j, (x j - x' j) * w j := by
    unfold predicted
    rw [← Finset.sum_sub_distrib]
    exact Finset.sum_congr rfl fun j _ => by ring
  rw [e]
  refine ((Finset.abs_sum_le_sum_abs _ _).trans ?_).trans (mul_le_mul_of_nonneg_left hw hδ)
  rw [Finset.mul_sum]
  refine Finset.sum_le_sum fun j _ => ?_
  rw [abs_mul]
  exact mul_le_mul_of_nonneg_right (hx j) (abs_nonneg _)

theorem near_predictedMT {δ B : ℝ} {x x' : Fin p → ℝ} {W : Fin p → Euc T} (hx : Near δ x x') (hδ : 0 ≤ δ) (hw : ∑ j, ‖W j‖ ≤ B) :
    ‖predictedMT W x - predictedMT W x'‖ ≤ δ * B := by
  have e : predictedMT W x - predictedMT W x' = ∑ j, (x j - x' j) • W j := by
    unfold predictedMT
    rw [← Finset.sum_sub_distrib]
    exact Finset.sum_congr rfl fun j _ => (sub_smul _ _ _).symm
  rw [e]
  refine ((norm_sum_le _ _).trans ?_).trans (mul_le_mul_of_nonneg_left hw hδ)
  rw [Finset.mul_sum]
  refine Finset.sum_le_sum fun j _ => ?_
  rw [norm_smul]
  exact mul_le_mul_of_nonneg_right (hx j) (norm_nonneg _)

/-- **Least squares** (`κ`: strength of the `l1` part), at any iteration limit. -/
theorem C119_predictions {srt : Argsort XR} (hs : ArgsortSpec srt) (hn : 0 < n) (D : Design n p) (hD : D.Canonical)
    (y : Fin n → ℝ) (pen : Pen) (hv : pen.Valid) (hc : pen.Convex) (κ : ℝ) (hκ0 : 0 < κ) (hκ : ∀ z, κ * |z| ≤ pen.fn z)
    (cfg : Solver XR) (v : Fin p → ℝ) (hr : solve1 srt cfg D y .quadratic pen = .ok (vec v)) (δ : ℝ) (hδ : 0 ≤ δ) (x x' : Fin p → ℝ)
    (hx : Near δ x x') : |predicted v x - predicted v x'| ≤ δ * ((∑ i, y i ^ 2) / (2 * n * κ)) :=
  near_predicted hx hδ (C93_size hs hn D hD y pen hv hc κ hκ0 hκ cfg v hr)

/-- **Logistic regression**: the linear predictor changes by at most `δ log 2 / κ`. -/
theorem C119_logistic {srt : Argsort XR} (hs : ArgsortSpec srt) (hn : 0 < n) (D : Design n p) (hD : D.Canonical)
    (y : Fin n → ℝ) (hy : ∀ i, |y i| ≤ 1) (pen : Pen) (hv : pen.Valid) (hc : pen.Convex) (κ : ℝ) (hκ0 : 0 < κ)
    (hκ : ∀ z, κ * |z| ≤ pen.fn z) (cfg : Solver XR) (v : Fin p → ℝ) (hr : solve1 srt cfg D y .logistic pen = .ok (vec v)) (δ : ℝ)
    (hδ : 0 ≤ δ) (x x' : Fin p → ℝ) (hx : Near δ x x') : |predicted v x - predicted v x'| ≤ δ * (Real.log 2 / κ) :=
  near_predicted hx hδ (C93_size_log hs hn D hD y hy pen hv hc κ hκ0 hκ cfg v hr)

/-- **The predicted class** does not change if its margin is larger than that. -/
theorem C119_class {srt : Argsort XR} (hs : ArgsortSpec srt) (hn : 0 < n) (D : Design n p) (hD : D.Canonical)
    (y : Fin n → ℝ) (hy : ∀ i, |y i| ≤ 1) (pen : Pen) (hv : pen.Valid) (hc : pen.Convex) (κ : ℝ) (hκ0 : 0 < κ)
    (hκ : ∀ z, κ * |z| ≤ pen.fn z) (cfg : Solver XR) (v : Fin p → ℝ) (hr : solve1 srt cfg D y .logistic pen = .ok (vec v)) (δ : ℝ)
    (hδ : 0 ≤ δ) (x x' : Fin p → ℝ) (hx : Near δ x x') (hm : δ * (Real.log 2 / κ) < |predicted v x|) :
    0 < predicted v x * predicted v x' := by
  have a := abs_le.mp (C119_logistic hs hn D hD y hy pen hv hc κ hκ0 hκ cfg v hr δ hδ x x' hx)
  rcases le_or_gt 0 (predicted v x) with h | h
  · rw [abs_of_nonneg h] at hm
    have h0 : 0 ≤ δ * (Real.log 2 / κ) := mul_nonneg hδ (div_nonneg (Real.log_nonneg one_le_two) hκ0.le)
    exact mul_pos (by linarith) (by linarith)
  · rw [abs_of_neg h] at hm
    exact mul_pos_of_neg_of_neg h (by linarith)

/-- **Multi-task Lasso.** -/
theorem C119_mt {srt : Argsort XR} (hs : ArgsortSpec srt) (hn : 0 < n) (D : Design n p) (hD : D.Canonical)
    (Y : Fin n → Fin T → ℝ) (α : ℝ) (hα : 0 < α) (cfg : Solver XR) (V : Fin p → Euc T)
    (hr : solveMT srt cfg D Y (.l21 α) = .ok (emat V)) (δ : ℝ) (hδ : 0 ≤ δ) (x x' : Fin p → ℝ) (hx : Near δ x x') :
    ‖predictedMT V x - predictedMT V x'‖ ≤ δ * ((∑ i, ∑ t, Y i t ^ 2) / (2 * n * α)) :=
  near_predictedMT hx hδ (C93_size_mt hs hn D hD Y α hα cfg V hr)

/-- **Floating point**: the constant is increased by `ε / κ`. -/
theorem C119_float (hn : 0 < n) (hp : 0 < p) (D : Design n p) (hD : D.Canonical) (y : Fin n → ℝ) (pen : Pen) (hv : pen.Valid)
    (hc : pen.Convex) (κ : ℝ) (hκ0 : 0 < κ) (hκ : ∀ z, κ * |z| ≤ pen.fn z) (τ : ℝ) (hτ : 0 < τ) :
    InFloat D y .quadratic pen τ fun ε v => ∀ δ, 0 ≤ δ → ∀ x x', Near δ x x' →
      |predicted v x - predicted v x'| ≤ δ * (((∑ i, y i ^ 2) / (2 * n) + ε) / κ) := by
  refine inFloat_of hn hp D hD y .quadratic trivial pen hv hc (slope_one hκ0 hκ) τ hτ fun ε _ v h1 _ δ hδ x x' hx => ?_
  have h2 := size_of_objective (D := D) (y := y) (k := .quadratic) hκ0 hκ (show objective1 D y .quadratic pen v ≤ objective1 D y .quadratic pen (fun _ => 0) + ε from h1)
  rw [objective1_zero D y pen (pen_zero_of hc)] at h2
  exact near_predicted hx hδ h2

theorem C119_float_logistic (hn : 0 < n) (hp : 0 < p) (D : Design n p) (hD : D.Canonical) (y : Fin n → ℝ) (hy : ∀ i, |y i| ≤ 1) (pen : Pen)
    (hv : pen.Valid) (hc : pen.Convex) (κ : ℝ) (hκ0 : 0 < κ) (hκ : ∀ z, κ * |z| ≤ pen.fn z) (τ : ℝ) (hτ : 0 < τ) :
    InFloat D y .logistic pen τ fun ε v => ∀ δ, 0 ≤ δ → ∀ x x', Near δ x x' →
      |predicted v x - predicted v x'| ≤ δ * ((Real.log 2 + ε) / κ) := by
  refine inFloat_of hn hp D hD y .logistic hy pen hv hc (slope_one hκ0 hκ) τ hτ fun ε _ v h1 _ δ hδ x x' hx => ?_
  have h2 := size_of_objective (D := D) (y := y) (k := .logistic) hκ0 hκ (show objective1 D y .logistic pen v ≤ objective1 D y .logistic pen (fun _ => 0) + ε from h1)
  rw [objective1_zero_log hn D y pen (pen_zero_of hc)] at h2
  exact near_predicted hx hδ h2

/-! ## Example -/

-- one feature changed by 1/10
theorem near_pair : Near (1 / 10) ![1, 2] ![1, 21 / 10] := fun j => by fin_cases j <;> norm_num [abs_le]

example : ∃ (N : ℕ) (v : Fin 2 → ℝ), solve1 argsortIns ⟨1, N, 50, XR.fin (1 / 100), 5, false, true⟩ idD ![4, 3] .quadratic (.l1 1) = .ok (vec v) ∧
    |predicted v ![1, 2] - predicted v ![1, 21 / 10]| ≤ 5 / 8 := by
  obtain ⟨N, h⟩ := stops_exists (n := 2) two_pos idD trivial ![4, 3] .quadratic trivial (.l1 1) (by norm_num [Pen.Valid]) trivial
    (by norm_num [Pen.fn]) (1 / 100) (by norm_num)
  obtain ⟨v, hv⟩ := h 1 one_pos
  refine ⟨N, v, hv.1, (C119_predictions argsortIns_spec two_pos idD trivial ![4, 3] (.l1 1) (by norm_num [Pen.Valid]) trivial 1 one_pos
    (pen_slope_l1 1) _ v hv.1 (1 / 10) (by norm_num) _ _ near_pair).trans ?_⟩
  rw [Fin.sum_univ_two]
  norm_num

example : ∃ (N : ℕ) (v : Fin 2 → ℝ), solve1 argsortIns ⟨1, N, 50, XR.fin (1 / 100), 5, false, true⟩ idD ![1, -1] .logistic (.l1 (1 / 10)) = .ok (vec v) ∧
    |predicted v ![1, 2] - predicted v ![1, 21 / 10]| ≤ 7 / 10 ∧
    (7 / 10 < |predicted v ![1, 2]| → 0 < predicted v ![1, 2] * predicted v ![1, 21 / 10]) := by
  have hy : ∀ i, |(![1, -1] : Fin 2 → ℝ) i| ≤ 1 := fun i => by fin_cases i <;> norm_num
  have hv : (Pen.l1 (1 / 10)).Valid := by norm_num [Pen.Valid]
  obtain ⟨N, h⟩ := stops_exists (n := 2) two_pos idD trivial ![1, -1] .logistic hy (.l1 (1 / 10)) hv trivial
    (by norm_num [Pen.fn]) (1 / 100) (by norm_num)
  obtain ⟨v, hr⟩ := h 1 one_pos
  have e : (1 / 10 : ℝ) * (Real.log 2 / (1 / 10)) ≤ 7 / 10 := by
    have := Real.log_two_lt_d9
    norm_num
    linarith
  refine ⟨N, v, hr.1, (C119_logistic argsortIns_spec two_pos idD trivial ![1, -1] hy (.l1 (1 / 10)) hv trivial (1 / 10) (by norm_num)
    (pen_slope_l1 _) _ v hr.1 (1 / 10) (by norm_num) _ _ near_pair).trans e, fun hm => ?_⟩
  exact C119_class argsortIns_spec two_pos idD trivial ![1, -1] hy (.l1 (1 / 10)) hv trivial (1 / 10) (by norm_num)
    (pen_slope_l1 _) _ v hr.1 (1 / 10) (by norm_num) _ _ near_pair (lt_of_le_of_lt e hm)

-- two tasks
example : ∃ (N : ℕ) (V : Fin 2 → Euc 2), solveMT argsortIns ⟨1, N, 50, XR.fin (1 / 100), 5, false, true⟩ idD ![![4, 0], ![0, 1]] (.l21 1) =
    .ok (emat V) ∧ ‖predictedMT V ![1, 2] - predictedMT V ![1, 21 / 10]‖ ≤ 17 / 40 := by
  obtain ⟨N, h⟩ := stopsMT_exists two_pos idD trivial ![![4, 0], ![0, 1]] 1 one_pos (1 / 100) (by norm_num)
  obtain ⟨V, hV⟩ := h 1 one_pos
  refine ⟨N, V, hV.1, (C119_mt argsortIns_spec two_pos idD trivial _ 1 one_pos _ V hV.1 (1 / 10) (by norm_num) _ _ near_pair).trans ?_⟩
  rw [Fin.sum_univ_two, Fin.sum_univ_two, Fin.sum_univ_two]
  norm_num

-- floating point
example : InFloat idD ![4, 3] .quadratic (.l1 1) (1 / 100) fun ε v => ∀ δ, 0 ≤ δ → ∀ x x', Near δ x x' →
    |predicted v x - predicted v x'| ≤ δ * (((∑ i, (![4, 3] : Fin 2 → ℝ) i ^ 2) / (2 * ((2 : ℕ) : ℝ)) + ε) / 1) :=
  C119_float two_pos two_pos idD trivial ![4, 3] (.l1 1) (by norm_num [Pen.Valid]) trivial 1 one_pos (pen_slope_l1 1) (1 / 100) (by norm_num)

example : InFloat idD ![1, -1] .logistic (.l1 1) (1 / 100) fun ε v => ∀ δ, 0 ≤ δ → ∀ x x', Near δ x x' →
    |predicted v x - predicted v x'| ≤ δ * ((Real.log 2 + ε) / 1) :=
  C119_float_logistic two_pos two_pos idD trivial ![1, -1] (fun i => by fin_cases i <;> norm_num) (.l1 1) (by norm_num [Pen.Valid]) trivial 1
    one_pos (pen_slope_l1 1) (1 / 100) (by norm_num)

end Sglm
