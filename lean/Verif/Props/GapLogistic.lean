import Verif.Proofs.GapLogistic
import Verif.Props.Gap

/-!
# C108: the duality gap of logistic regression

Labels in `[-1, 1]`; L1 and elastic-net penalties.
-/

namespace Sglm
open Scalar Spec
variable {n p : ℕ}

/-- The duality gap bounds the distance to the minimum, whatever the coefficients. -/
theorem C108_weak (D : Design n p) (y : Fin n → ℝ) (pen : Pen) (hv : pen.Valid) (hc : pen.Convex) (u w : Fin p → ℝ) :
    objective1 D y .logistic pen u ≤ objective1 D y .logistic pen w + dualityGapLog D y pen.slope pen.modulus u := gapLog_weak D y hv hc u w

/-- **The duality gap of the result** of a call which stops early: at most `2 log 2 * tolerance / alpha`, independent of the data. -/
theorem C108_gap {srt : Argsort XR} (hs : ArgsortSpec srt) (hn : 0 < n) (D : Design n p) (hD : D.Canonical) (y : Fin n → ℝ)
    (hy : ∀ i, |y i| ≤ 1) (pen : Pen) (hv : pen.Valid) (hc : pen.Convex) (ha : 0 < pen.slope) (cfg : Solver XR) (τ : ℝ) (hτ : 0 ≤ τ)
    (ht : cfg.tolerance = XR.fin τ) (v : Fin p → ℝ) (h : Stops srt cfg D y .logistic pen v) :
    dualityGapLog D y pen.slope pen.modulus v ≤ 2 * τ / pen.slope * Real.log 2 := by
  have hst : pen.StepOK D .logistic := by cases pen <;> trivial
  refine gapLog_le D y hv hc ha hτ (C93_log_loss hs hn D hD y hy pen hv hst cfg v h.1) fun j => ?_
  rw [errorCorr_grad]
  exact corr_of_score hv hc (stops_scores hs hn hv ht h j)

/-- **Floating point**: the same for the values of the computed coefficients, up to an error which is small if the precision is high. -/
theorem C108_float (hn : 0 < n) (hp : 0 < p) (D : Design n p) (hD : D.Canonical) (y : Fin n → ℝ) (hy : ∀ i, |y i| ≤ 1) (pen : Pen)
    (hv : pen.Valid) (hc : pen.Convex) (ha : 0 < pen.slope) (τ : ℝ) (hτ : 0 < τ) :
    InFloat D y .logistic pen τ fun ε v => dualityGapLog D y pen.slope pen.modulus v ≤ 2 * (τ + ε) / pen.slope * (Real.log 2 + ε) :=
  inFloat_of hn hp D hD y .logistic hy pen hv hc (slope_one ha fun z => slope_le hv hc z) τ hτ fun _ hε _ h1 h2 => by
    have e : objective1 D y .logistic pen 0 = Real.log 2 := objective1_zero_log hn D y pen (pen_zero_of hc)
    rw [e] at h1
    exact gapLog_le D y hv hc ha (by linarith) h1 (errorCorr_of_cert D y hy hv hc h2)

/-- **Agreement with any other solver**: the objectives differ by at most the two duality gaps. -/
theorem C108_agree {srt : Argsort XR} (hs : ArgsortSpec srt) (hn : 0 < n) (D : Design n p) (hD : D.Canonical) (y : Fin n → ℝ)
    (hy : ∀ i, |y i| ≤ 1) (pen : Pen) (hv : pen.Valid) (hc : pen.Convex) (ha : 0 < pen.slope) (cfg : Solver XR) (τ : ℝ) (hτ : 0 ≤ τ)
    (ht : cfg.tolerance = XR.fin τ) (v : Fin p → ℝ) (h : Stops srt cfg D y .logistic pen v) (u : Fin p → ℝ) (g : ℝ)
    (hu : dualityGapLog D y pen.slope pen.modulus u ≤ g) :
    objective1 D y .logistic pen v ≤ objective1 D y .logistic pen u + 2 * τ / pen.slope * Real.log 2 ∧
      objective1 D y .logistic pen u ≤ objective1 D y .logistic pen v + g := by
  have h1 := C108_weak D y pen hv hc v u
  have h2 := C108_weak D y pen hv hc u v
  have h3 := C108_gap hs hn D hD y hy pen hv hc ha cfg τ hτ ht v h
  constructor <;> linarith

/-! ## Examples -/

-- the zero coefficients of a balanced data set: gap zero, as `alpha` is above the largest correlation
example : dualityGapLog (.dense fun _ _ => 1 : Design 2 1) ![1, -1] 1 0 0 = 0 := by
  have hf : ∀ i, fit (Design.matrix (.dense fun _ _ => 1 : Design 2 1)) 0 i = 0 := fun i => by simp [fit]
  have hq : ∀ i, errorProb (.dense fun _ _ => 1 : Design 2 1) ![1, -1] 0 i = 2⁻¹ := fun i => by
    unfold errorProb
    rw [hf, mul_zero, Real.exp_zero]
    norm_num
  have hc : ∀ j, errorCorr (.dense fun _ _ => 1 : Design 2 1) ![1, -1] 0 j = 0 := fun j => by
    unfold errorCorr
    simp only [hq, Fin.sum_univ_two]
    norm_num [Design.matrix]
  unfold dualityGapLog
  simp only [hc, hq, hf]
  have e : dualScale 1 (⨆ j : Fin 1, |(0 : ℝ) - 0 * (0 : Fin 1 → ℝ) j|) = 1 := if_neg (by simp)
  simp only [e, one_mul, Real.binEntropy_two_inv]
  norm_num

example : ∃ (N : ℕ) (v : Fin 1 → ℝ), Stops argsortIns ⟨1, N, 50, XR.fin (1 / 10 ^ 4), 5, false, true⟩
      (.dense fun i _ => (i.val : ℝ) + 1 : Design 2 1) ![1, -1] .logistic (.l1 (1 / 10)) v ∧
    dualityGapLog (.dense fun i _ => (i.val : ℝ) + 1 : Design 2 1) ![1, -1] (1 / 10) 0 v ≤ 2 / 10 ^ 3 := by
  have hv : (Pen.l1 (1 / 10)).Valid := by norm_num [Pen.Valid]
  have hy : ∀ i, |(![1, -1] : Fin 2 → ℝ) i| ≤ 1 := fun i => by fin_cases i <;> norm_num
  obtain ⟨N, h⟩ := stops_exists two_pos (.dense fun i _ => (i.val : ℝ) + 1 : Design 2 1) trivial ![1, -1] .logistic hy (.l1 (1 / 10)) hv trivial
    (by norm_num [Pen.fn]) (1 / 10 ^ 4) (by norm_num)
  obtain ⟨v, h⟩ := h 1 one_pos
  refine ⟨N, v, h, (C108_gap argsortIns_spec two_pos (.dense fun i _ => (i.val : ℝ) + 1 : Design 2 1) trivial _ hy (.l1 (1 / 10)) hv trivial (by norm_num [Pen.slope]) _ (1 / 10 ^ 4)
    (by norm_num) rfl v h).trans ?_⟩
  have := Real.log_two_lt_d9
  norm_num [Pen.slope]
  linarith

end Sglm
