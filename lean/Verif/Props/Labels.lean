import Verif.Spec.Labels
import Verif.Props.Statistics
import Verif.Props.Converge

/-!
# C106: the labels 0 and 1 in logistic regression

Exact arithmetic.  The documentation of the logistic datafit speaks of classification tasks and does not say how the two classes are to be
encoded.  The labels `0` and `1` are accepted; the samples of the class `0` are then ignored.
-/

namespace Sglm
open Scalar Spec
variable {n p m : ℕ}

/-- **Claim** (what a user who passes labels `0` and `1` expects): the result solves, up to the tolerance, the classification problem.
False of the code. -/
def C106_full : Prop :=
  ∀ (n p : ℕ) (D : Design n p) (y : Fin n → ℝ) (α τ : ℝ) (srt : Argsort XR) (cfg : Solver XR) (v : Fin p → ℝ), 0 < n → 0 < α → D.Canonical →
    ArgsortSpec srt → cfg.tolerance = XR.fin τ → ZeroOne y → Stops srt cfg D y .logistic (.l1 α) v →
    ∀ w, objective1 D (signed y) .logistic (.l1 α) v ≤ objective1 D (signed y) .logistic (.l1 α) w + τ * ∑ j, |v j - w j|

/-- The witness: one constant feature, one sample of each class. -/
noncomputable def labD : Design 2 1 := .dense fun _ _ => 1

theorem labD_objective (a b α : ℝ) (w : Fin 1 → ℝ) : objective1 labD ![a, b] .logistic (.l1 α) w =
    (Real.log (1 + Real.exp (-(a * w 0))) + Real.log (1 + Real.exp (-(b * w 0)))) / 2 + α * |w 0| := by
  unfold objective1
  show logLoss _ _ + _ = _
  unfold logLoss
  have e : ∀ i, fit labD.matrix w i = w 0 := fun i => by
    unfold fit labD Design.matrix
    simp
  simp only [e, Fin.sum_univ_two, Fin.sum_univ_one]
  simp [Pen.fn]

/-- In the witness the constant feature is selected, though both classes are equally frequent. -/
theorem C106_selected {srt : Argsort XR} (hs : ArgsortSpec srt) (cfg : Solver XR) (ht : cfg.tolerance = XR.fin (1 / 100)) (v : Fin 1 → ℝ)
    (h : Stops srt cfg labD ![0, 1] .logistic (.l1 (1 / 8)) v) : v 0 ≠ 0 := by
  intro h0
  have h1 := (stops_cert hs two_pos (show (Pen.l1 (1 / 8)).Valid by norm_num [Pen.Valid]) trivial ht h).2 fun _ => 1
  rw [labD_objective, labD_objective, Fin.sum_univ_one, h0] at h1
  norm_num at h1
  have e1 : Real.exp (-1) < 0.37 := by
    have := Real.exp_neg_one_lt_d9
    linarith
  have e2 : 0 < Real.exp (-1) := Real.exp_pos _
  have e3 := Real.log_le_sub_one_of_pos (x := (1 + Real.exp (-1)) / 2) (by positivity)
  rw [Real.log_div (by positivity) (by norm_num)] at e3
  linarith

theorem C106_false : ¬ C106_full := by
  intro h
  have hy : ZeroOne (![0, 1] : Fin 2 → ℝ) := fun i => by fin_cases i <;> simp
  obtain ⟨N, hN⟩ := stops_exists two_pos labD trivial (![0, 1] : Fin 2 → ℝ) .logistic
    (fun i => by fin_cases i <;> simp) (.l1 (1 / 8)) (by norm_num [Pen.Valid]) trivial (by norm_num [Pen.fn]) (1 / 100) (by norm_num)
  obtain ⟨v, hv⟩ := hN 10 (by norm_num)
  have h0 := C106_selected argsortIns_spec _ rfl v hv
  have h1 := h 2 1 labD _ (1 / 8) (1 / 100) _ _ v two_pos (by norm_num) trivial argsortIns_spec rfl hy hv fun _ => 0
  have es : signed (![0, 1] : Fin 2 → ℝ) = ![-1, 1] := by
    funext i
    fin_cases i <;> norm_num [signed]
  rw [es, labD_objective, labD_objective, Fin.sum_univ_one] at h1
  have h2 : 0 < |v 0| := abs_pos.mpr h0
  have h3 : Real.log 2 + Real.log 2 ≤ Real.log (1 + Real.exp (v 0)) + Real.log (1 + Real.exp (-(v 0))) := by
    rw [← Real.log_mul (by norm_num) (by norm_num), ← Real.log_mul (by positivity) (by positivity)]
    refine Real.log_le_log (by norm_num) ?_
    have e : Real.exp (v 0) * Real.exp (-(v 0)) = 1 := by rw [← Real.exp_add]; simp
    nlinarith [sq_nonneg (Real.exp (v 0) - Real.exp (-(v 0))), Real.exp_pos (v 0), Real.exp_pos (-(v 0))]
  norm_num at h1
  linarith

/-- **Partial**: with the labels `-1` and `1` the claim holds; that is, a user with labels `0` and `1` has to pass `2 y - 1`. -/
theorem C106_partial {srt : Argsort XR} (hs : ArgsortSpec srt) (hn : 0 < n) (D : Design n p) (y : Fin n → ℝ) (pen : Pen) (hv : pen.Valid)
    (hc : pen.Convex) (cfg : Solver XR) (τ : ℝ) (ht : cfg.tolerance = XR.fin τ) (v : Fin p → ℝ)
    (h : Stops srt cfg D (signed y) .logistic pen v) (w : Fin p → ℝ) :
    objective1 D (signed y) .logistic pen v ≤ objective1 D (signed y) .logistic pen w + τ * ∑ j, |v j - w j| := by
  have := (stops_cert hs hn hv hc ht h).2 w
  linarith

/-- **Samples with the label zero are ignored**: the result is as good for any other data which differ in such samples only. -/
theorem C106_ignored {srt : Argsort XR} (hs : ArgsortSpec srt) (hn : 0 < n) (D D' : Design n p) (y : Fin n → ℝ)
    (hD : ∀ i, y i ≠ 0 → ∀ j, D'.matrix i j = D.matrix i j) (pen : Pen) (hv : pen.Valid) (hc : pen.Convex) (cfg : Solver XR) (τ : ℝ)
    (ht : cfg.tolerance = XR.fin τ) (v : Fin p → ℝ) (h : Stops srt cfg D y .logistic pen v) (w : Fin p → ℝ) :
    objective1 D' y .logistic pen v ≤ objective1 D' y .logistic pen w + τ * ∑ j, |v j - w j| := by
  have e : ∀ u, objective1 D' y .logistic pen u = objective1 D y .logistic pen u := fun u => by
    unfold objective1
    congr 1
    show logLoss _ _ = logLoss _ _
    unfold logLoss
    congr 1
    refine Finset.sum_congr rfl fun i _ => ?_
    by_cases hi : y i = 0
    · rw [hi, zero_mul, zero_mul]
    · unfold fit
      simp only [hD i hi]
  have := (stops_cert hs hn hv hc ht h).2 w
  rw [e, e]
  linarith

/-- The objective without the samples of label zero. -/
theorem C106_objective (D : Design n p) (D' : Design m p) (y : Fin n → ℝ) (e : Fin m → Fin n) (he : Listed y e) (hm : 0 < m)
    (hD : ∀ l j, D'.matrix l j = D.matrix (e l) j) (α : ℝ) (w : Fin p → ℝ) :
    n * objective1 D y .logistic (.l1 α) w =
      m * objective1 D' (fun l => y (e l)) .logistic (.l1 (α * n / m)) w + (n - m) * Real.log 2 := by
  have hn : 0 < n := lt_of_le_of_lt (Nat.zero_le _) (e ⟨0, hm⟩).2
  have hn' : (n : ℝ) ≠ 0 := by positivity
  have hm' : (m : ℝ) ≠ 0 := by positivity
  unfold objective1
  show n * (logLoss _ _ + _) = m * (logLoss _ _ + _) + _
  unfold logLoss
  have e1 : ∀ (k : ℕ) (a b : ℝ), (k : ℝ) ≠ 0 → k * (a / k + b) = a + k * b := fun k a b hk => by field_simp
  rw [e1 n _ _ hn', e1 m _ _ hm']
  have e2 : m * ∑ j, (Pen.l1 (α * n / m)).fn (w j) = n * ∑ j, (Pen.l1 α).fn (w j) := by
    rw [Finset.mul_sum, Finset.mul_sum]
    refine Finset.sum_congr rfl fun j _ => ?_
    show m * (α * n / m * |w j|) = n * (α * |w j|)
    field_simp
  have e3 : ∑ i, Real.log (1 + Real.exp (-(y i * fit D.matrix w i))) =
      ∑ l, Real.log (1 + Real.exp (-(y (e l) * fit D'.matrix w l))) + (n - m) * Real.log 2 := by
    classical
    have hfit : ∀ l, fit D'.matrix w l = fit D.matrix w (e l) := fun l => by
      unfold fit
      simp only [hD]
    simp only [hfit]
    rw [← Finset.sum_filter_add_sum_filter_not Finset.univ (fun i => y i ≠ 0)]
    have hF : Finset.univ.filter (fun i => y i ≠ 0) = Finset.univ.image e := by
      ext i
      simp only [Finset.mem_filter, Finset.mem_univ, true_and, Finset.mem_image]
      exact he.2 i
    have hcard : (Finset.univ.filter (fun i => ¬ y i ≠ 0)).card = n - m := by
      have h1 := Finset.card_filter_add_card_filter_not (s := (Finset.univ : Finset (Fin n))) (fun i => y i ≠ 0)
      rw [hF, Finset.card_image_of_injective _ he.1, Finset.card_univ, Finset.card_univ, Fintype.card_fin, Fintype.card_fin] at h1
      omega
    have hmn : m ≤ n := by simpa using Fintype.card_le_of_injective e he.1
    congr 1
    · rw [hF, Finset.sum_image fun a _ b _ h => he.1 h]
    · rw [Finset.sum_congr rfl (g := fun _ => Real.log 2), Finset.sum_const, hcard, nsmul_eq_mul, Nat.cast_sub hmn]
      intro i hi
      have : y i = 0 := by
        have := (Finset.mem_filter.mp hi).2
        push Not at this
        exact this
      rw [this, zero_mul, neg_zero, Real.exp_zero]
      norm_num
  rw [e3, e2]
  ring

/-- **Zero labels act as if the samples had been removed**, with the regularisation and the tolerance multiplied by `n / m`, where `m` samples
remain. -/
theorem C106_removed {srt : Argsort XR} (hs : ArgsortSpec srt) (D : Design n p) (D' : Design m p) (y : Fin n → ℝ) (e : Fin m → Fin n)
    (he : Listed y e) (hm : 0 < m) (hD : ∀ l j, D'.matrix l j = D.matrix (e l) j) (α : ℝ) (hα : 0 ≤ α) (cfg : Solver XR) (τ : ℝ)
    (ht : cfg.tolerance = XR.fin τ) (v : Fin p → ℝ) (h : Stops srt cfg D y .logistic (.l1 α) v) (w : Fin p → ℝ) :
    objective1 D' (fun l => y (e l)) .logistic (.l1 (α * n / m)) v ≤
      objective1 D' (fun l => y (e l)) .logistic (.l1 (α * n / m)) w + τ * n / m * ∑ j, |v j - w j| := by
  have hn : 0 < n := lt_of_le_of_lt (Nat.zero_le _) (e ⟨0, hm⟩).2
  have hm' : (0 : ℝ) < m := by exact_mod_cast hm
  have hn' : (0 : ℝ) < n := by exact_mod_cast hn
  have h1 := (stops_cert hs hn (show (Pen.l1 α).Valid from hα) trivial ht h).2 w
  have h2 := C106_objective D D' y e he hm hD α v
  have h3 := C106_objective D D' y e he hm hD α w
  have h4 := mul_le_mul_of_nonneg_left h1 hn'.le
  rw [mul_sub, h2, h3] at h4
  rw [← mul_le_mul_iff_right₀ hm', mul_add]
  have e5 : m * (τ * n / m * ∑ j, |v j - w j|) = n * (τ * ∑ j, |v j - w j|) := by field_simp
  rw [e5]
  linarith

/-- **The class `0` is never predicted** with nonnegative features: if the tolerance is below `α`, no coefficient is negative, and so no linear
predictor of any sample with nonnegative features is. -/
theorem C106_never_zero {srt : Argsort XR} (hs : ArgsortSpec srt) (hn : 0 < n) (D : Design n p) (hX : ∀ i j, 0 ≤ D.matrix i j) (y : Fin n → ℝ)
    (hy : ZeroOne y) (α : ℝ) (cfg : Solver XR) (τ : ℝ) (ht : cfg.tolerance = XR.fin τ) (h0 : 0 ≤ τ) (hτ : τ < α) (v : Fin p → ℝ)
    (h : Stops srt cfg D y .logistic (.l1 α) v) : (∀ j, 0 ≤ v j) ∧ ∀ x : Fin p → ℝ, (∀ j, 0 ≤ x j) → 0 ≤ ∑ j, x j * v j := by
  have key : ∀ j, 0 ≤ v j := by
    intro j
    by_contra hj
    push Not at hj
    have h1 := (stops_cert hs hn (show (Pen.l1 α).Valid from h0.trans hτ.le) trivial ht h).2 (Function.update v j 0)
    have e1 : ∑ l, |v l - Function.update v j 0 l| = |v j| := by
      rw [Finset.sum_eq_single j (fun l _ hl => by rw [Function.update_of_ne hl, sub_self, abs_zero]) (fun h => absurd (Finset.mem_univ _) h),
        Function.update_self, sub_zero]
    have e2 : ∑ l, (Pen.l1 α).fn (v l) - ∑ l, (Pen.l1 α).fn (Function.update v j 0 l) = α * |v j| := by
      rw [← Finset.sum_sub_distrib, Finset.sum_eq_single j
        (fun l _ hl => by rw [Function.update_of_ne hl, sub_self]) (fun h => absurd (Finset.mem_univ _) h), Function.update_self]
      show α * |v j| - α * |0| = _
      rw [abs_zero, mul_zero, sub_zero]
    have e3 : logLoss y (fit D.matrix (Function.update v j 0)) ≤ logLoss y (fit D.matrix v) := by
      unfold logLoss
      refine div_le_div_of_nonneg_right (Finset.sum_le_sum fun i _ => ?_) (Nat.cast_nonneg n)
      refine Real.log_le_log (by positivity) ?_
      have hf : fit D.matrix v i ≤ fit D.matrix (Function.update v j 0) i := by
        unfold fit
        refine Finset.sum_le_sum fun l _ => mul_le_mul_of_nonneg_left ?_ (hX i l)
        by_cases hl : l = j
        · subst hl
          rw [Function.update_self]; exact hj.le
        · rw [Function.update_of_ne hl]
      have hy0 : 0 ≤ y i := by rcases hy i with h | h <;> rw [h]; exact zero_le_one
      have := mul_le_mul_of_nonneg_left hf hy0
      have := Real.exp_le_exp.mpr (neg_le_neg this)
      linarith
    have e4 : objective1 D y .logistic (.l1 α) v - objective1 D y .logistic (.l1 α) (Function.update v j 0) ≥ α * |v j| := by
      unfold objective1
      show logLoss _ _ + _ - (logLoss _ _ + _) ≥ _
      linarith
    rw [e1] at h1
    have h5 : 0 < |v j| := abs_pos.mpr hj.ne
    nlinarith
  exact ⟨key, fun x hx => Finset.sum_nonneg fun j _ => mul_nonneg (hx j) (key j)⟩

/-! ## Examples -/

-- a call on the witness which stops early; the result predicts the class 1 for every sample, of either class
example : ∃ (N : ℕ) (v : Fin 1 → ℝ),
    Stops argsortIns ⟨10, N, 50, XR.fin (1 / 100), 5, false, true⟩ labD ![0, 1] .logistic (.l1 (1 / 8)) v ∧
    (∀ i, 0 < fit labD.matrix v i) ∧ ∀ i, 0 ≤ labD.matrix i 0 := by
  have hp : ∀ (i : Fin 2) (j : Fin 1), 0 ≤ labD.matrix i j := fun _ _ => zero_le_one
  have hy : ZeroOne (![0, 1] : Fin 2 → ℝ) := fun i => by fin_cases i <;> simp
  obtain ⟨N, hN⟩ := stops_exists two_pos labD trivial (![0, 1] : Fin 2 → ℝ) .logistic
    (fun i => by fin_cases i <;> simp) (.l1 (1 / 8)) (by norm_num [Pen.Valid]) trivial (by norm_num [Pen.fn]) (1 / 100) (by norm_num)
  obtain ⟨v, hv⟩ := hN 10 (by norm_num)
  refine ⟨N, v, hv, fun i => ?_, fun i => hp i 0⟩
  have h1 := (C106_never_zero argsortIns_spec two_pos labD hp _ hy (1 / 8) _ (1 / 100) rfl (by norm_num) (by norm_num) v hv).1 0
  have h2 := C106_selected argsortIns_spec _ rfl v hv
  unfold fit labD Design.matrix
  simpa using lt_of_le_of_ne h1 (Ne.symm h2)

-- the same call solves the problem of the sample with label 1 alone, with twice the regularisation and tolerance
example : Listed (![0, 1] : Fin 2 → ℝ) (fun _ : Fin 1 => (1 : Fin 2)) ∧
    ∀ (l j : Fin 1), (Design.dense fun _ _ => 1 : Design 1 1).matrix l j = labD.matrix 1 j := by
  refine ⟨⟨fun a b _ => Subsingleton.elim a b, fun i => ?_⟩, fun _ _ => rfl⟩
  fin_cases i <;> simp

-- other data for the ignored sample
example : ∀ i : Fin 2, (![0, 1] : Fin 2 → ℝ) i ≠ 0 → ∀ j : Fin 1,
    (Design.dense fun i _ => if i = 0 then -50 else 1 : Design 2 1).matrix i j = labD.matrix i j := by
  intro i hi j
  fin_cases i
  · exact absurd rfl hi
  · show (if (1 : Fin 2) = 0 then (-50 : ℝ) else 1) = 1
    simp

end Sglm
