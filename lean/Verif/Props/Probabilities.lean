import Verif.Proofs.Probabilities

/-!
# C97: logistic regression

The predicted probabilities are determined by the data up to the tolerance, even if the coefficients are not; so are the predicted
classes, the exact zeros, and the probabilities vary continuously with the strength of the penalty.
-/

namespace Sglm
open Scalar Spec
variable {n p : ℕ}

/-- **Probabilities do not depend on the settings**: two fits which stop before `max_iterations`, with whatever settings, ways to break
ties and storage formats, predict almost the same probabilities. -/
theorem C97_probabilities {srt srt' : Argsort XR} (hs : ArgsortSpec srt) (hs' : ArgsortSpec srt') (hn : 0 < n) (D D' : Design n p)
    (hD : D.Canonical) (hD' : D'.Canonical) (hDD : D'.matrix = D.matrix) (y : Fin n → ℝ) (hy : Binary y) (pen : Pen) (hv : pen.Valid)
    (hc : pen.Convex) (κ : ℝ) (hκ0 : 0 < κ) (hκ : ∀ z, κ * |z| ≤ pen.fn z) (cfg cfg' : Solver XR) (τ τ' : ℝ) (hτ : 0 ≤ τ)
    (hτ' : 0 ≤ τ') (ht : cfg.tolerance = XR.fin τ) (ht' : cfg'.tolerance = XR.fin τ') (v v' : Fin p → ℝ)
    (h : Stops srt cfg D y .logistic pen v) (h' : Stops srt' cfg' D' y .logistic pen v') :
    ∑ i, (probability (fit D.matrix v i) - probability (fit D.matrix v' i)) ^ 2 ≤ n * (τ + τ') * Real.log 2 / (2 * κ) := by
  have hst : ∀ D : Design n p, pen.StepOK D .logistic := fun D => by cases pen <;> trivial
  have e : objective1 D' y .logistic pen = objective1 D y .logistic pen := by funext u; unfold objective1; rw [hDD]
  have a := C28_result hs hn D hD y .logistic (binary_le hy) pen hv (hst D) cfg v h.1
  have a' := C28_result hs' hn D' hD' y .logistic (binary_le hy) pen hv (hst D') cfg' v' h'.1
  have c' := (stops_cert hs' hn hv hc ht' h').2
  rw [e] at a' c'
  have b := size_log (v := v) (ε := 0) hn hc hκ0 hκ (by rw [add_zero]; exact a)
  have b' := size_log (v := v') (ε := 0) hn hc hκ0 hκ (by rw [add_zero]; exact a')
  have c := cert_slopes hn (binary_le hy) hv hc (stops_cert hs hn hv hc ht h).2 c'
  rw [slope_sq_probability hy] at c
  refine c.trans ?_
  have d := sum_norm_sub_le v v'
  simp only [Real.norm_eq_abs] at d
  have g : ∑ j, |v j - v' j| ≤ 2 * Real.log 2 / κ := by
    refine d.trans ((add_le_add b b').trans (le_of_eq ?_))
    ring
  have f : n * (τ + τ') * Real.log 2 / (2 * κ) = n * ((τ + τ') * (2 * Real.log 2 / κ)) / 4 := by field_simp; ring
  rw [f]
  have := add_nonneg hτ hτ'
  gcongr

/-- **Distance to the probabilities of a minimiser.** -/
theorem C97_minimiser {srt : Argsort XR} (hs : ArgsortSpec srt) (hn : 0 < n) (D : Design n p) (hD : D.Canonical) (y : Fin n → ℝ)
    (hy : Binary y) (pen : Pen) (hv : pen.Valid) (hc : pen.Convex) (κ : ℝ) (hκ0 : 0 < κ) (hκ : ∀ z, κ * |z| ≤ pen.fn z) (cfg : Solver XR)
    (τ : ℝ) (hτ : 0 ≤ τ) (ht : cfg.tolerance = XR.fin τ) (v : Fin p → ℝ) (h : Stops srt cfg D y .logistic pen v)
    (w : Fin p → ℝ) (hw : ∀ u, objective1 D y .logistic pen w ≤ objective1 D y .logistic pen u) :
    ∑ i, (probability (fit D.matrix v i) - probability (fit D.matrix w i)) ^ 2 ≤ n * τ * Real.log 2 / (2 * κ) := by
  have hst : pen.StepOK D .logistic := by cases pen <;> trivial
  have := probabilities_min (ε := 0) hn hy hv hc hκ0 hκ hτ
    (by rw [add_zero]; exact C28_result hs hn D hD y .logistic (binary_le hy) pen hv hst cfg v h.1) (stops_cert hs hn hv hc ht h).2 hw
  refine this.trans (le_of_eq ?_)
  field_simp
  ring

/-- All minimisers make the same predictions. -/
theorem C97_unique (hn : 0 < n) (D : Design n p) (y : Fin n → ℝ) (hy : Binary y) (pen : Pen) (hv : pen.Valid) (hc : pen.Convex)
    (w w' : Fin p → ℝ) (hw : ∀ u, objective1 D y .logistic pen w ≤ objective1 D y .logistic pen u)
    (hw' : ∀ u, objective1 D y .logistic pen w' ≤ objective1 D y .logistic pen u) (i : Fin n) :
    fit D.matrix w i = fit D.matrix w' i := by
  have h := cert_slopes (τ := 0) (σ := 0) hn (binary_le hy) hv hc (fun u => by rw [zero_mul]; linarith [hw u])
    (fun u => by rw [zero_mul]; linarith [hw' u])
  rw [slope_sq_probability hy, add_zero, zero_mul, mul_zero, zero_div] at h
  have h1 : (probability (fit D.matrix w i) - probability (fit D.matrix w' i)) ^ 2 ≤ 0 :=
    (Finset.single_le_sum (f := fun i => (probability (fit D.matrix w i) - probability (fit D.matrix w' i)) ^ 2)
      (fun i _ => sq_nonneg _) (Finset.mem_univ i)).trans h
  have h2 := pow_eq_zero_iff (two_ne_zero) |>.mp (le_antisymm h1 (sq_nonneg _))
  exact probability_mono.injective (sub_eq_zero.mp h2)

theorem class_of_near {D : Design n p} {v w : Fin p → ℝ} {B : ℝ}
    (h : ∑ i, (probability (fit D.matrix v i) - probability (fit D.matrix w i)) ^ 2 ≤ B) (i : Fin n)
    (hi : B < (probability (fit D.matrix w i) - 1 / 2) ^ 2) : 0 < fit D.matrix v i * fit D.matrix w i := by
  have h1 : (probability (fit D.matrix v i) - probability (fit D.matrix w i)) ^ 2 ≤ B :=
    (Finset.single_le_sum (f := fun i => (probability (fit D.matrix v i) - probability (fit D.matrix w i)) ^ 2)
      (fun i _ => sq_nonneg _) (Finset.mem_univ i)).trans h
  have h2 := sq_lt_sq.mp (h1.trans_lt hi)
  obtain ⟨h3, h4⟩ := abs_lt.mp h2
  rcases lt_trichotomy (fit D.matrix w i) 0 with hw | hw | hw
  · have a := probability_mono hw
    rw [probability_zero] at a
    rw [abs_of_neg (by linarith)] at h3 h4
    have b : fit D.matrix v i < 0 := by
      refine probability_mono.lt_iff_lt.mp ?_
      rw [probability_zero]; linarith
    exact mul_pos_of_neg_of_neg b hw
  · rw [hw, probability_zero, sub_self] at hi
    have := (sq_nonneg _).trans h1
    norm_num at hi
    linarith
  · have a := probability_mono hw
    rw [probability_zero] at a
    rw [abs_of_pos (by linarith)] at h3 h4
    have b : 0 < fit D.matrix v i := by
      refine probability_mono.lt_iff_lt.mp ?_
      rw [probability_zero]; linarith
    exact mul_pos b hw

/-- **Predicted classes**: a sample which a minimiser does not find close to undecided is classified in the same way by every fit. -/
theorem C97_class {srt : Argsort XR} (hs : ArgsortSpec srt) (hn : 0 < n) (D : Design n p) (hD : D.Canonical) (y : Fin n → ℝ)
    (hy : Binary y) (pen : Pen) (hv : pen.Valid) (hc : pen.Convex) (κ : ℝ) (hκ0 : 0 < κ) (hκ : ∀ z, κ * |z| ≤ pen.fn z) (cfg : Solver XR)
    (τ : ℝ) (hτ : 0 ≤ τ) (ht : cfg.tolerance = XR.fin τ) (v : Fin p → ℝ) (h : Stops srt cfg D y .logistic pen v)
    (w : Fin p → ℝ) (hw : ∀ u, objective1 D y .logistic pen w ≤ objective1 D y .logistic pen u) (i : Fin n)
    (hi : n * τ * Real.log 2 / (2 * κ) < (probability (fit D.matrix w i) - 1 / 2) ^ 2) : 0 < fit D.matrix v i * fit D.matrix w i :=
  class_of_near (C97_minimiser hs hn D hD y hy pen hv hc κ hκ0 hκ cfg τ hτ ht v h w hw) i hi

/-- **Selected features** explain the labels, at least as much as the threshold minus the tolerance. -/
theorem C97_selected {srt : Argsort XR} (hs : ArgsortSpec srt) (hn : 0 < n) (D : Design n p) (y : Fin n → ℝ) (hy : Binary y)
    (pen : Pen) (hv : pen.Valid) (hc : pen.Convex) (cfg : Solver XR) (τ : ℝ) (ht : cfg.tolerance = XR.fin τ) (v : Fin p → ℝ)
    (h : Stops srt cfg D y .logistic pen v) (j : Fin p) (hj : v j ≠ 0) : pen.slope - τ ≤ |excess D y v j| :=
  selected_excess hn hy hv hc (stops_cert hs hn hv hc ht h).2 j hj

theorem zero_of_excess (hn : 0 < n) {D : Design n p} {y : Fin n → ℝ} (hy : Binary y) {pen : Pen} (hv : pen.Valid) (hc : pen.Convex)
    {τ B : ℝ} {v w : Fin p → ℝ} (h : ∀ u, objective1 D y .logistic pen v - objective1 D y .logistic pen u ≤ τ * ∑ j, |v j - u j|)
    (hB : ∑ i, (probability (fit D.matrix v i) - probability (fit D.matrix w i)) ^ 2 ≤ B) (j : Fin p)
    (hj : |excess D y w j| + Real.sqrt ((∑ i, D.matrix i j ^ 2) * B) / n + τ < pen.slope) : v j = 0 := by
  by_contra hne
  have a := selected_excess hn hy hv hc h j hne
  have b := excess_near hn D y v w j hB
  linarith

/-- **Exact zeros**: a feature which explains the labels less than the threshold, by a margin, gets a coefficient which is exactly zero,
whatever the settings. -/
theorem C97_zero {srt : Argsort XR} (hs : ArgsortSpec srt) (hn : 0 < n) (D : Design n p) (hD : D.Canonical) (y : Fin n → ℝ)
    (hy : Binary y) (pen : Pen) (hv : pen.Valid) (hc : pen.Convex) (hκ : 0 < pen.slope) (cfg : Solver XR) (τ : ℝ)
    (hτ : 0 ≤ τ) (ht : cfg.tolerance = XR.fin τ) (v : Fin p → ℝ) (h : Stops srt cfg D y .logistic pen v)
    (w : Fin p → ℝ) (hw : ∀ u, objective1 D y .logistic pen w ≤ objective1 D y .logistic pen u) (j : Fin p)
    (hj : |excess D y w j| + Real.sqrt ((∑ i, D.matrix i j ^ 2) * (n * τ * Real.log 2 / (2 * pen.slope))) / n + τ < pen.slope) : v j = 0 :=
  zero_of_excess hn hy hv hc (stops_cert hs hn hv hc ht h).2
    (C97_minimiser hs hn D hD y hy pen hv hc pen.slope hκ (slope_le hv hc) cfg τ hτ ht v h w hw) j hj

/-- **Probabilities depend continuously on the strength of the penalty.** -/
theorem C97_path {srt srt' : Argsort XR} (hs : ArgsortSpec srt) (hs' : ArgsortSpec srt') (hn : 0 < n) (D : Design n p)
    (hD : D.Canonical) (y : Fin n → ℝ) (hy : Binary y) (f : Family) (hf : f.Valid) (α α' : ℝ) (hα : 0 < α) (hα' : α ≤ α')
    (cfg cfg' : Solver XR) (τ τ' : ℝ) (hτ : 0 ≤ τ) (hτ' : 0 ≤ τ') (ht : cfg.tolerance = XR.fin τ) (ht' : cfg'.tolerance = XR.fin τ')
    (v v' : Fin p → ℝ) (h : Stops srt cfg D y .logistic (f.pen α) v) (h' : Stops srt' cfg' D y .logistic (f.pen α') v') :
    ∑ i, (probability (fit D.matrix v i) - probability (fit D.matrix v' i)) ^ 2 ≤
      n * ((τ + τ') / f.ratio + (α' - α) / 2) * Real.log 2 / (2 * α) := by
  have hn' : (0 : ℝ) < n := by exact_mod_cast hn
  have hα'0 : 0 < α' := hα.trans_le hα'
  have hr := Family.ratio_pos hf
  have hv := Family.valid hf hα
  have hv' := Family.valid hf hα'0
  have hst : ∀ α, (f.pen α).StepOK D .logistic := fun α => by cases f <;> trivial
  have o := C28_result hs hn D hD y .logistic (binary_le hy) _ hv (hst α) cfg v h.1
  have o' := C28_result hs' hn D hD y .logistic (binary_le hy) _ hv' (hst α') cfg' v' h'.1
  have b := size_log (v := v) (ε := 0) hn (Family.convex f α) (mul_pos hα hr) (Family.slope_le hf hα) (by rw [add_zero]; exact o)
  have b' := size_log (v := v') (ε := 0) hn (Family.convex f α') (mul_pos hα'0 hr) (Family.slope_le hf hα'0) (by rw [add_zero]; exact o')
  have c := cert_slope hn (binary_le hy) hv (Family.convex f α) (stops_cert hs hn hv (Family.convex f α) ht h).2 v'
  have c' := cert_slope hn (binary_le hy) hv' (Family.convex f α') (stops_cert hs' hn hv' (Family.convex f α') ht' h').2 v
  have d := linPart_coco hn D (binary_le hy) v v'
  rw [slope_sq_probability hy] at d
  have g : ∑ j, |v' j - v j| = ∑ j, |v j - v' j| := Finset.sum_congr rfl fun j _ => abs_sub_comm _ _
  rw [g] at c'
  simp only [Family.fn_eq, ← Finset.mul_sum] at c c'
  have e := sum_norm_sub_le v v'
  simp only [Real.norm_eq_abs] at e
  rw [Family.objective, objective1_zero_log hn D y _ (pen_zero_of (Family.convex f α))] at o
  have l0 := loss_nonneg y .logistic (fit D.matrix v)
  have hA0 : 0 ≤ ∑ j, f.size (v' j) := Finset.sum_nonneg fun j _ => Family.size_nonneg hf _
  obtain ⟨Q, hQ⟩ : ∃ Q, Q = ∑ i, (probability (fit D.matrix v i) - probability (fit D.matrix v' i)) ^ 2 := ⟨_, rfl⟩
  obtain ⟨S, hS⟩ : ∃ S, S = ∑ j, |v j - v' j| := ⟨_, rfl⟩
  obtain ⟨A, hA⟩ : ∃ A, A = ∑ j, f.size (v j) := ⟨_, rfl⟩
  obtain ⟨A', hA'⟩ : ∃ A', A' = ∑ j, f.size (v' j) := ⟨_, rfl⟩
  rw [← hS, ← hA, ← hA'] at c c'
  rw [← hS] at e
  rw [← hQ] at d
  rw [← hA] at o
  rw [← hA'] at hA0
  rw [← hQ]
  have l2 : 0 < Real.log 2 := Real.log_pos (by norm_num)
  have s1 : S ≤ 2 * Real.log 2 / (α * f.ratio) := by
    have : (Real.log 2 + 0) / (α' * f.ratio) ≤ (Real.log 2 + 0) / (α * f.ratio) := by
      rw [add_zero]; gcongr
    refine (e.trans (add_le_add b (b'.trans this))).trans (le_of_eq ?_)
    ring
  have s2 : A ≤ Real.log 2 / α := by
    rw [le_div_iff₀ hα]; linarith
  have s3 : 4 * Q / n ≤ (τ + τ') * S + (α' - α) * (A - A') := by linarith
  have s4 : (τ + τ') * S ≤ (τ + τ') * (2 * Real.log 2 / (α * f.ratio)) := mul_le_mul_of_nonneg_left s1 (by linarith)
  have s5 : (α' - α) * (A - A') ≤ (α' - α) * (Real.log 2 / α) := mul_le_mul_of_nonneg_left (by linarith) (by linarith)
  have s6 : 4 * Q / n ≤ (τ + τ') * (2 * Real.log 2 / (α * f.ratio)) + (α' - α) * (Real.log 2 / α) := by linarith
  rw [div_le_iff₀ hn'] at s6
  have s7 : n * ((τ + τ') / f.ratio + (α' - α) / 2) * Real.log 2 / (2 * α) =
      ((τ + τ') * (2 * Real.log 2 / (α * f.ratio)) + (α' - α) * (Real.log 2 / α)) * n / 4 := by
    field_simp; ring
  rw [s7]
  linarith

/-- **In floating point**: probabilities, classes and exact zeros. -/
theorem C97_float (hn : 0 < n) (hp : 0 < p) (D : Design n p) (hD : D.Canonical) (y : Fin n → ℝ) (hy : Binary y) (pen : Pen)
    (hv : pen.Valid) (hc : pen.Convex) (hκ : 0 < pen.slope) (τ : ℝ) (hτ : 0 < τ)
    (w : Fin p → ℝ) (hw : ∀ u, objective1 D y .logistic pen w ≤ objective1 D y .logistic pen u) :
    InFloat D y .logistic pen τ fun ε v =>
      ∑ i, (probability (fit D.matrix v i) - probability (fit D.matrix w i)) ^ 2 ≤ n * (τ + ε) * (2 * Real.log 2 + ε) / (4 * pen.slope) ∧
      (∀ i, n * (τ + ε) * (2 * Real.log 2 + ε) / (4 * pen.slope) < (probability (fit D.matrix w i) - 1 / 2) ^ 2 →
        0 < fit D.matrix v i * fit D.matrix w i) ∧
      (∀ j, |excess D y w j| + Real.sqrt ((∑ i, D.matrix i j ^ 2) * (n * (τ + ε) * (2 * Real.log 2 + ε) / (4 * pen.slope))) / n + (τ + ε) <
        pen.slope → v j = 0) :=
  inFloat_of hn hp D hD y .logistic (binary_le hy) pen hv hc (slope_one hκ (slope_le hv hc)) τ hτ fun _ hε _ h1 h2 =>
    have h3 := probabilities_min hn hy hv hc hκ (slope_le hv hc) (by linarith) h1 h2 hw
    ⟨h3, fun i hi => class_of_near h3 i hi, fun j hj => zero_of_excess hn hy hv hc h2 h3 j hj⟩

/-! ## Examples -/

theorem binary_example : Binary (![1, -1] : Fin 2 → ℝ) := by
  intro i
  fin_cases i
  · exact Or.inl rfl
  · exact Or.inr rfl

-- identical features, whose coefficients are not unique: working sets of size 1 and 2
example : ∃ (N N' : ℕ) (v v' : Fin 2 → ℝ),
    Stops argsortIns ⟨1, N, 50, XR.fin (1 / 1000), 5, false, true⟩ dupD ![1, -1] .logistic (.l1 (1 / 10)) v ∧
    Stops argsortIns ⟨2, N', 50, XR.fin (1 / 1000), 5, false, true⟩ dupD ![1, -1] .logistic (.l1 (1 / 10)) v' ∧
    ∑ i, (probability (fit dupD.matrix v i) - probability (fit dupD.matrix v' i)) ^ 2 ≤ 2 / 100 := by
  have hv : (Pen.l1 (1 / 10)).Valid := by norm_num [Pen.Valid]
  have hy : ∀ i, |(![1, -1] : Fin 2 → ℝ) i| ≤ 1 := binary_le binary_example
  obtain ⟨N, h⟩ := stops_exists two_pos dupD trivial ![1, -1] .logistic hy (.l1 (1 / 10)) hv trivial (by norm_num [Pen.fn])
    (1 / 1000) (by norm_num)
  obtain ⟨N', h'⟩ := stops_exists two_pos dupD trivial ![1, -1] .logistic hy (.l1 (1 / 10)) hv trivial (by norm_num [Pen.fn])
    (1 / 1000) (by norm_num)
  obtain ⟨v, h1⟩ := h 1 one_pos
  obtain ⟨v', h2⟩ := h' 2 two_pos
  refine ⟨N, N', v, v', h1, h2, ?_⟩
  refine (C97_probabilities argsortIns_spec argsortIns_spec two_pos dupD dupD trivial trivial rfl ![1, -1] binary_example (.l1 (1 / 10)) hv
    trivial (1 / 10) (by norm_num) (pen_slope_l1 _) _ _ (1 / 1000) (1 / 1000) (by norm_num) (by norm_num) rfl rfl v v' h1 h2).trans ?_
  have : Real.log 2 ≤ 1 := by
    have := Real.log_le_sub_one_of_pos (show (0 : ℝ) < 2 by norm_num)
    linarith
  norm_num
  linarith

-- two strengths
example : ∃ (N N' : ℕ) (v v' : Fin 2 → ℝ),
    Stops argsortIns ⟨1, N, 50, XR.fin (1 / 1000), 5, false, true⟩ dupD ![1, -1] .logistic (.l1 (1 / 10)) v ∧
    Stops argsortIns ⟨1, N', 50, XR.fin (1 / 1000), 5, false, true⟩ dupD ![1, -1] .logistic (.l1 (11 / 100)) v' ∧
    ∑ i, (probability (fit dupD.matrix v i) - probability (fit dupD.matrix v' i)) ^ 2 ≤ 7 / 100 := by
  have hy : ∀ i, |(![1, -1] : Fin 2 → ℝ) i| ≤ 1 := binary_le binary_example
  obtain ⟨N, h⟩ := stops_exists two_pos dupD trivial ![1, -1] .logistic hy (.l1 (1 / 10)) (by norm_num [Pen.Valid]) trivial
    (by norm_num [Pen.fn]) (1 / 1000) (by norm_num)
  obtain ⟨N', h'⟩ := stops_exists two_pos dupD trivial ![1, -1] .logistic hy (.l1 (11 / 100)) (by norm_num [Pen.Valid]) trivial
    (by norm_num [Pen.fn]) (1 / 1000) (by norm_num)
  obtain ⟨v, h1⟩ := h 1 one_pos
  obtain ⟨v', h2⟩ := h' 1 one_pos
  refine ⟨N, N', v, v', h1, h2, ?_⟩
  refine (C97_path argsortIns_spec argsortIns_spec two_pos dupD trivial ![1, -1] binary_example .lasso trivial (1 / 10) (11 / 100)
    (by norm_num) (by norm_num) _ _ (1 / 1000) (1 / 1000) (by norm_num) (by norm_num) rfl rfl v v' h1 h2).trans ?_
  have : Real.log 2 ≤ 1 := by
    have := Real.log_le_sub_one_of_pos (show (0 : ℝ) < 2 by norm_num)
    linarith
  norm_num [Family.ratio]
  linarith

/-- One sample with label `1` and two features, the second one half of the first. -/
noncomputable def halfD : Design 1 2 := .dense fun _ => ![1, 1 / 2]

theorem halfD_fit (w : Fin 2 → ℝ) (i : Fin 1) : fit halfD.matrix w i = w 0 + w 1 / 2 := by
  show ∑ j, (![1, 1 / 2] : Fin 2 → ℝ) j * w j = _
  rw [Fin.sum_univ_two]
  norm_num
  ring

theorem one_binary : Binary (fun _ : Fin 1 => (1 : ℝ)) := fun _ => Or.inl rfl

theorem probability_three : probability (Real.log 3) = 3 / 4 := by
  unfold probability
  rw [Real.exp_neg, Real.exp_log (by norm_num)]
  norm_num

theorem halfD_min_fit : fit halfD.matrix ![Real.log 3, 0] 0 = Real.log 3 := by
  rw [halfD_fit]; simp

/-- `log 3` and `0` are minimisers for the strength `1/4`. -/
theorem halfD_min (u : Fin 2 → ℝ) : objective1 halfD (fun _ => 1) .logistic (.l1 (1 / 4)) ![Real.log 3, 0] ≤
    objective1 halfD (fun _ => 1) .logistic (.l1 (1 / 4)) u := by
  unfold objective1
  rw [sample_loss, sample_loss, Fin.sum_univ_one, Fin.sum_univ_one, Fin.sum_univ_two, Fin.sum_univ_two, halfD_min_fit, halfD_fit]
  have a := sample_convex .logistic 1 (Real.log 3) (u 0 + u 1 / 2)
  rw [slope_probability (Or.inl rfl), probability_three] at a
  have l : 0 ≤ Real.log 3 := Real.log_nonneg (by norm_num)
  show _ / ((1 : ℕ) : ℝ) + (1 / 4 * |Real.log 3| + 1 / 4 * |(0 : ℝ)|) ≤ _ / ((1 : ℕ) : ℝ) + (1 / 4 * |u 0| + 1 / 4 * |u 1|)
  rw [abs_of_nonneg l, abs_zero, Nat.cast_one, div_one, div_one]
  have b := le_abs_self (u 0)
  have c := le_abs_self (u 1)
  have d := abs_nonneg (u 1)
  linarith

theorem log_two_le : Real.log 2 ≤ 1 := by
  have := Real.log_le_sub_one_of_pos (show (0 : ℝ) < 2 by norm_num)
  linarith

theorem halfD_excess : |excess halfD (fun _ => 1) ![Real.log 3, 0] 1| = 1 / 8 := by
  unfold excess
  rw [Fin.sum_univ_one, halfD_min_fit, probability_three]
  show |(1 / 2 : ℝ) * ((1 + 1) / 2 - 3 / 4) / ((1 : ℕ) : ℝ)| = 1 / 8
  norm_num [abs_of_pos]

theorem halfD_sqrt {B : ℝ} (hB : B ≤ 1 / 100) : Real.sqrt ((∑ i, halfD.matrix i 1 ^ 2) * B) ≤ 1 / 20 := by
  rw [Real.sqrt_le_left (by norm_num), Fin.sum_univ_one]
  show (1 / 2 : ℝ) ^ 2 * B ≤ _
  linarith

-- the sample is classified correctly, and the second feature is not selected
example : ∃ (N : ℕ) (v : Fin 2 → ℝ),
    Stops argsortIns ⟨1, N, 50, XR.fin (1 / 1000), 5, false, true⟩ halfD (fun _ => 1) .logistic (.l1 (1 / 4)) v ∧
    0 < fit halfD.matrix v 0 ∧ v 1 = 0 := by
  have hv : (Pen.l1 (1 / 4)).Valid := by norm_num [Pen.Valid]
  obtain ⟨N, h⟩ := stops_exists one_pos halfD trivial (fun _ => 1) .logistic (binary_le one_binary) (.l1 (1 / 4)) hv trivial
    (by norm_num [Pen.fn]) (1 / 1000) (by norm_num)
  obtain ⟨v, h1⟩ := h 1 one_pos
  have l2 := log_two_le
  have a := C97_class argsortIns_spec one_pos halfD trivial _ one_binary _ hv trivial (1 / 4) (by norm_num) (pen_slope_l1 _) _ (1 / 1000)
    (by norm_num) rfl v h1 _ halfD_min 0 (by
      rw [halfD_min_fit, probability_three]
      norm_num
      linarith)
  rw [halfD_min_fit] at a
  refine ⟨N, v, h1, pos_of_mul_pos_left a (Real.log_pos (by norm_num)).le, ?_⟩
  refine C97_zero argsortIns_spec one_pos halfD trivial _ one_binary _ hv trivial (by norm_num [Pen.slope]) _ (1 / 1000) (by norm_num) rfl
    v h1 _ halfD_min 1 ?_
  rw [halfD_excess]
  have b := halfD_sqrt (B := ((1 : ℕ) : ℝ) * (1 / 1000) * Real.log 2 / (2 * (Pen.l1 (1 / 4)).slope)) (by norm_num [Pen.slope]; linarith)
  rw [Nat.cast_one, div_one]
  rw [Nat.cast_one] at b
  show _ < (1 / 4 : ℝ)
  linarith

-- the same in floating point
example : ∃ (t N : ℕ) (v : Fin 2 → ℝ) (m : ℕ),
    RunsTo argsortIns (binCfg t N (1 / 1000)) halfD (fun i j => Fl.of t (halfD.matrix i j)) (fun _ => Fl.of t 1) .logistic
      (.l1 (Fl.of t (1 / 4))) v m ∧ 0 < fit halfD.matrix v 0 ∧ v 1 = 0 := by
  have l2 := log_two_le
  obtain ⟨N, h⟩ := C97_float one_pos two_pos halfD trivial (fun _ => 1) one_binary (.l1 (1 / 4)) (by norm_num [Pen.Valid]) trivial
    (by norm_num [Pen.slope]) (1 / 1000) (by norm_num) _ halfD_min
  obtain ⟨e₀, he₀, h⟩ := h 10 (1 / 1000) (by norm_num)
  obtain ⟨t, ht⟩ := bin_exists he₀
  obtain ⟨v, m, h1, h2, h3, h4, h5⟩ := h _ _ (bin_laws t .logistic) ht (fun i j => Fl.of t (halfD.matrix i j)) (fun _ => Fl.of t 1)
    (.l1 (Fl.of t (1 / 4))) (fun i j => bin_stores t _) (fun i => bin_stores t _) (bin_stores t _) argsortIns (argsortFl t)
    (binCfg t N (1 / 1000)) (binCfg_ok _ _ _) (bin_stores t _) le_rfl le_rfl (by norm_num [binCfg]) (binCfg_plain _ _ _)
  have a := h4 0 (by
    rw [halfD_min_fit, probability_three]
    norm_num [Pen.slope]
    linarith)
  rw [halfD_min_fit] at a
  refine ⟨t, N, v, m, h1, pos_of_mul_pos_left a (Real.log_pos (by norm_num)).le, h5 1 ?_⟩
  rw [halfD_excess]
  have b := halfD_sqrt (B := ((1 : ℕ) : ℝ) * (1 / 1000 + 1 / 1000) * (2 * Real.log 2 + 1 / 1000) / (4 * (Pen.l1 (1 / 4)).slope)) (by
    norm_num [Pen.slope]; linarith)
  rw [Nat.cast_one, div_one]
  rw [Nat.cast_one] at b
  show _ < (1 / 4 : ℝ)
  linarith

end Sglm
