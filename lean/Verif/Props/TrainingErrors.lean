import Verif.Spec.TrainingErrors
import Verif.Props.NoPenalty

/-!
# C115: training errors of sparse logistic regression

The number of training samples misclassified by an `l1`-penalised logistic regression, compared with the soft margin of any linear
classifier.  Exact arithmetic and floating point.
-/

namespace Sglm
open Scalar Spec Topology Filter
variable {n p : ℕ}

/-- A derivative is bounded by the rate at which the function can decrease. -/
theorem deriv_bound {f : ℝ → ℝ} {g x C : ℝ} (h : HasDerivAt f g x) (hf : ∀ z, f x - f z ≤ C * |x - z|) : |g| ≤ C := by
  have hs := hasDerivAt_iff_tendsto_slope.mp h
  rw [abs_le]
  constructor
  · refine ge_of_tendsto (hs.mono_left (nhdsGT_le_nhdsNE x)) ?_
    filter_upwards [self_mem_nhdsWithin] with z hz
    have hz : x < z := hz
    rw [slope_def_field, le_div_iff₀ (by linarith)]
    have := hf z
    rw [abs_of_neg (by linarith)] at this
    linarith
  · refine le_of_tendsto (hs.mono_left (nhdsLT_le_nhdsNE x)) ?_
    filter_upwards [self_mem_nhdsWithin] with z hz
    have hz : z < x := hz
    rw [slope_def_field, div_le_iff_of_neg (by linarith)]
    have := hf z
    rw [abs_of_pos (by linarith)] at this
    linarith

/-- The gradient of the loss is bounded by the strength plus the tolerance. -/
theorem lasso_grad (hn : 0 < n) {D : Design n p} {y : Fin n → ℝ} {k : LossKind} {α τ : ℝ} (hα : 0 ≤ α) {v : Fin p → ℝ}
    (h : ∀ w, objective1 D y k (.l1 α) v - objective1 D y k (.l1 α) w ≤ τ * ∑ j, |v j - w j|) (j : Fin p) :
    |gradOf D.matrix y k (fit D.matrix v) j| ≤ α + τ := by
  refine deriv_bound (loss_partial hn D.matrix y k v j) fun z => ?_
  have a := h (Function.update v j z)
  have b : ∑ i, |v i - Function.update v j z i| = |v j - z| := by
    rw [Finset.sum_eq_single j]
    · rw [Function.update_self]
    · intro i _ hi; rw [Function.update_of_ne hi, sub_self, abs_zero]
    · intro hj; exact absurd (Finset.mem_univ j) hj
  have c : ∑ i, α * |Function.update v j z i| - ∑ i, α * |v i| ≤ α * |v j - z| := by
    rw [← Finset.sum_sub_distrib, ← b, Finset.mul_sum]
    refine Finset.sum_le_sum fun i _ => ?_
    have := abs_sub_abs_le_abs_sub (Function.update v j z i) (v i)
    rw [abs_sub_comm] at this
    nlinarith
  rw [b] at a
  have a : k.loss y (fit D.matrix v) + ∑ i, α * |v i| -
    (k.loss y (fit D.matrix (Function.update v j z)) + ∑ i, α * |Function.update v j z i|) ≤ τ * |v j - z| := a
  rw [Function.update_eq_self]
  linarith

theorem errors_of_grad (hn : 0 < n) {D : Design n p} {y : Fin n → ℝ} {u : Fin p → ℝ} {m τ : ℝ} {ξ : Fin n → ℝ} (hm : 0 < m)
    (hsep : SoftMargin D y u m ξ) {v : Fin p → ℝ} (h : ∀ j, |gradOf D.matrix y .logistic (fit D.matrix v) j| ≤ τ) :
    ((misclassified D y v).card : ℝ) ≤ 2 * (n * τ * (∑ j, |u j|) + ∑ i, ξ i) / m := by
  have a := margin_sum hn (u := u) h
  have s0 : ∀ x, 0 < sigm x := fun x => by unfold sigm; positivity
  have s1 : ∀ x, sigm x ≤ 1 := fun x => by
    unfold sigm
    rw [div_le_one (by positivity)]
    linarith [Real.exp_pos (-x)]
  have b : m * ∑ i, sigm (-y i * fit D.matrix v i) ≤ ∑ i, y i * fit D.matrix u i * sigm (-y i * fit D.matrix v i) + ∑ i, ξ i := by
    rw [Finset.mul_sum, ← Finset.sum_add_distrib]
    refine Finset.sum_le_sum fun i _ => ?_
    have := hsep i
    nlinarith [s0 (-y i * fit D.matrix v i), s1 (-y i * fit D.matrix v i)]
  have c := misclassified_sum (D := D) (y := y) (v := v)
  rw [le_div_iff₀ hm]
  nlinarith [mul_le_mul_of_nonneg_left c hm.le]

/-- **Training errors**: whatever the linear classifier `u` and its soft margin, at most
`2 (n (α + tol) ‖u‖₁ + ∑ ξ) / m` training samples are misclassified. -/
theorem C115_errors {srt : Argsort XR} (hs : ArgsortSpec srt) (hn : 0 < n) (D : Design n p) (y : Fin n → ℝ) (α : ℝ) (hα : 0 ≤ α)
    (cfg : Solver XR) (τ : ℝ) (ht : cfg.tolerance = XR.fin τ) (v : Fin p → ℝ) (h : Stops srt cfg D y .logistic (.l1 α) v)
    (u : Fin p → ℝ) (m : ℝ) (hm : 0 < m) (ξ : Fin n → ℝ) (hsep : SoftMargin D y u m ξ) :
    ((misclassified D y v).card : ℝ) ≤ 2 * (n * (α + τ) * (∑ j, |u j|) + ∑ i, ξ i) / m :=
  errors_of_grad hn hm hsep (lasso_grad hn hα (stops_cert (pen := .l1 α) hs hn hα trivial ht h).2)

/-- The gradient of the loss at a stationary point of an MCP problem. -/
theorem mcp_grad {α γ a g τ : ℝ} (hα : 0 ≤ α) (hγ : 0 < γ) (h : mcpScore α γ a g ≤ τ) : |g| ≤ α + τ := by
  unfold mcpScore at h
  split_ifs at h with h0 h1 h2
  · linarith [le_max_right 0 (|g| - α)]
  · have b : |α * -1 - a / γ| ≤ α := by
      rw [abs_le]
      have c : -a / γ ≤ α := (div_le_iff₀ hγ).mpr (by rw [abs_of_neg h2] at h1; linarith)
      have d : 0 ≤ -a / γ := div_nonneg (by linarith) hγ.le
      rw [neg_div] at c d
      constructor <;> linarith
    have e : g = (g + α * -1 - a / γ) - (α * -1 - a / γ) := by ring
    have k := abs_sub (g + α * -1 - a / γ) (α * -1 - a / γ)
    rw [← e] at k
    linarith
  · have b : |α * 1 - a / γ| ≤ α := by
      rw [abs_le]
      have c : a / γ ≤ α := (div_le_iff₀ hγ).mpr (by rw [abs_of_nonneg (not_lt.mp h2)] at h1; linarith)
      have d : 0 ≤ a / γ := div_nonneg (not_lt.mp h2) hγ.le
      constructor <;> linarith
    have e : g = (g + α * 1 - a / γ) - (α * 1 - a / γ) := by ring
    have k := abs_sub (g + α * 1 - a / γ) (α * 1 - a / γ)
    rw [← e] at k
    linarith
  · linarith

/-- The same bound for logistic regression with the MCP, although the problem is not convex. -/
theorem C115_mcp {srt : Argsort XR} (hs : ArgsortSpec srt) (hn : 0 < n) (D : Design n p) (y : Fin n → ℝ) (α γ : ℝ) (hα : 0 ≤ α)
    (hγ : 0 < γ) (cfg : Solver XR) (τ : ℝ) (ht : cfg.tolerance = XR.fin τ) (v : Fin p → ℝ)
    (h : Stops srt cfg D y .logistic (.mcp α γ) v) (u : Fin p → ℝ) (m : ℝ) (hm : 0 < m) (ξ : Fin n → ℝ)
    (hsep : SoftMargin D y u m ξ) :
    ((misclassified D y v).card : ℝ) ≤ 2 * (n * (α + τ) * (∑ j, |u j|) + ∑ i, ξ i) / m :=
  errors_of_grad hn hm hsep fun j => mcp_grad hα hγ (stops_scores (pen := .mcp α γ) hs hn ⟨hα, hγ⟩ ht h j)

/-- **Separable classes**: small strengths and tolerances classify all training samples correctly. -/
theorem C115_classifies {srt : Argsort XR} (hs : ArgsortSpec srt) (hn : 0 < n) (D : Design n p) (y : Fin n → ℝ) (α : ℝ) (hα : 0 ≤ α)
    (cfg : Solver XR) (τ : ℝ) (ht : cfg.tolerance = XR.fin τ) (v : Fin p → ℝ) (h : Stops srt cfg D y .logistic (.l1 α) v)
    (u : Fin p → ℝ) (m : ℝ) (hm : 0 < m) (hsep : Separates D y u m) (hsmall : 2 * n * (α + τ) * ∑ j, |u j| < m) (i : Fin n) :
    0 < y i * fit D.matrix v i := by
  by_contra hi
  have a := C115_errors hs hn D y α hα cfg τ ht v h u m hm (fun _ => 0) (fun i => ⟨le_rfl, by rw [sub_zero]; exact hsep i⟩)
  rw [Finset.sum_const_zero, add_zero] at a
  have b : 2 * (n * (α + τ) * ∑ j, |u j|) / m < 1 := (div_lt_one hm).mpr (by linarith)
  have c : 1 ≤ (misclassified D y v).card := Finset.card_pos.mpr ⟨i, by
    unfold misclassified
    exact Finset.mem_filter.mpr ⟨Finset.mem_univ i, not_lt.mp hi⟩⟩
  have d : (1 : ℝ) ≤ (misclassified D y v).card := by exact_mod_cast c
  linarith

/-- **Floating point**: the same bound, with `tol + ε`, for the computed coefficients. -/
theorem C115_float (hn : 0 < n) (hp : 0 < p) (D : Design n p) (hD : D.Canonical) (y : Fin n → ℝ) (hy : ∀ i, |y i| ≤ 1) (α : ℝ)
    (hα : 0 < α) (τ : ℝ) (hτ : 0 < τ) (u : Fin p → ℝ) (m : ℝ) (hm : 0 < m) (ξ : Fin n → ℝ) (hsep : SoftMargin D y u m ξ) :
    InFloat D y .logistic (.l1 α) τ fun ε v =>
      ((misclassified D y v).card : ℝ) ≤ 2 * (n * (α + (τ + ε)) * (∑ j, |u j|) + ∑ i, ξ i) / m :=
  inFloat_of hn hp D hD y .logistic hy (.l1 α) hα.le trivial (by simpa [Pen.fn] using hα) τ hτ fun _ _ _ _ h2 =>
    errors_of_grad hn hm hsep (lasso_grad hn hα.le h2)

/-! ## Example: three samples, the third one on the wrong side -/

/-- One feature, three samples. -/
noncomputable def errD : Design 3 1 := .dense ![![2], ![-2], ![1 / 10]]

theorem errD_margin : SoftMargin errD ![1, -1, -1] ![1] 2 ![0, 0, 21 / 10] := by
  intro i
  have e : ∀ i, fit errD.matrix ![1] i = (![![2], ![-2], ![1 / 10]] : Fin 3 → Fin 1 → ℝ) i 0 := fun i => by
    show ∑ j : Fin 1, _ = _
    rw [Fin.sum_univ_one]; exact mul_one _
  rw [e]
  fin_cases i <;> norm_num

-- at most two of the three samples are misclassified
example : ∃ (N : ℕ) (v : Fin 1 → ℝ), Stops argsortIns ⟨1, N, 50, XR.fin (1 / 100), 5, false, true⟩ errD ![1, -1, -1] .logistic (.l1 (1 / 100)) v ∧
    (misclassified errD ![1, -1, -1] v).card ≤ 2 := by
  obtain ⟨N, h⟩ := stops_exists (n := 3) (by norm_num) errD trivial ![1, -1, -1] .logistic (fun i => by fin_cases i <;> norm_num)
    (.l1 (1 / 100)) (by norm_num [Pen.Valid]) trivial (by norm_num [Pen.fn]) (1 / 100) (by norm_num)
  obtain ⟨v, hv⟩ := h 1 one_pos
  refine ⟨N, v, hv, ?_⟩
  have := C115_errors argsortIns_spec (by norm_num) errD ![1, -1, -1] (1 / 100) (by norm_num) _ (1 / 100) rfl v hv ![1] 2 two_pos
    ![0, 0, 21 / 10] errD_margin
  have e : 2 * (((3 : ℕ) : ℝ) * (1 / 100 + 1 / 100) * (∑ j, |(![1] : Fin 1 → ℝ) j|) + ∑ i, (![0, 0, 21 / 10] : Fin 3 → ℝ) i) / 2 < 3 := by
    have e2 : (![0, 0, 21 / 10] : Fin 3 → ℝ) 2 = 21 / 10 := rfl
    rw [Fin.sum_univ_one, Fin.sum_univ_three, e2]
    norm_num
  have f : ((misclassified errD ![1, -1, -1] v).card : ℝ) < (3 : ℕ) := by push_cast; linarith
  have g : (misclassified errD ![1, -1, -1] v).card < 3 := by exact_mod_cast f
  omega

theorem errD_lip (j : Fin 1) : lipschitz errD .logistic j = 267 / 400 := by
  show (∑ i, errD.matrix i j ^ 2) / (4 * ((3 : ℕ) : ℝ)) = _
  have e : ∀ i, errD.matrix i j = (![2, -2, 1 / 10] : Fin 3 → ℝ) i := fun i => by
    fin_cases j; fin_cases i <;> rfl
  have e2 : (![2, -2, 1 / 10] : Fin 3 → ℝ) 2 = 1 / 10 := rfl
  rw [Fin.sum_univ_three, e, e, e, e2]
  norm_num

-- the same with the MCP
example : ∃ v : Fin 1 → ℝ, Stops argsortIns ⟨1, 10 ^ 6, 50, XR.fin (1 / 100), 5, false, true⟩ errD ![1, -1, -1] .logistic (.mcp (1 / 100) 3) v ∧
    ((misclassified errD ![1, -1, -1] v).card : ℝ) ≤ 54 / 25 := by
  have hv : (Pen.mcp (1 / 100) 3).Valid := ⟨by norm_num, by norm_num⟩
  obtain ⟨v, m, h⟩ := (prob1 errD ![1, -1, -1] .logistic (.mcp (1 / 100) 3)).run_ok argsortIns_spec
    ⟨1, 10 ^ 6, 50, XR.fin (1 / 100), 5, false, true⟩ (fun hu => by cases hu)
  have hb := iter_bound1 (by norm_num) errD trivial ![1, -1, -1] .logistic (fun i => by fin_cases i <;> norm_num) (.mcp (1 / 100) 3) hv
    (fun _ => by simp) (3 / 10) 1 (1 / 100) (by norm_num) (fun j _ => by rw [errD_lip]; norm_num [Pen.concavity])
    (fun j => by rw [errD_lip]; norm_num) (by norm_num) argsortIns_spec _ rfl (by norm_num) (by norm_num) (fun _ _ _ => Or.inl rfl) v m h
  have hF : objective1 errD ![1, -1, -1] .logistic (.mcp (1 / 100) 3) (fun _ => 0) ≤ 1 := by
    have hz : fit errD.matrix (fun _ : Fin 1 => 0) = fun _ => 0 := by
      funext i; exact Finset.sum_eq_zero fun j _ => mul_zero _
    show logLoss _ (fit errD.matrix _) + ∑ j : Fin 1, mcp (1 / 100) 3 (0 : ℝ) ≤ 1
    have hm : mcp (1 / 100) 3 (0 : ℝ) = 0 := by simp [mcp]
    rw [hz, hm]
    unfold logLoss
    have := Real.log_two_lt_d9
    simp only [mul_zero, neg_zero, Real.exp_zero, Finset.sum_const, Finset.card_univ, Fintype.card_fin]
    norm_num
    linarith
  have hmod : (Pen.mcp (1 / 100) 3).modulus = 0 := rfl
  rw [hmod] at hb
  have hst : Stops argsortIns ⟨1, 10 ^ 6, 50, XR.fin (1 / 100), 5, false, true⟩ errD ![1, -1, -1] .logistic (.mcp (1 / 100) 3) v := by
    refine stops_of_run argsortIns_spec (by norm_num) hv h ?_
    have : (m : ℝ) < 10 ^ 6 := by
      refine lt_of_le_of_lt hb ?_
      rw [div_lt_iff₀ (by norm_num)]
      norm_num
      linarith
    show m < 10 ^ 6
    exact_mod_cast this
  refine ⟨v, hst, ?_⟩
  refine (C115_mcp argsortIns_spec (by norm_num) errD ![1, -1, -1] (1 / 100) 3 (by norm_num) (by norm_num) _ (1 / 100) rfl v hst ![1] 2
    two_pos ![0, 0, 21 / 10] errD_margin).trans (le_of_eq ?_)
  have e2 : (![0, 0, 21 / 10] : Fin 3 → ℝ) 2 = 21 / 10 := rfl
  rw [Fin.sum_univ_one, Fin.sum_univ_three, e2]
  norm_num

theorem idD_separates : Separates idD ![1, -1] ![1, -1] 1 := fun i => by
  fin_cases i <;> simp [(idD_fit _).1, (idD_fit _).2]

-- separable classes, all classified correctly
example : ∃ (N : ℕ) (v : Fin 2 → ℝ), Stops argsortIns ⟨1, N, 50, XR.fin (1 / 100), 5, false, true⟩ idD ![1, -1] .logistic (.l1 (1 / 100)) v ∧
    0 < v 0 ∧ v 1 < 0 := by
  obtain ⟨N, h⟩ := stops_exists two_pos idD trivial ![1, -1] .logistic (fun i => by fin_cases i <;> norm_num)
    (.l1 (1 / 100)) (by norm_num [Pen.Valid]) trivial (by norm_num [Pen.fn]) (1 / 100) (by norm_num)
  obtain ⟨v, hv⟩ := h 1 one_pos
  have key := C115_classifies argsortIns_spec two_pos idD ![1, -1] (1 / 100) (by norm_num) _ (1 / 100) rfl v hv ![1, -1] 1 one_pos
    idD_separates (by rw [Fin.sum_univ_two]; norm_num)
  have k0 := key 0
  have k1 := key 1
  rw [(idD_fit _).1] at k0
  rw [(idD_fit _).2] at k1
  norm_num at k0 k1
  exact ⟨N, v, hv, k0, k1⟩

-- without penalty and with tolerance zero, these classes make every fit use all its iterations
example (cfg : Solver XR) (ht : cfg.tolerance = XR.fin 0) (v : Fin 2 → ℝ) : ¬ Stops argsortIns cfg idD ![1, -1] .logistic (.mcp 0 3) v :=
  C114_never_exact argsortIns_spec two_pos idD ![1, -1] (.mcp 0 3) ⟨rfl, by norm_num⟩ cfg ht ![1, -1] 1 one_pos idD_separates v

-- floating point
example : InFloat errD ![1, -1, -1] .logistic (.l1 (1 / 100)) (1 / 100) fun ε v =>
    ((misclassified errD ![1, -1, -1] v).card : ℝ) ≤ 54 / 25 + 3 * ε := by
  have := C115_float (by norm_num) one_pos errD trivial ![1, -1, -1] (fun i => by fin_cases i <;> norm_num) (1 / 100) (by norm_num)
    (1 / 100) (by norm_num) ![1] 2 two_pos ![0, 0, 21 / 10] errD_margin
  have e2 : (![0, 0, 21 / 10] : Fin 3 → ℝ) 2 = 21 / 10 := rfl
  rw [Fin.sum_univ_one, Fin.sum_univ_three, e2] at this
  have e : ∀ ε : ℝ, 2 * (((3 : ℕ) : ℝ) * (1 / 100 + (1 / 100 + ε)) * |(![1] : Fin 1 → ℝ) 0| +
      ((![0, 0, 21 / 10] : Fin 3 → ℝ) 0 + (![0, 0, 21 / 10] : Fin 3 → ℝ) 1 + 21 / 10)) / 2 = 54 / 25 + 3 * ε := fun ε => by
    norm_num
    ring
  simp only [e] at this
  exact this

end Sglm
