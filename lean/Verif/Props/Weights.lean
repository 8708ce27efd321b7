import Verif.Spec.Weights
import Verif.Props.Statistics
import Verif.Props.Converge

/-!
# C105: weights of samples and features, and unpenalised features, by transforming the data

Exact arithmetic.  The library has neither sample weights nor feature weights nor unpenalised features; users obtain them by rescaling the
rows and columns and by regressing on the unpenalised features first.
-/

namespace Sglm
open Scalar Spec
variable {n p q T m : ℕ}

/-- **What rescaling does**: the weighted objective is the objective of the rescaled data at the rescaled coefficients. -/
theorem C105_objective (D : Design n p) (s : Fin n → ℝ) (hs : ∀ i, 0 ≤ s i) (c : Fin p → ℝ) (hc : ∀ j, c j ≠ 0) (X : Fin n → Fin p → ℝ)
    (hD : D.matrix = weightedDesign s c X) (y : Fin n → ℝ) (pen : Pen) (w : Fin p → ℝ) :
    weightedObjective s c X y pen w = objective1 D (weightedTargets s y) .quadratic pen fun j => c j * w j := by
  unfold weightedObjective objective1
  show _ = quadLoss _ _ + _
  unfold quadLoss
  congr 2
  refine Finset.sum_congr rfl fun i _ => ?_
  have h : fit D.matrix (fun j => c j * w j) i = √(s i) * ∑ j, X i j * w j := by
    unfold fit
    rw [hD, Finset.mul_sum]
    refine Finset.sum_congr rfl fun j _ => ?_
    unfold weightedDesign
    have := hc j
    field_simp
  rw [h, show weightedTargets s y i = √(s i) * y i from rfl, ← mul_sub, mul_pow, Real.sq_sqrt (hs i)]

/-- **Weighted samples and features** (Lasso, elastic net): calls which stop early on the rescaled data give, after dividing by the
feature weights, coefficients which are optimal for the weighted objective up to the tolerance. -/
theorem C105_weights {srt : Argsort XR} (hsrt : ArgsortSpec srt) (hn : 0 < n) (D : Design n p) (s : Fin n → ℝ) (hs : ∀ i, 0 ≤ s i)
    (c : Fin p → ℝ) (hc : ∀ j, c j ≠ 0) (X : Fin n → Fin p → ℝ) (hD : D.matrix = weightedDesign s c X) (y : Fin n → ℝ) (pen : Pen)
    (hv : pen.Valid) (hcv : pen.Convex) (cfg : Solver XR) (τ : ℝ) (ht : cfg.tolerance = XR.fin τ) (v : Fin p → ℝ)
    (h : Stops srt cfg D (weightedTargets s y) .quadratic pen v) (w : Fin p → ℝ) :
    weightedObjective s c X y pen (fun j => v j / c j) ≤ weightedObjective s c X y pen w + τ * ∑ j, |c j| * |v j / c j - w j| := by
  have h1 := (stops_cert hsrt hn hv hcv ht h).2 fun j => c j * w j
  rw [C105_objective D s hs c hc X hD, C105_objective D s hs c hc X hD]
  have e : (fun j => c j * (v j / c j)) = v := funext fun j => mul_div_cancel₀ _ (hc j)
  have e2 : ∑ j, |c j| * |v j / c j - w j| = ∑ j, |v j - c j * w j| := Finset.sum_congr rfl fun j _ => by
    rw [← abs_mul, mul_sub, mul_div_cancel₀ _ (hc j)]
  rw [e, e2]
  linarith

/-- **The weighted Lasso by `Lasso::fit`**: any accuracy is reached. -/
theorem C105_lasso_fit (hn : 0 < n) (D : Design n p) (hDc : D.Canonical) (s : Fin n → ℝ) (hs : ∀ i, 0 ≤ s i)
    (c : Fin p → ℝ) (hc : ∀ j, c j ≠ 0) (X : Fin n → Fin p → ℝ) (hD : D.matrix = weightedDesign s c X) (y : Fin n → ℝ)
    (α : ℝ) (hα : 0 < α) (ε : ℝ) (hε : 0 < ε) :
    ∃ τ₀ : ℝ, 0 < τ₀ ∧ ∃ N : ℕ, ∀ srt, ArgsortSpec srt → ∀ (ps : LassoParams XR) (τ : ℝ), ps.alpha = XR.fin α →
      ps.tolerance = XR.fin τ → 0 ≤ τ → τ ≤ τ₀ → 0 < ps.K → 0 < ps.wsStartSize → 0 < ps.maxEpochs →
      N ≤ ps.maxIterations → (ps.useAcceleration = true → ps.K ≤ ps.wsStartSize ∧ ps.K ≤ p) →
      ∃ v : Fin p → ℝ, fitLasso srt ps D (weightedTargets s y) = .ok (.ok (vec v)) ∧
        ∀ u, weightedObjective s c X y (.l1 α) (fun j => v j / c j) ≤ weightedObjective s c X y (.l1 α) u + ε := by
  obtain ⟨τ₀, h1, N, h2⟩ := C50_lasso_fit hn D hDc (weightedTargets s y) α hα ε hε
  refine ⟨τ₀, h1, N, fun srt h3 ps τ h4 h5 h6 h7 h8 h9 h10 h11 h12 => ?_⟩
  obtain ⟨v, h13, h14⟩ := h2 srt h3 ps τ h4 h5 h6 h7 h8 h9 h10 h11 h12
  refine ⟨v, h13, fun u => ?_⟩
  rw [C105_objective D s hs c hc X hD, C105_objective D s hs c hc X hD,
    show (fun j => c j * (v j / c j)) = v from funext fun j => mul_div_cancel₀ _ (hc j)]
  exact h14 _

/-- The L1 penalty of the weighted objective is the weighted Lasso. -/
theorem C105_lasso (s : Fin n → ℝ) (c : Fin p → ℝ) (hc : ∀ j, 0 < c j) (X : Fin n → Fin p → ℝ) (y : Fin n → ℝ) (α : ℝ) (w : Fin p → ℝ) :
    weightedObjective s c X y (.l1 α) w =
      (∑ i, s i * (y i - ∑ j, X i j * w j) ^ 2) / (2 * n) + α * ∑ j, c j * |w j| := by
  unfold weightedObjective
  rw [Finset.mul_sum]
  congr 1
  refine Finset.sum_congr rfl fun j _ => ?_
  show α * |c j * w j| = _
  rw [abs_mul, abs_of_pos (hc j)]

/-- Feature weights in logistic regression. -/
theorem C105_logistic {srt : Argsort XR} (hsrt : ArgsortSpec srt) (hn : 0 < n) (D : Design n p)
    (c : Fin p → ℝ) (hc : ∀ j, c j ≠ 0) (X : Fin n → Fin p → ℝ) (hD : D.matrix = fun i j => X i j / c j) (y : Fin n → ℝ) (pen : Pen)
    (hv : pen.Valid) (hcv : pen.Convex) (cfg : Solver XR) (τ : ℝ) (ht : cfg.tolerance = XR.fin τ) (v : Fin p → ℝ)
    (h : Stops srt cfg D y .logistic pen v) (w : Fin p → ℝ) :
    weightedLogistic c X y pen (fun j => v j / c j) ≤ weightedLogistic c X y pen w + τ * ∑ j, |c j| * |v j / c j - w j| := by
  have h1 := (stops_cert hsrt hn hv hcv ht h).2 fun j => c j * w j
  have h2 : ∀ w, weightedLogistic c X y pen w = objective1 D y .logistic pen fun j => c j * w j := by
    intro w
    unfold weightedLogistic objective1
    congr 1
    show _ = logLoss y (fit D.matrix _)
    congr 1
    funext i
    unfold fit
    rw [hD]
    refine Finset.sum_congr rfl fun j _ => ?_
    have := hc j
    field_simp
  have e : (fun j => c j * (v j / c j)) = v := funext fun j => mul_div_cancel₀ _ (hc j)
  have e2 : ∑ j, |c j| * |v j / c j - w j| = ∑ j, |v j - c j * w j| := Finset.sum_congr rfl fun j _ => by
    rw [← abs_mul, mul_sub, mul_div_cancel₀ _ (hc j)]
  rw [h2, h2, e, e2]
  linarith

/-- Sample and feature weights in the multi-task Lasso. -/
theorem C105_weights_mt {srt : Argsort XR} (hsrt : ArgsortSpec srt) (hn : 0 < n) (D : Design n p) (s : Fin n → ℝ) (hs : ∀ i, 0 ≤ s i)
    (c : Fin p → ℝ) (hc : ∀ j, c j ≠ 0) (X : Fin n → Fin p → ℝ) (hD : D.matrix = weightedDesign s c X) (Y : Fin n → Fin T → ℝ) (α : ℝ)
    (hα : 0 < α) (cfg : Solver XR) (τ : ℝ) (ht : cfg.tolerance = XR.fin τ) (V : Fin p → Euc T)
    (h : StopsMT srt cfg D (fun i t => √(s i) * Y i t) (.l21 α) V) (W : Fin p → Euc T) :
    weightedObjectiveMT s c X Y α (fun j => (c j)⁻¹ • V j) ≤
      weightedObjectiveMT s c X Y α W + τ * ∑ j, |c j| * ‖(c j)⁻¹ • V j - W j‖ := by
  have h1 := stopsMT_cert hsrt hn hα ht h fun j => c j • W j
  have h2 : ∀ W : Fin p → Euc T, weightedObjectiveMT s c X Y α W = objectiveMT D (fun i t => √(s i) * Y i t) (.l21 α) fun j => c j • W j := by
    intro W
    unfold weightedObjectiveMT objectiveMT mtLoss
    congr 2
    refine Finset.sum_congr rfl fun i _ => ?_
    rw [Finset.mul_sum]
    refine Finset.sum_congr rfl fun t _ => ?_
    have hf : fitMT D.matrix (fun j => (c j • W j).ofLp) i t = √(s i) * ∑ j, X i j * (W j).ofLp t := by
      unfold fitMT
      rw [hD, Finset.mul_sum]
      refine Finset.sum_congr rfl fun j _ => ?_
      show √(s i) * X i j / c j * (c j * (W j).ofLp t) = _
      have := hc j
      field_simp
    rw [hf, ← mul_sub, mul_pow, Real.sq_sqrt (hs i)]
  have e : (fun j => c j • (c j)⁻¹ • V j) = V := funext fun j => by rw [smul_smul, mul_inv_cancel₀ (hc j), one_smul]
  have e2 : ∑ j, |c j| * ‖(c j)⁻¹ • V j - W j‖ = ∑ j, ‖V j - c j • W j‖ := Finset.sum_congr rfl fun j _ => by
    rw [← Real.norm_eq_abs, ← norm_smul, smul_sub, smul_smul, mul_inv_cancel₀ (hc j), one_smul]
  rw [h2, h2, e, e2]
  linarith

/-- **Integer sample weights by repeating samples**, least squares and logistic regression (for which rescaling is no option). -/
theorem C105_repeated {srt : Argsort XR} (hsrt : ArgsortSpec srt) (hm : 0 < m) (D : Design m p) (s : Fin n → ℕ) (e : Fin m → Fin n)
    (he : Repeats s e) (X : Fin n → Fin p → ℝ) (hD : ∀ l j, D.matrix l j = X (e l) j) (y : Fin n → ℝ) (k : LossKind) (pen : Pen)
    (hv : pen.Valid) (hcv : pen.Convex) (cfg : Solver XR) (τ : ℝ) (ht : cfg.tolerance = XR.fin τ) (v : Fin p → ℝ)
    (h : Stops srt cfg D (fun l => y (e l)) k pen v) (w : Fin p → ℝ) :
    countedObjective s X y k pen v ≤ countedObjective s X y k pen w + τ * ∑ j, |v j - w j| := by
  have h1 := (stops_cert hsrt hm hv hcv ht h).2 w
  have hcount : ∑ i, s i = m := by
    have h3 := Finset.card_eq_sum_card_fiberwise (s := (Finset.univ : Finset (Fin m))) (t := (Finset.univ : Finset (Fin n))) (f := e)
      (fun _ _ => Finset.mem_coe.mpr (Finset.mem_univ _))
    rw [Finset.card_univ, Fintype.card_fin] at h3
    rw [h3]
    exact Finset.sum_congr rfl fun i _ => (he i).symm
  have hsum : ∀ f : Fin n → ℝ, ∑ i, (s i : ℝ) * f i = ∑ l, f (e l) := fun f => by
    rw [← Finset.sum_fiberwise (s := Finset.univ) (g := e) (f := fun l => f (e l))]
    refine Finset.sum_congr rfl fun i _ => ?_
    rw [Finset.sum_congr rfl (g := fun _ => f i) (fun l hl => by rw [(Finset.mem_filter.mp hl).2]), Finset.sum_const, he i, nsmul_eq_mul]
  have h2 : ∀ w, countedObjective s X y k pen w = objective1 D (fun l => y (e l)) k pen w := fun w => by
    unfold countedObjective objective1
    rw [hcount, hsum fun i => k.sample (y i) (∑ j, X i j * w j)]
    congr 1
    have hf : ∀ l, fit D.matrix w l = ∑ j, X (e l) j * w j := fun l => by
      unfold fit
      simp only [hD]
    cases k with
    | quadratic =>
      show (∑ l, (y (e l) - _) ^ 2 / 2) / (m : ℝ) = quadLoss _ _
      unfold quadLoss
      simp only [hf]
      rw [← Finset.sum_div, div_div]
    | logistic =>
      show _ = logLoss _ _
      unfold logLoss
      simp only [hf]
      rfl
  rw [h2, h2]
  linarith

/-! ## Unpenalised features -/

/-- **What regressing on the unpenalised features does**: the objective is that of the residuals, plus a square which vanishes for
the coefficients `b - A w`. -/
theorem C105_partial_objective (D : Design n p) (X : Fin n → Fin p → ℝ) (Z : Fin n → Fin q → ℝ) (y : Fin n → ℝ) (A : Fin q → Fin p → ℝ)
    (b : Fin q → ℝ) (hA : LeastSquares Z X A) (hb : LeastSquares Z (fun i (_ : Fin 1) => y i) fun k _ => b k)
    (hD : D.matrix = fun i j => X i j - ∑ k, Z i k * A k j) (pen : Pen) (w : Fin p → ℝ) (g : Fin q → ℝ) :
    partialObjective X Z y pen w g = objective1 D (fun i => y i - ∑ k, Z i k * b k) .quadratic pen w +
      (∑ i, (∑ k, Z i k * (g k - (b k - ∑ j, A k j * w j))) ^ 2) / (2 * n) := by
  obtain ⟨r, hr⟩ : ∃ r : Fin n → ℝ, r = fun i => y i - (∑ k, Z i k * b k) - fit D.matrix w i := ⟨_, rfl⟩
  obtain ⟨d, hd⟩ : ∃ d : Fin q → ℝ, d = fun k => g k - (b k - ∑ j, A k j * w j) := ⟨_, rfl⟩
  have hfit : ∀ i, fit D.matrix w i = ∑ j, X i j * w j - ∑ k, Z i k * ∑ j, A k j * w j := by
    intro i
    unfold fit
    rw [hD]
    simp only [sub_mul, Finset.sum_sub_distrib, Finset.sum_mul, Finset.mul_sum]
    congr 1
    rw [Finset.sum_comm]
    exact Finset.sum_congr rfl fun k _ => Finset.sum_congr rfl fun j _ => by ring
  have hres : ∀ i, y i - ∑ j, X i j * w j - ∑ k, Z i k * g k = r i - ∑ k, Z i k * d k := by
    intro i
    rw [hr, hd]
    dsimp only
    rw [hfit]
    simp only [mul_sub, Finset.sum_sub_distrib]
    ring
  have horth : ∀ k, ∑ i, Z i k * r i = 0 := by
    intro k
    have h1 := hb k 0
    have h2 : ∑ i, Z i k * fit D.matrix w i = 0 := by
      unfold fit
      simp only [Finset.mul_sum]
      rw [Finset.sum_comm]
      refine Finset.sum_eq_zero fun j _ => ?_
      have := hA k j
      rw [hD]
      calc ∑ i, Z i k * ((X i j - ∑ l, Z i l * A l j) * w j) = (∑ i, Z i k * (X i j - ∑ l, Z i l * A l j)) * w j := by
            rw [Finset.sum_mul]; exact Finset.sum_congr rfl fun i _ => by ring
        _ = 0 := by rw [this, zero_mul]
    rw [hr]
    simp only [mul_sub, Finset.sum_sub_distrib] at h1 h2 ⊢
    linarith
  have hcross : ∑ i, r i * ∑ k, Z i k * d k = 0 := by
    simp only [Finset.mul_sum]
    rw [Finset.sum_comm]
    refine Finset.sum_eq_zero fun k _ => ?_
    calc ∑ i, r i * (Z i k * d k) = (∑ i, Z i k * r i) * d k := by
          rw [Finset.sum_mul]; exact Finset.sum_congr rfl fun i _ => by ring
      _ = 0 := by rw [horth, zero_mul]
  unfold partialObjective objective1
  show _ = quadLoss _ _ + _ + _
  unfold quadLoss
  simp only [hres]
  have hsq : ∑ i, (r i - ∑ k, Z i k * d k) ^ 2 = ∑ i, r i ^ 2 + ∑ i, (∑ k, Z i k * d k) ^ 2 := by
    have : ∀ i, (r i - ∑ k, Z i k * d k) ^ 2 = r i ^ 2 + (∑ k, Z i k * d k) ^ 2 - 2 * (r i * ∑ k, Z i k * d k) := fun i => by ring
    simp only [this, Finset.sum_sub_distrib, Finset.sum_add_distrib, ← Finset.mul_sum]
    rw [hcross]; ring
  rw [hsq, hr, hd]
  ring

/-- **Unpenalised features** (Lasso, elastic net): calls which stop early on the residuals of `X` and `y`, with the coefficients
`b - A v` of the unpenalised features, are optimal up to the tolerance. -/
theorem C105_unpenalised {srt : Argsort XR} (hsrt : ArgsortSpec srt) (hn : 0 < n) (D : Design n p) (X : Fin n → Fin p → ℝ)
    (Z : Fin n → Fin q → ℝ) (y : Fin n → ℝ) (A : Fin q → Fin p → ℝ) (b : Fin q → ℝ) (hA : LeastSquares Z X A)
    (hb : LeastSquares Z (fun i (_ : Fin 1) => y i) fun k _ => b k) (hD : D.matrix = fun i j => X i j - ∑ k, Z i k * A k j) (pen : Pen)
    (hv : pen.Valid) (hcv : pen.Convex) (cfg : Solver XR) (τ : ℝ) (ht : cfg.tolerance = XR.fin τ) (v : Fin p → ℝ)
    (h : Stops srt cfg D (fun i => y i - ∑ k, Z i k * b k) .quadratic pen v) (w : Fin p → ℝ) (g : Fin q → ℝ) :
    partialObjective X Z y pen v (fun k => b k - ∑ j, A k j * v j) ≤ partialObjective X Z y pen w g + τ * ∑ j, |v j - w j| := by
  have h1 := (stops_cert hsrt hn hv hcv ht h).2 w
  rw [C105_partial_objective D X Z y A b hA hb hD, C105_partial_objective D X Z y A b hA hb hD]
  have h2 : (∑ i, (∑ k, Z i k * ((b k - ∑ j, A k j * v j) - (b k - ∑ j, A k j * v j))) ^ 2) / (2 * (n : ℝ)) = 0 := by simp
  have h3 : 0 ≤ (∑ i, (∑ k, Z i k * (g k - (b k - ∑ j, A k j * w j))) ^ 2) / (2 * (n : ℝ)) := by positivity
  rw [h2]
  linarith

/-! ## Examples -/

-- sample weights 1, 4, 0 and feature weights 2, 1
example : (fun (i : Fin 3) (j : Fin 2) => weightedDesign ![1, 4, 0] ![2, 1] (fun i j => (i.val : ℝ) + j.val + 1) i j) 1 0 = 2 := by
  have h : √(4 : ℝ) = 2 := by rw [show (4 : ℝ) = 2 ^ 2 by norm_num]; exact Real.sqrt_sq (by norm_num)
  unfold weightedDesign
  norm_num [h]

-- residuals with respect to a constant feature
example : LeastSquares (fun (_ : Fin 2) (_ : Fin 1) => (1 : ℝ)) (fun i (_ : Fin 1) => (i.val : ℝ)) fun _ _ => 1 / 2 := by
  intro k j
  norm_num [Fin.sum_univ_two]

-- the second of two samples counts three times, in logistic regression
example : Repeats ![1, 3] (![0, 1, 1, 1] : Fin 4 → Fin 2) := by
  intro i
  fin_cases i <;> decide

-- calls which stop early on rescaled data
example : ∃ (N : ℕ) (v : Fin 1 → ℝ), Stops argsortIns ⟨10, N, 50, XR.fin (1 / 100), 5, false, true⟩
    (.dense (weightedDesign ![1, 4] ![2] fun i (_ : Fin 1) => (i.val : ℝ) + 1)) (weightedTargets ![1, 4] ![3, -5]) .quadratic (.l1 (1 / 10)) v ∧
    ∀ w, weightedObjective ![1, 4] ![2] (fun i (_ : Fin 1) => (i.val : ℝ) + 1) ![3, -5] (.l1 (1 / 10)) (fun j => v j / (![2] : Fin 1 → ℝ) j) ≤
      weightedObjective ![1, 4] ![2] (fun i (_ : Fin 1) => (i.val : ℝ) + 1) ![3, -5] (.l1 (1 / 10)) w +
        1 / 100 * ∑ j, |(![2] : Fin 1 → ℝ) j| * |v j / (![2] : Fin 1 → ℝ) j - w j| := by
  have hv : (Pen.l1 (1 / 10)).Valid := by norm_num [Pen.Valid]
  obtain ⟨N, h⟩ := stops_exists two_pos (.dense (weightedDesign ![1, 4] ![2] fun i (_ : Fin 1) => (i.val : ℝ) + 1)) trivial
    (weightedTargets ![1, 4] ![3, -5]) .quadratic trivial (.l1 (1 / 10)) hv trivial (by norm_num [Pen.fn]) (1 / 100) (by norm_num)
  obtain ⟨v, h⟩ := h 10 (by norm_num)
  refine ⟨N, v, h, fun w => ?_⟩
  exact C105_weights argsortIns_spec two_pos _ _ (fun i => by fin_cases i <;> norm_num) _ (fun j => by fin_cases j; norm_num) _ rfl _ _ hv
    trivial _ (1 / 100) rfl v h w

example : ∃ (N : ℕ) (V : Fin 1 → Euc 2), StopsMT argsortIns ⟨10, N, 50, XR.fin (1 / 100), 5, false, true⟩
    (.dense (weightedDesign ![1, 4] ![2] fun i (_ : Fin 1) => (i.val : ℝ) + 1)) (fun i t => √((![1, 4] : Fin 2 → ℝ) i) * (i.val + 3 * t.val + 1 : ℝ))
    (.l21 (1 / 10)) V := by
  obtain ⟨N, h⟩ := stopsMT_exists two_pos (.dense (weightedDesign ![1, 4] ![2] fun i (_ : Fin 1) => (i.val : ℝ) + 1)) trivial
    (fun i (t : Fin 2) => √((![1, 4] : Fin 2 → ℝ) i) * (i.val + 3 * t.val + 1 : ℝ)) (1 / 10) (by norm_num) (1 / 100) (by norm_num)
  exact ⟨N, h 10 (by norm_num)⟩

example : ∃ (N : ℕ) (v : Fin 1 → ℝ), Stops argsortIns ⟨10, N, 50, XR.fin (1 / 100), 5, false, true⟩
    (.dense fun l (_ : Fin 1) => (![2, 3] : Fin 2 → ℝ) ((![0, 1, 1, 1] : Fin 4 → Fin 2) l))
    (fun l => (![1, -1] : Fin 2 → ℝ) ((![0, 1, 1, 1] : Fin 4 → Fin 2) l)) .logistic (.l1 (1 / 10)) v := by
  obtain ⟨N, h⟩ := stops_exists (n := 4) (by norm_num) (.dense fun l (_ : Fin 1) => (![2, 3] : Fin 2 → ℝ) ((![0, 1, 1, 1] : Fin 4 → Fin 2) l)) trivial
    (fun l => (![1, -1] : Fin 2 → ℝ) ((![0, 1, 1, 1] : Fin 4 → Fin 2) l)) .logistic (by intro l; fin_cases l <;> simp) (.l1 (1 / 10))
    (by norm_num [Pen.Valid]) trivial (by norm_num [Pen.fn]) (1 / 100) (by norm_num)
  exact ⟨N, h 10 (by norm_num)⟩

end Sglm
