import Mathlib.Analysis.Calculus.Deriv.Abs
import Verif.Spec.Selected
import Verif.Props.Calibration

/-!
# C117: the number of selected features

At a finished fit every selected feature has a correlation of at least `α - tol` with the residuals. If the largest eigenvalue of
`Xᵀ X / n` is at most `L`, this cannot be so for many features at once.
-/

namespace Sglm
open Scalar Spec
variable {n p T : ℕ}

/-- Bessel's inequality for the columns of a matrix. -/
theorem corr_sum (hn : 0 < n) {D : Design n p} {L : ℝ} (hL0 : 0 ≤ L) (hL : SpectralBound D L) (e : Fin n → ℝ) (c : Fin p → ℝ)
    (hc : ∀ j, n * c j = ∑ i, D.matrix i j * e i) (S : Finset (Fin p)) : n * ∑ j ∈ S, c j ^ 2 ≤ L * ∑ i, e i ^ 2 := by
  classical
  have hn' : (0 : ℝ) < n := by exact_mod_cast hn
  obtain ⟨u, hu⟩ : ∃ u : Fin p → ℝ, u = fun j => if j ∈ S then c j else 0 := ⟨_, rfl⟩
  have e1 : ∑ j, u j ^ 2 = ∑ j ∈ S, c j ^ 2 := by
    have : ∀ j, u j ^ 2 = if j ∈ S then c j ^ 2 else 0 := fun j => by
      rw [hu]
      by_cases hj : j ∈ S
      · simp only [if_pos hj]
      · simp only [if_neg hj]; ring
    rw [Finset.sum_congr rfl fun j _ => this j, Finset.sum_ite_mem, Finset.univ_inter]
  have e2 : n * ∑ j ∈ S, c j ^ 2 = ∑ i, e i * fit D.matrix u i := by
    have : ∀ j, u j ^ 2 = u j * c j := fun j => by
      rw [hu]
      by_cases hj : j ∈ S
      · simp only [if_pos hj]; ring
      · simp only [if_neg hj]; ring
    have hf : ∀ i, fit D.matrix u i = ∑ j, D.matrix i j * u j := fun i => rfl
    rw [← e1, Finset.mul_sum, Finset.sum_congr rfl fun j _ => show (n : ℝ) * u j ^ 2 = ∑ i, e i * (D.matrix i j * u j) by
      rw [this, show (n : ℝ) * (u j * c j) = u j * (n * c j) by ring, hc, Finset.mul_sum]
      exact Finset.sum_congr rfl fun i _ => by ring, Finset.sum_comm]
    exact Finset.sum_congr rfl fun i _ => by rw [hf, Finset.mul_sum]
  have e3 : (n * ∑ j ∈ S, c j ^ 2) ^ 2 ≤ (∑ i, e i ^ 2) * (n * L * ∑ j ∈ S, c j ^ 2) := by
    rw [e2, ← e1]
    exact (Finset.sum_mul_sq_le_sq_mul_sq _ _ _).trans (mul_le_mul_of_nonneg_left (hL u) (Finset.sum_nonneg fun _ _ => sq_nonneg _))
  have h0 : 0 ≤ ∑ j ∈ S, c j ^ 2 := Finset.sum_nonneg fun _ _ => sq_nonneg _
  have h1 : 0 ≤ ∑ i, e i ^ 2 := Finset.sum_nonneg fun _ _ => sq_nonneg _
  rcases h0.eq_or_lt with h | h
  · rw [← h, mul_zero]; exact mul_nonneg hL0 h1
  · refine le_of_mul_le_mul_left (a := n * ∑ j ∈ S, c j ^ 2) ?_ (by positivity)
    linarith [e3]

/-- A selected feature has a large correlation. -/
theorem corr_of_selected {pen : Pen} (hval : pen.Valid) (hc : pen.Convex) {v g τ : ℝ} (h : scoreOf pen v g ≤ τ) (hτ : τ ≤ pen.slope)
    (hv : v ≠ 0) : (pen.slope - τ) ^ 2 ≤ (-g) ^ 2 := by
  have a := (corr_of_score hval hc h).2
  have b : 0 < |v| := abs_pos.mpr hv
  have m := mul_nonneg (slope_modulus hval hc).2 (sq_nonneg v)
  have c : (pen.slope - τ) * |v| ≤ |v| * |-g| := by
    rw [← abs_mul]
    exact le_trans (by nlinarith) (le_abs_self _)
  have d : pen.slope - τ ≤ |-g| := le_of_mul_le_mul_left (by linarith) b
  rw [← sq_abs (-g)]
  exact pow_le_pow_left₀ (by linarith) d 2

theorem selected_bound (hn : 0 < n) {D : Design n p} {y : Fin n → ℝ} {k : LossKind} {pen : Pen} (hval : pen.Valid) (hc : pen.Convex) {τ : ℝ}
    (hτ : τ ≤ pen.slope) {v : Fin p → ℝ} (h : ∀ j, scoreOf pen (v j) (gradOf D.matrix y k (fit D.matrix v) j) ≤ τ) {L : ℝ} (hL0 : 0 ≤ L)
    (hL : SpectralBound D L) (e : Fin n → ℝ) (he : ∀ j, n * -gradOf D.matrix y k (fit D.matrix v) j = ∑ i, D.matrix i j * e i) :
    n * ((selected v).card * (pen.slope - τ) ^ 2) ≤ L * ∑ i, e i ^ 2 := by
  refine le_trans (mul_le_mul_of_nonneg_left ?_ (Nat.cast_nonneg n)) (corr_sum hn hL0 hL e _ he (selected v))
  rw [← nsmul_eq_mul]
  refine Finset.card_nsmul_le_sum _ _ _ fun j hj => ?_
  unfold selected at hj
  exact corr_of_selected hval hc (h j) hτ (Finset.mem_filter.mp hj).2

/-- **Least squares**: a Lasso or elastic-net fit selects at most `L ‖y - X w‖² / (n (α l1_ratio - tol)²)` features. -/
theorem C117_residual {srt : Argsort XR} (hs : ArgsortSpec srt) (hn : 0 < n) (D : Design n p) (y : Fin n → ℝ) (pen : Pen)
    (hv : pen.Valid) (hc : pen.Convex) (cfg : Solver XR) (τ : ℝ) (ht : cfg.tolerance = XR.fin τ) (hτ : τ ≤ pen.slope) (v : Fin p → ℝ)
    (h : Stops srt cfg D y .quadratic pen v) (L : ℝ) (hL0 : 0 ≤ L) (hL : SpectralBound D L) :
    n * ((selected v).card * (pen.slope - τ) ^ 2) ≤ L * ∑ i, (y i - fit D.matrix v i) ^ 2 := by
  have hn' : (0 : ℝ) < n := by exact_mod_cast hn
  refine selected_bound hn hv hc hτ (stops_scores hs hn hv ht h) hL0 hL _ fun j => ?_
  show (n : ℝ) * -quadGrad D.matrix y (fit D.matrix v) j = _
  rw [← corr_grad]
  exact mul_div_cancel₀ _ hn'.ne'

/-- **Floating point**: the same with `tol + ε`. -/
theorem C117_float (hn : 0 < n) (hp : 0 < p) (D : Design n p) (hD : D.Canonical) (y : Fin n → ℝ) (pen : Pen) (hv : pen.Valid)
    (hc : pen.Convex) (hpos : 0 < pen.fn 1) (τ : ℝ) (hτ : 0 < τ) (L : ℝ) (hL0 : 0 ≤ L) (hL : SpectralBound D L) :
    InFloat D y .quadratic pen τ fun ε v => τ + ε ≤ pen.slope →
      n * ((selected v).card * (pen.slope - (τ + ε)) ^ 2) ≤ L * ∑ i, (y i - fit D.matrix v i) ^ 2 := by
  have hn' : (0 : ℝ) < n := by exact_mod_cast hn
  refine inFloat_of hn hp D hD y .quadratic trivial pen hv hc hpos τ hτ fun ε _ v _ h2 hle => ?_
  refine le_trans (mul_le_mul_of_nonneg_left ?_ hn'.le) (corr_sum hn hL0 hL _ (residCorr D y v) (fun j => mul_div_cancel₀ _ hn'.ne')
    (selected v))
  rw [← nsmul_eq_mul]
  refine Finset.card_nsmul_le_sum _ _ _ fun j hj => ?_
  unfold selected at hj
  have a := (corr_of_cert D y hv hc h2 j).2
  have b : 0 < |v j| := abs_pos.mpr (Finset.mem_filter.mp hj).2
  have m := mul_nonneg (slope_modulus hv hc).2 (sq_nonneg (v j))
  have c : (pen.slope - (τ + ε)) * |v j| ≤ |v j| * |residCorr D y v j| := by
    rw [← abs_mul]
    exact le_trans (by nlinarith) (le_abs_self _)
  rw [← sq_abs (residCorr D y v j)]
  exact pow_le_pow_left₀ (by linarith) (le_of_mul_le_mul_left (by linarith) b) 2

/-- In terms of the data alone. -/
theorem C117_selected {srt : Argsort XR} (hs : ArgsortSpec srt) (hn : 0 < n) (D : Design n p) (hD : D.Canonical) (y : Fin n → ℝ) (pen : Pen)
    (hv : pen.Valid) (hc : pen.Convex) (cfg : Solver XR) (τ : ℝ) (ht : cfg.tolerance = XR.fin τ) (hτ : τ < pen.slope) (v : Fin p → ℝ)
    (h : Stops srt cfg D y .quadratic pen v) (L : ℝ) (hL0 : 0 ≤ L) (hL : SpectralBound D L) :
    ((selected v).card : ℝ) ≤ L * (∑ i, y i ^ 2) / (n * (pen.slope - τ) ^ 2) := by
  have hn' : (0 : ℝ) < n := by exact_mod_cast hn
  have hst : pen.StepOK D .quadratic := by cases pen <;> trivial
  have a := C117_residual hs hn D y pen hv hc cfg τ ht hτ.le v h L hL0 hL
  have b := C93_residuals hs hn D hD y pen hv hst cfg v h.1
  have c : 0 ≤ ∑ j, pen.fn (v j) := Finset.sum_nonneg fun j _ => pen_fn_nonneg pen hv (v j)
  have d : ∑ i, (y i - fit D.matrix v i) ^ 2 ≤ ∑ i, y i ^ 2 := by
    have := mul_nonneg (mul_nonneg zero_le_two hn'.le) c
    linarith
  have s : 0 < (pen.slope - τ) ^ 2 := pow_pos (by linarith) 2
  rw [le_div_iff₀ (mul_pos hn' s)]
  have := mul_le_mul_of_nonneg_left d hL0
  linarith

theorem labels_sq {y : Fin n → ℝ} (hy : ∀ i, |y i| ≤ 1) (f : Fin n → ℝ) : ∑ i, (y i * sigm (-y i * f i)) ^ 2 ≤ n := by
  calc ∑ i, (y i * sigm (-y i * f i)) ^ 2 ≤ ∑ _i : Fin n, (1 : ℝ) := Finset.sum_le_sum fun i _ => by
        have s0 : 0 < sigm (-y i * f i) := by unfold sigm; positivity
        have s1 : sigm (-y i * f i) ≤ 1 := by
          unfold sigm
          rw [div_le_one (by positivity)]
          linarith [Real.exp_pos (-(-y i * f i))]
        rw [sq_le_one_iff_abs_le_one, abs_mul, abs_of_pos s0]
        exact mul_le_one₀ (hy i) s0.le s1
    _ = n := by simp

/-- **Logistic regression**: at most `L / (α l1_ratio - tol)²` features, whatever the labels. -/
theorem C117_logistic {srt : Argsort XR} (hs : ArgsortSpec srt) (hn : 0 < n) (D : Design n p) (y : Fin n → ℝ) (hy : ∀ i, |y i| ≤ 1)
    (pen : Pen) (hv : pen.Valid) (hc : pen.Convex) (cfg : Solver XR) (τ : ℝ) (ht : cfg.tolerance = XR.fin τ) (hτ : τ < pen.slope)
    (v : Fin p → ℝ) (h : Stops srt cfg D y .logistic pen v) (L : ℝ) (hL0 : 0 ≤ L) (hL : SpectralBound D L) :
    ((selected v).card : ℝ) ≤ L / (pen.slope - τ) ^ 2 := by
  have hn' : (0 : ℝ) < n := by exact_mod_cast hn
  have a := selected_bound hn hv hc hτ.le (stops_scores hs hn hv ht h) hL0 hL (fun i => y i * sigm (-y i * fit D.matrix v i)) fun j => by
    show (n : ℝ) * -(-(∑ i, D.matrix i j * (y i * sigm (-y i * fit D.matrix v i))) / n) = _
    rw [neg_div, neg_neg, mul_div_cancel₀ _ hn'.ne']
  have b := labels_sq hy (fit D.matrix v)
  have s : 0 < (pen.slope - τ) ^ 2 := pow_pos (by linarith) 2
  rw [le_div_iff₀ s]
  refine le_of_mul_le_mul_left (a := (n : ℝ)) ?_ hn'
  have := mul_le_mul_of_nonneg_left b hL0
  linarith

/-- A feature selected by an `l1` penalty has a large derivative, if the coefficients have a certificate. -/
theorem selected_grad (hn : 0 < n) {D : Design n p} {y : Fin n → ℝ} {k : LossKind} {α τ : ℝ} (hα : 0 ≤ α) {v : Fin p → ℝ}
    (h : ∀ w, objective1 D y k (.l1 α) v - objective1 D y k (.l1 α) w ≤ τ * ∑ j, |v j - w j|) {j : Fin p} (hj : v j ≠ 0) :
    α - τ ≤ |gradOf D.matrix y k (fit D.matrix v) j| := by
  have hd := (loss_partial hn D.matrix y k v j).add ((hasDerivAt_abs hj).const_mul α)
  have a : |gradOf D.matrix y k (fit D.matrix v) j + α * (SignType.sign (v j) : ℝ)| ≤ τ := by
    refine deriv_bound hd fun z => ?_
    have a := h (Function.update v j z)
    have b : ∑ i, |v i - Function.update v j z i| = |v j - z| := by
      rw [Finset.sum_eq_single j]
      · rw [Function.update_self]
      · intro i _ hi; rw [Function.update_of_ne hi, sub_self, abs_zero]
      · intro hj; exact absurd (Finset.mem_univ j) hj
    have c : ∑ i, α * |v i| - ∑ i, α * |Function.update v j z i| = α * |v j| - α * |z| := by
      rw [← Finset.sum_sub_distrib, Finset.sum_eq_single j]
      · rw [Function.update_self]
      · intro i _ hi; rw [Function.update_of_ne hi, sub_self]
      · intro hj; exact absurd (Finset.mem_univ j) hj
    rw [b] at a
    have a : k.loss y (fit D.matrix v) + ∑ i, α * |v i| -
      (k.loss y (fit D.matrix (Function.update v j z)) + ∑ i, α * |Function.update v j z i|) ≤ τ * |v j - z| := a
    show k.loss y (fit D.matrix (Function.update v j (v j))) + α * |v j| - (k.loss y (fit D.matrix (Function.update v j z)) + α * |z|) ≤ _
    rw [Function.update_eq_self]
    linarith
  have b : |α * (SignType.sign (v j) : ℝ)| = α := by
    rw [abs_mul, abs_of_nonneg hα]
    rcases lt_or_gt_of_ne hj with h | h
    · rw [sign_neg h]; norm_num
    · rw [sign_pos h]; norm_num
  have c := abs_sub_abs_le_abs_sub (α * (SignType.sign (v j) : ℝ)) (-gradOf D.matrix y k (fit D.matrix v) j)
  rw [b, abs_neg, sub_neg_eq_add, add_comm (α * _)] at c
  linarith

/-- **Logistic regression in floating point**, `l1` penalty. -/
theorem C117_float_logistic (hn : 0 < n) (hp : 0 < p) (D : Design n p) (hD : D.Canonical) (y : Fin n → ℝ) (hy : ∀ i, |y i| ≤ 1) (α : ℝ)
    (hα : 0 < α) (τ : ℝ) (hτ : 0 < τ) (L : ℝ) (hL0 : 0 ≤ L) (hL : SpectralBound D L) :
    InFloat D y .logistic (.l1 α) τ fun ε v => τ + ε < α → ((selected v).card : ℝ) ≤ L / (α - (τ + ε)) ^ 2 := by
  have hn' : (0 : ℝ) < n := by exact_mod_cast hn
  refine inFloat_of hn hp D hD y .logistic hy (.l1 α) hα.le trivial (by simpa [Pen.fn] using hα) τ hτ fun ε _ v _ h2 hle => ?_
  have s : 0 < (α - (τ + ε)) ^ 2 := pow_pos (by linarith) 2
  rw [le_div_iff₀ s]
  refine le_of_mul_le_mul_left (a := (n : ℝ)) ?_ hn'
  have a := corr_sum hn hL0 hL (fun i => y i * sigm (-y i * fit D.matrix v i))
    (fun j => -gradOf D.matrix y .logistic (fit D.matrix v) j) (fun j => by
      show (n : ℝ) * -(-(∑ i, D.matrix i j * (y i * sigm (-y i * fit D.matrix v i))) / n) = _
      rw [neg_div, neg_neg, mul_div_cancel₀ _ hn'.ne']) (selected v)
  have b : (selected v).card * (α - (τ + ε)) ^ 2 ≤ ∑ j ∈ selected v, (-gradOf D.matrix y .logistic (fit D.matrix v) j) ^ 2 := by
    rw [← nsmul_eq_mul]
    refine Finset.card_nsmul_le_sum _ _ _ fun j hj => ?_
    unfold selected at hj
    rw [neg_sq, ← sq_abs (gradOf _ _ _ _ _)]
    exact pow_le_pow_left₀ (by linarith) (selected_grad hn hα.le h2 (Finset.mem_filter.mp hj).2) 2
  have c := mul_le_mul_of_nonneg_left (labels_sq hy (fit D.matrix v)) hL0
  have d := mul_le_mul_of_nonneg_left b hn'.le
  linarith

/-- A bound `L` which always holds: the sum of the mean squares of the features. -/
theorem spectral_trace (hn : 0 < n) (D : Design n p) : SpectralBound D ((∑ i, ∑ j, D.matrix i j ^ 2) / n) := fun w => by
  have hn' : (0 : ℝ) < n := by exact_mod_cast hn
  rw [mul_div_cancel₀ _ hn'.ne', Finset.sum_mul]
  exact Finset.sum_le_sum fun i _ => Finset.sum_mul_sq_le_sq_mul_sq _ _ _

/-- **Without knowledge of the eigenvalues**. -/
theorem C117_trace {srt : Argsort XR} (hs : ArgsortSpec srt) (hn : 0 < n) (D : Design n p) (hD : D.Canonical) (y : Fin n → ℝ) (pen : Pen)
    (hv : pen.Valid) (hc : pen.Convex) (cfg : Solver XR) (τ : ℝ) (ht : cfg.tolerance = XR.fin τ) (hτ : τ < pen.slope) (v : Fin p → ℝ)
    (h : Stops srt cfg D y .quadratic pen v) :
    ((selected v).card : ℝ) ≤ (∑ i, ∑ j, D.matrix i j ^ 2) / n * (∑ i, y i ^ 2) / (n * (pen.slope - τ) ^ 2) :=
  C117_selected hs hn D hD y pen hv hc cfg τ ht hτ v h _
    (div_nonneg (Finset.sum_nonneg fun _ _ => Finset.sum_nonneg fun _ _ => sq_nonneg _) (Nat.cast_nonneg _)) (spectral_trace hn D)

/-- **Multi-task Lasso**: the number of features with a nonzero row. -/
theorem C117_mt {srt : Argsort XR} (hs : ArgsortSpec srt) (hn : 0 < n) (D : Design n p) (hD : D.Canonical) (Y : Fin n → Fin T → ℝ) (α : ℝ)
    (hα : 0 < α) (cfg : Solver XR) (τ : ℝ) (ht : cfg.tolerance = XR.fin τ) (hτ : τ < α) (V : Fin p → Euc T)
    (h : StopsMT srt cfg D Y (.l21 α) V) (L : ℝ) (hL0 : 0 ≤ L) (hL : SpectralBound D L) :
    ((selectedMT V).card : ℝ) ≤ L * (∑ i, ∑ t, Y i t ^ 2) / (n * (α - τ) ^ 2) := by
  have hn' : (0 : ℝ) < n := by exact_mod_cast hn
  have a : ∀ j ∈ selectedMT V, (α - τ) ^ 2 ≤ ∑ t, residCorrMT D Y V j t ^ 2 := fun j hj => by
    unfold selectedMT at hj
    have hv : 0 < ‖V j‖ := norm_pos_iff.mpr (Finset.mem_filter.mp hj).2
    have b : (α - τ) * ‖V j‖ ≤ inner ℝ (V j) (residCorrMT D Y V j) := by
      rw [corrMT_grad]
      exact (corrMT_of_score hα.le (stopsMT_scores hs hn (show (BPen.l21 α).Valid from hα) ht h j)).2
    have c : α - τ ≤ ‖residCorrMT D Y V j‖ :=
      le_of_mul_le_mul_left (by linarith [b.trans (real_inner_le_norm _ _)]) hv
    have d := pow_le_pow_left₀ (by linarith) c 2
    rwa [EuclideanSpace.norm_sq_eq, Finset.sum_congr rfl fun t _ => by rw [Real.norm_eq_abs, sq_abs]] at d
  have b : (selectedMT V).card * (α - τ) ^ 2 ≤ ∑ j ∈ selectedMT V, ∑ t, residCorrMT D Y V j t ^ 2 := by
    rw [← nsmul_eq_mul]
    exact Finset.card_nsmul_le_sum _ _ _ a
  have c : ∀ t, n * ∑ j ∈ selectedMT V, residCorrMT D Y V j t ^ 2 ≤
      L * ∑ i, (Y i t - fitMT D.matrix (fun j => (V j).ofLp) i t) ^ 2 := fun t =>
    corr_sum hn hL0 hL _ _ (fun j => mul_div_cancel₀ _ hn'.ne') _
  have d := Finset.sum_le_sum fun t (_ : t ∈ Finset.univ) => c t
  rw [← Finset.mul_sum, ← Finset.mul_sum, Finset.sum_comm, Finset.sum_comm (s := Finset.univ (α := Fin T))] at d
  have e := C93_residuals_mt hs hn D hD Y (.l21 α) hα trivial cfg V h.1
  have f : 0 ≤ ∑ j, (BPen.l21 α).fn (V j) := Finset.sum_nonneg fun j _ => mul_nonneg hα.le (norm_nonneg _)
  have g : ∑ i, ∑ t, (Y i t - fitMT D.matrix (fun j => (V j).ofLp) i t) ^ 2 ≤ ∑ i, ∑ t, Y i t ^ 2 := by
    have := mul_nonneg (mul_nonneg zero_le_two hn'.le) f
    linarith
  have s : 0 < (α - τ) ^ 2 := pow_pos (by linarith) 2
  rw [le_div_iff₀ (mul_pos hn' s)]
  have g' := mul_le_mul_of_nonneg_left g hL0
  have b' := mul_le_mul_of_nonneg_left b hn'.le
  linarith

/-! ## Example: two orthogonal features, of which at most one is selected -/

theorem idD_spectral : SpectralBound idD (1 / 2) := fun w => by
  have h : ∀ i, fit idD.matrix w i = w i := fun i => by
    have hf : fit idD.matrix w i = ∑ j, idD.matrix i j * w j := rfl
    rw [hf, Fin.sum_univ_two]
    fin_cases i
    · show (1 : ℝ) * w 0 + 0 * w 1 = w 0; ring
    · show (0 : ℝ) * w 0 + 1 * w 1 = w 1; ring
  rw [Finset.sum_congr rfl fun i _ => by rw [h i]]
  norm_num

-- one of two features
example : ∃ (N : ℕ) (v : Fin 2 → ℝ), Stops argsortIns ⟨1, N, 50, XR.fin (1 / 100), 5, false, true⟩ idD ![4, 1] .quadratic (.l1 (17 / 10)) v ∧
    ((selected v).card : ℝ) < 2 := by
  obtain ⟨N, h⟩ := stops_exists (n := 2) two_pos idD trivial ![4, 1] .quadratic trivial (.l1 (17 / 10)) (by norm_num [Pen.Valid]) trivial
    (by norm_num [Pen.fn]) (1 / 100) (by norm_num)
  obtain ⟨v, hv⟩ := h 1 one_pos
  refine ⟨N, v, hv, lt_of_le_of_lt (C117_selected argsortIns_spec two_pos idD trivial ![4, 1] (.l1 (17 / 10)) (by norm_num [Pen.Valid])
    trivial _ (1 / 100) rfl (by norm_num [Pen.slope]) v hv (1 / 2) (by norm_num) idD_spectral) ?_⟩
  rw [Fin.sum_univ_two]
  norm_num [Pen.slope]

-- without eigenvalues, stronger penalty
example : ∃ (N : ℕ) (v : Fin 2 → ℝ), Stops argsortIns ⟨1, N, 50, XR.fin (1 / 100), 5, false, true⟩ idD ![4, 0] .quadratic (.l1 (19 / 10)) v ∧
    ((selected v).card : ℝ) < 3 := by
  obtain ⟨N, h⟩ := stops_exists (n := 2) two_pos idD trivial ![4, 0] .quadratic trivial (.l1 (19 / 10)) (by norm_num [Pen.Valid]) trivial
    (by norm_num [Pen.fn]) (1 / 100) (by norm_num)
  obtain ⟨v, hv⟩ := h 1 one_pos
  refine ⟨N, v, hv, lt_of_le_of_lt (C117_trace argsortIns_spec two_pos idD trivial ![4, 0] (.l1 (19 / 10)) (by norm_num [Pen.Valid])
    trivial _ (1 / 100) rfl (by norm_num [Pen.slope]) v hv) ?_⟩
  have m : ∑ i, ∑ j, idD.matrix i j ^ 2 = 2 := by
    rw [Fin.sum_univ_two, Fin.sum_univ_two, Fin.sum_univ_two]
    show ((1 : ℝ) ^ 2 + 0 ^ 2) + (0 ^ 2 + 1 ^ 2) = 2
    norm_num
  rw [m, Fin.sum_univ_two]
  norm_num [Pen.slope]

-- floating point
example : InFloat idD ![4, 1] .quadratic (.enet (17 / 10) (1 / 2)) (1 / 100) fun ε v => 1 / 100 + ε ≤ 17 / 10 * (1 / 2) →
    ((2 : ℕ) : ℝ) * ((selected v).card * (17 / 10 * (1 / 2) - (1 / 100 + ε)) ^ 2) ≤
      1 / 2 * ∑ i, ((![4, 1] : Fin 2 → ℝ) i - fit idD.matrix v i) ^ 2 :=
  C117_float two_pos two_pos idD trivial ![4, 1] (.enet (17 / 10) (1 / 2)) (by norm_num [Pen.Valid]) trivial (by norm_num [Pen.fn, enet])
    (1 / 100) (by norm_num) (1 / 2) (by norm_num) idD_spectral

-- two tasks
example : ∃ (N : ℕ) (V : Fin 2 → Euc 2), StopsMT argsortIns ⟨1, N, 50, XR.fin (1 / 100), 5, false, true⟩ idD ![![4, 0], ![0, 1]]
    (.l21 (17 / 10)) V ∧ ((selectedMT V).card : ℝ) < 2 := by
  obtain ⟨N, h⟩ := stopsMT_exists two_pos idD trivial ![![4, 0], ![0, 1]] (17 / 10) (by norm_num) (1 / 100) (by norm_num)
  obtain ⟨V, hV⟩ := h 1 one_pos
  refine ⟨N, V, hV, lt_of_le_of_lt (C117_mt argsortIns_spec two_pos idD trivial _ (17 / 10) (by norm_num) _ (1 / 100) rfl
    (by norm_num) V hV (1 / 2) (by norm_num) idD_spectral) ?_⟩
  rw [Fin.sum_univ_two, Fin.sum_univ_two, Fin.sum_univ_two]
  norm_num

-- logistic regression: at this strength nothing or one of the two features
example : ∃ (N : ℕ) (v : Fin 2 → ℝ), Stops argsortIns ⟨1, N, 50, XR.fin (1 / 100), 5, false, true⟩ idD ![1, -1] .logistic (.l1 (3 / 5)) v ∧
    ((selected v).card : ℝ) < 2 := by
  have hy : ∀ i, |(![1, -1] : Fin 2 → ℝ) i| ≤ 1 := fun i => by fin_cases i <;> norm_num
  obtain ⟨N, h⟩ := stops_exists (n := 2) two_pos idD trivial ![1, -1] .logistic hy (.l1 (3 / 5)) (by norm_num [Pen.Valid]) trivial
    (by norm_num [Pen.fn]) (1 / 100) (by norm_num)
  obtain ⟨v, hv⟩ := h 1 one_pos
  exact ⟨N, v, hv, lt_of_le_of_lt (C117_logistic argsortIns_spec two_pos idD ![1, -1] hy (.l1 (3 / 5)) (by norm_num [Pen.Valid])
    trivial _ (1 / 100) rfl (by norm_num [Pen.slope]) v hv (1 / 2) (by norm_num) idD_spectral) (by norm_num [Pen.slope])⟩

-- the same in floating point
example : InFloat idD ![1, -1] .logistic (.l1 (3 / 5)) (1 / 100) fun ε v => 1 / 100 + ε < 3 / 5 →
    ((selected v).card : ℝ) ≤ 1 / 2 / (3 / 5 - (1 / 100 + ε)) ^ 2 :=
  C117_float_logistic two_pos two_pos idD trivial ![1, -1] (fun i => by fin_cases i <;> norm_num) (3 / 5) (by norm_num) (1 / 100) (by norm_num)
    (1 / 2) (by norm_num) idD_spectral

end Sglm
