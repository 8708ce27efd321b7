import Verif.Spec.GapLogistic
import Verif.Proofs.Gap

/-!
# Auxiliary lemmas: the duality gap of sparse logistic regression
-/

namespace Sglm
open Scalar Spec
variable {n p : ℕ}

/-! ## Entropy and the logistic loss -/

/-- Fenchel's inequality. -/
theorem entropy_le {q m : ℝ} (h0 : 0 ≤ q) (h1 : q ≤ 1) : Real.binEntropy q - q * m ≤ Real.log (1 + Real.exp (-m)) := by
  have hZ : 0 < 1 + Real.exp (-m) := by positivity
  rcases eq_or_lt_of_le h0 with rfl | h0
  · rw [Real.binEntropy_zero, zero_mul, sub_zero]
    exact Real.log_nonneg (by linarith [Real.exp_pos (-m)])
  rcases eq_or_lt_of_le h1 with rfl | h1
  · rw [Real.binEntropy_one, one_mul, zero_sub]
    rw [Real.le_log_iff_exp_le hZ]
    linarith
  have h2 : 0 < 1 - q := by linarith
  -- `log x ≤ x - 1` at `exp (-m) / (Z q)` and `1 / (Z (1 - q))`
  have a := Real.log_le_sub_one_of_pos (show 0 < Real.exp (-m) / ((1 + Real.exp (-m)) * q) by positivity)
  have b := Real.log_le_sub_one_of_pos (show 0 < 1 / ((1 + Real.exp (-m)) * (1 - q)) by positivity)
  rw [Real.log_div (Real.exp_pos _).ne' (by positivity), Real.log_mul hZ.ne' h0.ne', Real.log_exp] at a
  rw [Real.log_div one_ne_zero (by positivity), Real.log_mul hZ.ne' h2.ne', Real.log_one] at b
  have a' := mul_le_mul_of_nonneg_left a h0.le
  have b' := mul_le_mul_of_nonneg_left b h2.le
  have e : q * (Real.exp (-m) / ((1 + Real.exp (-m)) * q) - 1) + (1 - q) * (1 / ((1 + Real.exp (-m)) * (1 - q)) - 1) = 0 := by
    field_simp
    ring
  unfold Real.binEntropy
  rw [Real.log_inv, Real.log_inv]
  nlinarith

/-- Equality. -/
theorem entropy_eq (m : ℝ) :
    Real.binEntropy (1 + Real.exp m)⁻¹ - (1 + Real.exp m)⁻¹ * m = Real.log (1 + Real.exp (-m)) := by
  have hZ : 0 < 1 + Real.exp m := by positivity
  have e1 : 1 - (1 + Real.exp m)⁻¹ = Real.exp m / (1 + Real.exp m) := by field_simp; ring
  have e2 : 1 + Real.exp (-m) = (1 + Real.exp m) / Real.exp m := by rw [Real.exp_neg]; field_simp; ring
  unfold Real.binEntropy
  rw [e1, e2, inv_inv, Real.log_inv, Real.log_div (Real.exp_pos m).ne' hZ.ne', Real.log_div hZ.ne' (Real.exp_pos m).ne', Real.log_exp]
  field_simp
  ring

theorem entropy_scale {s q : ℝ} (hs : 0 ≤ s ∧ s ≤ 1) (h0 : 0 ≤ q) (h1 : q ≤ 1) : s * Real.binEntropy q ≤ Real.binEntropy (s * q) := by
  have h := Real.strictConcave_binEntropy.concaveOn.2 (Set.mem_Icc.mpr ⟨le_rfl, zero_le_one⟩) (Set.mem_Icc.mpr ⟨h0, h1⟩)
    (sub_nonneg.mpr hs.2) hs.1 (sub_add_cancel 1 s)
  simpa using h

theorem errorProb_mem (D : Design n p) (y : Fin n → ℝ) (w : Fin p → ℝ) (i : Fin n) : 0 ≤ errorProb D y w i ∧ errorProb D y w i ≤ 1 := by
  unfold errorProb
  exact ⟨by positivity, inv_le_one_of_one_le₀ (by linarith [Real.exp_pos (y i * fit D.matrix w i)])⟩

theorem errorCorr_grad (D : Design n p) (y : Fin n → ℝ) (v : Fin p → ℝ) (j : Fin p) :
    errorCorr D y v j = -logGrad D.matrix y (fit D.matrix v) j := by
  unfold errorCorr logGrad errorProb sigm
  rw [neg_div, neg_neg]
  congr 1
  refine Finset.sum_congr rfl fun i _ => ?_
  rw [show -(-y i * fit D.matrix v i) = y i * fit D.matrix v i by ring]
  first | rfl | simp only [one_div]

theorem sum_mul_errorCorr (D : Design n p) (y : Fin n → ℝ) (u w : Fin p → ℝ) :
    ∑ j, w j * errorCorr D y u j = (∑ i, errorProb D y u i * (y i * fit D.matrix w i)) / n := by
  unfold errorCorr
  simp only [mul_div_assoc', Finset.mul_sum]
  rw [← Finset.sum_div, Finset.sum_comm]
  congr 1
  refine Finset.sum_congr rfl fun i _ => ?_
  show _ = _ * (_ * ∑ j, D.matrix i j * w j)
  rw [Finset.mul_sum, Finset.mul_sum]
  exact Finset.sum_congr rfl fun j _ => by ring

theorem enet_fn {pen : Pen} (hc : pen.Convex) (z : ℝ) : pen.fn z = pen.modulus * z ^ 2 / 2 + pen.slope * |z| := by
  cases pen with
  | l1 α => show α * |z| = 0 * z ^ 2 / 2 + α * |z|; ring
  | enet α ρ =>
    show α * (ρ * ‖z‖ + (1 - ρ) * ‖z‖ ^ 2 / 2) = α * (1 - ρ) * z ^ 2 / 2 + α * ρ * |z|
    rw [Real.norm_eq_abs, sq_abs]; ring
  | mcp α γ => exact hc.elim
  | l05 α => exact hc.elim

theorem log_objective (D : Design n p) (y : Fin n → ℝ) {pen : Pen} (hc : pen.Convex) (w : Fin p → ℝ) :
    objective1 D y .logistic pen w = (∑ i, Real.log (1 + Real.exp (-(y i * fit D.matrix w i)))) / n +
      pen.modulus * (∑ j, w j ^ 2) / 2 + pen.slope * ∑ j, |w j| := by
  unfold objective1
  show logLoss _ _ + _ = _
  unfold logLoss
  simp only [enet_fn hc, Finset.sum_add_distrib, ← Finset.mul_sum, ← Finset.sum_div]
  ring

theorem dualScale_nonneg {a c : ℝ} (ha : 0 ≤ a) : 0 ≤ dualScale a c ∧ dualScale a c ≤ 1 := by
  unfold dualScale
  split
  · rename_i h
    exact ⟨div_nonneg ha (ha.trans h.le), (div_le_one (ha.trans_lt h)).mpr h.le⟩
  · exact ⟨zero_le_one, le_rfl⟩

/-- Weak duality. -/
theorem gapLog_weak (D : Design n p) (y : Fin n → ℝ) {pen : Pen} (hv : pen.Valid) (hc : pen.Convex) (u w : Fin p → ℝ) :
    objective1 D y .logistic pen u ≤ objective1 D y .logistic pen w + dualityGapLog D y pen.slope pen.modulus u := by
  obtain ⟨ha, hb⟩ := slope_modulus hv hc
  rw [log_objective D y hc, log_objective D y hc]
  unfold dualityGapLog
  generalize pen.slope = a at *
  generalize pen.modulus = b at *
  obtain ⟨hs0, hs1⟩ := dualScale_nonneg (c := ⨆ j, |errorCorr D y u j - b * u j|) ha
  have hscale : ∀ j, dualScale a (⨆ j, |errorCorr D y u j - b * u j|) * |errorCorr D y u j - b * u j| ≤ a := fun j =>
    le_trans (mul_le_mul_of_nonneg_left (le_sup_fin (fun j => |errorCorr D y u j - b * u j|) j) hs0) (dualScale_mul ha)
  generalize dualScale a (⨆ j, |errorCorr D y u j - b * u j|) = s at *
  have h1 : (∑ i, Real.binEntropy (s * errorProb D y u i)) / n - s * ∑ j, w j * errorCorr D y u j ≤
      (∑ i, Real.log (1 + Real.exp (-(y i * fit D.matrix w i)))) / n := by
    rw [sum_mul_errorCorr, mul_div_assoc', ← sub_div, Finset.mul_sum, ← Finset.sum_sub_distrib]
    refine div_le_div_of_nonneg_right (Finset.sum_le_sum fun i _ => ?_) (Nat.cast_nonneg _)
    obtain ⟨q0, q1⟩ := errorProb_mem D y u i
    rw [← mul_assoc]
    exact entropy_le (mul_nonneg hs0 q0) (mul_le_one₀ hs1 q0 q1)
  have h2 : s * (∑ j, u j * w j) - s ^ 2 / 2 * ∑ j, u j ^ 2 ≤ (∑ j, w j ^ 2) / 2 := by
    rw [Finset.mul_sum, Finset.mul_sum, Finset.sum_div, ← Finset.sum_sub_distrib]
    refine Finset.sum_le_sum fun j _ => ?_
    nlinarith [sq_nonneg (s * u j - w j)]
  have h3 : s * (∑ j, w j * errorCorr D y u j - b * ∑ j, u j * w j) ≤ a * ∑ j, |w j| := by
    rw [Finset.mul_sum, ← Finset.sum_sub_distrib, Finset.mul_sum, Finset.mul_sum]
    refine Finset.sum_le_sum fun j _ => ?_
    have e : s * (w j * errorCorr D y u j - b * (u j * w j)) = w j * (s * (errorCorr D y u j - b * u j)) := by ring
    rw [e]
    refine (le_abs_self _).trans ?_
    rw [abs_mul, abs_mul, abs_of_nonneg hs0, mul_comm a]
    exact mul_le_mul_of_nonneg_left (hscale j) (abs_nonneg _)
  have h2' := mul_le_mul_of_nonneg_left h2 hb
  show _ ≤ _ + (_ - (_ - s ^ 2 * b * _ / 2))
  linarith

/-- The upper bound, from the correlations. -/
theorem gapLog_le (D : Design n p) (y : Fin n → ℝ) {pen : Pen} (hv : pen.Valid) (hc : pen.Convex) (ha : 0 < pen.slope) {τ C : ℝ} (hτ : 0 ≤ τ)
    {v : Fin p → ℝ} (hC : objective1 D y .logistic pen v ≤ C)
    (hq : ∀ j, |errorCorr D y v j - pen.modulus * v j| ≤ pen.slope + τ ∧
      (pen.slope - τ) * |v j| ≤ v j * (errorCorr D y v j - pen.modulus * v j)) :
    dualityGapLog D y pen.slope pen.modulus v ≤ 2 * τ / pen.slope * C := by
  have hb := (slope_modulus hv hc).2
  rw [log_objective D y hc] at hC
  unfold dualityGapLog
  dsimp only
  have hs := dualScale_pos (c := ⨆ j, |errorCorr D y v j - pen.modulus * v j|) ha
  have hnear := dualScale_near ha hτ (sup_fin_le (by linarith) fun j => (hq j).1)
  have hN : (pen.slope - τ) * ∑ j, |v j| ≤ ∑ j, v j * errorCorr D y v j - pen.modulus * ∑ j, v j ^ 2 := by
    rw [Finset.mul_sum, Finset.mul_sum, ← Finset.sum_sub_distrib]
    refine Finset.sum_le_sum fun j _ => (hq j).2.trans (le_of_eq (by ring))
  generalize dualScale pen.slope (⨆ j, |errorCorr D y v j - pen.modulus * v j|) = s at *
  have hL0 : 0 ≤ (∑ i, Real.log (1 + Real.exp (-(y i * fit D.matrix v i)))) / n :=
    div_nonneg (Finset.sum_nonneg fun i _ => Real.log_nonneg (by linarith [Real.exp_pos (-(y i * fit D.matrix v i))])) (Nat.cast_nonneg _)
  have h1 : s * ((∑ i, Real.log (1 + Real.exp (-(y i * fit D.matrix v i)))) / n + ∑ j, v j * errorCorr D y v j) ≤
      (∑ i, Real.binEntropy (s * errorProb D y v i)) / n := by
    rw [sum_mul_errorCorr, ← add_div, mul_div_assoc', ← Finset.sum_add_distrib, Finset.mul_sum]
    refine div_le_div_of_nonneg_right (Finset.sum_le_sum fun i _ => ?_) (Nat.cast_nonneg _)
    obtain ⟨q0, q1⟩ := errorProb_mem D y v i
    refine le_trans (le_of_eq ?_) (entropy_scale ⟨hs.1.le, hs.2⟩ q0 q1)
    rw [← entropy_eq]
    unfold errorProb
    ring
  have hV0 : 0 ≤ ∑ j, v j ^ 2 := Finset.sum_nonneg fun _ _ => sq_nonneg _
  have hA0 : 0 ≤ ∑ j, |v j| := Finset.sum_nonneg fun _ _ => abs_nonneg _
  generalize (∑ i, Real.log (1 + Real.exp (-(y i * fit D.matrix v i)))) / (n : ℝ) = L at *
  generalize (∑ i, Real.binEntropy (s * errorProb D y v i)) / (n : ℝ) = H at *
  generalize ∑ j, v j * errorCorr D y v j = Q at *
  generalize ∑ j, v j ^ 2 = V at *
  generalize ∑ j, |v j| = N at *
  generalize pen.slope = a at *
  generalize pen.modulus = b at *
  show L + b * V / 2 + a * N - (H - s ^ 2 * b * V / 2) ≤ 2 * τ / a * C
  have hbV := mul_nonneg hb hV0
  have h2 := mul_le_mul_of_nonneg_left hN hs.1.le
  have h3 : L + b * V / 2 + a * N - (H - s ^ 2 * b * V / 2) ≤ (1 - s) * C + τ * N := by
    have h4 : (1 - s) * (L + b * V / 2 + a * N) ≤ (1 - s) * C := mul_le_mul_of_nonneg_left hC (by linarith [hs.2])
    have h5 : s * τ * N ≤ 1 * τ * N := by
      have := mul_nonneg hτ hA0
      nlinarith [hs.2]
    have h6 : s ^ 2 * (b * V) ≤ s * (b * V) := by
      have := hs.1; have := hs.2
      exact mul_le_mul_of_nonneg_right (by nlinarith) hbV
    nlinarith
  have hC0 : 0 ≤ C := by nlinarith [mul_nonneg ha.le hA0]
  have h4 : 1 - s ≤ τ / a := by rw [le_div_iff₀ ha]; linarith
  have h5 : a * N ≤ C := by linarith
  have h6 : τ * N ≤ τ / a * C := by
    have e : τ / a * (a * N) = τ * N := by field_simp
    rw [← e]
    exact mul_le_mul_of_nonneg_left h5 (div_nonneg hτ ha.le)
  have h7 := mul_le_mul_of_nonneg_right h4 hC0
  have e : 2 * τ / a * C = τ / a * C + τ / a * C := by ring
  rw [e]
  linarith

/-- Scalar part of `corr_of_cert`. -/
theorem corr_of_line {a τ K q v : ℝ} (ha : 0 ≤ a) (key : ∀ d : ℝ, d * q - d ^ 2 * K / 2 + a * (|v| - |v + d|) ≤ τ * |d|) :
    |q| ≤ a + τ ∧ (a - τ) * |v| ≤ v * q := by
  constructor
  · have h1 : ∀ σ : ℝ, |σ| = 1 → σ * q - (a + τ) ≤ 0 := fun σ hσ => by
      refine le_zero_of_small (K := K / 2) fun t h0 _ => ?_
      have h2 := key (t * σ)
      have e : (t * σ) ^ 2 = t ^ 2 := by rw [mul_pow, ← sq_abs σ, hσ]; ring
      rw [e, abs_mul, hσ, abs_of_pos h0] at h2
      have h3 : |v + t * σ| - |v| ≤ t := by
        have := abs_add_le v (t * σ)
        rw [abs_mul, hσ, abs_of_pos h0] at this
        linarith
      have h4 := mul_le_mul_of_nonneg_left h3 ha
      have h5 : t * (σ * q - (a + τ)) ≤ t * (t * (K / 2)) := by nlinarith
      exact le_of_mul_le_mul_left h5 h0
    rw [abs_le]
    have a := h1 1 (by norm_num)
    have b := h1 (-1) (by norm_num)
    constructor <;> linarith
  · have h1 : (a - τ) * |v| - v * q ≤ 0 := by
      refine le_zero_of_small (K := v ^ 2 * K / 2) fun t h0 ht => ?_
      have h2 := key (-(t * v))
      have e : |v + -(t * v)| = (1 - t) * |v| := by
        rw [show v + -(t * v) = (1 - t) * v by ring, abs_mul, abs_of_nonneg (by linarith : 0 ≤ 1 - t)]
      rw [e, abs_neg, abs_mul, abs_of_pos h0] at h2
      have h5 : t * ((a - τ) * |v| - v * q) ≤ t * (t * (v ^ 2 * K / 2)) := by nlinarith
      exact le_of_mul_le_mul_left h5 h0
    linarith

/-- Correlations at a point with a certificate. -/
theorem errorCorr_of_cert (D : Design n p) (y : Fin n → ℝ) (hy : ∀ i, |y i| ≤ 1) {pen : Pen} (hv : pen.Valid) (hc : pen.Convex) {τ : ℝ}
    {v : Fin p → ℝ} (h : ∀ u, objective1 D y .logistic pen v - objective1 D y .logistic pen u ≤ τ * ∑ j, |v j - u j|) (j : Fin p) :
    |errorCorr D y v j - pen.modulus * v j| ≤ pen.slope + τ ∧
      (pen.slope - τ) * |v j| ≤ v j * (errorCorr D y v j - pen.modulus * v j) := by
  refine corr_of_line (K := logStep D.matrix j + pen.modulus) (slope_modulus hv hc).1 fun d => ?_
  have h1 := h (Function.update v j (v j + d))
  have e : ∑ l, |v l - Function.update v j (v j + d) l| = |d| := by
    rw [Finset.sum_eq_single j (fun l _ hl => by rw [Function.update_of_ne hl, sub_self, abs_zero]) (fun h => absurd (Finset.mem_univ _) h),
      Function.update_self, ← abs_neg]
    congr 1; ring
  rw [e] at h1
  have hf : fit D.matrix (Function.update v j (v j + d)) = fun i => fit D.matrix v i + d * D.matrix i j := funext fun i => by
    unfold fit
    have : ∑ l, D.matrix i l * Function.update v j (v j + d) l - ∑ l, D.matrix i l * v l = D.matrix i j * d := by
      rw [← Finset.sum_sub_distrib, Finset.sum_eq_single j (fun l _ hl => by rw [Function.update_of_ne hl, sub_self])
        (fun h => absurd (Finset.mem_univ _) h), Function.update_self]
      ring
    linarith
  have h2 := log_major D.matrix y hy (fit D.matrix v) j d
  rw [← hf] at h2
  have h3 : ∑ l, pen.fn (Function.update v j (v j + d) l) - ∑ l, pen.fn (v l) = pen.fn (v j + d) - pen.fn (v j) := by
    rw [← Finset.sum_sub_distrib, Finset.sum_eq_single j (fun l _ hl => by rw [Function.update_of_ne hl, sub_self])
      (fun h => absurd (Finset.mem_univ _) h), Function.update_self]
  rw [enet_fn hc, enet_fn hc] at h3
  have h4 : logLoss y (fit D.matrix v) + ∑ l, pen.fn (v l) -
      (logLoss y (fit D.matrix (Function.update v j (v j + d))) + ∑ l, pen.fn (Function.update v j (v j + d) l)) ≤ τ * |d| := h1
  rw [errorCorr_grad]
  nlinarith

end Sglm
