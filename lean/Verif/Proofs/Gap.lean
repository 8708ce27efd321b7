import Verif.Spec.Gap
import Verif.Props.Bounds
import Verif.Props.Orthogonal

/-!
# Auxiliary lemmas: the duality gap
-/

namespace Sglm
open Scalar Spec
variable {n p T : ℕ}

theorem dualScale_pos {a c : ℝ} (ha : 0 < a) : 0 < dualScale a c ∧ dualScale a c ≤ 1 := by
  unfold dualScale
  split
  · rename_i h
    exact ⟨div_pos ha (ha.trans h), (div_le_one (ha.trans h)).mpr h.le⟩
  · exact ⟨one_pos, le_rfl⟩

theorem dualScale_mul {a c : ℝ} (ha : 0 ≤ a) : dualScale a c * c ≤ a := by
  unfold dualScale
  split
  · rename_i h
    rw [div_mul_cancel₀ _ (by linarith)]
  · rename_i h
    linarith [not_lt.mp h]

theorem dualScale_near {a c τ : ℝ} (ha : 0 < a) (hτ : 0 ≤ τ) (hc : c ≤ a + τ) : a * (1 - dualScale a c) ≤ τ := by
  unfold dualScale
  split
  · rename_i h
    have hc0 : 0 < c := ha.trans h
    rw [mul_sub, mul_one, mul_div_assoc', sub_le_iff_le_add, ← sub_le_iff_le_add', le_div_iff₀ hc0]
    nlinarith
  · simpa using hτ

/-- The arithmetic of the upper bound. -/
theorem gap_arith {a τ s R N Q Y : ℝ} (ha : 0 < a) (hτ : 0 ≤ τ) (hs : 0 < s ∧ s ≤ 1) (h1 : a * (1 - s) ≤ τ) (hR : 0 ≤ R) (hN : 0 ≤ N)
    (hQ : (a - τ) * N ≤ Q) (hY : R / 2 + a * N ≤ Y / 2) : (1 - s) ^ 2 / 2 * R + a * N - s * Q ≤ (τ / a + τ ^ 2 / (2 * a ^ 2)) * Y := by
  have h2 : a * N - s * Q ≤ 2 * τ * N := by
    have h3 := mul_le_mul_of_nonneg_left hQ hs.1.le
    have h4 := mul_le_mul_of_nonneg_right h1 hN
    have h5 : s * τ * N ≤ 1 * τ * N := by
      have := mul_nonneg hτ hN
      nlinarith [hs.2]
    nlinarith
  have h3 : 1 - s ≤ τ / a := by rw [le_div_iff₀ ha]; linarith
  have h4 : (1 - s) ^ 2 ≤ (τ / a) ^ 2 := pow_le_pow_left₀ (by linarith [hs.2]) h3 2
  have h5 : 2 * τ * N ≤ τ / a * Y := by
    have e : τ / a * (2 * a * N) = 2 * τ * N := by field_simp
    rw [← e]
    refine mul_le_mul_of_nonneg_left ?_ (div_nonneg hτ ha.le)
    linarith
  have h6 : (1 - s) ^ 2 / 2 * R ≤ τ ^ 2 / (2 * a ^ 2) * Y := by
    have e : τ ^ 2 / (2 * a ^ 2) = (τ / a) ^ 2 / 2 := by field_simp
    rw [e]
    have hRY : R ≤ Y := by nlinarith
    exact mul_le_mul (by linarith) hRY hR (by positivity)
  rw [add_mul]
  linarith

theorem le_sup_fin (f : Fin p → ℝ) (j : Fin p) : f j ≤ ⨆ j, f j := le_ciSup (Set.finite_range f).bddAbove j

theorem sup_fin_le {f : Fin p → ℝ} {c : ℝ} (hc : 0 ≤ c) (h : ∀ j, f j ≤ c) : (⨆ j, f j) ≤ c := Real.iSup_le h hc

theorem sum_mul_corr (D : Design n p) (y : Fin n → ℝ) (u w : Fin p → ℝ) :
    ∑ j, w j * residCorr D y u j = (∑ i, fit D.matrix w i * resid D y u i) / n := by
  unfold residCorr
  simp only [mul_div_assoc', Finset.mul_sum]
  rw [← Finset.sum_div, Finset.sum_comm]
  congr 1
  refine Finset.sum_congr rfl fun i _ => ?_
  show _ = (∑ j, D.matrix i j * w j) * (y i - fit D.matrix u i)
  rw [Finset.sum_mul]
  exact Finset.sum_congr rfl fun j _ => by ring

/-- Another way to write the gap. -/
theorem gap_eq (D : Design n p) (y : Fin n → ℝ) (a b : ℝ) (w : Fin p → ℝ) :
    dualityGap D y a b w = (1 - dualScale a (⨆ j, |residCorr D y w j - b * w j|)) ^ 2 / 2 * ((∑ i, resid D y w i ^ 2) / n + b * ∑ j, w j ^ 2) +
      a * ∑ j, |w j| - dualScale a (⨆ j, |residCorr D y w j - b * w j|) * ∑ j, w j * (residCorr D y w j - b * w j) := by
  unfold dualityGap
  have e1 : ∑ j, w j * (residCorr D y w j - b * w j) = (∑ i, fit D.matrix w i * resid D y w i) / n - b * ∑ j, w j ^ 2 := by
    rw [← sum_mul_corr, Finset.mul_sum, ← Finset.sum_sub_distrib]
    exact Finset.sum_congr rfl fun j _ => by ring
  have e2 : ∑ i, resid D y w i * y i = ∑ i, resid D y w i ^ 2 + ∑ i, fit D.matrix w i * resid D y w i := by
    rw [← Finset.sum_add_distrib]
    exact Finset.sum_congr rfl fun i _ => by unfold resid; ring
  rw [e1, e2, add_div]
  ring

theorem enet_objective (D : Design n p) (y : Fin n → ℝ) {pen : Pen} (hc : pen.Convex) (w : Fin p → ℝ) :
    objective1 D y .quadratic pen w = ((∑ i, resid D y w i ^ 2) / n + pen.modulus * ∑ j, w j ^ 2) / 2 + pen.slope * ∑ j, |w j| := by
  unfold objective1
  show quadLoss _ _ + _ = _
  unfold quadLoss
  have e : ∀ z, pen.fn z = pen.modulus * z ^ 2 / 2 + pen.slope * |z| := fun z => by
    cases pen with
    | l1 α => show α * |z| = 0 * z ^ 2 / 2 + α * |z|; ring
    | enet α ρ =>
      show α * (ρ * ‖z‖ + (1 - ρ) * ‖z‖ ^ 2 / 2) = α * (1 - ρ) * z ^ 2 / 2 + α * ρ * |z|
      rw [Real.norm_eq_abs, sq_abs]; ring
    | mcp α γ => exact hc.elim
    | l05 α => exact hc.elim
  simp only [e, Finset.sum_add_distrib, ← Finset.mul_sum, ← Finset.sum_div]
  show (∑ i, (y i - fit D.matrix w i) ^ 2) / (2 * (n : ℝ)) + _ = _
  unfold resid
  ring

theorem slope_modulus {pen : Pen} (hv : pen.Valid) (hc : pen.Convex) : 0 ≤ pen.slope ∧ 0 ≤ pen.modulus := by
  cases pen with
  | l1 α => exact ⟨hv, le_rfl⟩
  | enet α ρ => exact ⟨mul_nonneg hv.1 hv.2.1, mul_nonneg hv.1 (sub_nonneg.mpr hv.2.2)⟩
  | mcp α γ => exact hc.elim
  | l05 α => exact hc.elim

/-- Weak duality. -/
theorem gap_weak (D : Design n p) (y : Fin n → ℝ) {pen : Pen} (hv : pen.Valid) (hc : pen.Convex) (u w : Fin p → ℝ) :
    objective1 D y .quadratic pen u ≤ objective1 D y .quadratic pen w + dualityGap D y pen.slope pen.modulus u := by
  obtain ⟨ha, hb⟩ := slope_modulus hv hc
  rw [enet_objective D y hc, enet_objective D y hc]
  unfold dualityGap
  generalize pen.slope = a at *
  generalize pen.modulus = b at *
  have hscale : ∀ j, dualScale a (⨆ j, |residCorr D y u j - b * u j|) * |residCorr D y u j - b * u j| ≤ a := fun j => by
    refine le_trans (mul_le_mul_of_nonneg_left (le_sup_fin (fun j => |residCorr D y u j - b * u j|) j) ?_) (dualScale_mul ha)
    unfold dualScale
    split
    · exact div_nonneg ha (Real.iSup_nonneg fun _ => abs_nonneg _)
    · exact zero_le_one
  have hs0 : 0 ≤ dualScale a (⨆ j, |residCorr D y u j - b * u j|) := by
    unfold dualScale
    split
    · exact div_nonneg ha (Real.iSup_nonneg fun _ => abs_nonneg _)
    · exact zero_le_one
  generalize dualScale a (⨆ j, |residCorr D y u j - b * u j|) = s at *
  show _ ≤ _ + ((1 + s ^ 2) / 2 * _ + _ - s * _)
  -- the three inequalities
  have h1 : s * (∑ i, resid D y u i * resid D y w i) - s ^ 2 / 2 * ∑ i, resid D y u i ^ 2 ≤ (∑ i, resid D y w i ^ 2) / 2 := by
    rw [Finset.mul_sum, Finset.mul_sum, Finset.sum_div, ← Finset.sum_sub_distrib]
    refine Finset.sum_le_sum fun i _ => ?_
    nlinarith [sq_nonneg (s * resid D y u i - resid D y w i)]
  have h2 : s * (∑ j, u j * w j) - s ^ 2 / 2 * ∑ j, u j ^ 2 ≤ (∑ j, w j ^ 2) / 2 := by
    rw [Finset.mul_sum, Finset.mul_sum, Finset.sum_div, ← Finset.sum_sub_distrib]
    refine Finset.sum_le_sum fun j _ => ?_
    nlinarith [sq_nonneg (s * u j - w j)]
  have h3 : s * ((∑ i, fit D.matrix w i * resid D y u i) / n - b * ∑ j, u j * w j) ≤ a * ∑ j, |w j| := by
    rw [← sum_mul_corr, Finset.mul_sum, ← Finset.sum_sub_distrib, Finset.mul_sum, Finset.mul_sum]
    refine Finset.sum_le_sum fun j _ => ?_
    have e : s * (w j * residCorr D y u j - b * (u j * w j)) = w j * (s * (residCorr D y u j - b * u j)) := by ring
    rw [e]
    refine (le_abs_self _).trans ?_
    rw [abs_mul, abs_mul, abs_of_nonneg hs0, mul_comm a]
    exact mul_le_mul_of_nonneg_left (hscale j) (abs_nonneg _)
  have e4 : ∑ i, resid D y u i * y i = ∑ i, resid D y u i * resid D y w i + ∑ i, fit D.matrix w i * resid D y u i := by
    rw [← Finset.sum_add_distrib]
    exact Finset.sum_congr rfl fun i _ => by unfold resid; ring
  rw [e4]
  have h1' : s * ((∑ i, resid D y u i * resid D y w i) / n) - s ^ 2 / 2 * ((∑ i, resid D y u i ^ 2) / n) ≤ (∑ i, resid D y w i ^ 2) / n / 2 := by
    have := div_le_div_of_nonneg_right h1 (Nat.cast_nonneg (α := ℝ) n)
    calc _ = (s * (∑ i, resid D y u i * resid D y w i) - s ^ 2 / 2 * ∑ i, resid D y u i ^ 2) / n := by ring
      _ ≤ _ := this
      _ = _ := by ring
  have h2' := mul_le_mul_of_nonneg_left h2 hb
  rw [add_div (∑ i, resid D y u i * resid D y w i)]
  linarith

theorem corr_grad (D : Design n p) (y : Fin n → ℝ) (v : Fin p → ℝ) (j : Fin p) :
    residCorr D y v j = -quadGrad D.matrix y (fit D.matrix v) j := by
  unfold residCorr quadGrad
  rw [← Finset.sum_sub_distrib, ← neg_div, ← Finset.sum_neg_distrib]
  congr 1
  exact Finset.sum_congr rfl fun i _ => by ring

theorem pull_eq {pen : Pen} (hc : pen.Convex) (z : ℝ) : pen.pull z = pen.slope * |z| + pen.modulus * z ^ 2 := by
  cases pen with
  | l1 α => show α * |z| = α * |z| + 0 * z ^ 2; ring
  | enet α ρ => show α * (ρ * |z| + (1 - ρ) * z ^ 2) = α * ρ * |z| + α * (1 - ρ) * z ^ 2; ring
  | mcp α γ => exact hc.elim
  | l05 α => exact hc.elim

/-- Correlations at a point whose scores are at most `τ`. -/
theorem corr_of_score {pen : Pen} (hval : pen.Valid) (hc : pen.Convex) {v g τ : ℝ} (h : scoreOf pen v g ≤ τ) :
    |-g - pen.modulus * v| ≤ pen.slope + τ ∧ (pen.slope - τ) * |v| ≤ v * (-g - pen.modulus * v) := by
  have hp := (pull_score pen (fun α e => by subst e; exact hc.elim) v g).trans (mul_le_mul_of_nonneg_left h (abs_nonneg v))
  rw [pull_eq hc] at hp
  obtain ⟨h1, h2⟩ := abs_le.mp hp
  refine ⟨?_, by nlinarith⟩
  rcases eq_or_ne v 0 with rfl | h0
  · cases pen with
    | l1 α =>
      have h : l1Score α 0 g ≤ τ := h
      unfold l1Score at h
      rw [if_pos rfl] at h
      show |-g - 0 * 0| ≤ α + τ
      rw [mul_zero, sub_zero, abs_neg]
      linarith [le_max_right 0 (|g| - α)]
    | enet α ρ =>
      have h : enetScore α ρ 0 g ≤ τ := h
      unfold enetScore at h
      rw [if_pos rfl] at h
      show |-g - _ * 0| ≤ α * ρ + τ
      rw [mul_zero, sub_zero, abs_neg]
      linarith [le_max_right 0 (|g| - α * ρ)]
    | mcp α γ => exact hc.elim
    | l05 α => exact hc.elim
  · have hv : 0 < |v| := abs_pos.mpr h0
    have h3 : |v| * |-g - pen.modulus * v| ≤ |v| * (pen.slope + τ) := by
      rw [← abs_mul, abs_le]
      have := mul_nonneg (slope_modulus hval hc).1 hv.le
      constructor <;> nlinarith
    exact le_of_mul_le_mul_left h3 hv

theorem le_zero_of_small {x K : ℝ} (h : ∀ t, 0 < t → t ≤ 1 → x ≤ t * K) : x ≤ 0 := by
  by_contra hx
  push Not at hx
  have hK : 0 < K := by
    have := h 1 one_pos le_rfl
    linarith
  have h1 := h (min 1 (x / (2 * K))) (lt_min one_pos (by positivity)) (min_le_left _ _)
  have h2 : min 1 (x / (2 * K)) * K ≤ x / (2 * K) * K := mul_le_mul_of_nonneg_right (min_le_right _ _) hK.le
  have h3 : x / (2 * K) * K = x / 2 := by field_simp
  linarith

/-- The objective after a change of one coordinate. -/
theorem objective_update (D : Design n p) (y : Fin n → ℝ) {pen : Pen} (hc : pen.Convex) (v : Fin p → ℝ) (j : Fin p) (d : ℝ) :
    objective1 D y .quadratic pen v - objective1 D y .quadratic pen (Function.update v j (v j + d)) =
      d * (residCorr D y v j - pen.modulus * v j) - d ^ 2 * ((∑ i, D.matrix i j ^ 2) / n + pen.modulus) / 2 + pen.slope * (|v j| - |v j + d|) := by
  rw [enet_objective D y hc, enet_objective D y hc]
  have hf : ∀ i, resid D y (Function.update v j (v j + d)) i = resid D y v i - D.matrix i j * d := fun i => by
    unfold resid fit
    have : ∑ l, D.matrix i l * Function.update v j (v j + d) l - ∑ l, D.matrix i l * v l = D.matrix i j * d := by
      rw [← Finset.sum_sub_distrib, Finset.sum_eq_single j (fun l _ hl => by rw [Function.update_of_ne hl, sub_self])
        (fun h => absurd (Finset.mem_univ _) h), Function.update_self]
      ring
    linarith
  have h1 : ∑ i, resid D y (Function.update v j (v j + d)) i ^ 2 =
      ∑ i, resid D y v i ^ 2 - 2 * d * ∑ i, D.matrix i j * resid D y v i + d ^ 2 * ∑ i, D.matrix i j ^ 2 := by
    simp only [hf, Finset.mul_sum]
    rw [← Finset.sum_sub_distrib, ← Finset.sum_add_distrib]
    exact Finset.sum_congr rfl fun i _ => by ring
  have h2 : ∑ l, Function.update v j (v j + d) l ^ 2 = ∑ l, v l ^ 2 + (2 * d * v j + d ^ 2) := by
    have : ∑ l, Function.update v j (v j + d) l ^ 2 - ∑ l, v l ^ 2 = 2 * d * v j + d ^ 2 := by
      rw [← Finset.sum_sub_distrib, Finset.sum_eq_single j (fun l _ hl => by rw [Function.update_of_ne hl, sub_self])
        (fun h => absurd (Finset.mem_univ _) h), Function.update_self]
      ring
    linarith
  have h3 : ∑ l, |Function.update v j (v j + d) l| = ∑ l, |v l| + (|v j + d| - |v j|) := by
    have : ∑ l, |Function.update v j (v j + d) l| - ∑ l, |v l| = |v j + d| - |v j| := by
      rw [← Finset.sum_sub_distrib, Finset.sum_eq_single j (fun l _ hl => by rw [Function.update_of_ne hl, sub_self])
        (fun h => absurd (Finset.mem_univ _) h), Function.update_self]
    linarith
  rw [h1, h2, h3]
  show _ = d * ((∑ i, D.matrix i j * resid D y v i) / n - _) - _ + _
  ring

/-- Correlations at a point with a certificate. -/
theorem corr_of_cert (D : Design n p) (y : Fin n → ℝ) {pen : Pen} (hv : pen.Valid) (hc : pen.Convex) {τ : ℝ} {v : Fin p → ℝ}
    (h : ∀ u, objective1 D y .quadratic pen v - objective1 D y .quadratic pen u ≤ τ * ∑ j, |v j - u j|) (j : Fin p) :
    |residCorr D y v j - pen.modulus * v j| ≤ pen.slope + τ ∧
      (pen.slope - τ) * |v j| ≤ v j * (residCorr D y v j - pen.modulus * v j) := by
  have ha := (slope_modulus hv hc).1
  have key : ∀ d : ℝ, d * (residCorr D y v j - pen.modulus * v j) - d ^ 2 * ((∑ i, D.matrix i j ^ 2) / n + pen.modulus) / 2 +
      pen.slope * (|v j| - |v j + d|) ≤ τ * |d| := fun d => by
    have h1 := h (Function.update v j (v j + d))
    rw [objective_update D y hc] at h1
    have e : ∑ l, |v l - Function.update v j (v j + d) l| = |d| := by
      rw [Finset.sum_eq_single j (fun l _ hl => by rw [Function.update_of_ne hl, sub_self, abs_zero]) (fun h => absurd (Finset.mem_univ _) h),
        Function.update_self, ← abs_neg]
      congr 1; ring
    rwa [e] at h1
  generalize residCorr D y v j - pen.modulus * v j = q at *
  generalize (∑ i, D.matrix i j ^ 2) / n + pen.modulus = K at *
  constructor
  · have h1 : ∀ σ : ℝ, |σ| = 1 → σ * q - (pen.slope + τ) ≤ 0 := fun σ hσ => by
      refine le_zero_of_small (K := K / 2) fun t h0 _ => ?_
      have h2 := key (t * σ)
      have e : (t * σ) ^ 2 = t ^ 2 := by rw [mul_pow, ← sq_abs σ, hσ]; ring
      rw [e, abs_mul, hσ, abs_of_pos h0] at h2
      have h3 : |v j + t * σ| - |v j| ≤ t := by
        have := abs_add_le (v j) (t * σ)
        rw [abs_mul, hσ, abs_of_pos h0] at this
        linarith
      have h4 := mul_le_mul_of_nonneg_left h3 ha
      have h5 : t * (σ * q - (pen.slope + τ)) ≤ t * (t * (K / 2)) := by nlinarith
      exact le_of_mul_le_mul_left h5 h0
    rw [abs_le]
    have a := h1 1 (by norm_num)
    have b := h1 (-1) (by norm_num)
    constructor <;> linarith
  · have h1 : (pen.slope - τ) * |v j| - v j * q ≤ 0 := by
      refine le_zero_of_small (K := v j ^ 2 * K / 2) fun t h0 ht => ?_
      have h2 := key (-(t * v j))
      have e : |v j + -(t * v j)| = (1 - t) * |v j| := by
        rw [show v j + -(t * v j) = (1 - t) * v j by ring, abs_mul, abs_of_nonneg (by linarith : 0 ≤ 1 - t)]
      rw [e, abs_neg, abs_mul, abs_of_pos h0] at h2
      have h5 : t * ((pen.slope - τ) * |v j| - v j * q) ≤ t * (t * (v j ^ 2 * K / 2)) := by nlinarith
      exact le_of_mul_le_mul_left h5 h0
    linarith

/-- The duality gap at a point with a certificate. -/
theorem dualityGap_of_cert (hn : 0 < n) (D : Design n p) (y : Fin n → ℝ) {pen : Pen} (hv : pen.Valid) (hc : pen.Convex) (ha : 0 < pen.slope)
    {τ ε : ℝ} (hτ : 0 ≤ τ) {v : Fin p → ℝ} (h0 : objective1 D y .quadratic pen v ≤ objective1 D y .quadratic pen 0 + ε)
    (h : ∀ u, objective1 D y .quadratic pen v - objective1 D y .quadratic pen u ≤ τ * ∑ j, |v j - u j|) :
    dualityGap D y pen.slope pen.modulus v ≤ (τ / pen.slope + τ ^ 2 / (2 * pen.slope ^ 2)) * ((∑ i, y i ^ 2) / n + 2 * ε) := by
  have hn' : (0 : ℝ) < n := by exact_mod_cast hn
  have e0 : objective1 D y .quadratic pen 0 = (∑ i, y i ^ 2) / (2 * n) := objective1_zero D y pen (pen_zero_of hc)
  rw [e0, enet_objective D y hc] at h0
  have hq := corr_of_cert D y hv hc h
  rw [gap_eq]
  refine gap_arith ha hτ (dualScale_pos ha) (dualScale_near ha hτ (sup_fin_le (by linarith) fun j => (hq j).1)) ?_
    (Finset.sum_nonneg fun _ _ => abs_nonneg _) ?_ ?_
  · exact add_nonneg (div_nonneg (Finset.sum_nonneg fun _ _ => sq_nonneg _) (Nat.cast_nonneg _))
      (mul_nonneg (slope_modulus hv hc).2 (Finset.sum_nonneg fun _ _ => sq_nonneg _))
  · rw [Finset.mul_sum]
    exact Finset.sum_le_sum fun j _ => (hq j).2
  · have e : (∑ i, y i ^ 2) / (2 * (n : ℝ)) = (∑ i, y i ^ 2) / n / 2 := by ring
    rw [e] at h0
    linarith

/-! ## Several tasks -/

theorem sum_inner_corr (D : Design n p) (Y : Fin n → Fin T → ℝ) (U W : Fin p → Euc T) :
    ∑ j, inner ℝ (W j) (residCorrMT D Y U j) = (∑ i, ∑ t, fitMT D.matrix (fun j => (W j).ofLp) i t * residMT D Y U i t) / n := by
  have h := fun t => sum_mul_corr D (fun i => Y i t) (fun j => (U j).ofLp t) (fun j => (W j).ofLp t)
  have e : ∀ j, inner ℝ (W j) (residCorrMT D Y U j) = ∑ t, (W j).ofLp t * residCorr D (fun i => Y i t) (fun j => (U j).ofLp t) j := fun j => by
    rw [PiLp.inner_apply]
    exact Finset.sum_congr rfl fun t _ => mul_comm _ _
  rw [Finset.sum_congr rfl fun j _ => e j, Finset.sum_comm, Finset.sum_congr rfl fun t _ => h t, ← Finset.sum_div, Finset.sum_comm]
  rfl

theorem gapMT_eq (D : Design n p) (Y : Fin n → Fin T → ℝ) (a : ℝ) (W : Fin p → Euc T) :
    dualityGapMT D Y a W = (1 - dualScale a (⨆ j, ‖residCorrMT D Y W j‖)) ^ 2 / 2 * ((∑ i, ∑ t, residMT D Y W i t ^ 2) / n) +
      a * ∑ j, ‖W j‖ - dualScale a (⨆ j, ‖residCorrMT D Y W j‖) * ∑ j, inner ℝ (W j) (residCorrMT D Y W j) := by
  unfold dualityGapMT
  have e2 : ∑ i, ∑ t, residMT D Y W i t * Y i t =
      ∑ i, ∑ t, residMT D Y W i t ^ 2 + ∑ i, ∑ t, fitMT D.matrix (fun j => (W j).ofLp) i t * residMT D Y W i t := by
    rw [← Finset.sum_add_distrib]
    refine Finset.sum_congr rfl fun i _ => ?_
    rw [← Finset.sum_add_distrib]
    exact Finset.sum_congr rfl fun t _ => by unfold residMT; ring
  rw [sum_inner_corr, e2, add_div]
  ring

theorem l21_objective (D : Design n p) (Y : Fin n → Fin T → ℝ) (α : ℝ) (W : Fin p → Euc T) :
    objectiveMT D Y (.l21 α) W = (∑ i, ∑ t, residMT D Y W i t ^ 2) / n / 2 + α * ∑ j, ‖W j‖ := by
  unfold objectiveMT mtLoss
  have e : ∑ j, (BPen.l21 α).fn (W j) = α * ∑ j, ‖W j‖ := by rw [Finset.mul_sum]; rfl
  rw [e]
  show (∑ i, ∑ t, residMT D Y W i t ^ 2) / (2 * n) + _ = _
  ring

/-- Weak duality. -/
theorem gapMT_weak (D : Design n p) (Y : Fin n → Fin T → ℝ) {a : ℝ} (ha : 0 ≤ a) (U W : Fin p → Euc T) :
    objectiveMT D Y (.l21 a) U ≤ objectiveMT D Y (.l21 a) W + dualityGapMT D Y a U := by
  rw [l21_objective, l21_objective]
  unfold dualityGapMT
  have hs0 : 0 ≤ dualScale a (⨆ j, ‖residCorrMT D Y U j‖) := by
    unfold dualScale
    split
    · exact div_nonneg ha (Real.iSup_nonneg fun _ => norm_nonneg _)
    · exact zero_le_one
  have hscale : ∀ j, dualScale a (⨆ j, ‖residCorrMT D Y U j‖) * ‖residCorrMT D Y U j‖ ≤ a := fun j =>
    le_trans (mul_le_mul_of_nonneg_left (le_sup_fin (fun j => ‖residCorrMT D Y U j‖) j) hs0) (dualScale_mul ha)
  generalize dualScale a (⨆ j, ‖residCorrMT D Y U j‖) = s at *
  show _ ≤ _ + ((1 + s ^ 2) / 2 * _ + _ - s * _)
  have h1 : s * (∑ i, ∑ t, residMT D Y U i t * residMT D Y W i t) - s ^ 2 / 2 * ∑ i, ∑ t, residMT D Y U i t ^ 2 ≤
      (∑ i, ∑ t, residMT D Y W i t ^ 2) / 2 := by
    simp only [Finset.mul_sum, Finset.sum_div, ← Finset.sum_sub_distrib]
    refine Finset.sum_le_sum fun i _ => Finset.sum_le_sum fun t _ => ?_
    nlinarith [sq_nonneg (s * residMT D Y U i t - residMT D Y W i t)]
  have h3 : s * ((∑ i, ∑ t, fitMT D.matrix (fun j => (W j).ofLp) i t * residMT D Y U i t) / n) ≤ a * ∑ j, ‖W j‖ := by
    rw [← sum_inner_corr, Finset.mul_sum, Finset.mul_sum]
    refine Finset.sum_le_sum fun j _ => ?_
    have h4 := mul_le_mul_of_nonneg_left (real_inner_le_norm (W j) (residCorrMT D Y U j)) hs0
    have h5 := mul_le_mul_of_nonneg_left (hscale j) (norm_nonneg (W j))
    linarith
  have e4 : ∑ i, ∑ t, residMT D Y U i t * Y i t =
      ∑ i, ∑ t, residMT D Y U i t * residMT D Y W i t + ∑ i, ∑ t, fitMT D.matrix (fun j => (W j).ofLp) i t * residMT D Y U i t := by
    simp only [← Finset.sum_add_distrib]
    exact Finset.sum_congr rfl fun i _ => Finset.sum_congr rfl fun t _ => by unfold residMT; ring
  rw [e4]
  have h1' : s * ((∑ i, ∑ t, residMT D Y U i t * residMT D Y W i t) / n) - s ^ 2 / 2 * ((∑ i, ∑ t, residMT D Y U i t ^ 2) / n) ≤
      (∑ i, ∑ t, residMT D Y W i t ^ 2) / n / 2 := by
    have := div_le_div_of_nonneg_right h1 (Nat.cast_nonneg (α := ℝ) n)
    calc _ = (s * (∑ i, ∑ t, residMT D Y U i t * residMT D Y W i t) - s ^ 2 / 2 * ∑ i, ∑ t, residMT D Y U i t ^ 2) / n := by ring
      _ ≤ _ := this
      _ = _ := by ring
  rw [add_div (∑ i, ∑ t, residMT D Y U i t * residMT D Y W i t)]
  linarith

theorem corrMT_grad (D : Design n p) (Y : Fin n → Fin T → ℝ) (V : Fin p → Euc T) (j : Fin p) :
    residCorrMT D Y V j = -(WithLp.toLp 2 (mtGrad D.matrix Y (fitMT D.matrix fun j => (V j).ofLp) j) : Euc T) := by
  ext t
  rw [residCorrMT_apply, corr_grad]
  rfl

/-- Correlations at a point whose scores are at most `τ`. -/
theorem corrMT_of_score {α τ : ℝ} (hα : 0 ≤ α) {v g : Euc T} (h : bscoreOf (.l21 α) v g ≤ τ) :
    ‖-g‖ ≤ α + τ ∧ (α - τ) * ‖v‖ ≤ inner ℝ v (-g) := by
  have hp := (bpull_score (.l21 α) trivial v g).trans (mul_le_mul_of_nonneg_left h (norm_nonneg v))
  obtain ⟨h1, h2⟩ := abs_le.mp hp
  have h2 : inner ℝ v g + α * ‖v‖ ≤ ‖v‖ * τ := h2
  refine ⟨?_, by rw [inner_neg_right]; linarith⟩
  rw [norm_neg]
  have h : l21Score α v g ≤ τ := h
  unfold l21Score at h
  split at h
  · linarith [le_max_right 0 (‖g‖ - α)]
  · rename_i h0
    have hv : ‖v‖ ≠ 0 := norm_ne_zero_iff.mpr h0
    have e : ‖(α / ‖v‖) • v‖ = α := by
      rw [norm_smul, Real.norm_eq_abs, abs_of_nonneg (div_nonneg hα (norm_nonneg _)), div_mul_cancel₀ _ hv]
    have := norm_sub_le (g + (α / ‖v‖) • v) ((α / ‖v‖) • v)
    rw [add_sub_cancel_right, e] at this
    linarith

end Sglm
