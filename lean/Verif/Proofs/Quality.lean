import Verif.Proofs.Strong
import Verif.Spec.Quality

/-!
# What the certificate of the stopping test implies for least squares

A vector `v` is certified with tolerance `τ` if `F v - F u ≤ τ ∑ ‖v_j - u_j‖` for all `u`.  Coefficients are real numbers (one task) or
vectors (several tasks).
-/

namespace Sglm
open Spec
variable {n p T : ℕ} {E : Type*} [NormedAddCommGroup E] [InnerProductSpace ℝ E]

/-- Limit `t → 0` of the certificate along a segment. -/
theorem seg_gap {a b q B : ℝ} (hq : 0 ≤ q) (h : ∀ t : ℝ, 0 < t → t ≤ 1 → a - ((1 - t) * a + t * b - t * (1 - t) * q) ≤ t * B) :
    a - b + q ≤ B := by
  have key : ∀ t : ℝ, 0 < t → t ≤ 1 → a - b + (1 - t) * q ≤ B := by
    intro t h0 h1
    have := h t h0 h1
    have h3 : t * (a - b + (1 - t) * q) ≤ t * B := by linarith
    exact le_of_mul_le_mul_left h3 h0
  by_contra hc
  obtain ⟨g, hg⟩ : ∃ g, g = a - b + q - B := ⟨_, rfl⟩
  have hg0 : 0 < g := by rw [hg]; linarith
  have hd : 0 < g + 2 * q := by linarith
  have h1 := key (g / (g + 2 * q)) (by positivity) (by rw [div_le_one hd]; linarith)
  have h2 : g / (g + 2 * q) * (2 * q) ≤ g := by
    rw [div_mul_eq_mul_div, div_le_iff₀ hd]
    nlinarith
  nlinarith

/-- Linear predictor. -/
def fitG (X : Fin n → Fin p → ℝ) (V : Fin p → E) (i : Fin n) : E := ∑ j, X i j • V j

/-- Least squares loss. -/
noncomputable def lsq (X : Fin n → Fin p → ℝ) (Y : Fin n → E) (V : Fin p → E) : ℝ := (∑ i, ‖Y i - fitG X V i‖ ^ 2) / (2 * n)

/-- `‖X d‖²`. -/
noncomputable def sqFit (X : Fin n → Fin p → ℝ) (d : Fin p → E) : ℝ := ∑ i, ‖fitG X d i‖ ^ 2

/-- Gradient of the loss. -/
noncomputable def grd (X : Fin n → Fin p → ℝ) (Y : Fin n → E) (V : Fin p → E) (j : Fin p) : E :=
  (1 / n : ℝ) • ∑ i, X i j • (fitG X V i - Y i)

theorem sqFit_nonneg (X : Fin n → Fin p → ℝ) (d : Fin p → E) : 0 ≤ sqFit X d := Finset.sum_nonneg fun _ _ => sq_nonneg _

theorem fitG_add (X : Fin n → Fin p → ℝ) (V D : Fin p → E) (t : ℝ) (i : Fin n) :
    fitG X (fun j => V j + t • D j) i = fitG X V i + t • fitG X D i := by
  unfold fitG
  rw [Finset.smul_sum, ← Finset.sum_add_distrib]
  refine Finset.sum_congr rfl fun j _ => ?_
  rw [smul_add, smul_comm]

theorem fitG_sub (X : Fin n → Fin p → ℝ) (V W : Fin p → E) (i : Fin n) :
    fitG X (fun j => V j - W j) i = fitG X V i - fitG X W i := by
  unfold fitG
  rw [← Finset.sum_sub_distrib]
  exact Finset.sum_congr rfl fun j _ => smul_sub _ _ _

theorem sqFit_sub_comm (X : Fin n → Fin p → ℝ) (V W : Fin p → E) :
    sqFit X (fun j => V j - W j) = sqFit X (fun j => W j - V j) := by
  unfold sqFit
  refine Finset.sum_congr rfl fun i _ => ?_
  rw [fitG_sub, fitG_sub, norm_sub_rev]

/-- Second order expansion. -/
theorem lsq_expand (hn : 0 < n) (X : Fin n → Fin p → ℝ) (Y : Fin n → E) (V D : Fin p → E) (t : ℝ) :
    lsq X Y (fun j => V j + t • D j) = lsq X Y V + t * ∑ j, inner ℝ (grd X Y V j) (D j) + t ^ 2 * (sqFit X D / (2 * n)) := by
  have hn' : (0 : ℝ) < n := by exact_mod_cast hn
  have e1 : ∑ j, inner ℝ (grd X Y V j) (D j) = (1 / n : ℝ) * ∑ i, inner ℝ (fitG X V i - Y i) (fitG X D i) := by
    unfold grd
    simp only [inner_smul_left, conj_trivial, sum_inner]
    rw [← Finset.mul_sum, Finset.sum_comm]
    congr 1
    refine Finset.sum_congr rfl fun i _ => ?_
    unfold fitG
    rw [inner_sum]
    exact Finset.sum_congr rfl fun j _ => by rw [inner_smul_right]
  have e2 : ∑ i, ‖Y i - fitG X (fun j => V j + t • D j) i‖ ^ 2 = ∑ i, ‖Y i - fitG X V i‖ ^ 2 +
      2 * t * (∑ i, inner ℝ (fitG X V i - Y i) (fitG X D i)) + t ^ 2 * sqFit X D := by
    unfold sqFit
    rw [Finset.mul_sum, Finset.mul_sum, ← Finset.sum_add_distrib, ← Finset.sum_add_distrib]
    refine Finset.sum_congr rfl fun i _ => ?_
    rw [fitG_add, norm_sub_rev, norm_sub_rev (Y i), show fitG X V i + t • fitG X D i - Y i = (fitG X V i - Y i) + t • fitG X D i by abel,
      norm_add_sq_real, inner_smul_right, norm_smul, mul_pow, Real.norm_eq_abs, sq_abs]
    ring
  unfold lsq
  rw [e1, e2]
  field_simp

/-- The gap improves by the squared distance of the predictions. -/
theorem lsq_gap (hn : 0 < n) (X : Fin n → Fin p → ℝ) (Y : Fin n → E) {φ : E → ℝ} {m τ : ℝ} (hm : 0 ≤ m)
    (hφ : ∀ x z : E, ∀ t : ℝ, 0 ≤ t → t ≤ 1 → φ (x + t • (z - x)) ≤ (1 - t) * φ x + t * φ z - m / 2 * (t * (1 - t)) * ‖x - z‖ ^ 2)
    {v : Fin p → E} (hv : ∀ u, lsq X Y v + ∑ j, φ (v j) - (lsq X Y u + ∑ j, φ (u j)) ≤ τ * ∑ j, ‖v j - u j‖) (w : Fin p → E) :
    lsq X Y v + ∑ j, φ (v j) - (lsq X Y w + ∑ j, φ (w j)) + (sqFit X (fun j => v j - w j) / (2 * n) + m / 2 * ∑ j, ‖v j - w j‖ ^ 2) ≤
      τ * ∑ j, ‖v j - w j‖ := by
  have hn' : (0 : ℝ) < n := by exact_mod_cast hn
  have hS : 0 ≤ ∑ j, ‖v j - w j‖ ^ 2 := Finset.sum_nonneg fun _ _ => sq_nonneg _
  refine seg_gap (add_nonneg (div_nonneg (sqFit_nonneg _ _) (by positivity)) (mul_nonneg (by linarith) hS)) fun t h0 h1 => ?_
  have hu := hv (fun j => v j + t • (w j - v j))
  have e : ∑ j, ‖v j - (v j + t • (w j - v j))‖ = t * ∑ j, ‖v j - w j‖ := by
    rw [Finset.mul_sum]
    refine Finset.sum_congr rfl fun j _ => ?_
    rw [show v j - (v j + t • (w j - v j)) = t • (v j - w j) by rw [smul_sub, smul_sub]; abel, norm_smul, Real.norm_eq_abs,
      abs_of_pos h0]
  have h2 : ∑ j, φ (v j + t • (w j - v j)) ≤ (1 - t) * ∑ j, φ (v j) + t * ∑ j, φ (w j) -
      m / 2 * (t * (1 - t)) * ∑ j, ‖v j - w j‖ ^ 2 := by
    rw [Finset.mul_sum, Finset.mul_sum, Finset.mul_sum, ← Finset.sum_add_distrib, ← Finset.sum_sub_distrib]
    exact Finset.sum_le_sum fun j _ => hφ _ _ t h0.le h1
  have h3 := lsq_expand hn X Y v (fun j => w j - v j) t
  have h4 := lsq_expand hn X Y v (fun j => w j - v j) 1
  have e4 : (fun j => v j + (1 : ℝ) • (w j - v j)) = w := by funext j; rw [one_smul]; abel
  rw [e4, one_mul, one_pow, one_mul] at h4
  rw [sqFit_sub_comm]
  rw [e, h3] at hu
  obtain ⟨Q, hQ⟩ : ∃ Q, Q = sqFit X (fun j => w j - v j) / (2 * n) := ⟨_, rfl⟩
  rw [← hQ] at hu h4 ⊢
  obtain ⟨G, hG⟩ : ∃ G, G = ∑ j, inner ℝ (grd X Y v j) (w j - v j) := ⟨_, rfl⟩
  rw [← hG] at hu h4
  nlinarith

/-- Distance of the predictions of two certified vectors. -/
theorem lsq_near (hn : 0 < n) (X : Fin n → Fin p → ℝ) (Y : Fin n → E) {φ : E → ℝ} {τ σ : ℝ}
    (hφ : ∀ x z : E, ∀ t : ℝ, 0 ≤ t → t ≤ 1 → φ (x + t • (z - x)) ≤ (1 - t) * φ x + t * φ z)
    {v w : Fin p → E} (hv : ∀ u, lsq X Y v + ∑ j, φ (v j) - (lsq X Y u + ∑ j, φ (u j)) ≤ τ * ∑ j, ‖v j - u j‖)
    (hw : ∀ u, lsq X Y w + ∑ j, φ (w j) - (lsq X Y u + ∑ j, φ (u j)) ≤ σ * ∑ j, ‖w j - u j‖) :
    sqFit X (fun j => v j - w j) ≤ n * ((τ + σ) * ∑ j, ‖v j - w j‖) := by
  have hn' : (0 : ℝ) < n := by exact_mod_cast hn
  have hφ' : ∀ x z : E, ∀ t : ℝ, 0 ≤ t → t ≤ 1 → φ (x + t • (z - x)) ≤ (1 - t) * φ x + t * φ z - 0 / 2 * (t * (1 - t)) * ‖x - z‖ ^ 2 :=
    fun x z t h0 h1 => by rw [zero_div, zero_mul, zero_mul, sub_zero]; exact hφ x z t h0 h1
  have h1 := lsq_gap hn X Y le_rfl hφ' hv w
  have h2 := lsq_gap hn X Y le_rfl hφ' hw v
  have e1 : ∑ j, ‖w j - v j‖ = ∑ j, ‖v j - w j‖ := Finset.sum_congr rfl fun j _ => norm_sub_rev _ _
  rw [e1, sqFit_sub_comm] at h2
  obtain ⟨Q, hQ⟩ : ∃ Q, Q = sqFit X (fun j => v j - w j) := ⟨_, rfl⟩
  rw [← hQ] at h1 h2 ⊢
  have e3 : Q / (2 * n) = Q / n / 2 := by field_simp
  rw [e3] at h1 h2
  have h3 : Q / n ≤ (τ + σ) * ∑ j, ‖v j - w j‖ := by linarith
  rw [div_le_iff₀ hn'] at h3
  linarith

/-- Sizes are bounded by the objective. -/
theorem size_le {X : Fin n → Fin p → ℝ} {Y : Fin n → E} {φ : E → ℝ} {κ : ℝ} (hκ0 : 0 < κ) (hκ : ∀ z, κ * ‖z‖ ≤ φ z) (v : Fin p → E) :
    ∑ j, ‖v j‖ ≤ (lsq X Y v + ∑ j, φ (v j)) / κ := by
  rw [le_div_iff₀ hκ0]
  have h0 : 0 ≤ lsq X Y v := div_nonneg (Finset.sum_nonneg fun _ _ => sq_nonneg _) (by positivity)
  have h1 : κ * ∑ j, ‖v j‖ ≤ ∑ j, φ (v j) := by
    rw [Finset.mul_sum]; exact Finset.sum_le_sum fun j _ => hκ _
  linarith

omit [InnerProductSpace ℝ E] in
theorem sum_norm_sub_le (v w : Fin p → E) : ∑ j, ‖v j - w j‖ ≤ ∑ j, ‖v j‖ + ∑ j, ‖w j‖ := by
  rw [← Finset.sum_add_distrib]
  exact Finset.sum_le_sum fun j _ => norm_sub_le _ _

/-- Limit `t → 0`. -/
theorem lim_le {A C : ℝ} (hC : 0 ≤ C) (h : ∀ t : ℝ, 0 < t → t ≤ 1 → A ≤ t * C) : A ≤ 0 := by
  by_contra hc
  have hA : 0 < A := not_le.mp hc
  have hd : 0 < A + 2 * C := by linarith
  have h1 := h (A / (A + 2 * C)) (by positivity) (by rw [div_le_one hd]; linarith)
  rw [div_mul_eq_mul_div, le_div_iff₀ hd] at h1
  nlinarith

/-- A selected feature has a gradient of norm at least `κ - τ`. -/
theorem selected_grd (hn : 0 < n) (X : Fin n → Fin p → ℝ) (Y : Fin n → E) {φ : E → ℝ} {κ τ : ℝ}
    (hφ : ∀ x : E, ∀ t : ℝ, 0 ≤ t → t ≤ 1 → φ ((1 - t) • x) + κ * t * ‖x‖ ≤ φ x)
    {v : Fin p → E} (hv : ∀ u, lsq X Y v + ∑ j, φ (v j) - (lsq X Y u + ∑ j, φ (u j)) ≤ τ * ∑ j, ‖v j - u j‖) (j : Fin p)
    (hj : v j ≠ 0) : κ - τ ≤ ‖grd X Y v j‖ := by
  have hn' : (0 : ℝ) < n := by exact_mod_cast hn
  have hz : 0 < ‖v j‖ := norm_pos_iff.mpr hj
  obtain ⟨d, hd⟩ : ∃ d : Fin p → E, d = Function.update (fun _ => (0 : E)) j (-(v j)) := ⟨_, rfl⟩
  obtain ⟨q, hq⟩ : ∃ q, q = sqFit X d / (2 * n) := ⟨_, rfl⟩
  have hq0 : 0 ≤ q := by rw [hq]; exact div_nonneg (sqFit_nonneg _ _) (by positivity)
  have key : ∀ t : ℝ, 0 < t → t ≤ 1 → (κ - τ - ‖grd X Y v j‖) * ‖v j‖ ≤ t * q := by
    intro t h0 h1
    have hu := hv (fun i => v i + t • d i)
    rw [lsq_expand hn, ← hq] at hu
    have e0 : (fun i => v i + t • d i) = Function.update v j ((1 - t) • v j) := by
      funext i
      by_cases hi : i = j
      · subst hi
        rw [hd, Function.update_self, Function.update_self, sub_smul, one_smul, smul_neg]; abel
      · rw [hd, Function.update_of_ne hi, Function.update_of_ne hi, smul_zero, add_zero]
    have e1 : ∑ i, φ (v i + t • d i) = ∑ i, φ (v i) - φ (v j) + φ ((1 - t) • v j) := by
      have : ∑ i, (φ (v i + t • d i) - φ (v i)) = φ ((1 - t) • v j) - φ (v j) := by
        rw [Finset.sum_eq_single j]
        · rw [congrFun e0 j, Function.update_self]
        · intro i _ hi
          rw [congrFun e0 i, Function.update_of_ne hi, sub_self]
        · intro h; exact absurd (Finset.mem_univ j) h
      rw [Finset.sum_sub_distrib] at this
      linarith
    have e2 : ∑ i, ‖v i - (v i + t • d i)‖ = t * ‖v j‖ := by
      rw [Finset.sum_eq_single j]
      · rw [hd, Function.update_self, smul_neg, show v j - (v j + -(t • v j)) = t • v j by abel, norm_smul, Real.norm_eq_abs,
          abs_of_pos h0]
      · intro i _ hi
        rw [hd, Function.update_of_ne hi, smul_zero, add_zero, sub_self, norm_zero]
      · intro h; exact absurd (Finset.mem_univ j) h
    have e3 : ∑ i, inner ℝ (grd X Y v i) (d i) = - inner ℝ (grd X Y v j) (v j) := by
      rw [Finset.sum_eq_single j]
      · rw [hd, Function.update_self, inner_neg_right]
      · intro i _ hi
        rw [hd, Function.update_of_ne hi, inner_zero_right]
      · intro h; exact absurd (Finset.mem_univ j) h
    rw [e1, e2, e3] at hu
    have h2 := hφ (v j) t h0.le h1
    have h3 : -(‖grd X Y v j‖ * ‖v j‖) ≤ inner ℝ (grd X Y v j) (v j) := by
      have := abs_le.mp (abs_real_inner_le_norm (grd X Y v j) (v j))
      exact this.1
    have h4 : t * ((κ - τ - ‖grd X Y v j‖) * ‖v j‖) ≤ t * (t * q) := by nlinarith
    exact le_of_mul_le_mul_left h4 h0
  have := lim_le hq0 key
  by_contra hc
  have := mul_pos (show 0 < κ - τ - ‖grd X Y v j‖ by linarith [not_le.mp hc]) hz
  linarith

/-- Change of the gradient. -/
theorem grd_sub_le (hn : 0 < n) (X : Fin n → Fin p → ℝ) (Y : Fin n → E) (v w : Fin p → E) (j : Fin p) :
    ‖grd X Y v j - grd X Y w j‖ ^ 2 ≤ (∑ i, X i j ^ 2) * sqFit X (fun j => v j - w j) / n ^ 2 := by
  have hn' : (0 : ℝ) < n := by exact_mod_cast hn
  have e : grd X Y v j - grd X Y w j = (1 / n : ℝ) • ∑ i, X i j • fitG X (fun j => v j - w j) i := by
    unfold grd
    rw [← smul_sub, ← Finset.sum_sub_distrib]
    congr 1
    refine Finset.sum_congr rfl fun i _ => ?_
    rw [← smul_sub, fitG_sub]; congr 1; abel
  have h1 : ‖∑ i, X i j • fitG X (fun j => v j - w j) i‖ ≤ ∑ i, |X i j| * ‖fitG X (fun j => v j - w j) i‖ := by
    refine (norm_sum_le _ _).trans (le_of_eq (Finset.sum_congr rfl fun i _ => ?_))
    rw [norm_smul, Real.norm_eq_abs]
  have h2 := Finset.sum_mul_sq_le_sq_mul_sq Finset.univ (fun i => |X i j|) (fun i => ‖fitG X (fun j => v j - w j) i‖)
  simp only [sq_abs] at h2
  rw [e, norm_smul, mul_pow, Real.norm_eq_abs, sq_abs, one_div, inv_pow, ← div_eq_inv_mul]
  refine div_le_div_of_nonneg_right ?_ (by positivity)
  exact (pow_le_pow_left₀ (norm_nonneg _) h1 2).trans h2

/-- Difference of two entries of the gradient. -/
theorem grd_cols (X : Fin n → Fin p → ℝ) (Y : Fin n → E) (v : Fin p → E) (i j : Fin p) :
    ‖grd X Y v i - grd X Y v j‖ ^ 2 ≤ (∑ k, (X k i - X k j) ^ 2) * (∑ k, ‖Y k - fitG X v k‖ ^ 2) / n ^ 2 := by
  have e : grd X Y v i - grd X Y v j = (1 / n : ℝ) • ∑ k, (X k i - X k j) • (fitG X v k - Y k) := by
    unfold grd
    rw [← smul_sub, ← Finset.sum_sub_distrib]
    congr 1
    exact Finset.sum_congr rfl fun k _ => (sub_smul _ _ _).symm
  have h1 : ‖∑ k, (X k i - X k j) • (fitG X v k - Y k)‖ ≤ ∑ k, |X k i - X k j| * ‖Y k - fitG X v k‖ := by
    refine (norm_sum_le _ _).trans (le_of_eq (Finset.sum_congr rfl fun k _ => ?_))
    rw [norm_smul, Real.norm_eq_abs, norm_sub_rev]
  have h2 := Finset.sum_mul_sq_le_sq_mul_sq Finset.univ (fun k => |X k i - X k j|) (fun k => ‖Y k - fitG X v k‖)
  simp only [sq_abs] at h2
  rw [e, norm_smul, mul_pow, Real.norm_eq_abs, sq_abs, one_div, inv_pow, ← div_eq_inv_mul]
  refine div_le_div_of_nonneg_right ?_ (by positivity)
  exact (pow_le_pow_left₀ (norm_nonneg _) h1 2).trans h2

/-- **Grouping effect** of the elastic net: features with similar columns have similar coefficients. -/
theorem grouping (hn : 0 < n) (X : Fin n → Fin p → ℝ) (Y : Fin n → E) {α ρ τ : ℝ} (hα : 0 ≤ α) (hρ : 0 ≤ ρ)
    {v : Fin p → E} (hv : ∀ u, lsq X Y v + ∑ j, enet α ρ (v j) - (lsq X Y u + ∑ j, enet α ρ (u j)) ≤ τ * ∑ j, ‖v j - u j‖)
    (hτ : 0 ≤ τ) (i j : Fin p) :
    α * (1 - ρ) * ‖v i - v j‖ ≤ ‖grd X Y v i - grd X Y v j‖ + 2 * τ := by
  rcases eq_or_ne (v i) (v j) with hij | hij
  · rw [hij, sub_self, norm_zero, mul_zero]; positivity
  have hne : i ≠ j := fun h => hij (by rw [h])
  have hn' : (0 : ℝ) < n := by exact_mod_cast hn
  have hz : 0 < ‖v i - v j‖ := norm_pos_iff.mpr (sub_ne_zero.mpr hij)
  obtain ⟨d, hd⟩ : ∃ d : Fin p → E, d = fun k => if k = i then v j - v i else if k = j then v i - v j else 0 := ⟨_, rfl⟩
  have di : d i = v j - v i := by rw [hd]; simp
  have dj : d j = v i - v j := by rw [hd]; simp [hne.symm]
  have dk : ∀ k, k ≠ i ∧ k ≠ j → d k = 0 := fun k hk => by rw [hd]; simp [hk.1, hk.2]
  obtain ⟨q, hq⟩ : ∃ q, q = sqFit X d / (2 * n) := ⟨_, rfl⟩
  have hq0 : 0 ≤ q := by rw [hq]; exact div_nonneg (sqFit_nonneg _ _) (by positivity)
  obtain ⟨m, hm⟩ : ∃ m, m = α * (1 - ρ) := ⟨_, rfl⟩
  have key : ∀ t : ℝ, 0 < t → t ≤ 1 → (m * ‖v i - v j‖ - ‖grd X Y v i - grd X Y v j‖ - 2 * τ) * ‖v i - v j‖ ≤
      t * (q + |m| * ‖v i - v j‖ ^ 2) := by
    intro t h0 h1
    have hu := hv (fun k => v k + t • d k)
    rw [lsq_expand hn, ← hq] at hu
    have e1 : ∑ k, (enet α ρ (v k + t • d k) - enet α ρ (v k)) ≤ -(m * (t * (1 - t)) * ‖v i - v j‖ ^ 2) := by
      rw [Finset.sum_eq_add i j hne (fun k _ hk => by rw [dk k hk, smul_zero, add_zero, sub_self])
        (fun h => absurd (Finset.mem_univ _) h) (fun h => absurd (Finset.mem_univ _) h), di, dj]
      have a := enet_line hα hρ (v i) (v j) t h0.le h1
      have b := enet_line hα hρ (v j) (v i) t h0.le h1
      rw [norm_sub_rev (v j) (v i), ← hm] at b
      rw [← hm] at a
      linarith
    rw [Finset.sum_sub_distrib] at e1
    have e2 : ∑ k, ‖v k - (v k + t • d k)‖ = 2 * t * ‖v i - v j‖ := by
      have : ∀ k, ‖v k - (v k + t • d k)‖ = t * ‖d k‖ := fun k => by
        rw [sub_add_cancel_left, norm_neg, norm_smul, Real.norm_eq_abs, abs_of_pos h0]
      rw [Finset.sum_congr rfl fun k _ => this k,
        Finset.sum_eq_add i j hne (fun k _ hk => by rw [dk k hk, norm_zero, mul_zero])
        (fun h => absurd (Finset.mem_univ _) h) (fun h => absurd (Finset.mem_univ _) h), di, dj, norm_sub_rev (v j)]
      ring
    have e3 : ∑ k, inner ℝ (grd X Y v k) (d k) = - inner ℝ (grd X Y v i - grd X Y v j) (v i - v j) := by
      rw [Finset.sum_eq_add i j hne (fun k _ hk => by rw [dk k hk, inner_zero_right])
        (fun h => absurd (Finset.mem_univ _) h) (fun h => absurd (Finset.mem_univ _) h), di, dj, inner_sub_left,
        ← neg_sub (v i) (v j), inner_neg_right]
      ring
    rw [e2, e3] at hu
    have h3 := (abs_le.mp (abs_real_inner_le_norm (grd X Y v i - grd X Y v j) (v i - v j))).1
    have h5 : m ≤ |m| := le_abs_self m
    have h6 : m * ‖v i - v j‖ ^ 2 ≤ |m| * ‖v i - v j‖ ^ 2 := mul_le_mul_of_nonneg_right h5 (sq_nonneg _)
    have h4 : t * ((m * ‖v i - v j‖ - ‖grd X Y v i - grd X Y v j‖ - 2 * τ) * ‖v i - v j‖) ≤
        t * (t * (q + m * ‖v i - v j‖ ^ 2)) := by nlinarith
    have h7 := le_of_mul_le_mul_left h4 h0
    nlinarith
  have h1 := lim_le (by positivity) key
  rw [← hm]
  by_contra hc
  have := mul_pos (show 0 < m * ‖v i - v j‖ - ‖grd X Y v i - grd X Y v j‖ - 2 * τ by linarith [not_le.mp hc]) hz
  linarith

/-! ## Oracle inequalities -/

/-- The basic inequality: `λ` bounds the gradient at `β` (the correlation of the noise with the features if `Y = X β + noise`). -/
theorem basic_ineq (hn : 0 < n) (X : Fin n → Fin p → ℝ) (Y : Fin n → E) {α τ l : ℝ} (hα : 0 ≤ α)
    {v : Fin p → E} (hv : ∀ u, lsq X Y v + ∑ j, α * ‖v j‖ - (lsq X Y u + ∑ j, α * ‖u j‖) ≤ τ * ∑ j, ‖v j - u j‖)
    (β : Fin p → E) (hl : ∀ j, ‖grd X Y β j‖ ≤ l) :
    sqFit X (fun j => v j - β j) / n ≤ ∑ j, ((l + τ) * ‖v j - β j‖ + α * (‖β j‖ - ‖v j‖)) := by
  have hn' : (0 : ℝ) < n := by exact_mod_cast hn
  have h1 := lsq_gap (φ := fun z : E => α * ‖z‖) (m := 0) hn X Y le_rfl (fun x z t h0 h1 => by
    have := enet_line (ρ := 1) hα zero_le_one x z t h0 h1
    simp only [enet, sub_self, zero_mul, zero_div, add_zero, one_mul, mul_zero, sub_zero] at this
    simpa using this) hv β
  have h4 := lsq_expand hn X Y β (fun j => v j - β j) 1
  have e4 : (fun j => β j + (1 : ℝ) • (v j - β j)) = v := by funext j; rw [one_smul]; abel
  rw [e4, one_mul, one_pow, one_mul] at h4
  have h5 : -(∑ j, inner ℝ (grd X Y β j) (v j - β j)) ≤ ∑ j, l * ‖v j - β j‖ := by
    rw [← Finset.sum_neg_distrib]
    refine Finset.sum_le_sum fun j _ => ?_
    have a := (abs_le.mp (abs_real_inner_le_norm (grd X Y β j) (v j - β j))).1
    have b := mul_le_mul_of_nonneg_right (hl j) (norm_nonneg (v j - β j))
    linarith
  rw [Finset.sum_add_distrib, ← Finset.mul_sum, ← Finset.mul_sum, Finset.sum_sub_distrib]
  rw [← Finset.mul_sum] at h5
  rw [← Finset.mul_sum, ← Finset.mul_sum] at h1
  have e : sqFit X (fun j => v j - β j) / (2 * n) = sqFit X (fun j => v j - β j) / n / 2 := by field_simp
  rw [e] at h1 h4
  linarith

/-- Slow rate. -/
theorem oracle_slow (hn : 0 < n) (X : Fin n → Fin p → ℝ) (Y : Fin n → E) {α τ l : ℝ} (hα : 0 ≤ α)
    {v : Fin p → E} (hv : ∀ u, lsq X Y v + ∑ j, α * ‖v j‖ - (lsq X Y u + ∑ j, α * ‖u j‖) ≤ τ * ∑ j, ‖v j - u j‖)
    (β : Fin p → E) (hl : ∀ j, ‖grd X Y β j‖ ≤ l) (hτ : l + τ ≤ α) :
    sqFit X (fun j => v j - β j) / n ≤ 2 * α * ∑ j, ‖β j‖ := by
  refine (basic_ineq hn X Y hα hv β hl).trans ?_
  rw [Finset.mul_sum]
  refine Finset.sum_le_sum fun j _ => ?_
  have a := norm_sub_le (v j) (β j)
  have b := mul_le_mul_of_nonneg_right hτ (norm_nonneg (v j - β j))
  nlinarith

/-- Fast rate, under a restricted eigenvalue condition. -/
theorem oracle_fast (hn : 0 < n) (X : Fin n → Fin p → ℝ) (Y : Fin n → E) {α τ l ψ : ℝ} (hα : 0 < α) (hψ : 0 < ψ)
    {v : Fin p → E} (hv : ∀ u, lsq X Y v + ∑ j, α * ‖v j‖ - (lsq X Y u + ∑ j, α * ‖u j‖) ≤ τ * ∑ j, ‖v j - u j‖)
    (β : Fin p → E) (S : Finset (Fin p)) (hS : ∀ j ∉ S, β j = 0) (hl : ∀ j, ‖grd X Y β j‖ ≤ l) (hτ : 2 * (l + τ) ≤ α)
    (hre : ∀ d : Fin p → E, ∑ j ∈ Sᶜ, ‖d j‖ ≤ 3 * ∑ j ∈ S, ‖d j‖ → ψ * ∑ j ∈ S, ‖d j‖ ^ 2 ≤ sqFit X d / n) :
    sqFit X (fun j => v j - β j) / n ≤ 9 / 4 * α ^ 2 * S.card / ψ ∧ ∑ j, ‖v j - β j‖ ≤ 6 * α * S.card / ψ := by
  have hn' : (0 : ℝ) < n := by exact_mod_cast hn
  have h1 := basic_ineq hn X Y hα.le hv β hl
  obtain ⟨A, hA⟩ : ∃ A, A = ∑ j ∈ S, ‖v j - β j‖ := ⟨_, rfl⟩
  obtain ⟨B, hB⟩ : ∃ B, B = ∑ j ∈ Sᶜ, ‖v j - β j‖ := ⟨_, rfl⟩
  obtain ⟨C, hC⟩ : ∃ C, C = ∑ j ∈ S, ‖v j - β j‖ ^ 2 := ⟨_, rfl⟩
  obtain ⟨Q, hQ⟩ : ∃ Q, Q = sqFit X (fun j => v j - β j) / n := ⟨_, rfl⟩
  have hQ0 : 0 ≤ Q := by rw [hQ]; exact div_nonneg (sqFit_nonneg _ _) hn'.le
  have hA0 : 0 ≤ A := by rw [hA]; exact Finset.sum_nonneg fun _ _ => norm_nonneg _
  have hB0 : 0 ≤ B := by rw [hB]; exact Finset.sum_nonneg fun _ _ => norm_nonneg _
  have hC0 : 0 ≤ C := by rw [hC]; exact Finset.sum_nonneg fun _ _ => sq_nonneg _
  have h2 : Q ≤ 3 / 2 * α * A - α / 2 * B := by
    rw [hQ]
    refine h1.trans ?_
    rw [← Finset.sum_add_sum_compl S, hA, hB, Finset.mul_sum, Finset.mul_sum, sub_eq_add_neg, ← Finset.sum_neg_distrib]
    refine add_le_add (Finset.sum_le_sum fun j _ => ?_) (Finset.sum_le_sum fun j hj => ?_)
    · have a := norm_sub_norm_le (β j) (v j)
      rw [norm_sub_rev] at a
      have a' := mul_le_mul_of_nonneg_left a hα.le
      have b := mul_le_mul_of_nonneg_right (show l + τ ≤ α / 2 by linarith) (norm_nonneg (v j - β j))
      linarith
    · rw [hS j (Finset.mem_compl.mp hj), sub_zero, norm_zero]
      have b := mul_le_mul_of_nonneg_right (show l + τ ≤ α / 2 by linarith) (norm_nonneg (v j))
      linarith
  have h3 : B ≤ 3 * A := by
    have : α / 2 * B ≤ α / 2 * (3 * A) := by linarith
    exact le_of_mul_le_mul_left this (by positivity)
  have h4 : ψ * C ≤ Q := by rw [hQ, hC]; exact hre _ (by rw [← hA, ← hB]; exact h3)
  have h5 : A ^ 2 ≤ S.card * C := by
    have := sq_sum_le_card_mul_sum_sq (s := S) (f := fun j => ‖v j - β j‖)
    rw [hA, hC]; exact this
  have h6 : Q ≤ 3 / 2 * α * A := by
    have : 0 ≤ α / 2 * B := by positivity
    linarith
  have hs0 : (0 : ℝ) ≤ S.card := Nat.cast_nonneg _
  -- `ψ A² ≤ s Q ≤ 3/2 α s A`
  have h7 : ψ * A ^ 2 ≤ S.card * Q := by
    have a := mul_le_mul_of_nonneg_left h5 hψ.le
    have b := mul_le_mul_of_nonneg_left h4 hs0
    nlinarith
  have h8 : ψ * A ≤ 3 / 2 * α * S.card := by
    rcases hA0.eq_or_lt with h0 | h0
    · rw [← h0, mul_zero]; positivity
    · have a := mul_le_mul_of_nonneg_left h6 hs0
      have : A * (ψ * A) ≤ A * (3 / 2 * α * S.card) := by nlinarith
      exact le_of_mul_le_mul_left this h0
  constructor
  · rw [← hQ, le_div_iff₀ hψ]
    have a := mul_le_mul_of_nonneg_right h6 hψ.le
    have b := mul_le_mul_of_nonneg_left h8 (show 0 ≤ 3 / 2 * α by positivity)
    nlinarith
  · rw [← Finset.sum_add_sum_compl S, ← hA, ← hB, le_div_iff₀ hψ]
    nlinarith

/-! ## One task, several tasks -/

theorem fitG_real (X : Fin n → Fin p → ℝ) (v : Fin p → ℝ) (i : Fin n) : fitG X v i = fit X v i := rfl

theorem lsq_real (X : Fin n → Fin p → ℝ) (y : Fin n → ℝ) (v : Fin p → ℝ) : lsq X y v = quadLoss y (fit X v) := by
  unfold lsq quadLoss
  congr 1
  exact Finset.sum_congr rfl fun i _ => by rw [Real.norm_eq_abs, sq_abs, fitG_real]

theorem sqFit_real (X : Fin n → Fin p → ℝ) (v w : Fin p → ℝ) :
    sqFit X (fun j => v j - w j) = ∑ i, (fit X v i - fit X w i) ^ 2 := by
  unfold sqFit
  exact Finset.sum_congr rfl fun i _ => by rw [Real.norm_eq_abs, sq_abs, fitG_real, fit_sub]

theorem grd_real (D : Design n p) (y : Fin n → ℝ) (v : Fin p → ℝ) (j : Fin p) : grd D.matrix y v j = -residCorr D y v j := by
  unfold grd residCorr
  rw [smul_eq_mul, one_div, ← div_eq_inv_mul, ← neg_div, ← Finset.sum_neg_distrib]
  congr 1
  exact Finset.sum_congr rfl fun i _ => by rw [fitG_real, smul_eq_mul]; ring

/-- Targets as vectors. -/
noncomputable def vecY (Y : Fin n → Fin T → ℝ) (i : Fin n) : Euc T := WithLp.toLp 2 (Y i)

theorem fitG_mt (X : Fin n → Fin p → ℝ) (V : Fin p → Euc T) (i : Fin n) (t : Fin T) :
    (fitG X V i).ofLp t = fitMT X (fun j => (V j).ofLp) i t := by
  unfold fitG fitMT
  rw [WithLp.ofLp_sum, Finset.sum_apply]
  rfl

theorem lsq_mt (X : Fin n → Fin p → ℝ) (Y : Fin n → Fin T → ℝ) (V : Fin p → Euc T) :
    lsq X (vecY Y) V = mtLoss Y (fitMT X fun j => (V j).ofLp) := by
  unfold lsq mtLoss
  congr 1
  refine Finset.sum_congr rfl fun i _ => ?_
  rw [EuclideanSpace.norm_sq_eq]
  refine Finset.sum_congr rfl fun t _ => ?_
  rw [Real.norm_eq_abs, sq_abs, PiLp.sub_apply, fitG_mt]
  rfl

theorem sqFit_mt (X : Fin n → Fin p → ℝ) (V W : Fin p → Euc T) : sqFit X (fun j => V j - W j) =
    ∑ i, ∑ t, (fitMT X (fun j => (V j).ofLp) i t - fitMT X (fun j => (W j).ofLp) i t) ^ 2 := by
  unfold sqFit
  refine Finset.sum_congr rfl fun i _ => ?_
  rw [EuclideanSpace.norm_sq_eq]
  refine Finset.sum_congr rfl fun t _ => ?_
  rw [Real.norm_eq_abs, sq_abs, fitG_sub, PiLp.sub_apply, fitG_mt, fitG_mt]

theorem grd_mt (D : Design n p) (Y : Fin n → Fin T → ℝ) (V : Fin p → Euc T) (j : Fin p) :
    grd D.matrix (vecY Y) V j = -residCorrMT D Y V j := by
  unfold grd residCorrMT
  ext t
  rw [PiLp.smul_apply, PiLp.neg_apply, WithLp.ofLp_sum, Finset.sum_apply, smul_eq_mul, one_div, ← div_eq_inv_mul, ← neg_div,
    ← Finset.sum_neg_distrib]
  congr 1
  refine Finset.sum_congr rfl fun i _ => ?_
  rw [PiLp.smul_apply, PiLp.sub_apply, fitG_mt, smul_eq_mul]
  show D.matrix i j * (_ - Y i t) = _
  ring
end Sglm
