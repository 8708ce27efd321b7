import Verif.Proofs.Cert
import Mathlib.Topology.Algebra.Order.LiminfLimsup
import Mathlib.Analysis.SpecialFunctions.Log.Basic
import Mathlib.Algebra.Order.Chebyshev

/-!
# Strongly convex objectives
-/

namespace Sglm
open Spec
variable {n p T : ℕ} {E : Type*} [NormedAddCommGroup E] [InnerProductSpace ℝ E]

/-- `F` is strongly convex with modulus `μ`. -/
def StrongConv (F : (Fin p → E) → ℝ) (μ : ℝ) : Prop :=
  ∀ v w : Fin p → E, ∀ t : ℝ, 0 ≤ t → t ≤ 1 →
    F (fun j => v j + t • (w j - v j)) ≤ (1 - t) * F v + t * F w - μ / 2 * (t * (1 - t)) * ∑ j, ‖v j - w j‖ ^ 2

/-- An approximate minimiser in the sense of the stopping test is better than every other point up to the strong convexity term. -/
theorem StrongConv.gap {F : (Fin p → E) → ℝ} {μ τ : ℝ} (h : StrongConv F μ) (hμ : 0 ≤ μ) {v : Fin p → E}
    (hg : ∀ u, F v - F u ≤ τ * ∑ j, ‖v j - u j‖) (w : Fin p → E) :
    F v - F w + μ / 2 * ∑ j, ‖v j - w j‖ ^ 2 ≤ τ * ∑ j, ‖v j - w j‖ := by
  obtain ⟨S, hS⟩ : ∃ S, S = ∑ j, ‖v j - w j‖ ^ 2 := ⟨_, rfl⟩
  obtain ⟨B, hB⟩ : ∃ B, B = ∑ j, ‖v j - w j‖ := ⟨_, rfl⟩
  have hS0 : 0 ≤ S := by rw [hS]; exact Finset.sum_nonneg fun _ _ => sq_nonneg _
  have key : ∀ t : ℝ, 0 < t → t ≤ 1 → F v - F w + μ / 2 * (1 - t) * S ≤ τ * B := by
    intro t ht ht1
    have h1 := h v w t ht.le ht1
    have h2 := hg (fun j => v j + t • (w j - v j))
    have e : ∑ j, ‖v j - (v j + t • (w j - v j))‖ = t * B := by
      rw [hB, Finset.mul_sum]
      refine Finset.sum_congr rfl fun j _ => ?_
      rw [show v j - (v j + t • (w j - v j)) = t • (v j - w j) by rw [smul_sub, smul_sub]; abel, norm_smul, Real.norm_eq_abs,
        abs_of_pos ht]
    rw [e] at h2
    rw [← hS] at h1
    have h3 : t * (F v - F w + μ / 2 * (1 - t) * S) ≤ t * (τ * B) := by nlinarith
    exact le_of_mul_le_mul_left h3 ht
  rw [← hS, ← hB]
  by_contra hc
  obtain ⟨g, hg'⟩ : ∃ g, g = F v - F w + μ / 2 * S - τ * B := ⟨_, rfl⟩
  have hg0 : 0 < g := by rw [hg']; linarith
  have hm : 0 ≤ μ * S := mul_nonneg hμ hS0
  have hd : 0 < g + μ * S := by linarith
  have h1 := key (g / (g + μ * S)) (by positivity) (by rw [div_le_one hd]; linarith)
  have h2 : g / (g + μ * S) * (μ * S) ≤ g := by
    rw [div_mul_eq_mul_div, div_le_iff₀ hd]
    nlinarith
  nlinarith

theorem sum_sq_le (d : Fin p → ℝ) : (∑ j, d j) ^ 2 ≤ p * ∑ j, d j ^ 2 := by
  have := sq_sum_le_card_mul_sum_sq (s := Finset.univ) (f := d)
  rwa [Finset.card_univ, Fintype.card_fin] at this

/-- The distance of two approximate minimisers. -/
theorem StrongConv.near {F : (Fin p → E) → ℝ} {μ τ σ : ℝ} (h : StrongConv F μ) (hμ : 0 < μ) {v w : Fin p → E}
    (hv : ∀ u, F v - F u ≤ τ * ∑ j, ‖v j - u j‖) (hw : ∀ u, F w - F u ≤ σ * ∑ j, ‖w j - u j‖) :
    ∑ j, ‖v j - w j‖ ^ 2 ≤ p * ((τ + σ) / μ) ^ 2 := by
  have h1 := h.gap hμ.le hv w
  have h2 := h.gap hμ.le hw v
  have e1 : ∑ j, ‖w j - v j‖ = ∑ j, ‖v j - w j‖ := Finset.sum_congr rfl fun j _ => norm_sub_rev _ _
  have e2 : ∑ j, ‖w j - v j‖ ^ 2 = ∑ j, ‖v j - w j‖ ^ 2 := Finset.sum_congr rfl fun j _ => by rw [norm_sub_rev]
  rw [e1, e2] at h2
  have h3 := sum_sq_le (fun j => ‖v j - w j‖)
  obtain ⟨S, hS⟩ : ∃ S, S = ∑ j, ‖v j - w j‖ ^ 2 := ⟨_, rfl⟩
  obtain ⟨B, hB⟩ : ∃ B, B = ∑ j, ‖v j - w j‖ := ⟨_, rfl⟩
  have hS0 : 0 ≤ S := by rw [hS]; exact Finset.sum_nonneg fun _ _ => sq_nonneg _
  rw [← hS, ← hB] at h1 h2 h3
  rw [← hS]
  have h4 : μ * S ≤ (τ + σ) * B := by linarith
  have h5 : (μ * S) ^ 2 ≤ ((τ + σ) * B) ^ 2 := pow_le_pow_left₀ (by positivity) h4 2
  rcases hS0.eq_or_lt with h0 | h0
  · rw [← h0]; positivity
  · have h6 : S * (μ ^ 2 * S) ≤ S * (p * (τ + σ) ^ 2) := by
      have := mul_le_mul_of_nonneg_left h3 (sq_nonneg (τ + σ))
      nlinarith
    have h7 := le_of_mul_le_mul_left h6 h0
    rw [div_pow, ← mul_div_assoc, le_div_iff₀ (by positivity)]
    linarith

/-- The distance of a point with almost minimal value to the minimiser. -/
theorem StrongConv.near_min {F : (Fin p → E) → ℝ} {μ ε : ℝ} (h : StrongConv F μ) (hμ : 0 < μ) {v w : Fin p → E}
    (hw : ∀ u, F w ≤ F u) (hv : F v ≤ F w + ε) : ∑ j, ‖v j - w j‖ ^ 2 ≤ 2 * ε / μ := by
  have h1 := h.gap (τ := 0) hμ.le (v := w) (fun u => by rw [zero_mul]; linarith [hw u]) v
  have e2 : ∑ j, ‖w j - v j‖ ^ 2 = ∑ j, ‖v j - w j‖ ^ 2 := Finset.sum_congr rfl fun j _ => by rw [norm_sub_rev]
  rw [e2, zero_mul] at h1
  rw [le_div_iff₀ hμ]
  nlinarith

/-- A strongly convex function which is continuous and bounded from below has exactly one minimiser. -/
theorem StrongConv.exists_min [ProperSpace E] {F : (Fin p → E) → ℝ} {μ : ℝ} (h : StrongConv F μ) (hμ : 0 < μ) (hF : Continuous F)
    (hlow : ∀ w, 0 ≤ F w) : ∃! w, ∀ u, F w ≤ F u := by
  have hco : ∀ w, μ / 4 * ∑ j, ‖w j‖ ^ 2 ≤ F w + F 0 := by
    intro w
    have h1 := h 0 w (1 / 2) (by norm_num) (by norm_num)
    have h2 := hlow (fun j => (0 : Fin p → E) j + (1 / 2 : ℝ) • (w j - (0 : Fin p → E) j))
    have e : ∑ j, ‖(0 : Fin p → E) j - w j‖ ^ 2 = ∑ j, ‖w j‖ ^ 2 :=
      Finset.sum_congr rfl fun j _ => by rw [Pi.zero_apply, zero_sub, norm_neg]
    rw [e] at h1
    linarith
  obtain ⟨R, hR0, hR⟩ : ∃ R : ℝ, 0 ≤ R ∧ μ / 4 * R ^ 2 = 2 * F 0 :=
    ⟨Real.sqrt (8 * F 0 / μ), Real.sqrt_nonneg _, by
      rw [Real.sq_sqrt (by have := hlow 0; positivity)]; field_simp; ring⟩
  have hK : IsCompact (Metric.closedBall (0 : Fin p → E) R) := isCompact_closedBall _ _
  obtain ⟨w, -, hw⟩ := hK.exists_isMinOn ⟨0, by simpa using hR0⟩ hF.continuousOn
  have hmin : ∀ u, F w ≤ F u := by
    intro u
    by_cases hu : u ∈ Metric.closedBall (0 : Fin p → E) R
    · exact hw hu
    · refine le_trans (hw (by simpa using hR0 : (0 : Fin p → E) ∈ Metric.closedBall (0 : Fin p → E) R)) ?_
      by_contra hc
      apply hu
      rw [mem_closedBall_zero_iff, pi_norm_le_iff_of_nonneg hR0]
      intro j
      have h1 := hco u
      have h2 : ‖u j‖ ^ 2 ≤ ∑ j, ‖u j‖ ^ 2 :=
        Finset.single_le_sum (f := fun j => ‖u j‖ ^ 2) (fun _ _ => sq_nonneg _) (Finset.mem_univ j)
      have h3 : μ / 4 * ‖u j‖ ^ 2 ≤ μ / 4 * R ^ 2 := by
        have := mul_le_mul_of_nonneg_left h2 (by positivity : 0 ≤ μ / 4)
        linarith
      exact le_of_sq_le_sq (le_of_mul_le_mul_left h3 (by positivity)) hR0
  refine ⟨w, hmin, fun v hv => ?_⟩
  have h1 := h.near_min (ε := 0) (v := v) hμ hmin (by linarith [hv w])
  rw [mul_zero, zero_div] at h1
  funext j
  have h2 : ‖v j - w j‖ ^ 2 ≤ ∑ j, ‖v j - w j‖ ^ 2 :=
    Finset.single_le_sum (f := fun j => ‖v j - w j‖ ^ 2) (fun _ _ => sq_nonneg _) (Finset.mem_univ j)
  have h3 : ‖v j - w j‖ ^ 2 = 0 := le_antisymm (h2.trans h1) (sq_nonneg _)
  rwa [sq_eq_zero_iff, norm_eq_zero, sub_eq_zero] at h3

/-! ## The objectives of the crate -/

theorem fit_line (X : Fin n → Fin p → ℝ) (v w : Fin p → ℝ) (t : ℝ) (i : Fin n) :
    fit X (fun j => v j + t • (w j - v j)) i = fit X v i + t * (fit X w i - fit X v i) := by
  unfold fit
  rw [← Finset.sum_sub_distrib, Finset.mul_sum, ← Finset.sum_add_distrib]
  refine Finset.sum_congr rfl fun j _ => ?_
  simp only [smul_eq_mul]; ring

theorem fit_sub (X : Fin n → Fin p → ℝ) (v w : Fin p → ℝ) (i : Fin n) :
    fit X (fun j => v j - w j) i = fit X v i - fit X w i := by
  unfold fit
  rw [← Finset.sum_sub_distrib]
  exact Finset.sum_congr rfl fun j _ => by ring

theorem quad_line (X : Fin n → Fin p → ℝ) (y : Fin n → ℝ) (v w : Fin p → ℝ) (t : ℝ) :
    quadLoss y (fit X fun j => v j + t • (w j - v j)) = (1 - t) * quadLoss y (fit X v) + t * quadLoss y (fit X w) -
      t * (1 - t) / 2 * ((∑ i, fit X (fun j => v j - w j) i ^ 2) / n) := by
  unfold quadLoss
  have e : ∑ i, (y i - fit X (fun j => v j + t • (w j - v j)) i) ^ 2 = (1 - t) * ∑ i, (y i - fit X v i) ^ 2 +
      t * ∑ i, (y i - fit X w i) ^ 2 - t * (1 - t) * ∑ i, fit X (fun j => v j - w j) i ^ 2 := by
    rw [Finset.mul_sum, Finset.mul_sum, Finset.mul_sum, ← Finset.sum_add_distrib, ← Finset.sum_sub_distrib]
    refine Finset.sum_congr rfl fun i _ => ?_
    rw [fit_line, fit_sub]; ring
  rw [e]
  rcases Nat.eq_zero_or_pos n with rfl | hn
  · simp
  · have hn' : (0:ℝ) < n := by exact_mod_cast hn
    field_simp

theorem loss_line (hn : 0 < n) (X : Fin n → Fin p → ℝ) (y : Fin n → ℝ) (k : LossKind) (v w : Fin p → ℝ) (t : ℝ) (h0 : 0 ≤ t)
    (h1 : t ≤ 1) : k.loss y (fit X fun j => v j + t • (w j - v j)) ≤ (1 - t) * k.loss y (fit X v) + t * k.loss y (fit X w) := by
  obtain ⟨u, hu⟩ : ∃ u : Fin p → ℝ, u = fun j => v j + t • (w j - v j) := ⟨_, rfl⟩
  rw [← hu]
  have a := loss_convex hn X y k u v
  have b := loss_convex hn X y k u w
  have e : (1 - t) * ∑ j, gradOf X y k (fit X u) j * (v j - u j) + t * ∑ j, gradOf X y k (fit X u) j * (w j - u j) = 0 := by
    rw [Finset.mul_sum, Finset.mul_sum, ← Finset.sum_add_distrib]
    refine Finset.sum_eq_zero fun j _ => ?_
    simp only [hu, smul_eq_mul]; ring
  have a' := mul_le_mul_of_nonneg_left a (by linarith : 0 ≤ 1 - t)
  have b' := mul_le_mul_of_nonneg_left b h0
  linarith

/-- Strong convexity of the elastic net penalty (the Lasso penalty for `ρ = 1`). -/
theorem enet_line {α ρ : ℝ} (hα : 0 ≤ α) (hρ : 0 ≤ ρ) (x z : E) (t : ℝ) (h0 : 0 ≤ t) (h1 : t ≤ 1) :
    enet α ρ (x + t • (z - x)) ≤ (1 - t) * enet α ρ x + t * enet α ρ z - α * (1 - ρ) / 2 * (t * (1 - t)) * ‖x - z‖ ^ 2 := by
  have e : x + t • (z - x) = (1 - t) • x + t • z := by rw [smul_sub, sub_smul, one_smul]; abel
  have a : ‖x + t • (z - x)‖ ≤ (1 - t) * ‖x‖ + t * ‖z‖ := by
    rw [e]
    refine (norm_add_le _ _).trans (le_of_eq ?_)
    rw [norm_smul, norm_smul, Real.norm_eq_abs, Real.norm_eq_abs, abs_of_nonneg h0, abs_of_nonneg (by linarith)]
  have b : ‖x + t • (z - x)‖ ^ 2 = (1 - t) * ‖x‖ ^ 2 + t * ‖z‖ ^ 2 - t * (1 - t) * ‖x - z‖ ^ 2 := by
    rw [e, norm_add_sq_real, norm_sub_sq_real, norm_smul, norm_smul, inner_smul_left, inner_smul_right, mul_pow, mul_pow,
      Real.norm_eq_abs, Real.norm_eq_abs, sq_abs, sq_abs]
    simp only [conj_trivial]
    ring
  unfold enet
  rw [b]
  have := mul_le_mul_of_nonneg_left a (mul_nonneg hα hρ)
  nlinarith

/-- Modulus of strong convexity of a penalty. -/
theorem pen_line (pen : Pen) (hv : pen.Valid) (hc : pen.Convex) (x z t : ℝ) (h0 : 0 ≤ t) (h1 : t ≤ 1) :
    pen.fn (x + t • (z - x)) ≤ (1 - t) * pen.fn x + t * pen.fn z - pen.modulus / 2 * (t * (1 - t)) * ‖x - z‖ ^ 2 := by
  cases pen with
  | l1 α =>
    have := enet_line (ρ := 1) (show 0 ≤ α from hv) zero_le_one x z t h0 h1
    simp only [enet, sub_self, zero_mul, zero_div, add_zero, one_mul, mul_zero, sub_zero, Real.norm_eq_abs] at this
    simp only [Pen.fn, Pen.modulus, zero_div, zero_mul, sub_zero]
    exact this
  | enet α ρ => exact enet_line hv.1 hv.2.1 x z t h0 h1
  | mcp α γ => exact hc.elim
  | l05 α => exact hc.elim

theorem strong1 (hn : 0 < n) (D : Design n p) (y : Fin n → ℝ) (k : LossKind) (pen : Pen) (hv : pen.Valid) (hc : pen.Convex)
    {c : ℝ} (hcurv : Curvature D k c) : StrongConv (objective1 D y k pen) (c + pen.modulus) := by
  intro v w t h0 h1
  have ht : 0 ≤ t * (1 - t) := mul_nonneg h0 (by linarith)
  have hl : k.loss y (fit D.matrix fun j => v j + t • (w j - v j)) ≤ (1 - t) * k.loss y (fit D.matrix v) +
      t * k.loss y (fit D.matrix w) - c / 2 * (t * (1 - t)) * ∑ j, ‖v j - w j‖ ^ 2 := by
    cases k with
    | quadratic =>
      have h2 := hcurv (fun j => v j - w j)
      have h3 := quad_line D.matrix y v w t
      simp only [Real.norm_eq_abs, sq_abs]
      show quadLoss _ _ ≤ (1 - t) * quadLoss _ _ + t * quadLoss _ _ - _
      rw [h3]
      have := mul_le_mul_of_nonneg_left h2 ht
      linarith
    | logistic =>
      have h2 : c = 0 := hcurv
      rw [h2, zero_div, zero_mul, zero_mul, sub_zero]
      exact loss_line hn D.matrix y .logistic v w t h0 h1
  have hp : ∑ j, pen.fn (v j + t • (w j - v j)) ≤ (1 - t) * ∑ j, pen.fn (v j) + t * ∑ j, pen.fn (w j) -
      pen.modulus / 2 * (t * (1 - t)) * ∑ j, ‖v j - w j‖ ^ 2 := by
    rw [Finset.mul_sum, Finset.mul_sum, Finset.mul_sum, ← Finset.sum_add_distrib, ← Finset.sum_sub_distrib]
    exact Finset.sum_le_sum fun j _ => pen_line pen hv hc _ _ t h0 h1
  unfold objective1
  linarith

theorem loss_nonneg (y : Fin n → ℝ) (k : LossKind) (u : Fin n → ℝ) : 0 ≤ k.loss y u := by
  cases k
  · exact div_nonneg (Finset.sum_nonneg fun _ _ => sq_nonneg _) (by positivity)
  · exact div_nonneg (Finset.sum_nonneg fun i _ => Real.log_nonneg (by linarith [Real.exp_pos (-(y i * u i))])) (by positivity)

theorem pen_nonneg (pen : Pen) (hv : pen.Valid) (hc : pen.Convex) (x : ℝ) : 0 ≤ pen.fn x := by
  cases pen with
  | l1 α => exact mul_nonneg hv (abs_nonneg _)
  | enet α ρ =>
    obtain ⟨h1, h2, h3⟩ := hv
    have : 0 ≤ 1 - ρ := by linarith
    show 0 ≤ α * (ρ * ‖x‖ + (1 - ρ) * ‖x‖ ^ 2 / 2)
    positivity
  | mcp α γ => exact hc.elim
  | l05 α => exact hc.elim

theorem objective1_nonneg (D : Design n p) (y : Fin n → ℝ) (k : LossKind) (pen : Pen) (hv : pen.Valid) (hc : pen.Convex)
    (w : Fin p → ℝ) : 0 ≤ objective1 D y k pen w :=
  add_nonneg (loss_nonneg y k _) (Finset.sum_nonneg fun _ _ => pen_nonneg pen hv hc _)

theorem objective1_continuous (D : Design n p) (y : Fin n → ℝ) (k : LossKind) (pen : Pen) (hc : pen.Convex) :
    Continuous (objective1 D y k pen) := by
  have hf : ∀ i, Continuous fun w : Fin p → ℝ => fit D.matrix w i := by
    intro i
    unfold fit
    fun_prop
  have hp : Continuous pen.fn := by
    cases pen with
    | l1 α => exact continuous_const.mul continuous_abs
    | enet α ρ => unfold Pen.fn enet; fun_prop
    | mcp α γ => exact hc.elim
    | l05 α => exact hc.elim
  have hl : Continuous fun w : Fin p → ℝ => k.loss y (fit D.matrix w) := by
    cases k with
    | quadratic =>
      show Continuous fun w : Fin p → ℝ => (∑ i, (y i - fit D.matrix w i) ^ 2) / (2 * n)
      exact (continuous_finsetSum _ fun i _ => (continuous_const.sub (hf i)).pow 2).div_const _
    | logistic =>
      show Continuous fun w : Fin p → ℝ => (∑ i, Real.log (1 + Real.exp (-(y i * fit D.matrix w i)))) / n
      refine (continuous_finsetSum _ fun i _ => ?_).div_const _
      refine Continuous.log ?_ fun w => ?_
      · exact continuous_const.add (Real.continuous_exp.comp (continuous_const.mul (hf i)).neg)
      · have := Real.exp_pos (-(y i * fit D.matrix w i)); positivity
  unfold objective1
  exact hl.add (continuous_finsetSum _ fun j _ => hp.comp (continuous_apply j))

/-! ## Multi-task -/

theorem mt_line (X : Fin n → Fin p → ℝ) (Y : Fin n → Fin T → ℝ) (V W : Fin p → Euc T) (t : ℝ) :
    mtLoss Y (fitMT X fun j => (V j + t • (W j - V j)).ofLp) = (1 - t) * mtLoss Y (fitMT X fun j => (V j).ofLp) +
      t * mtLoss Y (fitMT X fun j => (W j).ofLp) -
      t * (1 - t) / 2 * ∑ s, (∑ i, fit X (fun j => (V j).ofLp s - (W j).ofLp s) i ^ 2) / n := by
  have e : ∀ U : Fin p → Euc T, mtLoss Y (fitMT X fun j => (U j).ofLp) =
      ∑ s, quadLoss (fun i => Y i s) (fit X fun j => (U j).ofLp s) := by
    intro U
    unfold mtLoss quadLoss
    rw [Finset.sum_comm, ← Finset.sum_div]
    rfl
  rw [e, e, e, Finset.mul_sum, Finset.mul_sum, Finset.mul_sum, ← Finset.sum_add_distrib, ← Finset.sum_sub_distrib]
  refine Finset.sum_congr rfl fun s _ => ?_
  exact quad_line X (fun i => Y i s) (fun j => (V j).ofLp s) (fun j => (W j).ofLp s) t

theorem strongMT (D : Design n p) (Y : Fin n → Fin T → ℝ) {α : ℝ} (hα : 0 ≤ α) {c : ℝ}
    (hcurv : Curvature D .quadratic c) : StrongConv (objectiveMT D Y (.l21 α)) c := by
  intro V W t h0 h1
  have ht : 0 ≤ t * (1 - t) := mul_nonneg h0 (by linarith)
  have hl : c * ∑ j, ‖V j - W j‖ ^ 2 ≤ ∑ s, (∑ i, fit D.matrix (fun j => (V j).ofLp s - (W j).ofLp s) i ^ 2) / n := by
    have : ∑ j, ‖V j - W j‖ ^ 2 = ∑ s, ∑ j, ((V j).ofLp s - (W j).ofLp s) ^ 2 := by
      rw [Finset.sum_comm]
      refine Finset.sum_congr rfl fun j _ => ?_
      rw [EuclideanSpace.norm_sq_eq]
      simp
    rw [this, Finset.mul_sum]
    exact Finset.sum_le_sum fun s _ => hcurv _
  have hp : ∑ j, α * ‖V j + t • (W j - V j)‖ ≤ (1 - t) * ∑ j, α * ‖V j‖ + t * ∑ j, α * ‖W j‖ := by
    rw [Finset.mul_sum, Finset.mul_sum, ← Finset.sum_add_distrib]
    refine Finset.sum_le_sum fun j _ => ?_
    have := enet_line (ρ := 1) hα zero_le_one (V j) (W j) t h0 h1
    simpa only [enet, sub_self, zero_mul, zero_div, add_zero, one_mul, mul_zero, sub_zero] using this
  have h2 := mt_line D.matrix Y V W t
  have h3 := mul_le_mul_of_nonneg_left hl ht
  show mtLoss _ _ + ∑ j, α * ‖V j + t • (W j - V j)‖ ≤ (1 - t) * (mtLoss _ _ + ∑ j, α * ‖V j‖) +
    t * (mtLoss _ _ + ∑ j, α * ‖W j‖) - c / 2 * (t * (1 - t)) * ∑ j, ‖V j - W j‖ ^ 2
  rw [h2]
  linarith

theorem objectiveMT_nonneg (D : Design n p) (Y : Fin n → Fin T → ℝ) {α : ℝ} (hα : 0 ≤ α) (W : Fin p → Euc T) :
    0 ≤ objectiveMT D Y (.l21 α) W := by
  refine add_nonneg ?_ (Finset.sum_nonneg fun j _ => mul_nonneg hα (norm_nonneg _))
  exact div_nonneg (Finset.sum_nonneg fun _ _ => Finset.sum_nonneg fun _ _ => sq_nonneg _) (by positivity)

theorem objectiveMT_continuous (D : Design n p) (Y : Fin n → Fin T → ℝ) (α : ℝ) :
    Continuous (objectiveMT D Y (.l21 α)) := by
  show Continuous fun W : Fin p → Euc T => (∑ i, ∑ t, (Y i t - ∑ j, D.matrix i j * (W j).ofLp t) ^ 2) / (2 * n) +
    ∑ j, α * ‖W j‖
  fun_prop

end Sglm
