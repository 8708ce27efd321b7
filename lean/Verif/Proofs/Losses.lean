import Verif.Proofs.Sem
import Verif.Spec.Loss
import Mathlib.Analysis.Calculus.Deriv.MeanValue
import Mathlib.Analysis.SpecialFunctions.Log.Deriv
import Mathlib.Analysis.SpecialFunctions.ExpDeriv
import Mathlib.Analysis.InnerProductSpace.PiL2

/-!
# Calculus of the losses
-/

namespace Sglm
open Spec

section
variable {n p T : ℕ}

theorem fit_update (X : Fin n → Fin p → ℝ) (w : Fin p → ℝ) (j : Fin p) (t : ℝ) :
    fit X (Function.update w j t) = fun i => fit X w i + (t - w j) * X i j := by
  funext i
  unfold fit
  have h : ∀ k, X i k * Function.update w j t k = X i k * w k + if k = j then (t - w j) * X i j else 0 := by
    intro k
    by_cases hk : k = j
    · subst hk; simp; ring
    · simp [hk]
  simp only [h, Finset.sum_add_distrib, Finset.sum_ite_eq', Finset.mem_univ, if_true]

theorem fitMT_update (X : Fin n → Fin p → ℝ) (W : Fin p → Fin T → ℝ) (j : Fin p) (v : Fin T → ℝ) :
    fitMT X (Function.update W j v) = fun i t => fitMT X W i t + (v t - W j t) * X i j := by
  funext i t
  unfold fitMT
  have h : ∀ k, X i k * Function.update W j v k t = X i k * W k t + if k = j then (v t - W j t) * X i j else 0 := by
    intro k
    by_cases hk : k = j
    · subst hk; simp; ring
    · simp [hk]
  simp only [h, Finset.sum_add_distrib, Finset.sum_ite_eq', Finset.mem_univ, if_true]

theorem fit_zero (X : Fin n → Fin p → ℝ) : fit X (fun _ => 0) = fun _ => 0 := by
  funext i; simp [fit]

theorem fitMT_zero (X : Fin n → Fin p → ℝ) : fitMT X (fun _ (_ : Fin T) => 0) = fun _ _ => 0 := by
  funext i t; simp [fitMT]

theorem quadStep_nonneg (X : Fin n → Fin p → ℝ) (j : Fin p) : 0 ≤ quadStep X j :=
  div_nonneg (Finset.sum_nonneg fun _ _ => mul_self_nonneg _) (Nat.cast_nonneg n)

theorem logStep_nonneg (X : Fin n → Fin p → ℝ) (j : Fin p) : 0 ≤ logStep X j :=
  div_nonneg (Finset.sum_nonneg fun _ _ => mul_self_nonneg _) (by positivity)

/-! ## Least squares -/

theorem quad_expand (hn : 0 < n) (X : Fin n → Fin p → ℝ) (y u : Fin n → ℝ) (j : Fin p) (d : ℝ) :
    quadLoss y (fun i => u i + d * X i j) =
      quadLoss y u + quadGrad X y u j * d + quadStep X j * d ^ 2 / 2 := by
  have hn' : (n : ℝ) ≠ 0 := by positivity
  unfold quadLoss quadGrad quadStep
  have h : ∀ i, (y i - (u i + d * X i j)) ^ 2 =
      (y i - u i) ^ 2 + (2 * d) * (X i j * u i) - (2 * d) * (X i j * y i) + d ^ 2 * (X i j * X i j) := by
    intro i; ring
  simp only [h, Finset.sum_add_distrib, Finset.sum_sub_distrib, ← Finset.mul_sum]
  field_simp
  ring

theorem quadGrad_step (X : Fin n → Fin p → ℝ) (y u : Fin n → ℝ) (j : Fin p) (d : ℝ) :
    quadGrad X y (fun i => u i + d * X i j) j = quadGrad X y u j + quadStep X j * d := by
  unfold quadGrad quadStep
  have h : ∀ i, X i j * (u i + d * X i j) = X i j * u i + d * (X i j * X i j) := by intro i; ring
  simp only [h, Finset.sum_add_distrib, ← Finset.mul_sum]
  ring

theorem hasDerivAt_of_expand {f : ℝ → ℝ} {a c g L : ℝ}
    (h : ∀ t, f t = c + g * (t - a) + L * (t - a) ^ 2 / 2) : HasDerivAt f g a := by
  have : f = fun t => c + g * (t - a) + L * (t - a) ^ 2 / 2 := funext h
  rw [this]
  have h1 : HasDerivAt (fun t : ℝ => t - a) 1 a := (hasDerivAt_id a).sub_const a
  have h2 := ((h1.const_mul g).const_add c).add (((h1.pow 2).const_mul L).div_const 2)
  refine h2.congr_deriv ?_
  rw [sub_self]
  ring

theorem quad_partial (hn : 0 < n) (X : Fin n → Fin p → ℝ) (y : Fin n → ℝ) (w : Fin p → ℝ) (j : Fin p) :
    IsPartial (fun w => quadLoss y (fit X w)) w j (quadGrad X y (fit X w) j) := by
  apply hasDerivAt_of_expand (c := quadLoss y (fit X w)) (L := quadStep X j)
  intro t
  beta_reduce
  rw [fit_update, quad_expand hn]

/-- Convexity of the loss, in terms of the weights. -/
theorem quad_convex (hn : 0 < n) (X : Fin n → Fin p → ℝ) (y : Fin n → ℝ) (w w' : Fin p → ℝ) :
    quadLoss y (fit X w) + ∑ j, quadGrad X y (fit X w) j * (w' j - w j) ≤ quadLoss y (fit X w') := by
  have e : ∑ j, quadGrad X y (fit X w) j * (w' j - w j) =
      (∑ i, (fit X w i - y i) * (fit X w' i - fit X w i)) / n := by
    unfold quadGrad
    have : ∀ j, (∑ i, X i j * fit X w i - ∑ i, X i j * y i) / n * (w' j - w j) =
        ∑ i, ((fit X w i - y i) * (X i j * w' j - X i j * w j)) / n := by
      intro j
      rw [← Finset.sum_sub_distrib, div_mul_eq_mul_div, Finset.sum_mul, Finset.sum_div]
      apply Finset.sum_congr rfl
      intro i _
      ring
    simp only [this]
    rw [Finset.sum_comm, Finset.sum_div]
    apply Finset.sum_congr rfl
    intro i _
    rw [← Finset.sum_div, ← Finset.mul_sum, Finset.sum_sub_distrib]
    rfl
  rw [e]
  unfold quadLoss
  have hn' : (0 : ℝ) < n := by exact_mod_cast hn
  rw [div_add_div _ _ (by positivity) (by positivity), div_le_div_iff₀ (by positivity) (by positivity)]
  have : ∑ i, (y i - fit X w i) ^ 2 + 2 * ∑ i, (fit X w i - y i) * (fit X w' i - fit X w i) ≤
      ∑ i, (y i - fit X w' i) ^ 2 := by
    rw [Finset.mul_sum, ← Finset.sum_add_distrib]
    apply Finset.sum_le_sum
    intro i _
    nlinarith [sq_nonneg (fit X w' i - fit X w i)]
  have h2 := mul_le_mul_of_nonneg_left this (by positivity : (0:ℝ) ≤ 2 * (n * n))
  nlinarith [h2]

/-! ## Multi-task least squares -/

theorem mt_expand (hn : 0 < n) (X : Fin n → Fin p → ℝ) (Y U : Fin n → Fin T → ℝ) (j : Fin p) (d : Fin T → ℝ) :
    mtLoss Y (fun i t => U i t + d t * X i j) =
      mtLoss Y U + ∑ t, mtGrad X Y U j t * d t + quadStep X j * (∑ t, d t ^ 2) / 2 := by
  have key : ∀ V : Fin n → Fin T → ℝ, mtLoss Y V = ∑ t, quadLoss (fun i => Y i t) (fun i => V i t) := by
    intro V
    unfold mtLoss quadLoss
    rw [Finset.sum_comm, Finset.sum_div]
  rw [key, key]
  rw [Finset.mul_sum, Finset.sum_div, ← Finset.sum_add_distrib, ← Finset.sum_add_distrib]
  apply Finset.sum_congr rfl
  intro t _
  exact quad_expand hn X (fun i => Y i t) (fun i => U i t) j (d t)

theorem mtGrad_eq (X : Fin n → Fin p → ℝ) (Y U : Fin n → Fin T → ℝ) (j : Fin p) (t : Fin T) :
    mtGrad X Y U j t = quadGrad X (fun i => Y i t) (fun i => U i t) j := rfl

theorem mtGrad_step (X : Fin n → Fin p → ℝ) (Y U : Fin n → Fin T → ℝ) (j : Fin p) (d : Fin T → ℝ) (t : Fin T) :
    mtGrad X Y (fun i t => U i t + d t * X i j) j t = mtGrad X Y U j t + quadStep X j * d t :=
  quadGrad_step X (fun i => Y i t) (fun i => U i t) j (d t)

theorem mt_partial (hn : 0 < n) (X : Fin n → Fin p → ℝ) (Y : Fin n → Fin T → ℝ) (W : Fin p → Fin T → ℝ)
    (j : Fin p) (t : Fin T) :
    IsPartialMT (fun W => mtLoss Y (fitMT X W)) W j t (mtGrad X Y (fitMT X W) j t) := by
  apply hasDerivAt_of_expand (c := mtLoss Y (fitMT X W)) (L := quadStep X j)
  intro s
  beta_reduce
  rw [fitMT_update, mt_expand hn X Y (fitMT X W) j (fun t' => Function.update (W j) t s t' - W j t')]
  have h : ∀ t', Function.update (W j) t s t' - W j t' = if t' = t then s - W j t else 0 := by
    intro t'
    by_cases h : t' = t
    · subst h; simp
    · simp [h]
  simp [h]

theorem mt_convex (hn : 0 < n) (X : Fin n → Fin p → ℝ) (Y : Fin n → Fin T → ℝ) (W W' : Fin p → Fin T → ℝ) :
    mtLoss Y (fitMT X W) + ∑ j, ∑ t, mtGrad X Y (fitMT X W) j t * (W' j t - W j t) ≤
      mtLoss Y (fitMT X W') := by
  have key : ∀ V : Fin n → Fin T → ℝ, mtLoss Y V = ∑ t, quadLoss (fun i => Y i t) (fun i => V i t) := by
    intro V
    unfold mtLoss quadLoss
    rw [Finset.sum_comm, Finset.sum_div]
  rw [key, key, Finset.sum_comm, ← Finset.sum_add_distrib]
  apply Finset.sum_le_sum
  intro t _
  exact quad_convex hn X (fun i => Y i t) (fun j => W j t) (fun j => W' j t)

/-! ## Logistic -/

theorem sigm_pos (x : ℝ) : 0 < sigm x := by unfold sigm; positivity

theorem hasDerivAt_sigm (x : ℝ) : HasDerivAt sigm (sigm x * (1 - sigm x)) x := by
  have h0 : (0:ℝ) < 1 + Real.exp (-x) := by positivity
  have h1 : HasDerivAt (fun x : ℝ => 1 + Real.exp (-x)) (Real.exp (-x) * -1) x :=
    ((hasDerivAt_neg x).exp).const_add 1
  have h2 := h1.inv h0.ne'
  have e : sigm = (fun x : ℝ => (1 + Real.exp (-x))⁻¹) := by funext x; simp [sigm]
  rw [e]
  refine h2.congr_deriv ?_
  field_simp
  ring

theorem sigm_lip (a b : ℝ) : |sigm a - sigm b| ≤ |a - b| / 4 := by
  have := Convex.norm_image_sub_le_of_norm_hasDerivWithin_le (f := sigm)
    (f' := fun x => sigm x * (1 - sigm x)) (s := Set.univ) (C := 1 / 4) (x := b) (y := a)
    (fun x _ => (hasDerivAt_sigm x).hasDerivWithinAt) (fun x _ => by
      rw [Real.norm_eq_abs, abs_le]
      have h1 := sigm_pos x
      have h2 : sigm x ≤ 1 := by
        unfold sigm
        rw [div_le_one (by positivity)]
        linarith [Real.exp_pos (-x)]
      constructor <;> nlinarith [sq_nonneg (sigm x - 1 / 2)]) convex_univ (Set.mem_univ _) (Set.mem_univ _)
  rw [Real.norm_eq_abs, Real.norm_eq_abs] at this
  linarith

theorem hasDerivAt_logistic (c s : ℝ) :
    HasDerivAt (fun s => Real.log (1 + Real.exp (-(c * s)))) (-(c * sigm (-c * s))) s := by
  have h0 : (0:ℝ) < 1 + Real.exp (-(c * s)) := by positivity
  have h1 : HasDerivAt (fun s : ℝ => -(c * s)) (-(c * 1)) s := ((hasDerivAt_id s).const_mul c).neg
  have h2 := (h1.exp.const_add 1).log h0.ne'
  refine h2.congr_deriv ?_
  unfold sigm
  have e : Real.exp (-(-c * s)) = (Real.exp (-(c * s)))⁻¹ := by
    rw [← Real.exp_neg]; congr 1; ring
  rw [e]
  have hp := Real.exp_pos (-(c * s))
  field_simp
  ring

theorem log_hasDerivAt (X : Fin n → Fin p → ℝ) (y : Fin n → ℝ) (u : Fin n → ℝ) (j : Fin p) (a d : ℝ) :
    HasDerivAt (fun t => logLoss y (fun i => u i + (t - a) * X i j))
      (logGrad X y (fun i => u i + (d - a) * X i j) j) d := by
  unfold logLoss
  have h : ∀ i, HasDerivAt (fun t : ℝ => Real.log (1 + Real.exp (-(y i * (u i + (t - a) * X i j)))))
      (-(y i * sigm (-y i * (u i + (d - a) * X i j))) * X i j) d := by
    intro i
    have h1 : HasDerivAt (fun t : ℝ => u i + (t - a) * X i j) (X i j) d := by
      have := (((hasDerivAt_id d).sub_const a).mul_const (X i j)).const_add (u i)
      simpa using this
    exact (hasDerivAt_logistic (y i) _).comp d h1
  have hs := (HasDerivAt.fun_sum (u := Finset.univ) fun i _ => h i).div_const (n : ℝ)
  refine hs.congr_deriv ?_
  unfold logGrad
  congr 1
  rw [← Finset.sum_neg_distrib]
  apply Finset.sum_congr rfl
  intro i _
  ring

theorem log_partial (X : Fin n → Fin p → ℝ) (y : Fin n → ℝ) (w : Fin p → ℝ) (j : Fin p) :
    IsPartial (fun w => logLoss y (fit X w)) w j (logGrad X y (fit X w) j) := by
  unfold IsPartial
  have := log_hasDerivAt X y (fit X w) j (w j) (w j)
  simp only [fit_update]
  simpa using this

theorem logGrad_lip (X : Fin n → Fin p → ℝ) (y : Fin n → ℝ) (hy : ∀ i, |y i| ≤ 1) (u : Fin n → ℝ)
    (j : Fin p) (d : ℝ) :
    |logGrad X y (fun i => u i + d * X i j) j - logGrad X y u j| ≤ logStep X j * |d| := by
  have e : logGrad X y (fun i => u i + d * X i j) j - logGrad X y u j =
      (∑ i, -(X i j * y i * (sigm (-y i * (u i + d * X i j)) - sigm (-y i * u i)))) / n := by
    unfold logGrad
    rw [← sub_div, ← Finset.sum_neg_distrib, ← Finset.sum_neg_distrib, ← Finset.sum_sub_distrib]
    congr 1
    apply Finset.sum_congr rfl
    intro i _
    ring
  rw [e, abs_div, abs_of_nonneg (Nat.cast_nonneg n : (0:ℝ) ≤ n)]
  have hb : ∀ i, |-(X i j * y i * (sigm (-y i * (u i + d * X i j)) - sigm (-y i * u i)))| ≤
      X i j * X i j * |d| / 4 := by
    intro i
    rw [abs_neg, abs_mul, abs_mul]
    have h1 := sigm_lip (-y i * (u i + d * X i j)) (-y i * u i)
    have e2 : -y i * (u i + d * X i j) - -y i * u i = -(y i * d * X i j) := by ring
    rw [e2, abs_neg, abs_mul, abs_mul] at h1
    have hx : X i j * X i j = |X i j| * |X i j| := (abs_mul_abs_self _).symm
    rw [hx]
    have hy1 := hy i
    have hy0 := abs_nonneg (y i)
    calc |X i j| * |y i| * |sigm (-y i * (u i + d * X i j)) - sigm (-y i * u i)|
        ≤ |X i j| * |y i| * (|y i| * |d| * |X i j| / 4) := by gcongr
      _ = (|y i| * |y i|) * (|X i j| * |X i j| * |d| / 4) := by ring
      _ ≤ 1 * (|X i j| * |X i j| * |d| / 4) := by gcongr; nlinarith
      _ = _ := one_mul _
  have hs : |∑ i, -(X i j * y i * (sigm (-y i * (u i + d * X i j)) - sigm (-y i * u i)))| ≤
      ∑ i, X i j * X i j * |d| / 4 :=
    (Finset.abs_sum_le_sum_abs _ _).trans (Finset.sum_le_sum fun i _ => hb i)
  unfold logStep
  rcases Nat.eq_zero_or_pos n with h0 | h0
  · subst h0; simp
  · have hn' : (0:ℝ) < n := by exact_mod_cast h0
    rw [div_le_iff₀ hn']
    refine hs.trans (le_of_eq ?_)
    rw [← Finset.sum_div, ← Finset.sum_mul]
    field_simp

/-- A function whose derivative is `L`-Lipschitz at `a` lies below its parabola. -/
theorem descent_lemma {f f' : ℝ → ℝ} {a L : ℝ} (hf : ∀ t, HasDerivAt f (f' t) t)
    (hL : ∀ t, |f' t - f' a| ≤ L * |t - a|) (t : ℝ) :
    f t ≤ f a + f' a * (t - a) + L * (t - a) ^ 2 / 2 := by
  set h : ℝ → ℝ := fun t => f a + f' a * (t - a) + L * (t - a) ^ 2 / 2 - f t with hh
  have hd : ∀ t, HasDerivAt h (f' a + L * (t - a) - f' t) t := by
    intro t
    have h1 : HasDerivAt (fun t : ℝ => t - a) 1 t := (hasDerivAt_id t).sub_const a
    have h2 := (((h1.const_mul (f' a)).const_add (f a)).add (((h1.pow 2).const_mul L).div_const 2)).sub (hf t)
    refine h2.congr_deriv ?_
    simp
    ring
  have hc : Continuous h := continuous_iff_continuousAt.mpr fun t => (hd t).continuousAt
  have h0 : h a = 0 := by simp [hh]
  have goal : 0 ≤ h t := by
    rcases le_total a t with hat | hat
    · have hm : MonotoneOn h (Set.Ici a) := by
        apply monotoneOn_of_deriv_nonneg (convex_Ici a) hc.continuousOn
          (fun x _ => (hd x).differentiableAt.differentiableWithinAt)
        intro x hx
        rw [interior_Ici] at hx
        rw [(hd x).deriv]
        have := (abs_le.mp (hL x)).2
        rw [abs_of_pos (sub_pos.mpr hx)] at this
        linarith
      rw [← h0]
      exact hm (Set.mem_Ici.mpr le_rfl) (Set.mem_Ici.mpr hat) hat
    · have hm : AntitoneOn h (Set.Iic a) := by
        apply antitoneOn_of_deriv_nonpos (convex_Iic a) hc.continuousOn
          (fun x _ => (hd x).differentiableAt.differentiableWithinAt)
        intro x hx
        rw [interior_Iic] at hx
        rw [(hd x).deriv]
        have := (abs_le.mp (hL x)).1
        rw [abs_of_neg (sub_neg.mpr hx)] at this
        linarith
      rw [← h0]
      exact hm (Set.mem_Iic.mpr hat) (Set.mem_Iic.mpr le_rfl) hat
  simp only [hh] at goal
  linarith

theorem log_major (X : Fin n → Fin p → ℝ) (y : Fin n → ℝ) (hy : ∀ i, |y i| ≤ 1) (u : Fin n → ℝ)
    (j : Fin p) (d : ℝ) :
    logLoss y (fun i => u i + d * X i j) ≤ logLoss y u + logGrad X y u j * d + logStep X j * d ^ 2 / 2 := by
  have := descent_lemma (a := 0) (L := logStep X j) (fun t => log_hasDerivAt X y u j 0 t) (by
    intro t
    have := logGrad_lip X y hy u j t
    simpa using this) d
  simpa using this

/-- Convexity of the logistic loss in terms of the weights. -/
theorem logistic_convex (c s s' : ℝ) :
    Real.log (1 + Real.exp (-(c * s))) + -(c * sigm (-c * s)) * (s' - s) ≤
      Real.log (1 + Real.exp (-(c * s'))) := by
  set h : ℝ → ℝ := fun t => Real.log (1 + Real.exp (-(c * t))) - Real.log (1 + Real.exp (-(c * s))) -
    -(c * sigm (-c * s)) * (t - s) with hh
  have hd : ∀ t, HasDerivAt h (-(c * sigm (-c * t)) - -(c * sigm (-c * s))) t := by
    intro t
    have h1 : HasDerivAt (fun t : ℝ => t - s) 1 t := (hasDerivAt_id t).sub_const s
    have h2 := ((hasDerivAt_logistic c t).sub_const (Real.log (1 + Real.exp (-(c * s))))).sub
      (h1.const_mul (-(c * sigm (-c * s))))
    refine h2.congr_deriv ?_
    ring
  have hmono : Monotone sigm := by
    apply monotone_of_deriv_nonneg (fun x => (hasDerivAt_sigm x).differentiableAt)
    intro x
    rw [(hasDerivAt_sigm x).deriv]
    have h2 : sigm x ≤ 1 := by
      unfold sigm
      rw [div_le_one (by positivity)]
      linarith [Real.exp_pos (-x)]
    exact mul_nonneg (sigm_pos x).le (by linarith)
  have hsgn : ∀ t t', t ≤ t' → -(c * sigm (-c * t)) ≤ -(c * sigm (-c * t')) := by
    intro t t' htt
    rcases le_total 0 c with hc | hc
    · have : sigm (-c * t') ≤ sigm (-c * t) := hmono (by nlinarith)
      nlinarith
    · have : sigm (-c * t) ≤ sigm (-c * t') := hmono (by nlinarith)
      nlinarith
  have hc : Continuous h := continuous_iff_continuousAt.mpr fun t => (hd t).continuousAt
  have h0 : h s = 0 := by simp [hh]
  have goal : 0 ≤ h s' := by
    rcases le_total s s' with hat | hat
    · have hm : MonotoneOn h (Set.Ici s) := by
        apply monotoneOn_of_deriv_nonneg (convex_Ici s) hc.continuousOn
          (fun x _ => (hd x).differentiableAt.differentiableWithinAt)
        intro x hx
        rw [interior_Ici] at hx
        rw [(hd x).deriv]
        have := hsgn s x hx.le
        linarith
      rw [← h0]
      exact hm (Set.mem_Ici.mpr le_rfl) (Set.mem_Ici.mpr hat) hat
    · have hm : AntitoneOn h (Set.Iic s) := by
        apply antitoneOn_of_deriv_nonpos (convex_Iic s) hc.continuousOn
          (fun x _ => (hd x).differentiableAt.differentiableWithinAt)
        intro x hx
        rw [interior_Iic] at hx
        rw [(hd x).deriv]
        have := hsgn x s hx.le
        linarith
      rw [← h0]
      exact hm (Set.mem_Iic.mpr hat) (Set.mem_Iic.mpr le_rfl) hat
  simp only [hh] at goal
  linarith

theorem log_convex (hn : 0 < n) (X : Fin n → Fin p → ℝ) (y : Fin n → ℝ) (w w' : Fin p → ℝ) :
    logLoss y (fit X w) + ∑ j, logGrad X y (fit X w) j * (w' j - w j) ≤ logLoss y (fit X w') := by
  have hn' : (0 : ℝ) < n := by exact_mod_cast hn
  have e : ∑ j, logGrad X y (fit X w) j * (w' j - w j) =
      (∑ i, -(y i * sigm (-y i * fit X w i)) * (fit X w' i - fit X w i)) / n := by
    unfold logGrad
    have : ∀ j, -(∑ i, X i j * (y i * sigm (-y i * fit X w i))) / n * (w' j - w j) =
        ∑ i, (-(y i * sigm (-y i * fit X w i)) * (X i j * w' j - X i j * w j)) / n := by
      intro j
      rw [div_mul_eq_mul_div, ← Finset.sum_neg_distrib, Finset.sum_mul, Finset.sum_div]
      apply Finset.sum_congr rfl
      intro i _
      ring
    simp only [this]
    rw [Finset.sum_comm, Finset.sum_div]
    apply Finset.sum_congr rfl
    intro i _
    rw [← Finset.sum_div, ← Finset.mul_sum, Finset.sum_sub_distrib]
    rfl
  rw [e]
  unfold logLoss
  rw [← add_div, ← Finset.sum_add_distrib]
  apply div_le_div_of_nonneg_right _ hn'.le
  apply Finset.sum_le_sum
  intro i _
  exact logistic_convex (y i) (fit X w i) (fit X w' i)

end
end Sglm
