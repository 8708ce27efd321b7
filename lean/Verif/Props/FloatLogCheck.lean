import Verif.Proofs.FloatLogCheck
import Verif.Props.FloatCheck
import Verif.Props.LogisticValue

/-!
# C82: the optimality check of logistic regression in floating point

The analogue of C80 for the logistic loss with the Lasso and the elastic net penalties.  The computed logistic function is finite and
accurate at every finite number, also where the exponential overflows (compare C81: the computed loss is not).
-/

namespace Sglm
open Scalar Spec
variable {n p : ℕ}

/-! ## The laws for IEEE 754 -/

theorem key_ofReal_some {f : Format} (z : Bool) (r : ℝ) : ∃ k, (Num.ofReal z r : Num f).key = some k := by
  by_cases h : f.near |r| < (2 : ℝ) ^ f.emax
  · exact ⟨_, Num.key_ofReal_small z h⟩
  · exact ⟨_, Num.key_ofReal_big z h⟩

theorem eq_inf_of_key {f : Format} {x : Num f} (h : x.key = some ⊤) : x = Num.inf false := by
  cases x with
  | nan => cases h
  | inf s =>
    cases s with
    | false => rfl
    | true => simp [Num.key] at h
  | fin s a ha ha' => simp [Num.key] at h

theorem den_nonNeg {F : Type} [Scalar F] [LawfulCmp F] {x : F} {r : ℝ} (hx : Den x r) (hr : 0 ≤ r) : NonNeg x := by
  intro k hk
  have : some k = some ((r : ℝ) : EReal) := hk.symm.trans hx
  rw [Option.some.inj this]
  exact_mod_cast hr

theorem IEEE.saturates (f : Format) (S : Summation f) : Saturates (IEEE f S) where
  exp_num x r hx := by
    obtain ⟨s, m, hm, hm', rfl, rfl⟩ := Num.D.elim hx
    show ∃ k, (Num.mk false (Real.exp (signed s m)) : Num f).key = some k
    rw [Num.mk_eq_ofReal false (Real.exp_pos _).le]
    exact key_ofReal_some _ _
  add_num x y r s hx hy := by
    obtain ⟨z, hz⟩ := Num.add_D hx hy
    show ∃ k, (Num.add x y).key = some k
    rw [hz]
    exact key_ofReal_some _ _
  add_nonneg x y r s k hx hy hr hs hk := (IEEE.propagates f S).add_nonneg x y (den_nonNeg hx hr) (den_nonNeg hy hs) k hk
  add_top x y r hx hy := by
    have hy' := eq_inf_of_key hy
    subst hy'
    show (Num.add x (Num.inf false)).key = some ⊤
    rw [add_inf_right hx]
    rfl
  div_top x y r hx hy := by
    have hy' := eq_inf_of_key hy
    subst hy'
    obtain ⟨s, m, hm, hm', rfl, rfl⟩ := Num.D.elim hx
    show (Num.mk (s ^^ false) 0 : Num f).key = some _
    rw [Num.mk_eq_ofReal _ le_rfl]
    have : signed (s ^^ false) (0 : ℝ) = 0 := by simp [signed]
    rw [this]
    exact Num.ofReal_zero_key _

section
variable {F : Type} [Scalar F] [LawfulCmp F] {e : ℝ}

/-- **The computed logistic function** is finite at every finite number and off by at most `10 e`. -/
theorem C82_sigmoid (P : Precise F e) (E : PreciseExp F e) (T : Saturates F) (he : 64 * e ≤ 1) (x : F) (r : ℝ) (hx : Den x r) :
    ∃ s, Den (sigmoid x) s ∧ |s - 1 / (1 + Real.exp (-r))| ≤ 10 * e :=
  sigmoid_err P E T he hx

/-- **The computed violation is accurate** (both ways): at coefficients `w` and predictions `z`, `m` is at most `tol` only if each
exact violation `d j` is at most `tol` up to rounding, and it is at most `tol` if each exact violation is below `tol` by as much. -/
theorem C82_check (P : Precise F e) (E : PreciseExp F e) (T : Saturates F) (hn : 0 < n) (hne : 8 * (n * e) ≤ 1) (D : Design n p)
    (hD : D.Canonical) (x : D.Entries F) (hx : D.Holds x) (y : Fin n → F) (Y : Fin n → ℝ) (hy : ∀ i, Den (y i) (Y i)) (pen' : PenOf F)
    (pen : Pen) (hp : pen'.Holds pen) (hv : pen.Valid) (w : Fin p → F) (v : Fin p → ℝ) (hw : ∀ j, Den (w j) (v j)) (z : Fin n → F)
    (Z : Fin n → ℝ) (hz : ∀ i, Den (z i) (Z i)) (hm : ∀ i, 64 * (marginSize Y Z i * e) ≤ 1)
    (hs : ∀ j, 64 * (logSize D.matrix Y pen v Z j * e) ≤ 1) (d : Fin p → ℝ)
    (hd : ∀ j, IsDist (-(logisticGrad D.matrix Y Z j)) (subdiff pen.fn (v j)) (d j)) :
    ∃ m, checkOf D x y .logistic pen' w z = .ok m ∧ ∀ tol τ, Den tol τ →
      ((m <=. tol) = true → ∀ j, d j ≤ τ + 100 * (e * logSize D.matrix Y pen v Z j)) ∧
      ((∀ j, d j + 100 * (e * logSize D.matrix Y pen v Z j) ≤ τ) → (m <=. tol) = true) := by
  obtain ⟨κ, k, h1, h2, h3⟩ := log_check_scores P E T hn hne D hD x hx y Y hy pen' pen hp hv w v hw z Z hz hm hs
  have hc : pen.Convex := by
    cases pen <;> cases pen' <;> first | exact trivial | exact hp.elim
  have hd' : ∀ j, d j = scoreOf pen (v j) (logisticGrad D.matrix Y Z j) := fun j => by
    rw [(hd j).2, ← (scoreOf_dist pen hv hc (v j) (logisticGrad D.matrix Y Z j)).2]
  refine ⟨_, h2, fun tol τ ht => ?_⟩
  have hfin : ∀ q ∈ List.ofFn κ, ∃ r, Den q r := by
    intro q hq
    obtain ⟨j, rfl⟩ := List.mem_ofFn.mp hq
    exact ⟨_, h1 j⟩
  rw [maxDist_le hfin ht]
  constructor
  · intro h j
    have a := h _ (List.mem_ofFn.mpr ⟨j, rfl⟩) _ (h1 j)
    have b := abs_le.mp (h3 j)
    rw [hd']
    linarith
  · intro h q hq r hr
    obtain ⟨j, rfl⟩ := List.mem_ofFn.mp hq
    have : r = k j := by
      have a : (some (r : EReal)) = some (k j : EReal) := hr.symm.trans (h1 j)
      exact_mod_cast Option.some.inj a
    rw [this]
    have a := h j
    have b := abs_le.mp (h3 j)
    rw [hd'] at a
    linarith

/-- One tolerance per feature. -/
theorem log_gap_each (hn : 0 < n) (D : Design n p) (Y : Fin n → ℝ) (pen : Pen) (v : Fin p → ℝ) (θ d : Fin p → ℝ)
    (hd : ∀ j, IsDist (-(logisticGrad D.matrix Y (fit D.matrix v) j)) (subdiff pen.fn (v j)) (d j)) (hθ : ∀ j, d j ≤ θ j) (u : Fin p → ℝ) :
    objective1 D Y .logistic pen v - objective1 D Y .logistic pen u ≤ ∑ j, θ j * |v j - u j| := by
  have hf := loss_convex hn D.matrix Y .logistic v u
  have key : ∑ j, pen.fn (v j) - ∑ j, pen.fn (u j) ≤
      ∑ j, gradOf D.matrix Y .logistic (fit D.matrix v) j * (u j - v j) + ∑ j, θ j * |v j - u j| := by
    rw [← Finset.sum_sub_distrib, ← Finset.sum_add_distrib]
    refine Finset.sum_le_sum fun j _ => ?_
    have h1 := subdiff_gap (hd j) (u j)
    rw [logisticGrad_eq] at h1
    have h2 := mul_le_mul_of_nonneg_right (hθ j) (abs_nonneg (v j - u j))
    have h3 : inner ℝ (logGrad D.matrix Y (fit D.matrix v) j) (u j - v j) =
        gradOf D.matrix Y .logistic (fit D.matrix v) j * (u j - v j) := by
      exact mul_comm (u j - v j) (logGrad D.matrix Y (fit D.matrix v) j)
    rw [h3, Real.norm_eq_abs] at h1
    linarith
  unfold objective1
  linarith

/-- **A certificate at given predictions.** -/
theorem C82_gap (P : Precise F e) (E : PreciseExp F e) (T : Saturates F) (hn : 0 < n) (hne : 8 * (n * e) ≤ 1) (D : Design n p)
    (hD : D.Canonical) (x : D.Entries F) (hx : D.Holds x) (y : Fin n → F) (Y : Fin n → ℝ) (hy : ∀ i, Den (y i) (Y i)) (pen' : PenOf F)
    (pen : Pen) (hp : pen'.Holds pen) (hv : pen.Valid) (w : Fin p → F) (v : Fin p → ℝ) (hw : ∀ j, Den (w j) (v j)) (z : Fin n → F)
    (Z : Fin n → ℝ) (hz : ∀ i, Den (z i) (Z i)) (hm : ∀ i, 64 * (marginSize Y Z i * e) ≤ 1)
    (hs : ∀ j, 64 * (logSize D.matrix Y pen v Z j * e) ≤ 1) (m tol : F) (τ : ℝ) (ht : Den tol τ)
    (h : checkOf D x y .logistic pen' w z = .ok m) (hmt : (m <=. tol) = true) (u : Fin p → ℝ) :
    objective1 D Y .logistic pen v - objective1 D Y .logistic pen u ≤
      ∑ j, (τ + logDrift D.matrix Y v Z j + 100 * (e * logSize D.matrix Y pen v Z j)) * |v j - u j| := by
  have hc : pen.Convex := by
    cases pen <;> cases pen' <;> first | exact trivial | exact hp.elim
  obtain ⟨m', h1, h2⟩ := C82_check P E T hn hne D hD x hx y Y hy pen' pen hp hv w v hw z Z hz hm hs _
    (fun j => scoreOf_dist pen hv hc (v j) (logisticGrad D.matrix Y Z j))
  rw [h] at h1
  injection h1 with h1
  subst h1
  refine log_gap_each hn D Y pen v _ _ (fun j => scoreOf_dist pen hv hc (v j) (logisticGrad D.matrix Y (fit D.matrix v) j)) (fun j => ?_) u
  have a := dist_lip (scoreOf_dist pen hv hc (v j) (logisticGrad D.matrix Y (fit D.matrix v) j))
    (scoreOf_dist pen hv hc (v j) (logisticGrad D.matrix Y Z j))
  have b := (h2 tol τ ht).1 hmt j
  have c : |logisticGrad D.matrix Y (fit D.matrix v) j - logisticGrad D.matrix Y Z j| = logDrift D.matrix Y v Z j := rfl
  rw [c] at a
  linarith

/-! ## Predictions computed from the coefficients -/

/-- Sizes with recomputed predictions. -/
theorem log_recheck_sizes (hn : 0 < n) (he : 0 < e) (hpe : 8 * (p * e) ≤ 1) (X : Fin n → Fin p → ℝ) (Y : Fin n → ℝ) {pen : Pen}
    (hα : 0 ≤ pen.alpha) (v : Fin p → ℝ) (Z : Fin n → ℝ)
    (hZ : ∀ i, |Z i - fit X v i| ≤ 4 * (p * e) * (∑ j, |X i j * v j| + 1)) :
    (∀ i, marginSize Y Z i ≤ 2 * fitSize X Y v i) ∧
    (∀ j, logSize X Y pen v Z j ≤ 2 * logRecheckSize X Y pen v j) ∧ ∀ j, logDrift X Y v Z j ≤ 4 * (p * e) * logRecheckSize X Y pen v j := by
  have hA : ∀ i, 0 ≤ ∑ l, |X i l * v l| := fun i => Finset.sum_nonneg fun l _ => abs_nonneg _
  have hpe0 : 0 ≤ (p : ℝ) * e := mul_nonneg (Nat.cast_nonneg p) he.le
  have hn1 : (1 : ℝ) ≤ n := by exact_mod_cast hn
  have h1 : ∀ i, marginSize Y Z i ≤ 2 * fitSize X Y v i := by
    intro i
    have h3 : |Z i| ≤ 2 * (∑ l, |X i l * v l| + 1) := by
      have a := hZ i
      have b := abs_le_add_sub (Z i) (fit X v i)
      have c : |fit X v i| ≤ ∑ l, |X i l * v l| := Finset.abs_sum_le_sum_abs _ _
      have d : 4 * (p * e) * (∑ l, |X i l * v l| + 1) ≤ 1 * (∑ l, |X i l * v l| + 1) :=
        mul_le_mul_of_nonneg_right (by linarith) (by linarith [hA i])
      linarith
    unfold marginSize fitSize
    have hY := abs_nonneg (Y i)
    rw [abs_mul]
    have h4 : |Y i| * |Z i| + 1 ≤ 2 * ((|Y i| + 1) * (∑ l, |X i l * v l| + 1)) := by
      have := mul_le_mul_of_nonneg_left h3 hY
      linarith [hA i]
    have h5 := mul_le_mul_of_nonneg_left h4 (by linarith : 0 ≤ |Y i| + 1)
    have e1 : (|Y i| + 1) * (2 * ((|Y i| + 1) * (∑ l, |X i l * v l| + 1))) = 2 * ((|Y i| + 1) ^ 2 * (∑ l, |X i l * v l| + 1)) := by ring
    linarith
  refine ⟨h1, fun j => ?_, fun j => ?_⟩
  · unfold logSize logRecheckSize
    rw [mul_add 2 (∑ i, _), Finset.mul_sum]
    refine add_le_add (Finset.sum_le_sum fun i _ => ?_) ?_
    · have := mul_le_mul_of_nonneg_left (h1 i) (abs_nonneg (X i j))
      linarith
    · have : 0 ≤ (pen.alpha + 1) * (|v j| + 1) := mul_nonneg (by linarith) (by linarith [abs_nonneg (v j)])
      linarith
  · unfold logDrift
    rw [logisticGrad_eq, logisticGrad_eq]
    unfold logGrad
    rw [← sub_div, abs_div, abs_of_pos (by linarith : (0 : ℝ) < n)]
    refine (div_le_self (abs_nonneg _) hn1).trans ?_
    have e1 : -∑ i, X i j * (Y i * sigm (-Y i * fit X v i)) - -∑ i, X i j * (Y i * sigm (-Y i * Z i)) =
        ∑ i, X i j * (Y i * (sigm (-Y i * Z i) - sigm (-Y i * fit X v i))) := by
      rw [sub_neg_eq_add, neg_add_eq_sub, ← Finset.sum_sub_distrib]
      exact Finset.sum_congr rfl fun i _ => by ring
    rw [e1]
    have h6 : ∑ i, |X i j| * fitSize X Y v i ≤ logRecheckSize X Y pen v j := by
      unfold logRecheckSize
      have a1 : ∑ i, |X i j| * fitSize X Y v i ≤ ∑ i, (|X i j| * fitSize X Y v i + 1) := Finset.sum_le_sum fun i _ => by linarith
      have a2 : 0 ≤ (pen.alpha + 1) * (|v j| + 1) := mul_nonneg (by linarith) (by linarith [abs_nonneg (v j)])
      linarith
    refine (Finset.abs_sum_le_sum_abs _ _).trans (le_trans ?_ (mul_le_mul_of_nonneg_left h6 (by linarith)))
    rw [Finset.mul_sum]
    refine Finset.sum_le_sum fun i _ => ?_
    rw [abs_mul, abs_mul]
    have b1 := sigm_lip (-Y i * Z i) (-Y i * fit X v i)
    rw [← mul_sub, abs_mul, abs_neg] at b1
    have hY := abs_nonneg (Y i)
    have hZ0 := abs_nonneg (Z i - fit X v i)
    have b2 : |Y i| * |sigm (-Y i * Z i) - sigm (-Y i * fit X v i)| ≤ 4 * (p * e) * fitSize X Y v i := by
      have c1 := mul_le_mul_of_nonneg_left b1 hY
      have c2 : |Y i| * (|Y i| * |Z i - fit X v i| / 4) ≤ (|Y i| + 1) ^ 2 * |Z i - fit X v i| := by
        have : |Y i| * (|Y i| * |Z i - fit X v i| / 4) = (|Y i| ^ 2 / 4) * |Z i - fit X v i| := by ring
        rw [this]
        exact mul_le_mul_of_nonneg_right (by nlinarith) hZ0
      have c3 := mul_le_mul_of_nonneg_left (hZ i) (by positivity : 0 ≤ (|Y i| + 1) ^ 2)
      unfold fitSize
      have c4 : (|Y i| + 1) ^ 2 * (4 * (p * e) * (∑ l, |X i l * v l| + 1)) = 4 * (p * e) * ((|Y i| + 1) ^ 2 * (∑ l, |X i l * v l| + 1)) := by ring
      linarith
    have b3 := mul_le_mul_of_nonneg_left b2 (abs_nonneg (X i j))
    linarith

/-- **The violation computed from the coefficients alone is accurate** (both ways): `d j` is the exact violation at the coefficients,
the distance of minus the partial derivative of the loss to the subdifferential of the penalty. -/
theorem C82_recheck (P : Precise F e) (E : PreciseExp F e) (T : Saturates F) (hn : 0 < n) (hne : 8 * (n * e) ≤ 1) (hpe : 8 * (p * e) ≤ 1)
    (D : Design n p) (hD : D.Canonical) (x : D.Entries F) (hx : D.Holds x) (y : Fin n → F) (Y : Fin n → ℝ) (hy : ∀ i, Den (y i) (Y i))
    (pen' : PenOf F) (pen : Pen) (hp : pen'.Holds pen) (hv : pen.Valid) (w : Fin p → F) (v : Fin p → ℝ) (hw : ∀ j, Den (w j) (v j))
    (hs : ∀ j, 128 * (logRecheckSize D.matrix Y pen v j * e) ≤ 1) (hs' : ∀ i, 128 * (fitSize D.matrix Y v i * e) ≤ 1)
    (g d : Fin p → ℝ) (hg : ∀ j, IsPartial (fun u => logLoss Y (fit D.matrix u)) v j (g j))
    (hd : ∀ j, IsDist (-(g j)) (subdiff pen.fn (v j)) (d j)) :
    ∃ m, recheckOf D x y .logistic pen' w = .ok m ∧ ∀ tol τ, Den tol τ →
      ((m <=. tol) = true → ∀ j, d j ≤ τ + (200 + 4 * p) * (e * logRecheckSize D.matrix Y pen v j)) ∧
      ((∀ j, d j + (200 + 4 * p) * (e * logRecheckSize D.matrix Y pen v j) ≤ τ) → (m <=. tol) = true) := by
  have he := P.pos
  have hα := penAlpha_nonneg hv
  have hc : pen.Convex := by
    cases pen <;> cases pen' <;> first | exact trivial | exact hp.elim
  have hA : ∀ i, 0 ≤ ∑ l, |D.matrix i l * v l| := fun i => Finset.sum_nonneg fun l _ => abs_nonneg _
  obtain ⟨z, Z, h1, h2⟩ := log_recheck_eq P D hD x hx y pen' w v hw hpe (fun i => by
    have a := hs' i
    have b : ∑ l, |D.matrix i l * v l| + 1 ≤ fitSize D.matrix Y v i := by
      unfold fitSize
      have := abs_nonneg (Y i)
      exact le_mul_of_one_le_left (by linarith [hA i]) (by nlinarith)
    have c := mul_le_mul_of_nonneg_right b he.le
    have d : 0 ≤ (∑ l, |D.matrix i l * v l| + 1) * e := mul_nonneg (by linarith [hA i]) he.le
    linarith)
  obtain ⟨hsm, hsz, hdr⟩ := log_recheck_sizes hn he hpe D.matrix Y hα v Z (fun i => (h2 i).2)
  have hle : ∀ j, e * logSize D.matrix Y pen v Z j ≤ 2 * (e * logRecheckSize D.matrix Y pen v j) := fun j => by
    have := mul_le_mul_of_nonneg_left (hsz j) he.le
    linarith
  obtain ⟨m, h3, h4⟩ := C82_check P E T hn hne D hD x hx y Y hy pen' pen hp hv w v hw z Z (fun i => (h2 i).1)
    (fun i => by have := mul_le_mul_of_nonneg_right (hsm i) he.le; have := hs' i; linarith)
    (fun j => by have := hle j; have := hs j; linarith) _ (fun j => scoreOf_dist pen hv hc (v j) (logisticGrad D.matrix Y Z j))
  have hgj : ∀ j, g j = logisticGrad D.matrix Y (fit D.matrix v) j := fun j => by
    rw [logisticGrad_eq]
    exact HasDerivAt.unique (hg j) (loss_partial hn D.matrix Y .logistic v j)
  have key : ∀ j, d j ≤ scoreOf pen (v j) (logisticGrad D.matrix Y Z j) + logDrift D.matrix Y v Z j ∧
      scoreOf pen (v j) (logisticGrad D.matrix Y Z j) ≤ d j + logDrift D.matrix Y v Z j := by
    intro j
    have a := scoreOf_dist pen hv hc (v j) (logisticGrad D.matrix Y Z j)
    have b := hd j
    rw [hgj] at b
    have c := dist_lip b a
    have c' := dist_lip a b
    rw [abs_sub_comm] at c'
    exact ⟨c, c'⟩
  refine ⟨m, by rw [h1, h3], fun tol τ ht => ⟨fun hm j => ?_, fun hall => (h4 tol τ ht).2 fun j => ?_⟩⟩
  · have a := (h4 tol τ ht).1 hm j
    have b := hdr j
    have c := (key j).1
    have f := hle j
    linarith
  · have a := hall j
    have b := hdr j
    have c := (key j).2
    have f := hle j
    linarith

/-- **A certificate for any coefficients**, whatever produced them. -/
theorem C82_certificate (P : Precise F e) (E : PreciseExp F e) (T : Saturates F) (hn : 0 < n) (hne : 8 * (n * e) ≤ 1)
    (hpe : 8 * (p * e) ≤ 1) (D : Design n p) (hD : D.Canonical) (x : D.Entries F) (hx : D.Holds x) (y : Fin n → F) (Y : Fin n → ℝ)
    (hy : ∀ i, Den (y i) (Y i)) (pen' : PenOf F) (pen : Pen) (hp : pen'.Holds pen) (hv : pen.Valid) (w : Fin p → F) (v : Fin p → ℝ)
    (hw : ∀ j, Den (w j) (v j)) (hs : ∀ j, 128 * (logRecheckSize D.matrix Y pen v j * e) ≤ 1)
    (hs' : ∀ i, 128 * (fitSize D.matrix Y v i * e) ≤ 1) (m tol : F) (τ : ℝ) (ht : Den tol τ)
    (h : recheckOf D x y .logistic pen' w = .ok m) (hm : (m <=. tol) = true) (u : Fin p → ℝ) :
    objective1 D Y .logistic pen v - objective1 D Y .logistic pen u ≤
      ∑ j, (τ + (200 + 4 * p) * (e * logRecheckSize D.matrix Y pen v j)) * |v j - u j| := by
  have hc : pen.Convex := by
    cases pen <;> cases pen' <;> first | exact trivial | exact hp.elim
  have hd := fun j => scoreOf_dist pen hv hc (v j) (logisticGrad D.matrix Y (fit D.matrix v) j)
  obtain ⟨m', h1, h2⟩ := C82_recheck P E T hn hne hpe D hD x hx y Y hy pen' pen hp hv w v hw hs hs' _ _
    (fun j => by rw [logisticGrad_eq]; exact loss_partial hn D.matrix Y .logistic v j) hd
  rw [h] at h1
  injection h1 with h1
  subst h1
  exact log_gap_each hn D Y pen v _ _ hd ((h2 tol τ ht).1 hm) u

/-- **A certificate from a run**: coefficients and predictions returned by a run which prints fewer than `max_iterations` iterations. -/
theorem C82_run_gap (P : Precise F e) (E : PreciseExp F e) (T : Saturates F) (hn : 0 < n) (hne : 8 * (n * e) ≤ 1) (D : Design n p)
    (hD : D.Canonical) (x : D.Entries F) (hx : D.Holds x) (y : Fin n → F) (Y : Fin n → ℝ) (hy : ∀ i, Den (y i) (Y i)) (pen' : PenOf F)
    (pen : Pen) (hp : pen'.Holds pen) (hv : pen.Valid) (srt : Argsort F) (cfg : Solver F) (τ : ℝ) (ht : Den cfg.tolerance τ)
    (st : CDState F) (log : List (Event F)) (hrun : traceOf srt (cfg.setVerbose true) D x y .logistic pen' = .ok (st, log))
    (hlt : iterationsPrinted log < cfg.maxIterations) (w : Fin p → F) (v : Fin p → ℝ) (hws : st.w = List.ofFn w)
    (hw : ∀ j, Den (w j) (v j)) (z : Fin n → F) (Z : Fin n → ℝ) (hzs : st.Xw = List.ofFn z) (hz : ∀ i, Den (z i) (Z i))
    (hm : ∀ i, 64 * (marginSize Y Z i * e) ≤ 1) (hs : ∀ j, 64 * (logSize D.matrix Y pen v Z j * e) ≤ 1) (u : Fin p → ℝ) :
    objective1 D Y .logistic pen v - objective1 D Y .logistic pen u ≤
      ∑ j, (τ + logDrift D.matrix Y v Z j + 100 * (e * logSize D.matrix Y pen v Z j)) * |v j - u j| := by
  obtain ⟨m, h1, h2⟩ := C80_run srt cfg D x y .logistic pen' st log hrun hlt w z hws hzs
  exact C82_gap P E T hn hne D hD x hx y Y hy pen' pen hp hv w v hw z Z hz hm hs m _ τ ht h1 h2 u

end

/-- One sample `X = 1`, `y = 1`, `alpha = 1` in `f64`, tolerance about `1/8`: the coefficient `0` passes the check, and the coefficient
`1000`, where the exponential in the logistic function overflows, does not. -/
example (S : Summation binary64) : ∃ (tol m m' u : IEEE binary64 S), Den u 1000 ∧
    recheckOf (.dense fun (_ : Fin 1) (_ : Fin 1) => (1 : ℝ)) (fun _ _ => (one : IEEE binary64 S)) ![one] .logistic (.l1 one) ![zero] = .ok m ∧
    (m <=. tol) = true ∧
    recheckOf (.dense fun (_ : Fin 1) (_ : Fin 1) => (1 : ℝ)) (fun _ _ => (one : IEEE binary64 S)) ![one] .logistic (.l1 one) ![u] = .ok m' ∧
    ¬ (m' <=. tol) = true := by
  have P : Precise (IEEE binary64 S) (1 / 2 ^ 50) := IEEE.precise binary64 S
  have E : PreciseExp (IEEE binary64 S) (1 / 2 ^ 50) := IEEE.preciseExp binary64 S (by norm_num [binary64])
  have hmag : binary64.IsMag 1000 := ⟨1000, 0, by norm_num [binary64], by norm_num [binary64], by norm_num⟩
  have hmag' : (1000 : ℝ) < 2 ^ binary64.emax := by
    refine lt_of_lt_of_le (show (1000 : ℝ) < 2 ^ (10 : ℤ) by norm_num) (zpow_le_zpow_right₀ (by norm_num) (by norm_num [binary64]))
  have hu : Den (F := IEEE binary64 S) (Num.fin false 1000 hmag hmag' : Num binary64) 1000 := by
    show some _ = some _
    simp [signed]
  have hgrad : ∀ a : ℝ, logisticGrad (fun (_ : Fin 1) (_ : Fin 1) => (1 : ℝ)) ![1] (fit (fun _ _ => 1) ![a]) 0 = -(1 / (1 + Real.exp a)) := by
    intro a
    simp [logisticGrad, fit]
  have hpart : ∀ a : ℝ, ∀ j : Fin 1, IsPartial (fun u => logLoss ![1] (fit (fun (_ : Fin 1) (_ : Fin 1) => (1 : ℝ)) u)) ![a] j
      (-(1 / (1 + Real.exp a))) := by
    intro a j
    have h := loss_partial (n := 1) (p := 1) (by norm_num) (fun _ _ => 1) ![1] .logistic ![a] j
    rw [← hgrad, logisticGrad_eq]
    fin_cases j
    exact h
  have hsize : ∀ a : ℝ, ∀ j : Fin 1, logRecheckSize (fun (_ : Fin 1) (_ : Fin 1) => (1 : ℝ)) ![1] (.l1 1) ![a] j = 6 * |a| + 7 := by
    intro a j
    fin_cases j
    simp [logRecheckSize, fitSize, Pen.alpha]
    ring
  have run : ∀ (b : IEEE binary64 S) (a d : ℝ), Den b a → |a| ≤ 1000 → IsDist (-(-(1 / (1 + Real.exp a)))) (subdiff (Pen.l1 1).fn a) d →
      ∃ m : IEEE binary64 S, recheckOf (.dense fun (_ : Fin 1) (_ : Fin 1) => (1 : ℝ)) (fun _ _ => (one : IEEE binary64 S)) ![one]
        .logistic (.l1 one) ![b] = .ok m ∧ ∀ tol τ, Den tol τ →
        ((m <=. tol) = true → d ≤ τ + 204 * (1 / 2 ^ 50 * (6 * |a| + 7))) ∧
        (d + 204 * (1 / 2 ^ 50 * (6 * |a| + 7)) ≤ τ → (m <=. tol) = true) := by
    intro b a d hb ha hd
    obtain ⟨m, h1, h2⟩ := C82_recheck P E (IEEE.saturates _ S) (n := 1) (p := 1) (by norm_num) (by norm_num) (by norm_num)
      (.dense fun _ _ => 1) trivial (fun _ _ => one) (fun _ _ => P.one) ![one] ![1] (fun i => by fin_cases i; exact P.one) (.l1 one) (.l1 1)
      P.one (show (0 : ℝ) ≤ 1 by norm_num) ![b] ![a] (fun j => by fin_cases j; exact hb)
      (fun j => by
        show 128 * (logRecheckSize (fun _ _ => 1) ![1] (.l1 1) ![a] j * _) ≤ 1
        rw [hsize]
        linarith)
      (fun i => by
        show 128 * (fitSize (fun _ _ => 1) ![1] ![a] i * _) ≤ 1
        have : fitSize (fun (_ : Fin 1) (_ : Fin 1) => (1 : ℝ)) ![1] ![a] i = 4 * (|a| + 1) := by
          fin_cases i
          simp [fitSize]
          norm_num
        rw [this]
        linarith)
      (fun _ => -(1 / (1 + Real.exp a))) (fun _ => d) (hpart a) (fun j => by fin_cases j; exact hd)
    refine ⟨m, h1, fun tol τ ht => ⟨fun hm => ?_, fun hall => (h2 tol τ ht).2 fun j => ?_⟩⟩
    · have := (h2 tol τ ht).1 hm 0
      rw [show logRecheckSize (Design.dense fun (_ : Fin 1) (_ : Fin 1) => (1 : ℝ)).matrix ![1] (.l1 1) ![a] 0 = _ from hsize a 0] at this
      push_cast at this
      linarith
    · rw [show logRecheckSize (Design.dense fun (_ : Fin 1) (_ : Fin 1) => (1 : ℝ)).matrix ![1] (.l1 1) ![a] j = _ from hsize a j]
      push_cast
      linarith
  obtain ⟨τ, hτ, hτ'⟩ := (of_le (S := S) (x := 1 / 8) (by norm_num) (by norm_num)).near
  rw [abs_of_nonneg (by norm_num : (0 : ℝ) ≤ 1 / 8), abs_le] at hτ'
  norm_num at hτ'
  obtain ⟨m, h1, h2⟩ := run zero 0 0 den_zero (by norm_num) (by
    have := scoreOf_dist (.l1 1) (show (0 : ℝ) ≤ 1 by norm_num) trivial 0 (-(1 / (1 + Real.exp 0)))
    have e1 : scoreOf (.l1 1) 0 (-(1 / (1 + Real.exp 0))) = 0 := by
      show l1Score 1 0 _ = 0
      unfold l1Score
      rw [if_pos rfl]
      norm_num
    rwa [e1] at this)
  have hx : 1 / (1 + Real.exp 1000) ≤ 1 / 2 := by
    have : (1 : ℝ) ≤ Real.exp 1000 := Real.one_le_exp (by norm_num)
    exact one_div_le_one_div_of_le (by norm_num) (by linarith)
  obtain ⟨m', h3, h4⟩ := run _ 1000 (1 - 1 / (1 + Real.exp 1000)) hu (by norm_num) (by
    have := scoreOf_dist (.l1 1) (show (0 : ℝ) ≤ 1 by norm_num) trivial 1000 (-(1 / (1 + Real.exp 1000)))
    have e1 : scoreOf (.l1 1) 1000 (-(1 / (1 + Real.exp 1000))) = 1 - 1 / (1 + Real.exp 1000) := by
      show l1Score 1 1000 _ = _
      unfold l1Score
      rw [if_neg (by norm_num), if_neg (by norm_num), abs_of_nonpos] <;> linarith
    rwa [e1] at this)
  refine ⟨_, m, m', _, hu, h1, (h2 _ τ hτ).2 (by norm_num; linarith), h3, fun hm => ?_⟩
  have := (h4 _ τ hτ).1 hm
  norm_num at this
  norm_num at hx
  linarith

/-- The run of the same problem in `f64` with `tol = 1/8`: it returns at once, and its gap is at most `(τ + 500 / 2^50) |u|`. -/
example (S : Summation binary64) (srt : Argsort (IEEE binary64 S)) (u : Fin 1 → ℝ) : ∃ st log τ, τ ≤ 1 / 4 ∧
    traceOf srt ((⟨10, 50, 1000, IEEE.of S (1 / 8), 5, true, false⟩ : Solver (IEEE binary64 S)).setVerbose true)
      (.dense fun (_ : Fin 1) (_ : Fin 1) => (1 : ℝ)) (fun _ _ => (one : IEEE binary64 S)) ![one] .logistic (.l1 one) = .ok (st, log) ∧
    objective1 (.dense fun (_ : Fin 1) (_ : Fin 1) => (1 : ℝ)) ![1] .logistic (.l1 1) (fun _ => 0) -
      objective1 (.dense fun (_ : Fin 1) (_ : Fin 1) => (1 : ℝ)) ![1] .logistic (.l1 1) u ≤ (τ + 100 * (1 / 2 ^ 50 * 5)) * |u 0| := by
  have P : Precise (IEEE binary64 S) (1 / 2 ^ 50) := IEEE.precise binary64 S
  have E : PreciseExp (IEEE binary64 S) (1 / 2 ^ 50) := IEEE.preciseExp binary64 S (by norm_num [binary64])
  have hy : ∀ i, Den ((![one] : Fin 1 → IEEE binary64 S) i) ((![1] : Fin 1 → ℝ) i) := fun i => by fin_cases i; exact P.one
  have hsz : ∀ j : Fin 1, logSize (Design.dense fun (_ : Fin 1) (_ : Fin 1) => (1 : ℝ)).matrix ![1] (.l1 1) (fun _ => 0) (fun _ => 0) j = 5 := by
    intro j
    show logSize (fun _ _ => 1) ![1] (.l1 1) (fun _ => 0) (fun _ => 0) j = 5
    simp [logSize, marginSize, Pen.alpha]
    norm_num
  have hmg : ∀ i : Fin 1, 64 * (marginSize ![1] (fun _ : Fin 1 => (0 : ℝ)) i * (1 / 2 ^ 50)) ≤ 1 := by
    intro i
    fin_cases i
    simp [marginSize]
    norm_num
  have hd : ∀ j : Fin 1, IsDist (-(logisticGrad (fun (_ : Fin 1) (_ : Fin 1) => (1 : ℝ)) ![1] (fun _ => 0) j)) (subdiff (Pen.l1 1).fn 0) 0 := by
    intro j
    have := scoreOf_dist (.l1 1) (show (0 : ℝ) ≤ 1 by norm_num) trivial 0 (logisticGrad (fun (_ : Fin 1) (_ : Fin 1) => (1 : ℝ)) ![1] (fun _ => 0) j)
    have e1 : scoreOf (.l1 1) 0 (logisticGrad (fun (_ : Fin 1) (_ : Fin 1) => (1 : ℝ)) ![1] (fun _ => 0) j) = 0 := by
      show l1Score 1 0 _ = 0
      unfold l1Score
      rw [if_pos rfl]
      simp [logisticGrad]
      norm_num
    rwa [e1] at this
  obtain ⟨τ, hτ, hτ'⟩ := (of_le (S := S) (x := 1 / 8) (by norm_num) (by norm_num)).near
  rw [abs_of_nonneg (by norm_num : (0 : ℝ) ≤ 1 / 8), abs_le] at hτ'
  norm_num at hτ'
  have hs : ∀ j : Fin 1, 64 * (logSize (Design.dense fun (_ : Fin 1) (_ : Fin 1) => (1 : ℝ)).matrix ![1] (.l1 1) (fun _ => 0) (fun _ => 0) j *
      (1 / 2 ^ 50)) ≤ 1 := fun j => by
    rw [hsz]
    norm_num
  obtain ⟨m, h1, h2⟩ := C82_check P E (IEEE.saturates _ S) (n := 1) (p := 1) (by norm_num) (by norm_num) (.dense fun _ _ => 1) trivial
      (fun _ _ => one) (fun _ _ => P.one) ![one] ![1] hy (.l1 one) (.l1 1) P.one (show (0 : ℝ) ≤ 1 by norm_num) (fun _ => zero)
      (fun _ => 0) (fun _ => den_zero) (fun _ => zero) (fun _ => 0) (fun _ => den_zero) hmg hs (fun _ => 0) hd
  have hm := (h2 _ τ hτ).2 (fun j => by
    rw [hsz]
    norm_num
    linarith)
  obtain ⟨log, h3, h4⟩ := C80_zero srt (⟨10, 50, 1000, IEEE.of S (1 / 8), 5, true, false⟩ : Solver (IEEE binary64 S)) _ _ _ _ _ m h1 hm
  refine ⟨_, log, τ, by linarith, h3, ?_⟩
  have := C82_run_gap P E (IEEE.saturates _ S) (n := 1) (p := 1) (by norm_num) (by norm_num) (.dense fun _ _ => 1) trivial
      (fun _ _ => one) (fun _ _ => P.one) ![one] ![1] hy (.l1 one) (.l1 1) P.one (show (0 : ℝ) ≤ 1 by norm_num) srt
      (⟨10, 50, 1000, IEEE.of S (1 / 8), 5, true, false⟩ : Solver (IEEE binary64 S)) τ hτ _ log h3 (by rw [h4]; norm_num) (fun _ => zero)
      (fun _ => 0) rfl (fun _ => den_zero) (fun _ => zero) (fun _ => 0) rfl (fun _ => den_zero) hmg hs u
  refine this.trans (le_of_eq ?_)
  simp only [Finset.univ_unique, Finset.sum_singleton]
  rw [hsz]
  have hdr : logDrift (Design.dense fun (_ : Fin 1) (_ : Fin 1) => (1 : ℝ)).matrix ![1] (fun _ => 0) (fun _ => 0) default = 0 := by
    simp [logDrift, fit, logisticGrad]
  rw [hdr, zero_sub, abs_neg, add_zero]
  rfl

end Sglm
