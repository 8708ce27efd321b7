import Verif.Proofs.FloatRecheck
import Verif.Props.Certificate
import Verif.Props.IEEE

/-!
# C80: the violation of the optimality conditions, computed in floating point

Least squares with the Lasso and the elastic net penalties, dense and sparse designs, any arithmetic with the laws `Precise`
(`f64` and `f32` have them: `Props/IEEE.lean`).  Unlike in C62, all constants are explicit, and they do not depend on the way in
which the coefficients were obtained: a number `m` returned by the public functions `initialize`, `compute_extrapolated_fit` and
`opt_cond_violation` is a certificate for any coefficients.
-/

namespace Sglm
open Scalar Spec
variable {n p : ℕ}

section
variable {F : Type} [Scalar F] [LawfulCmp F] {e : ℝ}

/-- **The computed violation is accurate** (both ways): at coefficients `w` and predictions `z`, `m` is at most `tol` only if each
exact violation `d j` is at most `tol` up to rounding, and it is at most `tol` if each exact violation is below `tol` by as much. -/
theorem C80_check (P : Precise F e) (hn : 0 < n) (hne : 8 * (n * e) ≤ 1) (D : Design n p) (hD : D.Canonical) (x : D.Entries F)
    (hx : D.Holds x) (y : Fin n → F) (Y : Fin n → ℝ) (hy : ∀ i, Den (y i) (Y i)) (pen' : PenOf F) (pen : Pen) (hp : pen'.Holds pen)
    (hv : pen.Valid) (w : Fin p → F) (v : Fin p → ℝ) (hw : ∀ j, Den (w j) (v j)) (z : Fin n → F) (Z : Fin n → ℝ)
    (hz : ∀ i, Den (z i) (Z i)) (hs : ∀ j, 64 * (checkSize D.matrix Y pen v Z j * e) ≤ 1) (d : Fin p → ℝ)
    (hd : ∀ j, IsDist (-(lsqGrad D.matrix Y Z j)) (subdiff pen.fn (v j)) (d j)) :
    ∃ m, checkOf D x y .quadratic pen' w z = .ok m ∧ ∀ tol τ, Den tol τ →
      ((m <=. tol) = true → ∀ j, d j ≤ τ + 50 * (e * checkSize D.matrix Y pen v Z j)) ∧
      ((∀ j, d j + 50 * (e * checkSize D.matrix Y pen v Z j) ≤ τ) → (m <=. tol) = true) := by
  obtain ⟨κ, k, h1, h2, h3⟩ := check_scores P hn hne D hD x hx y Y hy pen' pen hp hv w v hw z Z hz hs
  have hc : pen.Convex := by
    cases pen <;> cases pen' <;> first | exact trivial | exact hp.elim
  have hd' : ∀ j, d j = scoreOf pen (v j) (lsqGrad D.matrix Y Z j) := fun j => by
    rw [(hd j).2, ← (scoreOf_dist pen hv hc (v j) (lsqGrad D.matrix Y Z j)).2]
  refine ⟨_, h2, fun tol τ ht => ?_⟩
  have hfin : ∀ q ∈ List.ofFn κ, ∃ r, Den q r := by
    intro q hq
    obtain ⟨j, rfl⟩ := List.mem_ofFn.mp hq
    exact ⟨_, h1 j⟩
  rw [maxDist_le hfin ht]
  constructor
  · intro h j
    have a := h _ (List.mem_ofFn.mpr ⟨j, rfl⟩) _ (h1 j)
    have b := abs_le.mp (h3 j)
    rw [hd']
    linarith
  · intro h q hq r hr
    obtain ⟨j, rfl⟩ := List.mem_ofFn.mp hq
    have : r = k j := by
      have a : (some (r : EReal)) = some (k j : EReal) := hr.symm.trans (h1 j)
      exact_mod_cast Option.some.inj a
    rw [this]
    have a := h j
    have b := abs_le.mp (h3 j)
    rw [hd'] at a
    linarith

end

/-! ## Certificates -/

/-- Distances at nearby derivatives. -/
theorem dist_lip {S : Set ℝ} {a b d d' : ℝ} (h : IsDist (-a) S d) (h' : IsDist (-b) S d') : d ≤ d' + |a - b| := by
  rw [h.2, h'.2]
  have := Metric.infDist_le_infDist_add_dist (s := S) (x := -a) (y := -b)
  rwa [Real.dist_eq, show -a - -b = -(a - b) by ring, abs_neg] at this

theorem lsqGrad_fit (X : Fin n → Fin p → ℝ) (Y : Fin n → ℝ) (v : Fin p → ℝ) (Z : Fin n → ℝ) (j : Fin p) :
    |lsqGrad X Y (fit X v) j - lsqGrad X Y Z j| = drift X v Z j := by
  unfold lsqGrad drift
  rw [← sub_div, ← Finset.sum_sub_distrib, ← abs_neg, ← neg_div, ← Finset.sum_neg_distrib]
  congr 2
  exact Finset.sum_congr rfl fun i _ => by ring

theorem lsqGrad_eq (X : Fin n → Fin p → ℝ) (Y z : Fin n → ℝ) (j : Fin p) : lsqGrad X Y z j = gradOf X Y .quadratic z j := by
  show _ = quadGrad X Y z j
  unfold lsqGrad quadGrad
  rw [← Finset.sum_sub_distrib]
  exact congrArg (· / (n : ℝ)) (Finset.sum_congr rfl fun i _ => by ring)

/-- One tolerance per feature. -/
theorem gap_each (hn : 0 < n) (D : Design n p) (Y : Fin n → ℝ) (pen : Pen) (v : Fin p → ℝ) (θ d : Fin p → ℝ)
    (hd : ∀ j, IsDist (-(lsqGrad D.matrix Y (fit D.matrix v) j)) (subdiff pen.fn (v j)) (d j)) (hθ : ∀ j, d j ≤ θ j) (u : Fin p → ℝ) :
    objective1 D Y .quadratic pen v - objective1 D Y .quadratic pen u ≤ ∑ j, θ j * |v j - u j| := by
  have hf := loss_convex hn D.matrix Y .quadratic v u
  have key : ∑ j, pen.fn (v j) - ∑ j, pen.fn (u j) ≤
      ∑ j, gradOf D.matrix Y .quadratic (fit D.matrix v) j * (u j - v j) + ∑ j, θ j * |v j - u j| := by
    rw [← Finset.sum_sub_distrib, ← Finset.sum_add_distrib]
    refine Finset.sum_le_sum fun j _ => ?_
    have h1 := subdiff_gap (hd j) (u j)
    rw [lsqGrad_eq] at h1
    have h2 := mul_le_mul_of_nonneg_right (hθ j) (abs_nonneg (v j - u j))
    have h3 : inner ℝ (gradOf D.matrix Y .quadratic (fit D.matrix v) j) (u j - v j) =
        gradOf D.matrix Y .quadratic (fit D.matrix v) j * (u j - v j) := by
      exact mul_comm (u j - v j) (gradOf D.matrix Y .quadratic (fit D.matrix v) j)
    rw [h3, Real.norm_eq_abs] at h1
    linarith
  unfold objective1
  linarith

section
variable {F : Type} [Scalar F] [LawfulCmp F] {e : ℝ}

/-- **A certificate at given predictions**: if the computed violation is at most `tol`, then the objective exceeds that of any other
coefficients by at most a weighted distance to them; the weights add to `tol` the effect of wrong predictions and rounding. -/
theorem C80_gap (P : Precise F e) (hn : 0 < n) (hne : 8 * (n * e) ≤ 1) (D : Design n p) (hD : D.Canonical) (x : D.Entries F)
    (hx : D.Holds x) (y : Fin n → F) (Y : Fin n → ℝ) (hy : ∀ i, Den (y i) (Y i)) (pen' : PenOf F) (pen : Pen) (hp : pen'.Holds pen)
    (hv : pen.Valid) (w : Fin p → F) (v : Fin p → ℝ) (hw : ∀ j, Den (w j) (v j)) (z : Fin n → F) (Z : Fin n → ℝ)
    (hz : ∀ i, Den (z i) (Z i)) (hs : ∀ j, 64 * (checkSize D.matrix Y pen v Z j * e) ≤ 1) (m tol : F) (τ : ℝ) (ht : Den tol τ)
    (h : checkOf D x y .quadratic pen' w z = .ok m) (hm : (m <=. tol) = true) (u : Fin p → ℝ) :
    objective1 D Y .quadratic pen v - objective1 D Y .quadratic pen u ≤
      ∑ j, (τ + drift D.matrix v Z j + 50 * (e * checkSize D.matrix Y pen v Z j)) * |v j - u j| := by
  have hc : pen.Convex := by
    cases pen <;> cases pen' <;> first | exact trivial | exact hp.elim
  obtain ⟨m', h1, h2⟩ := C80_check P hn hne D hD x hx y Y hy pen' pen hp hv w v hw z Z hz hs _
    (fun j => scoreOf_dist pen hv hc (v j) (lsqGrad D.matrix Y Z j))
  rw [h] at h1
  injection h1 with h1
  subst h1
  refine gap_each hn D Y pen v _ _ (fun j => scoreOf_dist pen hv hc (v j) (lsqGrad D.matrix Y (fit D.matrix v) j)) (fun j => ?_) u
  have a := dist_lip (scoreOf_dist pen hv hc (v j) (lsqGrad D.matrix Y (fit D.matrix v) j))
    (scoreOf_dist pen hv hc (v j) (lsqGrad D.matrix Y Z j))
  rw [lsqGrad_fit] at a
  have b := (h2 tol τ ht).1 hm j
  linarith

/-! ## Predictions computed from the coefficients -/

theorem recheckSize_pos (X : Fin n → Fin p → ℝ) (Y : Fin n → ℝ) {pen : Pen} (hα : 0 ≤ pen.alpha) (v : Fin p → ℝ) (j : Fin p) :
    1 ≤ recheckSize X Y pen v j ∧ ∑ i, |X i j| * (∑ l, |X i l * v l| + 1) ≤ recheckSize X Y pen v j := by
  unfold recheckSize
  have h1 : 1 ≤ (pen.alpha + 1) * (|v j| + 1) := by nlinarith [mul_nonneg hα (abs_nonneg (v j)), abs_nonneg (v j)]
  have hA : ∀ i, 0 ≤ ∑ l, |X i l * v l| := fun i => Finset.sum_nonneg fun l _ => abs_nonneg _
  have h2 : ∑ i, |X i j| * (∑ l, |X i l * v l| + 1) ≤ ∑ i, |X i j| * (∑ l, |X i l * v l| + |Y i| + 1) :=
    Finset.sum_le_sum fun i _ => mul_le_mul_of_nonneg_left (by linarith [abs_nonneg (Y i)]) (abs_nonneg _)
  have h3 : 0 ≤ ∑ i, |X i j| * (∑ l, |X i l * v l| + 1) :=
    Finset.sum_nonneg fun i _ => mul_nonneg (abs_nonneg _) (by linarith [hA i])
  exact ⟨by linarith, by linarith⟩

theorem penAlpha_nonneg {pen : Pen} (hv : pen.Valid) : 0 ≤ pen.alpha := by
  cases pen with
  | l1 α => exact hv
  | enet α ρ => exact hv.1
  | mcp α γ => exact hv.1
  | l05 α => exact hv.le

/-- Sizes with recomputed predictions. -/
theorem recheck_sizes (hn : 0 < n) (he : 0 < e) (hpe : 8 * (p * e) ≤ 1) (X : Fin n → Fin p → ℝ) (Y : Fin n → ℝ) {pen : Pen}
    (hα : 0 ≤ pen.alpha) (v : Fin p → ℝ) (Z : Fin n → ℝ)
    (hZ : ∀ i, |Z i - fit X v i| ≤ 4 * (p * e) * (∑ j, |X i j * v j| + 1)) (j : Fin p) :
    checkSize X Y pen v Z j ≤ 2 * recheckSize X Y pen v j ∧ drift X v Z j ≤ 4 * (p * e) * recheckSize X Y pen v j := by
  obtain ⟨h1, h2⟩ := recheckSize_pos X Y hα v j
  have hA : ∀ i, 0 ≤ ∑ l, |X i l * v l| := fun i => Finset.sum_nonneg fun l _ => abs_nonneg _
  have hpe0 : 0 ≤ (p : ℝ) * e := mul_nonneg (Nat.cast_nonneg p) he.le
  constructor
  · have h3 : ∀ i, |Z i| ≤ 2 * (∑ l, |X i l * v l| + 1) := by
      intro i
      have a := hZ i
      have b := abs_le_add_sub (Z i) (fit X v i)
      have c : |fit X v i| ≤ ∑ l, |X i l * v l| := Finset.abs_sum_le_sum_abs _ _
      have d : 4 * (p * e) * (∑ l, |X i l * v l| + 1) ≤ 1 * (∑ l, |X i l * v l| + 1) :=
        mul_le_mul_of_nonneg_right (by linarith) (by linarith [hA i])
      linarith
    unfold checkSize recheckSize
    rw [mul_add 2 (∑ i, _), Finset.mul_sum]
    refine add_le_add (Finset.sum_le_sum fun i _ => ?_) ?_
    · have := mul_le_mul_of_nonneg_left (h3 i) (abs_nonneg (X i j))
      nlinarith [mul_nonneg (abs_nonneg (X i j)) (abs_nonneg (Y i))]
    · have : 0 ≤ (pen.alpha + 1) * (|v j| + 1) := mul_nonneg (by linarith) (by linarith [abs_nonneg (v j)])
      linarith
  · unfold drift
    have hn1 : (1 : ℝ) ≤ n := by exact_mod_cast hn
    rw [abs_div, abs_of_pos (by linarith : (0 : ℝ) < n)]
    have a : |∑ i, X i j * (Z i - fit X v i)| ≤ 4 * (p * e) * recheckSize X Y pen v j := by
      refine (Finset.abs_sum_le_sum_abs _ _).trans ?_
      refine le_trans ?_ (mul_le_mul_of_nonneg_left h2 (by linarith))
      rw [Finset.mul_sum]
      refine Finset.sum_le_sum fun i _ => ?_
      rw [abs_mul]
      have := mul_le_mul_of_nonneg_left (hZ i) (abs_nonneg (X i j))
      linarith
    exact (div_le_self (abs_nonneg _) hn1).trans a

/-- **The violation computed from the coefficients alone is accurate** (both ways): `d j` is the exact violation at the coefficients,
the distance of minus the partial derivative of the loss to the subdifferential of the penalty. -/
theorem C80_recheck (P : Precise F e) (hn : 0 < n) (hne : 8 * (n * e) ≤ 1) (hpe : 8 * (p * e) ≤ 1) (D : Design n p) (hD : D.Canonical)
    (x : D.Entries F) (hx : D.Holds x) (y : Fin n → F) (Y : Fin n → ℝ) (hy : ∀ i, Den (y i) (Y i)) (pen' : PenOf F) (pen : Pen)
    (hp : pen'.Holds pen) (hv : pen.Valid) (w : Fin p → F) (v : Fin p → ℝ) (hw : ∀ j, Den (w j) (v j))
    (hs : ∀ j, 128 * (recheckSize D.matrix Y pen v j * e) ≤ 1) (hs' : ∀ i, 4 * (∑ j, |D.matrix i j * v j| + 1) * e ≤ 1)
    (g d : Fin p → ℝ) (hg : ∀ j, IsPartial (fun u => quadLoss Y (fit D.matrix u)) v j (g j))
    (hd : ∀ j, IsDist (-(g j)) (subdiff pen.fn (v j)) (d j)) :
    ∃ m, recheckOf D x y .quadratic pen' w = .ok m ∧ ∀ tol τ, Den tol τ →
      ((m <=. tol) = true → ∀ j, d j ≤ τ + (100 + 4 * p) * (e * recheckSize D.matrix Y pen v j)) ∧
      ((∀ j, d j + (100 + 4 * p) * (e * recheckSize D.matrix Y pen v j) ≤ τ) → (m <=. tol) = true) := by
  have he := P.pos
  have hα := penAlpha_nonneg hv
  have hc : pen.Convex := by
    cases pen <;> cases pen' <;> first | exact trivial | exact hp.elim
  obtain ⟨z, Z, h1, h2⟩ := recheck_eq P D hD x hx y pen' w v hw hpe hs'
  have hsz := recheck_sizes hn he hpe D.matrix Y hα v Z (fun i => (h2 i).2)
  have hle : ∀ j, e * checkSize D.matrix Y pen v Z j ≤ 2 * (e * recheckSize D.matrix Y pen v j) := fun j => by
    have := mul_le_mul_of_nonneg_left (hsz j).1 he.le
    linarith
  obtain ⟨m, h3, h4⟩ := C80_check P hn hne D hD x hx y Y hy pen' pen hp hv w v hw z Z (fun i => (h2 i).1)
    (fun j => by have := hle j; have := hs j; linarith) _ (fun j => scoreOf_dist pen hv hc (v j) (lsqGrad D.matrix Y Z j))
  have hgj : ∀ j, g j = lsqGrad D.matrix Y (fit D.matrix v) j := fun j => by
    rw [lsqGrad_eq]
    exact HasDerivAt.unique (hg j) (loss_partial hn D.matrix Y .quadratic v j)
  have key : ∀ j, d j ≤ scoreOf pen (v j) (lsqGrad D.matrix Y Z j) + drift D.matrix v Z j ∧
      scoreOf pen (v j) (lsqGrad D.matrix Y Z j) ≤ d j + drift D.matrix v Z j := by
    intro j
    have a := scoreOf_dist pen hv hc (v j) (lsqGrad D.matrix Y Z j)
    have b := hd j
    rw [hgj] at b
    have c := dist_lip b a
    have c' := dist_lip a b
    rw [abs_sub_comm, lsqGrad_fit] at c'
    rw [lsqGrad_fit] at c
    exact ⟨c, c'⟩
  refine ⟨m, by rw [h1, h3], fun tol τ ht => ⟨fun hm j => ?_, fun hall => (h4 tol τ ht).2 fun j => ?_⟩⟩
  · have a := (h4 tol τ ht).1 hm j
    have b := (hsz j).2
    have c := (key j).1
    have f := hle j
    linarith
  · have a := hall j
    have b := (hsz j).2
    have c := (key j).2
    have f := hle j
    linarith

/-- **A certificate for any coefficients**, whatever produced them. -/
theorem C80_certificate (P : Precise F e) (hn : 0 < n) (hne : 8 * (n * e) ≤ 1) (hpe : 8 * (p * e) ≤ 1) (D : Design n p)
    (hD : D.Canonical) (x : D.Entries F) (hx : D.Holds x) (y : Fin n → F) (Y : Fin n → ℝ) (hy : ∀ i, Den (y i) (Y i)) (pen' : PenOf F)
    (pen : Pen) (hp : pen'.Holds pen) (hv : pen.Valid) (w : Fin p → F) (v : Fin p → ℝ) (hw : ∀ j, Den (w j) (v j))
    (hs : ∀ j, 128 * (recheckSize D.matrix Y pen v j * e) ≤ 1) (hs' : ∀ i, 4 * (∑ j, |D.matrix i j * v j| + 1) * e ≤ 1)
    (m tol : F) (τ : ℝ) (ht : Den tol τ) (h : recheckOf D x y .quadratic pen' w = .ok m) (hm : (m <=. tol) = true) (u : Fin p → ℝ) :
    objective1 D Y .quadratic pen v - objective1 D Y .quadratic pen u ≤
      ∑ j, (τ + (100 + 4 * p) * (e * recheckSize D.matrix Y pen v j)) * |v j - u j| := by
  have hc : pen.Convex := by
    cases pen <;> cases pen' <;> first | exact trivial | exact hp.elim
  have hd := fun j => scoreOf_dist pen hv hc (v j) (lsqGrad D.matrix Y (fit D.matrix v) j)
  obtain ⟨m', h1, h2⟩ := C80_recheck P hn hne hpe D hD x hx y Y hy pen' pen hp hv w v hw hs hs' _ _
    (fun j => by rw [lsqGrad_eq]; exact loss_partial hn D.matrix Y .quadratic v j) hd
  rw [h] at h1
  injection h1 with h1
  subst h1
  exact gap_each hn D Y pen v _ _ hd ((h2 tol τ ht).1 hm) u

end

/-! ## Runs of the solver -/

/-- **What an early exit means, in any arithmetic**: a run which prints fewer than `max_iterations` iterations returns coefficients and
predictions which pass the check of `C80_check`.  (No law of the arithmetic is used.) -/
theorem C80_run {F : Type} [Scalar F] (srt : Argsort F) (cfg : Solver F) (D : Design n p) (x : D.Entries F) (y : Fin n → F)
    (k : LossKind) (pen : PenOf F) (st : CDState F) (log : List (Event F))
    (h : traceOf srt (cfg.setVerbose true) D x y k pen = .ok (st, log)) (hlt : iterationsPrinted log < cfg.maxIterations)
    (w : Fin p → F) (z : Fin n → F) (hw : st.w = List.ofFn w) (hz : st.Xw = List.ofFn z) :
    ∃ m, checkOf D x y k pen w z = .ok m ∧ (m <=. cfg.tolerance) = true := by
  have main : ∀ {DM DF Q : Type} [DesignMatrix F DM] [Datafit F DM DF] [Penalty F Q] (ds : Dataset DM F) (df : DF) (pn : Q),
      DesignMatrix.nFeatures ds.designMatrix = .ok p →
      (do
        let (st, _, log) ← coordinateDescent srt ds df pn (cfg.setVerbose true)
        pure (st, log)) = (Except.ok (st, log) : M (CDState F × List (Event F))) →
      ∃ m, (do
        let df ← Datafit.init df ds
        let (_, m) ← optCondViolation ds (List.ofFn w) (List.ofFn z) (List.range p) df pn
        pure m) = .ok m ∧ (m <=. cfg.tolerance) = true := by
    intro DM DF Q _ _ _ ds df pn hnf hrun
    have h1 := cd_rel srt ds df pn (cfg.setVerbose true)
    cases hc : coordinateDescent srt ds df pn (cfg.setVerbose true) with
    | error e => rw [hc] at hrun; cases hrun
    | ok r =>
      obtain ⟨st', df', log'⟩ := r
      rw [hc] at hrun h1
      cases hrun
      cases hr : runCD srt ds df pn (cfg.setVerbose true) with
      | error e => rw [hr] at h1; exact h1.elim
      | ok q =>
        rw [hr] at h1
        obtain ⟨h2, h3, -⟩ := h1
        change st = q.1 at h2
        have h3 := h3 rfl
        dsimp only at h3
        unfold runCD at hr
        rw [hnf] at hr
        cases hi : Datafit.init df ds with
        | error e => rw [hi] at hr; cases hr
        | ok df1 =>
          rw [hi] at hr
          have hr : (skelCD srt ds df1 pn (cfg.setVerbose true) p (ws0CD (cfg.setVerbose true) p)).outer cfg.maxIterations
            (initCD ds.targets.nSamples p) = .ok (q.1, q.2) := hr
          obtain ⟨kkt, km, h4, h5⟩ := (Skel.outer_exit _ _ _ _ _ hr).2 (by rw [← h3]; exact hlt)
          have h4 : optCondViolation ds q.1.w q.1.Xw (List.range p) df1 pn = .ok (kkt, km) := h4
          rw [← h2, hw, hz] at h4
          refine ⟨km, ?_, h5⟩
          simp only [bind, Except.bind, h4]
          rfl
  unfold traceOf callOf at h
  unfold checkOf callOf
  cases D with
  | dense X => cases pen <;> cases k <;> exact main _ _ _ rfl h
  | csc A => cases pen <;> cases k <;> exact main _ _ _ (nFeatures_toCSCOf A x) h

/-- **When the check passes at zero, the run returns zero** and prints no iteration.  (No law of the arithmetic is used.) -/
theorem C80_zero {F : Type} [Scalar F] (srt : Argsort F) (cfg : Solver F) (D : Design n p) (x : D.Entries F) (y : Fin n → F)
    (k : LossKind) (pen : PenOf F) (m : F) (h : checkOf D x y k pen (fun _ => zero) (fun _ => zero) = .ok m)
    (hm : (m <=. cfg.tolerance) = true) :
    ∃ log, traceOf srt (cfg.setVerbose true) D x y k pen = .ok (⟨List.ofFn fun _ : Fin p => zero, List.ofFn fun _ : Fin n => zero⟩, log) ∧
      iterationsPrinted log = 0 := by
  have main : ∀ {DM DF Q : Type} [DesignMatrix F DM] [Datafit F DM DF] [Penalty F Q] (ds : Dataset DM F) (df : DF) (pn : Q),
      DesignMatrix.nFeatures ds.designMatrix = .ok p → ds.targets.nSamples = n →
      (do
        let df ← Datafit.init df ds
        let (_, m) ← optCondViolation ds (List.ofFn fun _ : Fin p => zero) (List.ofFn fun _ : Fin n => zero) (List.range p) df pn
        pure m) = Except.ok m →
      ∃ log, (do
        let (st, _, log) ← coordinateDescent srt ds df pn (cfg.setVerbose true)
        pure (st, log)) = (Except.ok (⟨List.ofFn fun _ : Fin p => zero, List.ofFn fun _ : Fin n => zero⟩, log) :
          M (CDState F × List (Event F))) ∧ iterationsPrinted log = 0 := by
    intro DM DF Q _ _ _ ds df pn hnf hns hck
    have hz : ∀ r, (List.ofFn fun _ : Fin r => (zero : F)) = List.replicate r zero := fun r => List.ofFn_const r zero
    cases hi : Datafit.init df ds with
    | error e => rw [hi] at hck; cases hck
    | ok df1 =>
      rw [hi] at hck
      simp only [bind, Except.bind] at hck
      cases ho : optCondViolation ds (List.ofFn fun _ : Fin p => zero) (List.ofFn fun _ : Fin n => zero) (List.range p) df1 pn with
      | error e => rw [ho] at hck; cases hck
      | ok km =>
        rw [ho] at hck
        have hkm : km.2 = m := by cases hck; rfl
        have hr : runCD srt ds df pn (cfg.setVerbose true) =
            .ok (⟨List.ofFn fun _ : Fin p => zero, List.ofFn fun _ : Fin n => zero⟩, 0) := by
          unfold runCD
          rw [hnf]
          simp only [bind, Except.bind, hi]
          rw [hns]
          show Skel.outer _ cfg.maxIterations _ = _
          cases cfg.maxIterations with
          | zero => rw [hz, hz]; rfl
          | succ r =>
            unfold Skel.outer
            have hv : (skelCD srt ds df1 pn (cfg.setVerbose true) p (ws0CD (cfg.setVerbose true) p)).viol (initCD n p) = .ok km := by
              rw [hz, hz] at ho
              exact ho
            rw [hv]
            simp only [bind, Except.bind]
            show (if (km.2 <=. cfg.tolerance) = true then _ else _) = _
            rw [if_pos (show (km.2 <=. cfg.tolerance) = true by rw [hkm]; exact hm), hz, hz]
            rfl
        have h1 := cd_rel srt ds df pn (cfg.setVerbose true)
        rw [hr] at h1
        cases hc : coordinateDescent srt ds df pn (cfg.setVerbose true) with
        | error e => rw [hc] at h1; exact h1.elim
        | ok r =>
          obtain ⟨st, df', log⟩ := r
          rw [hc] at h1
          obtain ⟨h2, h3, -⟩ := h1
          change st = _ at h2
          subst h2
          exact ⟨log, rfl, h3 rfl⟩
  unfold checkOf callOf at h
  unfold traceOf callOf
  cases D with
  | dense X => cases pen <;> cases k <;> exact main _ _ _ rfl (one_nSamplesOf y) h
  | csc A => cases pen <;> cases k <;> exact main _ _ _ (nFeatures_toCSCOf A x) (one_nSamplesOf y) h

section
variable {F : Type} [Scalar F] [LawfulCmp F] {e : ℝ}

/-- **Certificate of a run**, with explicit constants: the coefficients and predictions of a run which exits early, if they are finite
numbers of moderate size. -/
theorem C80_run_gap (P : Precise F e) (hn : 0 < n) (hne : 8 * (n * e) ≤ 1) (D : Design n p) (hD : D.Canonical) (x : D.Entries F)
    (hx : D.Holds x) (y : Fin n → F) (Y : Fin n → ℝ) (hy : ∀ i, Den (y i) (Y i)) (pen' : PenOf F) (pen : Pen) (hp : pen'.Holds pen)
    (hv : pen.Valid) (srt : Argsort F) (cfg : Solver F) (τ : ℝ) (ht : Den cfg.tolerance τ) (st : CDState F) (log : List (Event F))
    (h : traceOf srt (cfg.setVerbose true) D x y .quadratic pen' = .ok (st, log)) (hlt : iterationsPrinted log < cfg.maxIterations)
    (w : Fin p → F) (v : Fin p → ℝ) (hw : st.w = List.ofFn w) (hwv : ∀ j, Den (w j) (v j)) (z : Fin n → F) (Z : Fin n → ℝ)
    (hz : st.Xw = List.ofFn z) (hzZ : ∀ i, Den (z i) (Z i)) (hs : ∀ j, 64 * (checkSize D.matrix Y pen v Z j * e) ≤ 1) (u : Fin p → ℝ) :
    objective1 D Y .quadratic pen v - objective1 D Y .quadratic pen u ≤
      ∑ j, (τ + drift D.matrix v Z j + 50 * (e * checkSize D.matrix Y pen v Z j)) * |v j - u j| := by
  obtain ⟨m, h1, h2⟩ := C80_run srt cfg D x y .quadratic pen' st log h hlt w z hw hz
  exact C80_gap P hn hne D hD x hx y Y hy pen' pen hp hv w v hwv z Z hzZ hs m _ τ ht h1 h2 u

end

/-! ## Examples in `f64` -/

/-- Two samples, one feature: `X = (1, 1)ᵀ`, `y = (1, 0)`, `alpha = 1`.  At `w = 0` the `f64` check finds a violation of at most `1/8`
(the exact violation is `0`); at `w = 1`, where the exact violation is `3/2`, it finds a violation above `1`. -/
example (S : Summation binary64) :
    (∃ (tol m : IEEE binary64 S) (τ : ℝ), Den tol τ ∧ τ ≤ 1 / 4 ∧
      recheckOf (.dense fun (_ : Fin 2) (_ : Fin 1) => (1 : ℝ)) (fun _ _ => (one : IEEE binary64 S)) ![one, zero] .quadratic (.l1 one)
        ![zero] = .ok m ∧ (m <=. tol) = true) ∧
    ∃ m : IEEE binary64 S, recheckOf (.dense fun (_ : Fin 2) (_ : Fin 1) => (1 : ℝ)) (fun _ _ => (one : IEEE binary64 S)) ![one, zero]
      .quadratic (.l1 one) ![one] = .ok m ∧ ¬ (m <=. one) = true := by
  have P : Precise (IEEE binary64 S) (1 / 2 ^ 50) := IEEE.precise binary64 S
  have hy : ∀ i, Den ((![one, zero] : Fin 2 → IEEE binary64 S) i) ((![1, 0] : Fin 2 → ℝ) i) := by
    intro i
    fin_cases i
    · exact P.one
    · exact den_zero
  have hpart : ∀ a : ℝ, ∀ j : Fin 1, IsPartial (fun u => quadLoss ![1, 0] (fit (fun (_ : Fin 2) (_ : Fin 1) => (1 : ℝ)) u)) ![a] j (a - 1 / 2) := by
    intro a j
    have h := loss_partial (n := 2) (p := 1) (by norm_num) (fun _ _ => 1) ![1, 0] .quadratic ![a] j
    rw [← lsqGrad_eq] at h
    have e1 : lsqGrad (fun (_ : Fin 2) (_ : Fin 1) => (1 : ℝ)) ![1, 0] (fit (fun _ _ => 1) ![a]) j = a - 1 / 2 := by
      simp [lsqGrad, fit, Fin.sum_univ_two]
      ring
    rwa [e1] at h
  have hsize : ∀ a : ℝ, ∀ j : Fin 1, recheckSize (fun (_ : Fin 2) (_ : Fin 1) => (1 : ℝ)) ![1, 0] (.l1 1) ![a] j = 4 * |a| + 5 := by
    intro a j
    fin_cases j
    simp [recheckSize, Pen.alpha, Fin.sum_univ_two]
    ring
  have run : ∀ (b : IEEE binary64 S) (a d : ℝ), Den b a → |a| ≤ 1 → IsDist (-(a - 1 / 2)) (subdiff (Pen.l1 1).fn a) d →
      ∃ m : IEEE binary64 S, recheckOf (.dense fun (_ : Fin 2) (_ : Fin 1) => (1 : ℝ)) (fun _ _ => (one : IEEE binary64 S)) ![one, zero]
        .quadratic (.l1 one) ![b] = .ok m ∧ ∀ tol τ, Den tol τ →
        ((m <=. tol) = true → d ≤ τ + 104 * (1 / 2 ^ 50 * (4 * |a| + 5))) ∧
        (d + 104 * (1 / 2 ^ 50 * (4 * |a| + 5)) ≤ τ → (m <=. tol) = true) := by
    intro b a d hb ha hd
    obtain ⟨m, h1, h2⟩ := C80_recheck P (n := 2) (p := 1) (by norm_num) (by norm_num) (by norm_num) (.dense fun _ _ => 1) trivial
      (fun _ _ => one) (fun _ _ => P.one) ![one, zero] ![1, 0] hy (.l1 one) (.l1 1) P.one (show (0 : ℝ) ≤ 1 by norm_num) ![b] ![a]
      (fun j => by fin_cases j; exact hb)
      (fun j => by
        show 128 * (recheckSize (fun _ _ => 1) ![1, 0] (.l1 1) ![a] j * _) ≤ 1
        rw [hsize]
        nlinarith)
      (fun i => by
        show 4 * (∑ j : Fin 1, |1 * (![a] : Fin 1 → ℝ) j| + 1) * _ ≤ 1
        simp only [Finset.univ_unique, Finset.sum_singleton, one_mul]
        show 4 * (|a| + 1) * _ ≤ _
        nlinarith)
      (fun _ => a - 1 / 2) (fun _ => d) (hpart a) (fun j => by fin_cases j; exact hd)
    refine ⟨m, h1, fun tol τ ht => ⟨fun hm => ?_, fun hall => (h2 tol τ ht).2 fun j => ?_⟩⟩
    · have := (h2 tol τ ht).1 hm 0
      rw [show recheckSize (Design.dense fun (_ : Fin 2) (_ : Fin 1) => (1 : ℝ)).matrix ![1, 0] (.l1 1) ![a] 0 = _ from hsize a 0] at this
      push_cast at this
      linarith
    · rw [show recheckSize (Design.dense fun (_ : Fin 2) (_ : Fin 1) => (1 : ℝ)).matrix ![1, 0] (.l1 1) ![a] j = _ from hsize a j]
      push_cast
      linarith
  constructor
  · obtain ⟨m, h1, h2⟩ := run zero 0 0 den_zero (by norm_num) (by
      have := scoreOf_dist (.l1 1) (show (0 : ℝ) ≤ 1 by norm_num) trivial 0 (0 - 1 / 2)
      have e1 : scoreOf (.l1 1) 0 (0 - 1 / 2) = 0 := by
        show l1Score 1 0 _ = 0
        unfold l1Score
        rw [if_pos rfl]
        norm_num
      rwa [e1] at this)
    obtain ⟨τ, hτ, hτ'⟩ := (of_le (S := S) (x := 1 / 8) (by norm_num) (by norm_num)).near
    rw [abs_of_nonneg (by norm_num : (0 : ℝ) ≤ 1 / 8), abs_le] at hτ'
    norm_num at hτ'
    exact ⟨_, m, τ, hτ, by linarith, h1, (h2 _ τ hτ).2 (by norm_num; linarith)⟩
  · obtain ⟨m, h1, h2⟩ := run one 1 (3 / 2) P.one (by norm_num) (by
      have := scoreOf_dist (.l1 1) (show (0 : ℝ) ≤ 1 by norm_num) trivial 1 (1 - 1 / 2)
      have e1 : scoreOf (.l1 1) 1 (1 - 1 / 2) = 3 / 2 := by
        show l1Score 1 1 _ = _
        unfold l1Score
        rw [if_neg one_ne_zero, if_neg (by norm_num)]
        norm_num
      rwa [e1] at this)
    exact ⟨m, h1, fun hm => by have := (h2 _ 1 P.one).1 hm; norm_num at this⟩

/-- The run of the same problem in `f64` with `tol = 1/8`: it returns at once, and its gap is at most `(τ + 50 · 5 / 2^50) |u|`. -/
example (S : Summation binary64) (srt : Argsort (IEEE binary64 S)) (u : Fin 1 → ℝ) : ∃ st log τ, τ ≤ 1 / 4 ∧
    traceOf srt ((⟨10, 50, 1000, IEEE.of S (1 / 8), 5, true, false⟩ : Solver (IEEE binary64 S)).setVerbose true)
      (.dense fun (_ : Fin 2) (_ : Fin 1) => (1 : ℝ)) (fun _ _ => (one : IEEE binary64 S)) ![one, zero] .quadratic (.l1 one) = .ok (st, log) ∧
    objective1 (.dense fun (_ : Fin 2) (_ : Fin 1) => (1 : ℝ)) ![1, 0] .quadratic (.l1 1) (fun _ => 0) -
      objective1 (.dense fun (_ : Fin 2) (_ : Fin 1) => (1 : ℝ)) ![1, 0] .quadratic (.l1 1) u ≤ (τ + 50 * (1 / 2 ^ 50 * 3)) * |u 0| := by
  have P : Precise (IEEE binary64 S) (1 / 2 ^ 50) := IEEE.precise binary64 S
  have hy : ∀ i, Den ((![one, zero] : Fin 2 → IEEE binary64 S) i) ((![1, 0] : Fin 2 → ℝ) i) := by
    intro i
    fin_cases i
    · exact P.one
    · exact den_zero
  have hsz : ∀ j : Fin 1, checkSize (Design.dense fun (_ : Fin 2) (_ : Fin 1) => (1 : ℝ)).matrix ![1, 0] (.l1 1) (fun _ => 0) (fun _ => 0) j = 3 := by
    intro j
    show checkSize (fun _ _ => 1) ![1, 0] (.l1 1) (fun _ => 0) (fun _ => 0) j = 3
    simp [checkSize, Pen.alpha, Fin.sum_univ_two]
    norm_num
  have hd : ∀ j : Fin 1, IsDist (-(lsqGrad (fun (_ : Fin 2) (_ : Fin 1) => (1 : ℝ)) ![1, 0] (fun _ => 0) j)) (subdiff (Pen.l1 1).fn 0) 0 := by
    intro j
    have := scoreOf_dist (.l1 1) (show (0 : ℝ) ≤ 1 by norm_num) trivial 0 (lsqGrad (fun (_ : Fin 2) (_ : Fin 1) => (1 : ℝ)) ![1, 0] (fun _ => 0) j)
    have e1 : scoreOf (.l1 1) 0 (lsqGrad (fun (_ : Fin 2) (_ : Fin 1) => (1 : ℝ)) ![1, 0] (fun _ => 0) j) = 0 := by
      show l1Score 1 0 _ = 0
      unfold l1Score
      rw [if_pos rfl]
      simp [lsqGrad, Fin.sum_univ_two, abs_div]
      norm_num
    rwa [e1] at this
  obtain ⟨τ, hτ, hτ'⟩ := (of_le (S := S) (x := 1 / 8) (by norm_num) (by norm_num)).near
  rw [abs_of_nonneg (by norm_num : (0 : ℝ) ≤ 1 / 8), abs_le] at hτ'
  norm_num at hτ'
  have hs : ∀ j : Fin 1, 64 * (checkSize (Design.dense fun (_ : Fin 2) (_ : Fin 1) => (1 : ℝ)).matrix ![1, 0] (.l1 1) (fun _ => 0) (fun _ => 0) j *
      (1 / 2 ^ 50)) ≤ 1 := fun j => by
    rw [hsz]
    norm_num
  obtain ⟨m, h1, h2⟩ := C80_check P (n := 2) (p := 1) (by norm_num) (by norm_num) (.dense fun _ _ => 1) trivial
      (fun _ _ => one) (fun _ _ => P.one) ![one, zero] ![1, 0] hy (.l1 one) (.l1 1) P.one (show (0 : ℝ) ≤ 1 by norm_num) (fun _ => zero)
      (fun _ => 0) (fun _ => den_zero) (fun _ => zero) (fun _ => 0) (fun _ => den_zero) hs (fun _ => 0) hd
  have hm := (h2 _ τ hτ).2 (fun j => by
    rw [hsz]
    norm_num
    linarith)
  obtain ⟨log, h3, h4⟩ := C80_zero srt (⟨10, 50, 1000, IEEE.of S (1 / 8), 5, true, false⟩ : Solver (IEEE binary64 S)) _ _ _ _ _ m h1 hm
  refine ⟨_, log, τ, by linarith, h3, ?_⟩
  have := C80_run_gap P (n := 2) (p := 1) (by norm_num) (by norm_num) (.dense fun _ _ => 1) trivial
      (fun _ _ => one) (fun _ _ => P.one) ![one, zero] ![1, 0] hy (.l1 one) (.l1 1) P.one (show (0 : ℝ) ≤ 1 by norm_num) srt
      (⟨10, 50, 1000, IEEE.of S (1 / 8), 5, true, false⟩ : Solver (IEEE binary64 S)) τ hτ _ log h3 (by rw [h4]; norm_num) (fun _ => zero)
      (fun _ => 0) rfl (fun _ => den_zero) (fun _ => zero) (fun _ => 0) rfl (fun _ => den_zero) hs u
  refine this.trans (le_of_eq ?_)
  simp only [Finset.univ_unique, Finset.sum_singleton]
  rw [hsz]
  have hdr : drift (Design.dense fun (_ : Fin 2) (_ : Fin 1) => (1 : ℝ)).matrix (fun _ => 0) (fun _ => 0) default = 0 := by
    simp [drift, fit]
  rw [hdr, zero_sub, abs_neg, add_zero]
  rfl

end Sglm
