import Verif.Proofs.FloatMTCheck
import Verif.Proofs.IEEENorm
import Verif.Proofs.SkelBCD
import Verif.Props.Certificate
import Verif.Props.IEEE

/-!
# C83: the violation of the optimality conditions of multi-task problems, computed in floating point

The multi-task Lasso, dense and sparse designs, any arithmetic with the laws `Precise` and `PreciseNorm` (`f64` and `f32` have them).
The full statement, for all finite coefficients, is false: squares of tiny coefficients underflow, and the code then divides by a norm
of zero (`C83_false`).  The partial statements exclude rows with tiny or huge norms (`RowOK`).
-/

namespace Sglm
open Scalar Spec
variable {n p T : ℕ}

/-- The full statement for `f64`: the computed violation of any finite coefficients is accurate. -/
def C83_full : Prop :=
  ∀ (S : Summation binary64), S.MatMul → ∀ (n p T : ℕ), 0 < n → 8 * ((n : ℝ) * (1 / 2 ^ 50)) ≤ 1 → 64 * (((T : ℝ) + 4) * (1 / 2 ^ 50)) ≤ 1 →
    ∀ (D : Design n p), D.Canonical → ∀ x : D.Entries (IEEE binary64 S), D.Holds x →
    ∀ (y : Fin n → Fin T → IEEE binary64 S) (Y : Fin n → Fin T → ℝ), (∀ i t, Den (y i t) (Y i t)) →
    ∀ (a : IEEE binary64 S) (α : ℝ), Den a α → 0 ≤ α →
    ∀ (w : Fin p → Fin T → IEEE binary64 S) (V : Fin p → Euc T), (∀ j t, Den (w j t) ((V j).ofLp t)) →
    (∀ j, 64 * (‖V j‖ * (1 / 2 ^ 50)) ≤ 1) →
    ∀ (z : Fin n → Fin T → IEEE binary64 S) (Z : Fin n → Fin T → ℝ), (∀ i t, Den (z i t) (Z i t)) →
    (∀ j, 64 * (mtCheckSize D.matrix Y α Z j * (1 / 2 ^ 50)) ≤ 1) →
    ∀ d : Fin p → ℝ, (∀ j, IsDist (-(mtRowGrad D.matrix Y Z j)) (subdiff (fun z => α * ‖z‖) (V j)) (d j)) →
    ∃ m, checkMTOf D x y a w z = .ok m ∧ ∀ tol τ, Den tol τ →
      ((m <=. tol) = true → ∀ j, d j ≤ τ + (16 * T + 65) * (1 / 2 ^ 50 * mtCheckSize D.matrix Y α Z j)) ∧
      ((∀ j, d j + (16 * T + 65) * (1 / 2 ^ 50 * mtCheckSize D.matrix Y α Z j) ≤ τ) → (m <=. tol) = true)

section
variable {F : Type} [Scalar F] [LawfulCmp F] {e η : ℝ}

/-- **The computed violation is accurate** (both ways) at rows of coefficients which are zero or have a norm of moderate size.  Missing
for the full statement: rows with a tiny or huge norm. -/
theorem C83_check_partial (P : Precise F e) (L : PreciseNorm F e η) (hn : 0 < n) (hne : 8 * (n * e) ≤ 1) (hT : 64 * ((T + 4) * e) ≤ 1)
    (D : Design n p) (hD : D.Canonical) (x : D.Entries F) (hx : D.Holds x) (y : Fin n → Fin T → F) (Y : Fin n → Fin T → ℝ)
    (hy : ∀ i t, Den (y i t) (Y i t)) (a : F) (α : ℝ) (ha : Den a α) (hα : 0 ≤ α) (w : Fin p → Fin T → F) (V : Fin p → Euc T)
    (hw : ∀ j t, Den (w j t) ((V j).ofLp t)) (hrow : ∀ j, RowOK e η α (V j)) (z : Fin n → Fin T → F) (Z : Fin n → Fin T → ℝ)
    (hz : ∀ i t, Den (z i t) (Z i t)) (hs : ∀ j, 64 * (mtCheckSize D.matrix Y α Z j * e) ≤ 1) (d : Fin p → ℝ)
    (hd : ∀ j, IsDist (-(mtRowGrad D.matrix Y Z j)) (subdiff (fun z => α * ‖z‖) (V j)) (d j)) :
    ∃ m, checkMTOf D x y a w z = .ok m ∧ ∀ tol τ, Den tol τ →
      ((m <=. tol) = true → ∀ j, d j ≤ τ + (16 * T + 65) * (e * mtCheckSize D.matrix Y α Z j)) ∧
      ((∀ j, d j + (16 * T + 65) * (e * mtCheckSize D.matrix Y α Z j) ≤ τ) → (m <=. tol) = true) := by
  obtain ⟨κ, k, h1, h2, h3⟩ := mt_check_scores P L hn hne hT D hD x hx y Y hy a α ha hα w V hw hrow z Z hz hs
  have hd' : ∀ j, d j = l21Score α (V j) (mtRowGrad D.matrix Y Z j) := fun j => by
    rw [(hd j).2, ← (l21Score_dist hα (V j) (mtRowGrad D.matrix Y Z j)).2]
  refine ⟨_, h2, fun tol τ ht => ?_⟩
  have hfin : ∀ q ∈ List.ofFn κ, ∃ r, Den q r := by
    intro q hq
    obtain ⟨j, rfl⟩ := List.mem_ofFn.mp hq
    exact ⟨_, h1 j⟩
  rw [maxDist_le hfin ht]
  constructor
  · intro h j
    have a := h _ (List.mem_ofFn.mpr ⟨j, rfl⟩) _ (h1 j)
    have b := abs_le.mp (h3 j)
    rw [hd']
    linarith
  · intro h q hq r hr
    obtain ⟨j, rfl⟩ := List.mem_ofFn.mp hq
    have : r = k j := by
      have a : (some (r : EReal)) = some (k j : EReal) := hr.symm.trans (h1 j)
      exact_mod_cast Option.some.inj a
    rw [this]
    have a := h j
    have b := abs_le.mp (h3 j)
    rw [hd'] at a
    linarith

end

/-! ## Certificates -/

theorem mtRowGrad_eq (X : Fin n → Fin p → ℝ) (Y Z : Fin n → Fin T → ℝ) (j : Fin p) :
    mtRowGrad X Y Z j = WithLp.toLp 2 (mtGrad X Y Z j) := by
  unfold mtRowGrad mtGrad
  congr 1
  funext t
  rw [← Finset.sum_sub_distrib]
  exact congrArg (· / (n : ℝ)) (Finset.sum_congr rfl fun i _ => by ring)

theorem mtRowGrad_fit (X : Fin n → Fin p → ℝ) (Y : Fin n → Fin T → ℝ) (V : Fin p → Euc T) (Z : Fin n → Fin T → ℝ) (j : Fin p) :
    ‖mtRowGrad X Y (fitMT X fun j => (V j).ofLp) j - mtRowGrad X Y Z j‖ = mtDrift X V Z j := by
  unfold mtDrift
  rw [← norm_neg]
  congr 1
  ext t
  show -((∑ i, X i j * (fitMT X (fun j => (V j).ofLp) i t - Y i t)) / (n : ℝ) - (∑ i, X i j * (Z i t - Y i t)) / n) =
    (∑ i, X i j * (Z i t - fitMT X (fun j => (V j).ofLp) i t)) / n
  rw [← sub_div, ← Finset.sum_sub_distrib, ← neg_div, ← Finset.sum_neg_distrib]
  exact congrArg (· / (n : ℝ)) (Finset.sum_congr rfl fun i _ => by ring)

section
variable {F : Type} [Scalar F] [LawfulCmp F] {e η : ℝ}

/-- **A certificate at given predictions**: if the computed violation is at most `tol`, then the objective exceeds that of any other
coefficients by at most a weighted distance to them; the weights add to `tol` the effect of wrong predictions and rounding. -/
theorem C83_gap_partial (P : Precise F e) (L : PreciseNorm F e η) (hn : 0 < n) (hne : 8 * (n * e) ≤ 1) (hT : 64 * ((T + 4) * e) ≤ 1)
    (D : Design n p) (hD : D.Canonical) (x : D.Entries F) (hx : D.Holds x) (y : Fin n → Fin T → F) (Y : Fin n → Fin T → ℝ)
    (hy : ∀ i t, Den (y i t) (Y i t)) (a : F) (α : ℝ) (ha : Den a α) (hα : 0 ≤ α) (w : Fin p → Fin T → F) (V : Fin p → Euc T)
    (hw : ∀ j t, Den (w j t) ((V j).ofLp t)) (hrow : ∀ j, RowOK e η α (V j)) (z : Fin n → Fin T → F) (Z : Fin n → Fin T → ℝ)
    (hz : ∀ i t, Den (z i t) (Z i t)) (hs : ∀ j, 64 * (mtCheckSize D.matrix Y α Z j * e) ≤ 1) (m tol : F) (τ : ℝ) (ht : Den tol τ)
    (h : checkMTOf D x y a w z = .ok m) (hm : (m <=. tol) = true) (U : Fin p → Euc T) :
    objectiveMT D Y (.l21 α) V - objectiveMT D Y (.l21 α) U ≤
      ∑ j, (τ + mtDrift D.matrix V Z j + (16 * T + 65) * (e * mtCheckSize D.matrix Y α Z j)) * ‖V j - U j‖ := by
  obtain ⟨m', h1, h2⟩ := C83_check_partial P L hn hne hT D hD x hx y Y hy a α ha hα w V hw hrow z Z hz hs _
    (fun j => l21Score_dist hα (V j) (mtRowGrad D.matrix Y Z j))
  rw [h] at h1
  injection h1 with h1
  subst h1
  have hf := mt_convex_inner hn D.matrix Y V U
  have key : ∑ j, α * ‖V j‖ - ∑ j, α * ‖U j‖ ≤
      ∑ j, inner ℝ (WithLp.toLp 2 (mtGrad D.matrix Y (fitMT D.matrix fun j => (V j).ofLp) j) : Euc T) (U j - V j) +
      ∑ j, (τ + mtDrift D.matrix V Z j + (16 * T + 65) * (e * mtCheckSize D.matrix Y α Z j)) * ‖V j - U j‖ := by
    rw [← Finset.sum_sub_distrib, ← Finset.sum_add_distrib]
    refine Finset.sum_le_sum fun j _ => ?_
    have h3 := subdiff_gap (l21Score_dist hα (V j) (mtRowGrad D.matrix Y (fitMT D.matrix fun j => (V j).ofLp) j)) (U j)
    rw [← mtRowGrad_eq]
    have h4 := (abs_le.mp (l21Score_lip α (V j) (mtRowGrad D.matrix Y (fitMT D.matrix fun j => (V j).ofLp) j)
      (mtRowGrad D.matrix Y Z j))).2
    rw [mtRowGrad_fit] at h4
    have h5 := (h2 tol τ ht).1 hm j
    have h6 := mul_le_mul_of_nonneg_right (by linarith :
      l21Score α (V j) (mtRowGrad D.matrix Y (fitMT D.matrix fun j => (V j).ofLp) j) ≤
        τ + mtDrift D.matrix V Z j + (16 * T + 65) * (e * mtCheckSize D.matrix Y α Z j)) (norm_nonneg (V j - U j))
    simp only at h3
    linarith
  unfold objectiveMT
  show _ + ∑ j, α * ‖V j‖ - (_ + ∑ j, α * ‖U j‖) ≤ _
  linarith

end

/-! ## Runs of the solver -/

/-- **What an early exit means, in any arithmetic**: a run which prints fewer than `max_iterations` iterations returns coefficients and
predictions which pass the check of `C83_check_partial`.  (No law of the arithmetic is used.) -/
theorem C83_run {F : Type} [Scalar F] (srt : Argsort F) (cfg : Solver F) (D : Design n p) (x : D.Entries F) (y : Fin n → Fin T → F)
    (a : F) (st : BCDState F) (log : List (Event F))
    (h : traceMTOf srt (cfg.setVerbose true) D x y a = .ok (st, log)) (hlt : iterationsPrinted log < cfg.maxIterations)
    (w : Fin p → Fin T → F) (z : Fin n → Fin T → F) (hw : st.W = matOf w) (hz : st.XW = matOf z) :
    ∃ m, checkMTOf D x y a w z = .ok m ∧ (m <=. cfg.tolerance) = true := by
  have main : ∀ {DM DF Q : Type} [DesignMatrix F DM] [MTDatafit F DM DF] [MTPenalty F Q] (ds : Dataset DM F) (df : DF) (pn : Q),
      DesignMatrix.nFeatures ds.designMatrix = .ok p →
      (do
        let (st, _, log) ← MT.blockCoordinateDescent srt ds df pn (cfg.setVerbose true)
        pure (st, log)) = (Except.ok (st, log) : M (BCDState F × List (Event F))) →
      ∃ m, (do
        let df ← MTDatafit.init df ds
        let (_, m) ← MT.optCondViolation ds (matOf w) (matOf z) (List.range p) df pn
        pure m) = .ok m ∧ (m <=. cfg.tolerance) = true := by
    intro DM DF Q _ _ _ ds df pn hnf hrun
    have h1 := MT.bcd_rel srt ds df pn (cfg.setVerbose true)
    cases hc : MT.blockCoordinateDescent srt ds df pn (cfg.setVerbose true) with
    | error e => rw [hc] at hrun; cases hrun
    | ok r =>
      obtain ⟨st', df', log'⟩ := r
      rw [hc] at hrun h1
      cases hrun
      cases hr : MT.runBCD srt ds df pn (cfg.setVerbose true) with
      | error e => rw [hr] at h1; exact h1.elim
      | ok q =>
        rw [hr] at h1
        obtain ⟨h2, h3, -⟩ := h1
        change st = q.1 at h2
        have h3 := h3 rfl
        dsimp only at h3
        unfold MT.runBCD at hr
        rw [hnf] at hr
        cases hi : MTDatafit.init df ds with
        | error e => rw [hi] at hr; cases hr
        | ok df1 =>
          rw [hi] at hr
          have hr : (MT.skelBCD srt ds df1 pn (cfg.setVerbose true) p (ws0CD (cfg.setVerbose true) p)).outer cfg.maxIterations
            (MT.initBCD ds.targets.nSamples p ds.targets.nTasks) = .ok (q.1, q.2) := hr
          obtain ⟨kkt, km, h4, h5⟩ := (Skel.outer_exit _ _ _ _ _ hr).2 (by rw [← h3]; exact hlt)
          have h4 : MT.optCondViolation ds q.1.W q.1.XW (List.range p) df1 pn = .ok (kkt, km) := h4
          rw [← h2, hw, hz] at h4
          refine ⟨km, ?_, h5⟩
          simp only [bind, Except.bind, h4]
          rfl
  unfold traceMTOf callMTOf at h
  unfold checkMTOf callMTOf
  cases D with
  | dense X => exact main _ _ _ rfl h
  | csc A => exact main _ _ _ (nFeatures_toCSCOf A x) h

theorem two_nSamplesOf {F : Type} [Scalar F] (y : Fin n → Fin T → F) : (Targets.two (matOf y)).nSamples = n := matOf_nrows y

/-- **When the check passes at zero, the run returns zero** and prints no iteration.  (No law of the arithmetic is used.) -/
theorem C83_zero {F : Type} [Scalar F] (srt : Argsort F) (cfg : Solver F) (D : Design n p) (x : D.Entries F) (y : Fin n → Fin T → F)
    (a m : F) (h : checkMTOf D x y a (fun _ _ => zero) (fun _ _ => zero) = .ok m) (hm : (m <=. cfg.tolerance) = true) :
    ∃ log, traceMTOf srt (cfg.setVerbose true) D x y a =
        .ok (⟨matOf fun (_ : Fin p) (_ : Fin T) => zero, matOf fun (_ : Fin n) (_ : Fin T) => zero⟩, log) ∧ iterationsPrinted log = 0 := by
  have main : ∀ {DM DF Q : Type} [DesignMatrix F DM] [MTDatafit F DM DF] [MTPenalty F Q] (ds : Dataset DM F) (df : DF) (pn : Q),
      DesignMatrix.nFeatures ds.designMatrix = .ok p → ds.targets.nSamples = n → ds.targets.nTasks = T →
      (do
        let df ← MTDatafit.init df ds
        let (_, m) ← MT.optCondViolation ds (matOf fun (_ : Fin p) (_ : Fin T) => zero) (matOf fun (_ : Fin n) (_ : Fin T) => zero)
          (List.range p) df pn
        pure m) = Except.ok m →
      ∃ log, (do
        let (st, _, log) ← MT.blockCoordinateDescent srt ds df pn (cfg.setVerbose true)
        pure (st, log)) = (Except.ok (⟨matOf fun (_ : Fin p) (_ : Fin T) => zero, matOf fun (_ : Fin n) (_ : Fin T) => zero⟩, log) :
          M (BCDState F × List (Event F))) ∧ iterationsPrinted log = 0 := by
    intro DM DF Q _ _ _ ds df pn hnf hns hnt hck
    have hz : ∀ r, (matOf fun (_ : Fin r) (_ : Fin T) => (zero : F)) = Mat.zeros r T := fun r => by
      unfold matOf Mat.zeros
      rw [List.ofFn_const, List.ofFn_const]
    cases hi : MTDatafit.init df ds with
    | error e => rw [hi] at hck; cases hck
    | ok df1 =>
      rw [hi] at hck
      simp only [bind, Except.bind] at hck
      cases ho : MT.optCondViolation ds (matOf fun (_ : Fin p) (_ : Fin T) => zero) (matOf fun (_ : Fin n) (_ : Fin T) => zero)
          (List.range p) df1 pn with
      | error e => rw [ho] at hck; cases hck
      | ok km =>
        rw [ho] at hck
        have hkm : km.2 = m := by cases hck; rfl
        have hr : MT.runBCD srt ds df pn (cfg.setVerbose true) =
            .ok (⟨matOf fun (_ : Fin p) (_ : Fin T) => zero, matOf fun (_ : Fin n) (_ : Fin T) => zero⟩, 0) := by
          unfold MT.runBCD
          rw [hnf]
          simp only [bind, Except.bind, hi]
          rw [hns, hnt]
          show Skel.outer _ cfg.maxIterations _ = _
          cases cfg.maxIterations with
          | zero => rw [hz, hz]; rfl
          | succ r =>
            unfold Skel.outer
            have hv : (MT.skelBCD srt ds df1 pn (cfg.setVerbose true) p (ws0CD (cfg.setVerbose true) p)).viol (MT.initBCD n p T) = .ok km := by
              rw [hz, hz] at ho
              exact ho
            rw [hv]
            simp only [bind, Except.bind]
            show (if (km.2 <=. cfg.tolerance) = true then _ else _) = _
            rw [if_pos (show (km.2 <=. cfg.tolerance) = true by rw [hkm]; exact hm), hz, hz]
            rfl
        have h1 := MT.bcd_rel srt ds df pn (cfg.setVerbose true)
        rw [hr] at h1
        cases hc : MT.blockCoordinateDescent srt ds df pn (cfg.setVerbose true) with
        | error e => rw [hc] at h1; exact h1.elim
        | ok r =>
          obtain ⟨st, df', log⟩ := r
          rw [hc] at h1
          obtain ⟨h2, h3, -⟩ := h1
          change st = _ at h2
          subst h2
          exact ⟨log, rfl, h3 rfl⟩
  unfold checkMTOf callMTOf at h
  unfold traceMTOf callMTOf
  cases D with
  | dense X => exact main _ _ _ rfl (two_nSamplesOf y) rfl h
  | csc A => exact main _ _ _ (nFeatures_toCSCOf A x) (two_nSamplesOf y) rfl h

section
variable {F : Type} [Scalar F] [LawfulCmp F] {e η : ℝ}

/-- **Certificate of a run**, with explicit constants: the coefficients and predictions of a run which exits early, if they are finite
numbers of moderate size and the rows are zero or of moderate norm. -/
theorem C83_run_gap_partial (P : Precise F e) (L : PreciseNorm F e η) (hn : 0 < n) (hne : 8 * (n * e) ≤ 1) (hT : 64 * ((T + 4) * e) ≤ 1)
    (D : Design n p) (hD : D.Canonical) (x : D.Entries F) (hx : D.Holds x) (y : Fin n → Fin T → F) (Y : Fin n → Fin T → ℝ)
    (hy : ∀ i t, Den (y i t) (Y i t)) (a : F) (α : ℝ) (ha : Den a α) (hα : 0 ≤ α)
    (srt : Argsort F) (cfg : Solver F) (τ : ℝ) (ht : Den cfg.tolerance τ) (st : BCDState F) (log : List (Event F))
    (h : traceMTOf srt (cfg.setVerbose true) D x y a = .ok (st, log)) (hlt : iterationsPrinted log < cfg.maxIterations)
    (w : Fin p → Fin T → F) (V : Fin p → Euc T) (hw : st.W = matOf w) (hwV : ∀ j t, Den (w j t) ((V j).ofLp t))
    (hrow : ∀ j, RowOK e η α (V j)) (z : Fin n → Fin T → F) (Z : Fin n → Fin T → ℝ) (hz : st.XW = matOf z)
    (hzZ : ∀ i t, Den (z i t) (Z i t)) (hs : ∀ j, 64 * (mtCheckSize D.matrix Y α Z j * e) ≤ 1) (U : Fin p → Euc T) :
    objectiveMT D Y (.l21 α) V - objectiveMT D Y (.l21 α) U ≤
      ∑ j, (τ + mtDrift D.matrix V Z j + (16 * T + 65) * (e * mtCheckSize D.matrix Y α Z j)) * ‖V j - U j‖ := by
  obtain ⟨m, h1, h2⟩ := C83_run srt cfg D x y a st log h hlt w z hw hz
  exact C83_gap_partial P L hn hne hT D hD x hx y Y hy a α ha hα w V hwV hrow z Z hzZ hs m _ τ ht h1 h2 U

end

/-! ## `f64` and `f32` -/

set_option exponentiation.threshold 2000 in
/-- The laws hold of `f64`, if the entries of matrix products are sums of products. -/
theorem preciseNorm64 (S : Summation binary64) (hS : S.MatMul) : PreciseNorm (IEEE binary64 S) (1 / 2 ^ 50) (1 / 2 ^ 1000) := by
  have h := IEEE.preciseNorm binary64 S hS (η := 1 / 2 ^ 1000)
    (by unfold Format.η binary64; norm_num) (by rw [eps64]; norm_num) (by unfold Format.top binary64; norm_num)
  rwa [eps64] at h

/-- The laws hold of `f32`. -/
theorem preciseNorm32 (S : Summation binary32) (hS : S.MatMul) : PreciseNorm (IEEE binary32 S) (1 / 2 ^ 21) (1 / 2 ^ 120) := by
  have e32 : binary32.eps = 1 / 2 ^ 21 := rfl
  have h := IEEE.preciseNorm binary32 S hS (η := 1 / 2 ^ 120)
    (by unfold Format.η binary32; norm_num) (by rw [e32]; norm_num) (by unfold Format.top binary32; norm_num)
  rwa [e32] at h

/-! ## Tiny rows -/

theorem near_tiny (f : Format) {x : ℝ} (hx : 0 ≤ x) (h : 2 * x < (2 : ℝ) ^ f.emin) : f.near x = 0 := by
  have h1 := f.near_nearest hx f.mag_zero
  rw [zero_sub, abs_neg, abs_of_nonneg hx] at h1
  have h2 := (abs_le.mp h1).2
  obtain ⟨m, k, -, hk, hm⟩ := f.near_mag hx
  rcases Nat.eq_zero_or_pos m with h0 | h0
  · rw [hm, h0]; simp
  · exfalso
    have h3 : (2 : ℝ) ^ f.emin ≤ (2 : ℝ) ^ k := zpow_le_zpow_right₀ (by norm_num) hk
    have h4 : (1 : ℝ) ≤ m := by exact_mod_cast h0
    have h5 := mul_le_mul_of_nonneg_right h4 (by positivity : (0 : ℝ) ≤ 2 ^ k)
    linarith

/-- Products which are too small are zero. -/
theorem mul_tiny {f : Format} {x y : Num f} {r s : ℝ} (hx : Num.D x r) (hy : Num.D y s) (h : 2 * |r * s| < (2 : ℝ) ^ f.emin) :
    Num.D (Num.mul x y) 0 := by
  obtain ⟨b, hb⟩ := Num.mul_D hx hy
  rw [hb]
  have h1 := near_tiny f (abs_nonneg (r * s)) h
  have h2 : f.rd (r * s) = 0 := by
    have := f.rd_abs (r * s)
    rw [h1] at this
    exact abs_eq_zero.mp this
  have := Num.key_ofReal_small (f := f) b (r := r * s) (by rw [h1]; positivity)
  rw [h2] at this
  exact this

/-- The distance computed for a single nonzero coefficient whose square underflows is infinite. -/
theorem l21_tiny {S : Summation binary64} (hS : S.MatMul) (a w g : Num binary64) (v r : ℝ) (hw : Num.D w v) (hg : Num.D g r)
    (hav : Num.D (Num.mul a w) v) (hv : v ≠ 0) (htiny : 2 * |v * v| < (2 : ℝ) ^ (-1074 : ℤ)) :
    (L21.mk (F := IEEE binary64 S) a).dist [w] [g] = .ok (Num.inf false : Num binary64) := by
  have L := preciseNorm64 S hS
  have hne : anyNonzero (F := IEEE binary64 S) [w] = true := by
    show (!(Num.beq w Num.zero) || false) = true
    rw [Bool.or_false, Bool.not_eq_true']
    have : ¬ Num.beq w Num.zero = true := by
      intro h
      obtain ⟨k, l, h1, h2, h3⟩ := (LawfulCmp.beq_iff (F := IEEE binary64 S) w Num.zero).mp h
      change Num.key w = _ at h1
      change Num.key Num.zero = _ at h2
      rw [show Num.key w = some (v : EReal) from hw] at h1
      rw [show Num.key (Num.zero : Num binary64) = some ((0 : ℝ) : EReal) from Num.D_zero] at h2
      cases h1
      cases h2
      exact hv (by exact_mod_cast h3)
    simpa using this
  have hdot : Num.D (S.dot [w] [w]) 0 := by
    refine Num.sumOf_zero (S.dot_spec [w] [w]) fun q hq => ?_
    have : q = Num.mul w w := by simpa using hq
    rw [this]
    exact mul_tiny hw hw htiny
  have hnorm : Num.D (Num.sqrt (S.dot [w] [w])) 0 := by
    obtain ⟨t, h1, h2⟩ := L.sqrt (S.dot [w] [w]) 0 hdot le_rfl
    rw [Real.sqrt_zero, mul_zero, sub_zero] at h2
    have : t = 0 := abs_eq_zero.mp (le_antisymm h2 (abs_nonneg t))
    rw [this] at h1
    exact h1
  unfold L21.dist
  rw [if_pos hne]
  show (Except.ok (Num.sqrt (Num.add Num.zero (Num.mul (Num.add g (Num.div (Num.mul a w) (Num.sqrt (S.dot [w] [w]))))
    (Num.add g (Num.div (Num.mul a w) (Num.sqrt (S.dot [w] [w]))))))) : M (Num binary64)) = _
  obtain ⟨s1, a1, _, _, e1, e1'⟩ := hav.elim
  obtain ⟨s2, a2, _, _, e2, e2'⟩ := hnorm.elim
  obtain ⟨s3, a3, _, _, e3, e3'⟩ := hg.elim
  have ha1 : a1 ≠ 0 := fun h => hv (by rw [← e1']; exact Num.signed_eq_zero.mpr h)
  have ha2 : a2 = 0 := Num.signed_eq_zero.mp e2'
  obtain ⟨s4, a4, _, _, e4, -⟩ := (Num.D_zero (f := binary64)).elim
  rw [e1, e2, e3, e4]
  simp only [Num.div, if_pos ha2, if_neg ha1, Num.add, Num.mul, Bool.xor_self, Num.sqrt]
  rfl

theorem l21_tiny_ofFn {S : Summation binary64} (hS : S.MatMul) (a : IEEE binary64 S) (w g : Fin 1 → IEEE binary64 S) (v r : ℝ) (hw : Den (w 0) v) (hg : Den (g 0) r) (hav : Den (a *. w 0) v) (hv : v ≠ 0) (htiny : 2 * |v * v| < (2 : ℝ) ^ (-1074 : ℤ)) :
    (L21.mk a).dist (List.ofFn w) (List.ofFn g) = .ok Scalar.inf := by
  have h1 : ∀ f : Fin 1 → IEEE binary64 S, List.ofFn f = [f 0] := fun f => by simp
  rw [h1 w, h1 g]
  exact l21_tiny hS a (w 0) (g 0) v r hw hg hav hv htiny

theorem den_nat {f : Format} (S : Summation f) {k : ℕ} (hk : k < 2 ^ (f.t + 1)) : Den (IEEE.of S k) (k : ℝ) := by
  have hm : f.IsMag (k : ℝ) := ⟨k, 0, hk, by have := f.hmin; omega, by simp⟩
  have h0 : |(k : ℝ)| = k := abs_of_nonneg (Nat.cast_nonneg k)
  have hlt : f.near |(k : ℝ)| < (2 : ℝ) ^ f.emax := by
    rw [h0, f.near_idem hm]
    have h1 : ((k : ℕ) : ℝ) < (2 : ℝ) ^ (f.t + 1) := by exact_mod_cast hk
    have h2 : (2 : ℝ) ^ ((f.t + 1 : ℕ) : ℤ) ≤ (2 : ℝ) ^ f.emax := zpow_le_zpow_right₀ (by norm_num) (by have := f.hmax; push_cast; omega)
    rw [zpow_natCast] at h2
    linarith
  have h3 := Num.key_ofReal_small (f := f) false hlt
  rw [f.rd_nonneg (Nat.cast_nonneg k), f.near_idem hm] at h3
  exact h3

/-- **The full statement is false**: one sample, feature and task, `X = 1`, `y = 1`, `alpha = 1`, predictions `0`.  The coefficient
`2⁻⁶⁰⁰` satisfies the optimality condition exactly, but its computed violation is infinite: the square of the coefficient is computed
as zero, and `alpha * w` is divided by the norm zero. -/
theorem C83_false : ¬ C83_full := by
  intro H
  have hS : (Summation.sequential (f := binary64)).withFMA.MatMul := Summation.withFMA_matMul _
  generalize (Summation.sequential (f := binary64)).withFMA = S at hS
  have P : Precise (IEEE binary64 S) (1 / 2 ^ 50) := IEEE.precise binary64 S
  have L := preciseNorm64 S hS
  have hmag : binary64.IsMag ((2 : ℝ) ^ (-600 : ℤ)) := binary64.mag_pow (by unfold binary64; norm_num)
  have hlt : (2 : ℝ) ^ (-600 : ℤ) < (2 : ℝ) ^ binary64.emax := zpow_lt_zpow_right₀ (by norm_num) (by unfold binary64; norm_num)
  obtain ⟨v, hvd⟩ : ∃ v : ℝ, v = (2 : ℝ) ^ (-600 : ℤ) := ⟨_, rfl⟩
  have hv0 : 0 < v := by rw [hvd]; positivity
  have hv1 : v ≤ 1 := by
    rw [hvd]
    exact zpow_le_one_of_nonpos₀ (by norm_num) (by norm_num)
  rw [← hvd] at hmag hlt
  obtain ⟨w, hw⟩ : ∃ w : IEEE binary64 S, Den w v := ⟨Num.fin false v hmag hlt, rfl⟩
  have hV : ‖(WithLp.toLp 2 fun _ => v : Euc 1)‖ = v := by
    rw [EuclideanSpace.norm_eq]
    simp [Real.sqrt_sq hv0.le]
  have hsz : ∀ j : Fin 1, mtCheckSize (Design.dense fun (_ : Fin 1) (_ : Fin 1) => (1 : ℝ)).matrix (fun _ (_ : Fin 1) => 1) 1 (fun _ _ => 0) j = 6 := by
    intro j
    simp [mtCheckSize, Design.matrix]
    norm_num
  have hgrad : ∀ j : Fin 1, mtRowGrad (fun (_ : Fin 1) (_ : Fin 1) => (1 : ℝ)) (fun _ (_ : Fin 1) => 1) (fun _ _ => 0) j =
      (WithLp.toLp 2 fun _ => -1 : Euc 1) := by
    intro j
    unfold mtRowGrad
    congr 1
    funext t
    simp
  have hd : ∀ j : Fin 1, IsDist (-(mtRowGrad (fun (_ : Fin 1) (_ : Fin 1) => (1 : ℝ)) (fun _ (_ : Fin 1) => 1) (fun _ _ => 0) j))
      (subdiff (fun z : Euc 1 => 1 * ‖z‖) (WithLp.toLp 2 fun _ => v)) 0 := by
    intro j
    have h1 := l21Score_dist (T := 1) (α := 1) zero_le_one (WithLp.toLp 2 fun _ => v)
      (mtRowGrad (fun (_ : Fin 1) (_ : Fin 1) => (1 : ℝ)) (fun _ (_ : Fin 1) => 1) (fun _ _ => 0) j)
    have h2 : l21Score 1 (WithLp.toLp 2 fun _ => v : Euc 1)
        (mtRowGrad (fun (_ : Fin 1) (_ : Fin 1) => (1 : ℝ)) (fun _ (_ : Fin 1) => 1) (fun _ _ => 0) j) = 0 := by
      unfold l21Score
      rw [if_neg (fun h => by rw [h, norm_zero] at hV; linarith), hV, hgrad, norm_eq_zero]
      ext t
      show (-1 : ℝ) + 1 / v * v = 0
      field_simp
      norm_num
    rwa [h2] at h1
  obtain ⟨m, h1, h2⟩ := H S hS 1 1 1 one_pos (by norm_num) (by norm_num) (.dense fun _ _ => 1) trivial (fun _ _ => one) (fun _ _ => P.one)
    (fun _ _ => one) (fun _ _ => 1) (fun _ _ => P.one) one 1 P.one zero_le_one (fun _ _ => w) (fun _ => WithLp.toLp 2 fun _ => v)
    (fun _ _ => hw) (fun _ => by rw [hV]; linarith) (fun _ _ => zero) (fun _ _ => 0) (fun _ _ => den_zero)
    (fun j => by rw [hsz j]; norm_num) (fun _ => 0) hd
  have h3 := (h2 one 1 P.one).2 (fun j => by
    rw [hsz j]
    norm_num)
  -- the computed violation
  obtain ⟨r, hr, -⟩ := mt_dense_err P L (n := 1) (p := 1) one_pos (fun _ _ => one) (fun _ _ => 1) (fun _ _ => P.one) (fun _ => one) (fun _ => zero)
    (fun _ => 1) (fun _ => 0) (fun _ => P.one) (fun _ => den_zero) (by norm_num) 0 (S := 2) (by norm_num) (by norm_num)
  have haw : Num.D (Num.mul (one : IEEE binary64 S) w) v := by
    obtain ⟨b, hb⟩ := Num.mul_D (x := (one : IEEE binary64 S)) (y := w) P.one hw
    rw [hb, one_mul]
    have h4 := Num.ofReal_fin (f := binary64) b (r := v) (by
      rw [abs_of_pos hv0]
      refine hv1.trans ?_
      unfold Format.top
      exact one_le_zpow₀ (by norm_num) (by unfold binary64; norm_num))
    rwa [Num.D.rep (x := w) hw] at h4
  have hdist := fun (g : Fin 1 → IEEE binary64 S) (hg : Den (g 0) r) => l21_tiny_ofFn hS (one : IEEE binary64 S) (fun _ => w) g v r hw hg haw hv0.ne' (by
    rw [hvd, abs_of_pos (by positivity), ← zpow_add₀ (by norm_num), show (2 : ℝ) * 2 ^ (-600 + -600 : ℤ) = 2 ^ (-1199 : ℤ) by
      rw [← zpow_one_add₀ (by norm_num)]; norm_num]
    exact zpow_lt_zpow_right₀ (by norm_num) (by norm_num))
  obtain ⟨Lp, h4⟩ := mt_init_dense (n := 1) (p := 1) (T := 1) (fun _ _ => (one : IEEE binary64 S)) (fun _ _ => one) QuadraticMT.new
  have h5 : checkMTOf (.dense fun (_ : Fin 1) (_ : Fin 1) => (1 : ℝ)) (fun _ _ => (one : IEEE binary64 S)) (fun _ (_ : Fin 1) => one) one
      (fun _ _ => w) (fun _ _ => zero) = .ok (maxDist [Scalar.inf]) := by
    unfold checkMTOf callMTOf
    show (MTDatafit.init _ _ >>= _) = _
    rw [h4]
    simp only [bind, Except.bind]
    rw [mt_check_eq (F := IEEE binary64 S) (p := 1) (T := 1) _ _ (L21.mk one) rfl (L21.mk one).dist (fun _ _ _ => rfl) (fun _ _ => w) _ _
      (fun j => mt_grad_dense (n := 1) (p := 1) (T := 1) _ _ _ Lp _ j) (fun _ => Scalar.inf) (fun j => hdist _ hr)]
    rfl
  rw [h1] at h5
  injection h5 with h5
  rw [h5] at h3
  have hk : LawfulCmp.key (maxDist [(Scalar.inf : IEEE binary64 S)]) = some ⊤ := by
    show LawfulCmp.key (fmax negInf Scalar.inf) = _
    rw [LawfulCmp.key_fmax, LawfulCmp.key_negInf, LawfulCmp.key_inf]
    simp
  rw [LawfulCmp.le_iff] at h3
  obtain ⟨k, l, h7, h8, h9⟩ := h3
  rw [hk] at h7
  rw [show LawfulCmp.key (one : IEEE binary64 S) = some ((1 : ℝ) : EReal) from P.one] at h8
  cases h7
  cases h8
  exact absurd h9 (not_le.mpr (EReal.coe_lt_top 1))

/-! ## Examples in `f64` -/

/-- One sample, one feature, two tasks: `X = 1`, `Y = (6, 8)`, `alpha = 5`.  The coefficients `(3, 4)` are optimal, and the `f64` check
at the predictions `(3, 4)` finds a violation of at most `1/8`; at zero, where the exact violation is `5`, it finds a violation above `1`. -/
example (S : Summation binary64) (hS : S.MatMul) :
    (∃ m : IEEE binary64 S, checkMTOf (.dense fun (_ : Fin 1) (_ : Fin 1) => (1 : ℝ)) (fun _ _ => (one : IEEE binary64 S))
      (fun _ => ![IEEE.of S (6 : ℕ), IEEE.of S (8 : ℕ)]) (IEEE.of S (5 : ℕ)) (fun _ => ![IEEE.of S (3 : ℕ), IEEE.of S (4 : ℕ)])
      (fun _ => ![IEEE.of S (3 : ℕ), IEEE.of S (4 : ℕ)]) = .ok m ∧ (m <=. one) = true) ∧
    ∃ m : IEEE binary64 S, checkMTOf (.dense fun (_ : Fin 1) (_ : Fin 1) => (1 : ℝ)) (fun _ _ => (one : IEEE binary64 S))
      (fun _ => ![IEEE.of S (6 : ℕ), IEEE.of S (8 : ℕ)]) (IEEE.of S (5 : ℕ)) (fun _ _ => zero) (fun _ _ => zero) = .ok m ∧
      ¬ (m <=. one) = true := by
  have P : Precise (IEEE binary64 S) (1 / 2 ^ 50) := IEEE.precise binary64 S
  have L := preciseNorm64 S hS
  have hnat : ∀ k : ℕ, k < 100 → Den (IEEE.of S k) (k : ℝ) := fun k hk => den_nat S (hk.trans (by unfold binary64; norm_num))
  have hpair : ∀ k l : ℕ, k < 100 → l < 100 → ∀ t : Fin 2, Den ((![IEEE.of S k, IEEE.of S l] : Fin 2 → IEEE binary64 S) t)
      ((![(k : ℝ), (l : ℝ)] : Fin 2 → ℝ) t) := by
    intro k l hk hl t
    fin_cases t
    · exact hnat k hk
    · exact hnat l hl
  have h34 : ‖(WithLp.toLp 2 ![3, 4] : Euc 2)‖ = 5 := by
    rw [EuclideanSpace.norm_eq]
    simp [Fin.sum_univ_two]
    rw [show (3 : ℝ) ^ 2 + 4 ^ 2 = 5 ^ 2 by norm_num, Real.sqrt_sq (by norm_num)]
  have h68 : ‖(WithLp.toLp 2 ![-6, -8] : Euc 2)‖ = 10 := by
    rw [EuclideanSpace.norm_eq]
    simp [Fin.sum_univ_two]
    rw [show (6 : ℝ) ^ 2 + 8 ^ 2 = 10 ^ 2 by norm_num, Real.sqrt_sq (by norm_num)]
  have hg1 : ∀ j : Fin 1, mtRowGrad (Design.dense fun (_ : Fin 1) (_ : Fin 1) => (1 : ℝ)).matrix (fun _ => ![((6 : ℕ) : ℝ), ((8 : ℕ) : ℝ)])
      (fun _ => ![((3 : ℕ) : ℝ), ((4 : ℕ) : ℝ)]) j = (WithLp.toLp 2 ![-3, -4] : Euc 2) := by
    intro j
    unfold mtRowGrad
    congr 1
    funext t
    fin_cases t <;> simp [Design.matrix] <;> norm_num
  have hg2 : ∀ j : Fin 1, mtRowGrad (Design.dense fun (_ : Fin 1) (_ : Fin 1) => (1 : ℝ)).matrix (fun _ => ![((6 : ℕ) : ℝ), ((8 : ℕ) : ℝ)])
      (fun _ _ => 0) j = (WithLp.toLp 2 ![-6, -8] : Euc 2) := by
    intro j
    unfold mtRowGrad
    congr 1
    funext t
    fin_cases t <;> simp [Design.matrix]
  have hs1 : ∀ j : Fin 1, mtCheckSize (Design.dense fun (_ : Fin 1) (_ : Fin 1) => (1 : ℝ)).matrix (fun _ => ![((6 : ℕ) : ℝ), ((8 : ℕ) : ℝ)])
      ((5 : ℕ) : ℝ) (fun _ => ![((3 : ℕ) : ℝ), ((4 : ℕ) : ℝ)]) j = 41 := by
    intro j
    simp [mtCheckSize, Design.matrix, Fin.sum_univ_two]
    norm_num
  have hs2 : ∀ j : Fin 1, mtCheckSize (Design.dense fun (_ : Fin 1) (_ : Fin 1) => (1 : ℝ)).matrix (fun _ => ![((6 : ℕ) : ℝ), ((8 : ℕ) : ℝ)])
      ((5 : ℕ) : ℝ) (fun _ _ => 0) j = 34 := by
    intro j
    simp [mtCheckSize, Design.matrix, Fin.sum_univ_two]
    norm_num
  have hη : (1 : ℝ) / 2 ^ 1000 ≤ 1 / 2 ^ 200 := one_div_le_one_div_of_le (by positivity) (pow_le_pow_right₀ (by norm_num) (by norm_num))
  constructor
  · obtain ⟨m, h1, h2⟩ := C83_check_partial P L (n := 1) (p := 1) (T := 2) one_pos (by norm_num) (by norm_num) (.dense fun _ _ => 1) trivial
      (fun _ _ => one) (fun _ _ => P.one) (fun _ => ![IEEE.of S (6 : ℕ), IEEE.of S (8 : ℕ)]) (fun _ => ![((6 : ℕ) : ℝ), ((8 : ℕ) : ℝ)])
      (fun _ => hpair 6 8 (by norm_num) (by norm_num)) (IEEE.of S (5 : ℕ)) _ (hnat 5 (by norm_num)) (by norm_num)
      (fun _ => ![IEEE.of S (3 : ℕ), IEEE.of S (4 : ℕ)]) (fun _ => WithLp.toLp 2 ![((3 : ℕ) : ℝ), ((4 : ℕ) : ℝ)])
      (fun _ => hpair 3 4 (by norm_num) (by norm_num))
      (fun _ => by
        refine Or.inr ?_
        push_cast
        rw [h34]
        norm_num at hη ⊢
        constructor <;> linarith)
      (fun _ => ![IEEE.of S (3 : ℕ), IEEE.of S (4 : ℕ)]) (fun _ => ![((3 : ℕ) : ℝ), ((4 : ℕ) : ℝ)])
      (fun _ => hpair 3 4 (by norm_num) (by norm_num)) (fun j => by rw [hs1]; norm_num) (fun _ => 0)
      (fun j => by
        have h3 := l21Score_dist (T := 2) (α := ((5 : ℕ) : ℝ)) (by norm_num) (WithLp.toLp 2 ![((3 : ℕ) : ℝ), ((4 : ℕ) : ℝ)])
          (WithLp.toLp 2 ![-3, -4] : Euc 2)
        rw [hg1]
        have h4 : l21Score ((5 : ℕ) : ℝ) (WithLp.toLp 2 ![((3 : ℕ) : ℝ), ((4 : ℕ) : ℝ)]) (WithLp.toLp 2 ![-3, -4] : Euc 2) = 0 := by
          push_cast
          unfold l21Score
          rw [if_neg (fun h => by rw [h, norm_zero] at h34; norm_num at h34), h34, norm_eq_zero]
          ext t
          fin_cases t <;> simp
        rwa [h4] at h3)
    refine ⟨m, h1, (h2 one 1 P.one).2 fun j => ?_⟩
    rw [hs1]
    norm_num
  · obtain ⟨m, h1, h2⟩ := C83_check_partial P L (n := 1) (p := 1) (T := 2) one_pos (by norm_num) (by norm_num) (.dense fun _ _ => 1) trivial
      (fun _ _ => one) (fun _ _ => P.one) (fun _ => ![IEEE.of S (6 : ℕ), IEEE.of S (8 : ℕ)]) (fun _ => ![((6 : ℕ) : ℝ), ((8 : ℕ) : ℝ)])
      (fun _ => hpair 6 8 (by norm_num) (by norm_num)) (IEEE.of S (5 : ℕ)) _ (hnat 5 (by norm_num)) (by norm_num)
      (fun _ _ => zero) (fun _ => 0) (fun _ _ => den_zero) (fun _ => Or.inl rfl) (fun _ _ => zero) (fun _ _ => 0) (fun _ _ => den_zero)
      (fun j => by rw [hs2]; norm_num) (fun _ => 5)
      (fun j => by
        have h3 := l21Score_dist (T := 2) (α := ((5 : ℕ) : ℝ)) (by norm_num) 0 (WithLp.toLp 2 ![-6, -8] : Euc 2)
        rw [hg2]
        have h4 : l21Score ((5 : ℕ) : ℝ) 0 (WithLp.toLp 2 ![-6, -8] : Euc 2) = 5 := by
          unfold l21Score
          rw [if_pos rfl, h68]
          norm_num
        rwa [h4] at h3)
    refine ⟨m, h1, fun h => ?_⟩
    have := (h2 one 1 P.one).1 h 0
    rw [hs2] at this
    norm_num at this

/-- The run of the same problem with `alpha = 11`: it returns zero at once, and its gap is bounded. -/
example (S : Summation binary64) (hS : S.MatMul) (srt : Argsort (IEEE binary64 S)) (U : Fin 1 → Euc 2) : ∃ st log,
    traceMTOf srt ((⟨10, 50, 1000, one, 5, true, false⟩ : Solver (IEEE binary64 S)).setVerbose true)
      (.dense fun (_ : Fin 1) (_ : Fin 1) => (1 : ℝ)) (fun _ _ => (one : IEEE binary64 S)) (fun _ => ![IEEE.of S (6 : ℕ), IEEE.of S (8 : ℕ)])
      (IEEE.of S (11 : ℕ)) = .ok (st, log) ∧
    objectiveMT (.dense fun (_ : Fin 1) (_ : Fin 1) => (1 : ℝ)) (fun _ => ![((6 : ℕ) : ℝ), ((8 : ℕ) : ℝ)]) (.l21 ((11 : ℕ) : ℝ)) (fun _ => 0) -
      objectiveMT (.dense fun (_ : Fin 1) (_ : Fin 1) => (1 : ℝ)) (fun _ => ![((6 : ℕ) : ℝ), ((8 : ℕ) : ℝ)]) (.l21 ((11 : ℕ) : ℝ)) U ≤
      (1 + 1 / 1000) * ‖U 0‖ := by
  have P : Precise (IEEE binary64 S) (1 / 2 ^ 50) := IEEE.precise binary64 S
  have L := preciseNorm64 S hS
  have hnat : ∀ k : ℕ, k < 100 → Den (IEEE.of S k) (k : ℝ) := fun k hk => den_nat S (hk.trans (by unfold binary64; norm_num))
  have hy : ∀ t : Fin 2, Den ((![IEEE.of S (6 : ℕ), IEEE.of S (8 : ℕ)] : Fin 2 → IEEE binary64 S) t)
      ((![((6 : ℕ) : ℝ), ((8 : ℕ) : ℝ)] : Fin 2 → ℝ) t) := by
    intro t
    fin_cases t
    · exact hnat 6 (by norm_num)
    · exact hnat 8 (by norm_num)
  have h68 : ‖(WithLp.toLp 2 ![-6, -8] : Euc 2)‖ = 10 := by
    rw [EuclideanSpace.norm_eq]
    simp [Fin.sum_univ_two]
    rw [show (6 : ℝ) ^ 2 + 8 ^ 2 = 10 ^ 2 by norm_num, Real.sqrt_sq (by norm_num)]
  have hg2 : ∀ j : Fin 1, mtRowGrad (Design.dense fun (_ : Fin 1) (_ : Fin 1) => (1 : ℝ)).matrix (fun _ => ![((6 : ℕ) : ℝ), ((8 : ℕ) : ℝ)])
      (fun _ _ => 0) j = (WithLp.toLp 2 ![-6, -8] : Euc 2) := by
    intro j
    unfold mtRowGrad
    congr 1
    funext t
    fin_cases t <;> simp [Design.matrix]
  have hs2 : ∀ j : Fin 1, mtCheckSize (Design.dense fun (_ : Fin 1) (_ : Fin 1) => (1 : ℝ)).matrix (fun _ => ![((6 : ℕ) : ℝ), ((8 : ℕ) : ℝ)])
      ((11 : ℕ) : ℝ) (fun _ _ => 0) j = 52 := by
    intro j
    simp [mtCheckSize, Design.matrix, Fin.sum_univ_two]
    norm_num
  obtain ⟨m, h1, h2⟩ := C83_check_partial P L (n := 1) (p := 1) (T := 2) one_pos (by norm_num) (by norm_num) (.dense fun _ _ => 1) trivial
      (fun _ _ => one) (fun _ _ => P.one) (fun _ => ![IEEE.of S (6 : ℕ), IEEE.of S (8 : ℕ)]) (fun _ => ![((6 : ℕ) : ℝ), ((8 : ℕ) : ℝ)])
      (fun _ => hy) (IEEE.of S (11 : ℕ)) _ (hnat 11 (by norm_num)) (by norm_num)
      (fun _ _ => zero) (fun _ => 0) (fun _ _ => den_zero) (fun _ => Or.inl rfl) (fun _ _ => zero) (fun _ _ => 0) (fun _ _ => den_zero)
      (fun j => by rw [hs2]; norm_num) (fun _ => 0)
      (fun j => by
        have h3 := l21Score_dist (T := 2) (α := ((11 : ℕ) : ℝ)) (by norm_num) 0 (WithLp.toLp 2 ![-6, -8] : Euc 2)
        rw [hg2]
        have h4 : l21Score ((11 : ℕ) : ℝ) 0 (WithLp.toLp 2 ![-6, -8] : Euc 2) = 0 := by
          unfold l21Score
          rw [if_pos rfl, h68]
          norm_num
        rwa [h4] at h3)
  have hm := (h2 one 1 P.one).2 (fun j => by
    rw [hs2]
    norm_num)
  obtain ⟨log, h3, h4⟩ := C83_zero srt (⟨10, 50, 1000, one, 5, true, false⟩ : Solver (IEEE binary64 S)) _ _ _ _ m h1 hm
  refine ⟨_, log, h3, ?_⟩
  have := C83_run_gap_partial P L (n := 1) (p := 1) (T := 2) one_pos (by norm_num) (by norm_num) (.dense fun _ _ => 1) trivial
      (fun _ _ => one) (fun _ _ => P.one) (fun _ => ![IEEE.of S (6 : ℕ), IEEE.of S (8 : ℕ)]) (fun _ => ![((6 : ℕ) : ℝ), ((8 : ℕ) : ℝ)])
      (fun _ => hy) (IEEE.of S (11 : ℕ)) _ (hnat 11 (by norm_num)) (by norm_num) srt
      (⟨10, 50, 1000, one, 5, true, false⟩ : Solver (IEEE binary64 S)) 1 P.one _ log h3 (by rw [h4]; norm_num)
      (fun _ _ => zero) (fun _ => 0) rfl (fun _ _ => den_zero) (fun _ => Or.inl rfl) (fun _ _ => zero) (fun _ _ => 0) rfl
      (fun _ _ => den_zero) (fun j => by rw [hs2]; norm_num) U
  refine this.trans ?_
  have hdr : mtDrift (Design.dense fun (_ : Fin 1) (_ : Fin 1) => (1 : ℝ)).matrix (fun _ => (0 : Euc 2)) (fun _ _ => 0) default = 0 := by
    unfold mtDrift
    rw [norm_eq_zero]
    ext t
    simp [mtRowGrad, fitMT]
  simp only [Finset.univ_unique, Finset.sum_singleton]
  rw [hs2, hdr, zero_sub, norm_neg]
  refine mul_le_mul_of_nonneg_right ?_ (norm_nonneg _)
  norm_num

end Sglm
