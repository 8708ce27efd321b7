import Verif.Proofs.PySim
import Mathlib.MeasureTheory.Integral.Bochner.Basic
import Mathlib.Data.Set.Card
import Mathlib.MeasureTheory.Integral.IntegrableOn
import Mathlib.Probability.Distributions.Gaussian.Real
import Mathlib.Probability.Independence.InfinitePi
import Mathlib.Probability.Independence.Integration

/-!
# C66: `make_correlated_data` generates data as documented

Signal to noise ratio, density of the coefficients, correlation of the features.
-/

namespace Sglm
open Scalar MeasureTheory
variable {n p T : ℕ}

/-- The documented shapes of the outcome: arrays with one axis for one task. -/
noncomputable def simOut (X : Fin n → Fin p → ℝ) (Y : Fin n → Fin T → ℝ) (W : Fin p → Fin T → ℝ) : SimData XR :=
  if h : T = 1 then ⟨mat X, .one (vec fun i => Y i ⟨0, by omega⟩), .one (vec fun j => W j ⟨0, by omega⟩)⟩
  else ⟨mat X, .two (mat Y), .two (mat W)⟩

theorem flatten_one {m : ℕ} (Y : Fin m → Fin 1 → ℝ) : (mat Y).rows.flatten = vec fun i => Y i 0 := by
  unfold mat vec
  dsimp only
  induction m with
  | zero => rfl
  | succ m ih =>
    rw [List.ofFn_succ, List.flatten_cons, ih (fun i => Y i.succ), List.ofFn_succ (f := fun i => XR.fin (Y i 0))]
    rfl

theorem simOut_eq (X : Fin n → Fin p → ℝ) (Y : Fin n → Fin T → ℝ) (W : Fin p → Fin T → ℝ) :
    (if T = 1 then pure ⟨mat X, .one (PyTargets.flat (.two (mat Y))), .one (PyCoef.flat (.two (mat W)))⟩
      else pure ⟨mat X, .two (mat Y), .two (mat W)⟩ : Except PyExc (SimData XR)) = .ok (simOut X Y W) := by
  unfold simOut
  by_cases h : T = 1
  · subst h
    rw [if_pos rfl, dif_pos rfl]
    show Except.ok (SimData.mk _ (PyTargets.one (mat Y).rows.flatten) (PyCoef.one (mat W).rows.flatten)) = _
    rw [flatten_one, flatten_one]
    rfl
  · rw [if_neg h, dif_neg h]
    rfl

/-- `int(x)` for a nonnegative number. -/
def TruncSpec (trunc : XR → ℕ) : Prop := ∀ x : ℝ, 0 ≤ x → trunc (XR.fin x) = ⌊x⌋₊

/-- The call after the arguments have been checked. -/
theorem make_eq (trunc : XR → ℕ) {r : Rng XR} {z : ℕ → ℝ} (hz : ∀ k, r.normal k = XR.fin (z k)) (hp : 0 < p) {ρ d : ℝ}
    (hρ0 : 0 ≤ ρ) (hρ1 : ρ < 1) (hd0 : 0 < d) (hd1 : d ≤ 1) (snr : XR) (wTrue : Option (PyCoef XR)) :
    Py.makeCorrelatedData trunc r n p T (XR.fin ρ) snr (XR.fin d) wTrue = (match wTrue with
      | none => do
        let W ← Py.numpyErr .indexError (Py.simCoef r (n * p) p T (trunc (XR.fin (d * p))))
        Py.simTargets r (n * p + trunc (XR.fin (d * p)) * T) n T snr (mat (simX z n p ρ)) (.two W)
      | some w => Py.simTargets r (n * p) n T snr (mat (simX z n p ρ)) w) := by
  have h1 : (((zero : XR) <=. XR.fin ρ) && (XR.fin ρ <. (one : XR))) = true := by
    have a : ((zero : XR) <=. XR.fin ρ) = decide (0 ≤ ρ) := XR.s_le _ _
    have b : (XR.fin ρ <. (one : XR)) = decide (ρ < 1) := XR.s_lt _ _
    rw [a, b, decide_eq_true hρ0, decide_eq_true hρ1]; rfl
  have h2 : (((zero : XR) <. XR.fin d) && (XR.fin d <=. (one : XR))) = true := by
    have a : ((zero : XR) <. XR.fin d) = decide (0 < d) := XR.s_lt _ _
    have b : (XR.fin d <=. (one : XR)) = decide (d ≤ 1) := XR.s_le _ _
    rw [a, b, decide_eq_true hd0, decide_eq_true hd1]; rfl
  unfold Py.makeCorrelatedData
  rw [h1, h2, simDesign_eq hz hp hρ0 hρ1, XR.s_ofNat, XR.s_mul]
  cases wTrue <;> rfl

/-- The targets: signal plus scaled noise. -/
theorem targets_eq {r : Rng XR} {z : ℕ → ℝ} (hz : ∀ k, r.normal k = XR.fin (z k)) (X : Fin n → Fin p → ℝ) (W : Fin p → Fin T → ℝ)
    (k : ℕ) {s : ℝ} (hs : 0 < s) (hZ : ∃ (i : Fin n) (t : Fin T), z (k + i * T + t) ≠ 0) :
    ∃ Y : Fin n → Fin T → ℝ, Py.simTargets r k n T (XR.fin s) (mat X) (.two (mat W)) = .ok (simOut X Y W) ∧
      ∑ i, ∑ t, (∑ j, X i j * W j t) ^ 2 = s ^ 2 * ∑ i, ∑ t, (Y i t - ∑ j, X i j * W j t) ^ 2 ∧
      ∃ c, 0 ≤ c ∧ ∀ i t, Y i t = ∑ j, X i j * W j t + c * z (k + i * T + t) := by
  obtain ⟨S, hS⟩ : ∃ S : Fin n → Fin T → ℝ, S = fun i t => ∑ j, X i j * W j t := ⟨_, rfl⟩
  obtain ⟨Z, hZdef⟩ : ∃ Z : Fin n → Fin T → ℝ, Z = fun (i : Fin n) (t : Fin T) => z (k + i * T + t) := ⟨_, rfl⟩
  have hq : 0 < ∑ i, ∑ t, Z i t ^ 2 := by
    obtain ⟨i, t, h⟩ := hZ
    refine lt_of_lt_of_le (b := ∑ t, Z i t ^ 2) ?_
      (Finset.single_le_sum (f := fun i => ∑ t, Z i t ^ 2) (fun i _ => Finset.sum_nonneg fun _ _ => sq_nonneg _) (Finset.mem_univ i))
    refine lt_of_lt_of_le (b := Z i t ^ 2) ?_ (Finset.single_le_sum (f := fun t => Z i t ^ 2) (fun _ _ => sq_nonneg _) (Finset.mem_univ t))
    rw [hZdef]
    positivity
  have hnn : Real.sqrt (∑ i, ∑ t, Z i t ^ 2) ≠ 0 := (Real.sqrt_pos.mpr hq).ne'
  obtain ⟨a, ha⟩ : ∃ a, a = Real.sqrt (∑ i, ∑ t, S i t ^ 2) := ⟨_, rfl⟩
  refine ⟨fun i t => S i t + Z i t / Real.sqrt (∑ i, ∑ t, Z i t ^ 2) * a / s, ?_, ?_, a / (Real.sqrt (∑ i, ∑ t, Z i t ^ 2) * s), ?_, fun i t => ?_⟩
  · have hb : (XR.fin s ==. (inf : XR)) = false := rfl
    unfold Py.simTargets
    rw [matmul_mat, hb]
    dsimp only [bind, Except.bind]
    rw [Bool.not_false, if_pos rfl]
    show Except.bind (Py.addNoise (.two (mat fun i t => ∑ j, X i j * W j t)) (Py.simNoise (Py.randn2 r k n T)
      (Py.frob (mat fun i t => ∑ j, X i j * W j t).rows.flatten) (XR.fin s))) _ = _
    rw [← hS, frob_flat, ← ha, randn2_eq hz, ← hZdef, simNoise_eq Z hs.ne' hnn, addNoise_eq]
    exact simOut_eq _ _ _
  · have e1 : (∑ i, ∑ t, (∑ j, X i j * W j t) ^ 2) = a ^ 2 := by
      rw [ha, Real.sq_sqrt (Finset.sum_nonneg fun _ _ => Finset.sum_nonneg fun _ _ => sq_nonneg _), hS]
    have e2 : ∀ i t, (S i t + Z i t / Real.sqrt (∑ i, ∑ t, Z i t ^ 2) * a / s - ∑ j, X i j * W j t) ^ 2 =
        Z i t ^ 2 * (a ^ 2 / ((∑ i, ∑ t, Z i t ^ 2) * s ^ 2)) := fun i t => by
      have e3 : S i t - ∑ j, X i j * W j t = 0 := by rw [hS, sub_self]
      rw [show S i t + Z i t / Real.sqrt (∑ i, ∑ t, Z i t ^ 2) * a / s - ∑ j, X i j * W j t =
        Z i t * a / (Real.sqrt (∑ i, ∑ t, Z i t ^ 2) * s) + (S i t - ∑ j, X i j * W j t) by field_simp; ring, e3, add_zero,
        div_pow, mul_pow, mul_pow, Real.sq_sqrt hq.le]
      ring
    simp only [e2, ← Finset.sum_mul]
    rw [e1]
    field_simp
  · rw [ha]
    positivity
  · rw [hS, hZdef]
    ring

/-- **Fresh noise**: the design matrix and the coefficients depend on the first `m` draws only, the noise is a nonnegative multiple of the
draws which follow. -/
theorem C66_noise (trunc : XR → ℕ) (htr : TruncSpec trunc) (r r' : Rng XR) (hr : r.Spec) (hch : r.choice = r'.choice) (z z' : ℕ → ℝ)
    (hz : ∀ k, r.normal k = XR.fin (z k)) (hz' : ∀ k, r'.normal k = XR.fin (z' k)) (hz0 : ∀ k, z k ≠ 0) (hz0' : ∀ k, z' k ≠ 0)
    (hn : 0 < n) (hp : 0 < p) (hT : 0 < T) (ρ s d : ℝ) (hρ0 : 0 ≤ ρ) (hρ1 : ρ < 1) (hd0 : 0 < d) (hd1 : d ≤ 1) (hs : 0 < s)
    (m : ℕ) (hm : m = n * p + ⌊d * p⌋₊ * T) (hzz : ∀ k < m, z k = z' k) :
    ∃ (X : Fin n → Fin p → ℝ) (Y Y' : Fin n → Fin T → ℝ) (W : Fin p → Fin T → ℝ) (c c' : ℝ),
      Py.makeCorrelatedData trunc r n p T (XR.fin ρ) (XR.fin s) (XR.fin d) none = .ok (simOut X Y W) ∧
      Py.makeCorrelatedData trunc r' n p T (XR.fin ρ) (XR.fin s) (XR.fin d) none = .ok (simOut X Y' W) ∧ 0 ≤ c ∧ 0 ≤ c' ∧
      ∀ i t, Y i t = ∑ j, X i j * W j t + c * z (m + i * T + t) ∧ Y' i t = ∑ j, X i j * W j t + c' * z' (m + i * T + t) := by
  have hdp : 0 ≤ d * p := by positivity
  have hnnz : ⌊d * (p : ℝ)⌋₊ ≤ p := by
    refine Nat.floor_le_of_le ?_
    have : (0 : ℝ) ≤ p := by positivity
    nlinarith
  have hX : simX z n p ρ = simX z' n p ρ := simX_congr ρ fun k hk => hzz k (by omega)
  have hW : Py.simCoef r (n * p) p T ⌊d * (p : ℝ)⌋₊ = Py.simCoef r' (n * p) p T ⌊d * (p : ℝ)⌋₊ := by
    unfold Py.simCoef
    rw [hch, randn2_congr (r' := r') fun k _ hk => by rw [hz, hz', hzz k (by omega)]]
  obtain ⟨W, h1, -, -⟩ := simCoef_eq hr hz (n * p) T ⌊d * (p : ℝ)⌋₊ hnnz
  obtain ⟨Y, h2, -, c, h3, h4⟩ := targets_eq hz (simX z n p ρ) W m hs ⟨⟨0, hn⟩, ⟨0, hT⟩, hz0 _⟩
  obtain ⟨Y', h2', -, c', h3', h4'⟩ := targets_eq hz' (simX z n p ρ) W m hs ⟨⟨0, hn⟩, ⟨0, hT⟩, hz0' _⟩
  refine ⟨simX z n p ρ, Y, Y', W, c, c', ?_, ?_, h3, h3', fun i t => ⟨h4 i t, h4' i t⟩⟩
  · rw [make_eq trunc hz hp hρ0 hρ1 hd0 hd1, htr _ hdp]
    dsimp only
    rw [h1, ← hm]
    exact h2
  · rw [make_eq trunc hz' hp hρ0 hρ1 hd0 hd1, htr _ hdp]
    dsimp only
    rw [← hW, h1, ← hX, ← hm]
    exact h2'

/-- **Generated coefficients**: exactly `int(density * n_features)` features have nonzero coefficients, and the noise
`y - X w` satisfies `‖X w‖ = snr ‖y - X w‖`.  (No draw is zero, which happens with probability one.) -/
theorem C66_generated (trunc : XR → ℕ) (htr : TruncSpec trunc) (r : Rng XR) (hr : r.Spec) (z : ℕ → ℝ)
    (hz : ∀ k, r.normal k = XR.fin (z k)) (hz0 : ∀ k, z k ≠ 0) (hn : 0 < n) (hp : 0 < p) (hT : 0 < T) (ρ s d : ℝ) (hρ0 : 0 ≤ ρ)
    (hρ1 : ρ < 1) (hd0 : 0 < d) (hd1 : d ≤ 1) (hs : 0 < s) :
    ∃ (X : Fin n → Fin p → ℝ) (Y : Fin n → Fin T → ℝ) (W : Fin p → Fin T → ℝ),
      Py.makeCorrelatedData trunc r n p T (XR.fin ρ) (XR.fin s) (XR.fin d) none = .ok (simOut X Y W) ∧
      {j | ∃ t, W j t ≠ 0}.ncard = ⌊d * p⌋₊ ∧ {j | ∃ t, W j t ≠ 0} = {j | ∀ t, W j t ≠ 0} ∧
      ∑ i, ∑ t, (∑ j, X i j * W j t) ^ 2 = s ^ 2 * ∑ i, ∑ t, (Y i t - ∑ j, X i j * W j t) ^ 2 := by
  have hdp : 0 ≤ d * p := by positivity
  have hnnz : ⌊d * (p : ℝ)⌋₊ ≤ p := by
    refine Nat.floor_le_of_le ?_
    have : (0 : ℝ) ≤ p := by positivity
    nlinarith
  obtain ⟨W, h1, h2, h3⟩ := simCoef_eq hr hz (n * p) T ⌊d * (p : ℝ)⌋₊ hnnz
  obtain ⟨Y, h4, h5, -⟩ := targets_eq hz (simX z n p ρ) W (n * p + ⌊d * (p : ℝ)⌋₊ * T) hs ⟨⟨0, hn⟩, ⟨0, hT⟩, hz0 _⟩
  have h6 : ∀ j : Fin p, (∃ t, W j t ≠ 0) ↔ (j : ℕ) ∈ r.choice p ⌊d * (p : ℝ)⌋₊ := fun j => by
    constructor
    · rintro ⟨t, ht⟩
      by_contra hj
      exact ht (by rw [h2 j hj]; rfl)
    · intro hj
      obtain ⟨c, hc⟩ := h3 j hj
      exact ⟨⟨0, hT⟩, by rw [hc]; exact hz0 _⟩
  refine ⟨simX z n p ρ, Y, W, ?_, ?_, ?_, h5⟩
  · rw [make_eq trunc hz hp hρ0 hρ1 hd0 hd1, htr _ hdp]
    dsimp only
    rw [h1]
    exact h4
  · obtain ⟨h7, h8, h9⟩ := hr p _ hnnz
    have e : {j : Fin p | ∃ t, W j t ≠ 0} = ↑((r.choice p ⌊d * (p : ℝ)⌋₊).attach.map (fun j => (⟨j.1, h9 j.1 j.2⟩ : Fin p))).toFinset := by
      ext j
      simp only [Set.mem_ofPred_eq, h6, List.coe_toFinset, List.mem_map, List.mem_attach, true_and, Subtype.exists]
      constructor
      · intro hj
        exact ⟨j, hj, rfl⟩
      · rintro ⟨a, ha, rfl⟩
        exact ha
    rw [e, Set.ncard_coe_finset, List.toFinset_card_of_nodup, List.length_map, List.length_attach, h7]
    refine List.Nodup.map (fun a b hab => Subtype.ext (by simpa using congrArg Fin.val hab)) (List.nodup_attach.mpr h8)
  · ext j
    constructor
    · intro h t
      obtain ⟨c, hc⟩ := h3 j ((h6 j).mp h)
      rw [hc]; exact hz0 _
    · intro h
      exact ⟨⟨0, hT⟩, h _⟩

/-- **Coefficients given** as an array of shape `(n_features, n_tasks)`: they are returned, and the signal to noise ratio is right. -/
theorem C66_given_partial (trunc : XR → ℕ) (r : Rng XR) (z : ℕ → ℝ) (hz : ∀ k, r.normal k = XR.fin (z k)) (hz0 : ∀ k, z k ≠ 0)
    (hn : 0 < n) (hp : 0 < p) (hT : 0 < T) (ρ s d : ℝ) (hρ0 : 0 ≤ ρ) (hρ1 : ρ < 1) (hd0 : 0 < d) (hd1 : d ≤ 1) (hs : 0 < s)
    (W : Fin p → Fin T → ℝ) :
    ∃ (X : Fin n → Fin p → ℝ) (Y : Fin n → Fin T → ℝ),
      Py.makeCorrelatedData trunc r n p T (XR.fin ρ) (XR.fin s) (XR.fin d) (some (.two (mat W))) = .ok (simOut X Y W) ∧
      ∑ i, ∑ t, (∑ j, X i j * W j t) ^ 2 = s ^ 2 * ∑ i, ∑ t, (Y i t - ∑ j, X i j * W j t) ^ 2 := by
  obtain ⟨Y, h4, h5, -⟩ := targets_eq hz (simX z n p ρ) W (n * p) hs ⟨⟨0, hn⟩, ⟨0, hT⟩, hz0 _⟩
  refine ⟨simX z n p ρ, Y, ?_, h5⟩
  rw [make_eq trunc hz hp hρ0 hρ1 hd0 hd1]
  exact h4

/-- **No noise** for `snr = np.inf`: `y = X w`. -/
theorem C66_noiseless (trunc : XR → ℕ) (r : Rng XR) (z : ℕ → ℝ) (hz : ∀ k, r.normal k = XR.fin (z k))
    (hp : 0 < p) (ρ d : ℝ) (hρ0 : 0 ≤ ρ) (hρ1 : ρ < 1) (hd0 : 0 < d) (hd1 : d ≤ 1) (W : Fin p → Fin T → ℝ) :
    ∃ X : Fin n → Fin p → ℝ,
      Py.makeCorrelatedData trunc r n p T (XR.fin ρ) inf (XR.fin d) (some (.two (mat W))) =
        .ok (simOut X (fun i t => ∑ j, X i j * W j t) W) := by
  refine ⟨simX z n p ρ, ?_⟩
  rw [make_eq trunc hz hp hρ0 hρ1 hd0 hd1]
  have hb : ((inf : XR) ==. (inf : XR)) = true := rfl
  dsimp only
  unfold Py.simTargets
  rw [matmul_mat, hb]
  exact simOut_eq _ _ _

/-! ## Correlation -/

/-- Weight of the innovation of column `m` in column `j`. -/
noncomputable def arWeight (ρ σ : ℝ) (j m : ℕ) : ℝ := if m = 0 then ρ ^ j else σ * ρ ^ (j - m)

theorem arX_eq_sum (z : ℕ → ℝ) (n : ℕ) (ρ σ : ℝ) (i : ℕ) : ∀ j : ℕ,
    arX z n ρ σ i j = ∑ m ∈ Finset.range (j + 1), arWeight ρ σ j m * z (m * n + i) := by
  intro j
  induction j with
  | zero => simp [arX, arWeight]
  | succ j ih =>
    rw [Finset.sum_range_succ, arX, ih, Finset.sum_mul]
    congr 1
    · refine Finset.sum_congr rfl fun m hm => ?_
      have hm : m ≤ j := by simpa [Nat.lt_succ_iff] using hm
      unfold arWeight
      by_cases h : m = 0
      · rw [if_pos h, if_pos h, pow_succ]; ring
      · rw [if_neg h, if_neg h, show j + 1 - m = j - m + 1 by omega, pow_succ]; ring
    · unfold arWeight
      rw [if_neg (by omega), Nat.sub_self, pow_zero, mul_one]

theorem arWeight_sq {ρ σ : ℝ} (h : σ ^ 2 = 1 - ρ ^ 2) (j : ℕ) : ∑ m ∈ Finset.range (j + 1), arWeight ρ σ j m ^ 2 = 1 := by
  induction j with
  | zero => simp [arWeight]
  | succ j ih =>
    rw [Finset.sum_range_succ]
    have e : ∀ m ∈ Finset.range (j + 1), arWeight ρ σ (j + 1) m ^ 2 = ρ ^ 2 * arWeight ρ σ j m ^ 2 := fun m hm => by
      have hm : m ≤ j := by simpa [Nat.lt_succ_iff] using hm
      unfold arWeight
      by_cases h : m = 0
      · rw [if_pos h, if_pos h, pow_succ]; ring
      · rw [if_neg h, if_neg h, show j + 1 - m = j - m + 1 by omega, pow_succ]; ring
    rw [Finset.sum_congr rfl e, ← Finset.mul_sum, ih]
    unfold arWeight
    rw [if_neg (by omega), Nat.sub_self, pow_zero, mul_one, mul_one, h]
    ring

theorem arWeight_cov {ρ σ : ℝ} (h : σ ^ 2 = 1 - ρ ^ 2) (j e : ℕ) :
    ∑ m ∈ Finset.range (j + 1), arWeight ρ σ j m * arWeight ρ σ (j + e) m = ρ ^ e := by
  have e1 : ∀ m ∈ Finset.range (j + 1), arWeight ρ σ j m * arWeight ρ σ (j + e) m = ρ ^ e * arWeight ρ σ j m ^ 2 := fun m hm => by
    have hm : m ≤ j := by simpa [Nat.lt_succ_iff] using hm
    unfold arWeight
    by_cases h : m = 0
    · rw [if_pos h, if_pos h, pow_add]; ring
    · rw [if_neg h, if_neg h, show j + e - m = j - m + e by omega, pow_add]; ring
  rw [Finset.sum_congr rfl e1, ← Finset.mul_sum, arWeight_sq h, mul_one]

section Moments
variable {Ω : Type} [MeasurableSpace Ω] {μ : Measure Ω}

/-- Standard normal draws, as far as moments of order two go: centred, of variance one, uncorrelated. -/
structure Standard (z : ℕ → Ω → ℝ) (μ : Measure Ω) : Prop where
  int : ∀ k, Integrable (z k) μ
  int2 : ∀ k l, Integrable (fun ω => z k ω * z l ω) μ
  mean : ∀ k, ∫ ω, z k ω ∂μ = 0
  cov : ∀ k l, ∫ ω, z k ω * z l ω ∂μ = if k = l then 1 else 0

/-- Independent standard normal draws. -/
theorem standard_of_gaussian {z : ℕ → Ω → ℝ} (hm : ∀ k, Measurable (z k)) (hi : ProbabilityTheory.iIndepFun z μ)
    (hl : ∀ k, μ.map (z k) = ProbabilityTheory.gaussianReal 0 1) : Standard z μ := by
  have h2 : ∀ k, MemLp (z k) 2 μ := fun k => by
    have := ProbabilityTheory.memLp_id_gaussianReal (μ := 0) (v := 1) 2
    rw [← hl k, memLp_map_measure_iff (by fun_prop) (hm k).aemeasurable] at this
    exact this
  have hp : IsProbabilityMeasure μ := by
    have : IsProbabilityMeasure (μ.map (z 0)) := by rw [hl]; infer_instance
    exact (Measure.isProbabilityMeasure_map_iff (hm 0).aemeasurable).mp this
  have h0 : ∀ k, ∫ ω, z k ω ∂μ = 0 := fun k => by
    have := ProbabilityTheory.integral_id_gaussianReal (μ := 0) (v := 1)
    rwa [← hl k, integral_map (hm k).aemeasurable (by fun_prop)] at this
  refine ⟨fun k => (h2 k).integrable (by norm_num), fun k l => (h2 k).integrable_mul (h2 l), h0, fun k l => ?_⟩
  by_cases h : k = l
  · subst h
    rw [if_pos rfl]
    have h3 := ProbabilityTheory.variance_fun_id_gaussianReal (μ := 0) (v := 1)
    rw [ProbabilityTheory.variance_of_integral_eq_zero (by fun_prop) ProbabilityTheory.integral_id_gaussianReal, ← hl k,
      integral_map (hm k).aemeasurable (by fun_prop)] at h3
    simpa [pow_two] using h3
  · rw [if_neg h, (hi.indepFun h).integral_fun_mul_eq_mul_integral (hm k).aestronglyMeasurable (hm l).aestronglyMeasurable, h0,
      zero_mul]

theorem Standard.sum_mean {z : ℕ → Ω → ℝ} (h : Standard z μ) (s : Finset ℕ) (a : ℕ → ℝ) (f : ℕ → ℕ) :
    ∫ ω, ∑ m ∈ s, a m * z (f m) ω ∂μ = 0 := by
  rw [integral_finsetSum _ fun m _ => (h.int (f m)).const_mul (a m)]
  refine Finset.sum_eq_zero fun m _ => ?_
  rw [integral_const_mul, h.mean, mul_zero]

theorem Standard.sum_cov {z : ℕ → Ω → ℝ} (h : Standard z μ) (s t : Finset ℕ) (a b : ℕ → ℝ) (f g : ℕ → ℕ) :
    ∫ ω, (∑ m ∈ s, a m * z (f m) ω) * (∑ l ∈ t, b l * z (g l) ω) ∂μ =
      ∑ m ∈ s, ∑ l ∈ t, if f m = g l then a m * b l else 0 := by
  have e : ∀ ω, (∑ m ∈ s, a m * z (f m) ω) * (∑ l ∈ t, b l * z (g l) ω) =
      ∑ m ∈ s, ∑ l ∈ t, a m * b l * (z (f m) ω * z (g l) ω) := fun ω => by
    rw [Finset.sum_mul_sum]
    exact Finset.sum_congr rfl fun m _ => Finset.sum_congr rfl fun l _ => by ring
  simp only [e]
  rw [integral_finsetSum _ fun m _ => integrable_finsetSum _ fun l _ => (h.int2 _ _).const_mul _]
  refine Finset.sum_congr rfl fun m _ => ?_
  rw [integral_finsetSum _ fun l _ => (h.int2 _ _).const_mul _]
  refine Finset.sum_congr rfl fun l _ => ?_
  rw [integral_const_mul, h.cov]
  split_ifs <;> simp

theorem ar_cov {z : ℕ → Ω → ℝ} (h : Standard z μ) {ρ σ : ℝ} (hσ : σ ^ 2 = 1 - ρ ^ 2) (i i' : Fin n) (j e : ℕ) :
    ∫ ω, arX (fun k => z k ω) n ρ σ i j * arX (fun k => z k ω) n ρ σ i' (j + e) ∂μ = if i = i' then ρ ^ e else 0 := by
  simp only [arX_eq_sum]
  rw [h.sum_cov _ _ (arWeight ρ σ j) (arWeight ρ σ (j + e)) (fun m => m * n + i) (fun m => m * n + i')]
  by_cases hi : i = i'
  · subst hi
    rw [if_pos rfl, ← arWeight_cov hσ j e]
    refine Finset.sum_congr rfl fun m hm => ?_
    have hn : 0 < n := i.pos
    have e1 : ∀ l, (m * n + (i : ℕ) = l * n + i) ↔ m = l := fun l => by
      rw [Nat.add_right_cancel_iff]
      exact ⟨fun h => Nat.eq_of_mul_eq_mul_right hn h, fun h => by rw [h]⟩
    simp only [e1]
    rw [Finset.sum_ite_eq, if_pos]
    rw [Finset.mem_range] at hm ⊢
    omega
  · rw [if_neg hi]
    refine Finset.sum_eq_zero fun m _ => Finset.sum_eq_zero fun l _ => if_neg fun hml => hi ?_
    have e1 := congrArg (· % n) hml
    simp only [Nat.mul_add_mod_self_right, Nat.mod_eq_of_lt i.isLt, Nat.mod_eq_of_lt i'.isLt] at e1
    exact Fin.ext e1

/-- **Correlation**: features have mean zero and variance one, features `j` and `j'` of a sample have correlation
`corr^|j - j'|`, different samples are uncorrelated. -/
theorem C66_correlation (trunc : XR → ℕ) (htr : TruncSpec trunc) (choice : ℕ → ℕ → List ℕ) (z : ℕ → Ω → ℝ) (hz : Standard z μ)
    (hr : ∀ f : ℕ → XR, Rng.Spec ⟨f, choice⟩) (hp : 0 < p) (ρ d : ℝ) (hρ0 : 0 ≤ ρ) (hρ1 : ρ < 1) (hd0 : 0 < d) (hd1 : d ≤ 1) :
    ∃ X : Ω → Fin n → Fin p → ℝ,
      (∀ ω, ∃ W : Fin p → Fin T → ℝ, Py.makeCorrelatedData trunc ⟨fun k => XR.fin (z k ω), choice⟩ n p T (XR.fin ρ) inf (XR.fin d) none =
        .ok (simOut (X ω) (fun i t => ∑ j, X ω i j * W j t) W)) ∧
      (∀ i j, ∫ ω, X ω i j ∂μ = 0) ∧
      ∀ i i' j j', ∫ ω, X ω i j * X ω i' j' ∂μ = if i = i' then ρ ^ (max (j : ℕ) j' - min (j : ℕ) j') else 0 := by
  refine ⟨fun ω => simX (fun k => z k ω) n p ρ, fun ω => ?_, fun i j => ?_, fun i i' j j' => ?_⟩
  · have hdp : 0 ≤ d * p := by positivity
    have hnnz : ⌊d * (p : ℝ)⌋₊ ≤ p := by
      refine Nat.floor_le_of_le ?_
      have : (0 : ℝ) ≤ p := by positivity
      nlinarith
    obtain ⟨W, h1, -, -⟩ := simCoef_eq (r := ⟨fun k => XR.fin (z k ω), choice⟩) (hr _) (z := fun k => z k ω) (fun _ => rfl)
      (n * p) T ⌊d * (p : ℝ)⌋₊ hnnz
    refine ⟨W, ?_⟩
    rw [make_eq (z := fun k => z k ω) trunc (fun _ => rfl) hp hρ0 hρ1 hd0 hd1, htr _ hdp]
    have hb : ((inf : XR) ==. (inf : XR)) = true := rfl
    dsimp only
    rw [h1]
    dsimp only [Py.numpyErr, bind, Except.bind]
    unfold Py.simTargets
    rw [matmul_mat, hb]
    exact simOut_eq _ _ _
  · unfold simX
    by_cases h0 : ρ = 0
    · simp only [if_pos h0, hz.mean]
    · simp only [if_neg h0, arX_eq_sum]
      exact hz.sum_mean _ _ _
  · unfold simX
    by_cases h0 : ρ = 0
    · simp only [if_pos h0, hz.cov]
      have e1 : ((i : ℕ) * p + j = i' * p + j') ↔ (i = i' ∧ j = j') := by
        constructor
        · intro h
          have e1 := congrArg (· % p) h
          simp only [Nat.mul_add_mod_self_right, Nat.mod_eq_of_lt j.isLt, Nat.mod_eq_of_lt j'.isLt] at e1
          rw [e1, Nat.add_right_cancel_iff] at h
          exact ⟨Fin.ext (Nat.eq_of_mul_eq_mul_right hp h), Fin.ext e1⟩
        · rintro ⟨rfl, rfl⟩; rfl
      by_cases hi : i = i'
      · by_cases hj : j = j'
        · rw [if_pos (e1.mpr ⟨hi, hj⟩), if_pos hi, hj]; simp
        · rw [if_neg (fun h => hj (e1.mp h).2), if_pos hi, h0, zero_pow]
          have : (j : ℕ) ≠ j' := fun h => hj (Fin.ext h)
          omega
      · rw [if_neg (fun h => hi (e1.mp h).1), if_neg hi]
    · simp only [if_neg h0]
      have hσ : Real.sqrt (1 - ρ * ρ) ^ 2 = 1 - ρ ^ 2 := by rw [Real.sq_sqrt (by nlinarith), pow_two]
      rcases le_total (j : ℕ) j' with h | h
      · obtain ⟨e, he⟩ := Nat.exists_eq_add_of_le h
        rw [he, max_eq_right (by omega), min_eq_left (by omega), Nat.add_sub_cancel_left]
        exact ar_cov hz hσ i i' j e
      · obtain ⟨e, he⟩ := Nat.exists_eq_add_of_le h
        rw [he, max_eq_left (by omega), min_eq_right (by omega), Nat.add_sub_cancel_left]
        simp only [mul_comm (arX _ n ρ _ i _)]
        rw [ar_cov hz hσ i' i j' e]
        simp only [eq_comm]

end Moments

/-! ## Rejected arguments -/

/-- Arguments `corr` outside `[0, 1)` and `density` outside `(0, 1]` (and NaN) are rejected with a `ValueError`; nothing is drawn. -/
theorem C66_rejects {F : Type} [Scalar F] (trunc : F → ℕ) (r : Rng F) (n p T : ℕ) (corr snr density : F) (w : Option (PyCoef F)) :
    (((zero <=. corr) && (corr <. one)) = false →
      Py.makeCorrelatedData trunc r n p T corr snr density w = .error (.valueError "corr")) ∧
    (((zero <=. corr) && (corr <. one)) = true → ((zero <. density) && (density <=. one)) = false →
      Py.makeCorrelatedData trunc r n p T corr snr density w = .error (.valueError "density")) := by
  constructor
  · intro h
    unfold Py.makeCorrelatedData
    rw [h]; rfl
  · intro h1 h2
    unfold Py.makeCorrelatedData
    rw [h1, h2]; rfl

/-- The documentation: `w_true` is an array of shape `(n_features,)`, and the call returns targets of shape `(n_samples,)`. -/
def C66_full : Prop := ∀ (trunc : XR → ℕ), TruncSpec trunc → ∀ (r : Rng XR), r.Spec → ∀ z : ℕ → ℝ, (∀ k, r.normal k = XR.fin (z k)) →
  (∀ k, z k ≠ 0) → ∀ (n p : ℕ), 0 < n → 0 < p → ∀ (ρ s d : ℝ), 0 ≤ ρ → ρ < 1 → 0 < d → d ≤ 1 → 0 < s → ∀ w : Fin p → ℝ,
    ∃ (X : Fin n → Fin p → ℝ) (y : Fin n → ℝ),
      Py.makeCorrelatedData trunc r n p 1 (XR.fin ρ) (XR.fin s) (XR.fin d) (some (.one (vec w))) = .ok ⟨mat X, .one (vec y), .one (vec w)⟩

/-- Coefficients of the documented shape `(n_features,)` are a `ValueError`, whatever their values: `Y += noise` would change the shape. -/
theorem C66_one_axis (trunc : XR → ℕ) (r : Rng XR) (z : ℕ → ℝ) (hz : ∀ k, r.normal k = XR.fin (z k)) (hp : 0 < p) (ρ s d : ℝ)
    (hρ0 : 0 ≤ ρ) (hρ1 : ρ < 1) (hd0 : 0 < d) (hd1 : d ≤ 1) (w : Fin p → ℝ) :
    Py.makeCorrelatedData trunc r n p T (XR.fin ρ) (XR.fin s) (XR.fin d) (some (.one (vec w))) = .error (.valueError "broadcast") := by
  rw [make_eq trunc hz hp hρ0 hρ1 hd0 hd1]
  have hb : (XR.fin s ==. (inf : XR)) = false := rfl
  have hm : Py.matmul (mat (simX z n p ρ)) (.one (vec w)) = .ok (.one ((mat (simX z n p ρ)).rows.map fun r => Scalar.dot r (vec w))) := by
    unfold Py.matmul
    dsimp only
    rw [if_pos (by rw [mat_ncols, vec_length])]
  dsimp only
  unfold Py.simTargets
  rw [hm, hb]
  rfl

/-! ## Examples -/

/-- A generator whose draws are `1, 1/2, 1/3, …`. -/
noncomputable def exRng : Rng XR := ⟨fun k => XR.fin (1 / (k + 1)), fun _ k => List.range k⟩

theorem exRng_spec (f : ℕ → XR) : Rng.Spec ⟨f, fun _ k => List.range k⟩ := fun _ _ hk =>
  ⟨List.length_range, List.nodup_range, fun _ hj => lt_of_lt_of_le (List.mem_range.mp hj) hk⟩

/-- `int` over the extended reals. -/
noncomputable def exTrunc : XR → ℕ
  | .fin x => ⌊x⌋₊
  | _ => 0

theorem exTrunc_spec : TruncSpec exTrunc := fun _ _ => rfl

theorem C66_false : ¬ C66_full := by
  intro h
  obtain ⟨X, y, h1⟩ := h exTrunc exTrunc_spec exRng (exRng_spec _) (fun k => 1 / (k + 1)) (fun _ => rfl)
    (fun k => by positivity) 2 3 two_pos three_pos (1 / 2) 3 (1 / 2) (by norm_num) (by norm_num) (by norm_num) (by norm_num) three_pos
    ![1, 0, 2]
  rw [C66_one_axis exTrunc exRng (fun k => 1 / (k + 1)) (fun _ => rfl) three_pos (1 / 2) 3 (1 / 2) (by norm_num) (by norm_num)
    (by norm_num) (by norm_num)] at h1
  cases h1

-- 3 features with density 0.7: two nonzero coefficients
example : ∃ (X : Fin 2 → Fin 3 → ℝ) (Y : Fin 2 → Fin 1 → ℝ) (W : Fin 3 → Fin 1 → ℝ),
    Py.makeCorrelatedData exTrunc exRng 2 3 1 (XR.fin (1 / 2)) (XR.fin 3) (XR.fin (7 / 10)) none = .ok (simOut X Y W) ∧
    {j | ∃ t, W j t ≠ 0}.ncard = 2 ∧
    ∑ i, ∑ t, (∑ j, X i j * W j t) ^ 2 = 3 ^ 2 * ∑ i, ∑ t, (Y i t - ∑ j, X i j * W j t) ^ 2 := by
  obtain ⟨X, Y, W, h1, h2, -, h3⟩ := C66_generated exTrunc exTrunc_spec exRng (exRng_spec _) (fun k => 1 / (k + 1)) (fun _ => rfl)
    (fun k => by positivity) (n := 2) (p := 3) (T := 1) two_pos three_pos one_pos (1 / 2) 3 (7 / 10) (by norm_num) (by norm_num)
    (by norm_num) (by norm_num) three_pos
  refine ⟨X, Y, W, h1, h2.trans ?_, h3⟩
  rw [Nat.floor_eq_iff (by norm_num)]
  norm_num

-- two generators which differ from the ninth draw on: the same design and coefficients
example : ∃ (X : Fin 2 → Fin 3 → ℝ) (Y Y' : Fin 2 → Fin 1 → ℝ) (W : Fin 3 → Fin 1 → ℝ),
    Py.makeCorrelatedData exTrunc exRng 2 3 1 (XR.fin (1 / 2)) (XR.fin 3) (XR.fin (7 / 10)) none = .ok (simOut X Y W) ∧
    Py.makeCorrelatedData exTrunc ⟨fun k => XR.fin (if k < 8 then 1 / (k + 1) else 2), fun _ k => List.range k⟩ 2 3 1 (XR.fin (1 / 2))
      (XR.fin 3) (XR.fin (7 / 10)) none = .ok (simOut X Y' W) := by
  have hf : ⌊(7 / 10 : ℝ) * (3 : ℕ)⌋₊ = 2 := by
    rw [Nat.floor_eq_iff (by norm_num)]
    norm_num
  obtain ⟨X, Y, Y', W, c, c', h1, h2, -⟩ := C66_noise exTrunc exTrunc_spec exRng
    ⟨fun k => XR.fin (if k < 8 then 1 / (k + 1) else 2), fun _ k => List.range k⟩ (exRng_spec _) rfl (fun k => 1 / (k + 1))
    (fun k => if k < 8 then 1 / (k + 1) else 2) (fun _ => rfl) (fun _ => rfl) (fun k => by positivity)
    (fun k => by split <;> positivity) (n := 2) (p := 3) (T := 1) two_pos three_pos one_pos (1 / 2) 3 (7 / 10) (by norm_num)
    (by norm_num) (by norm_num) (by norm_num) three_pos 8 (by rw [hf]) (fun k hk => by simp [hk])
  exact ⟨X, Y, Y', W, h1, h2⟩

-- coefficients of two tasks
example : ∃ (X : Fin 2 → Fin 2 → ℝ) (Y : Fin 2 → Fin 2 → ℝ),
    Py.makeCorrelatedData exTrunc exRng 2 2 2 (XR.fin 0) (XR.fin 3) (XR.fin 1) (some (.two (mat ![![1, 0], ![2, -1]]))) =
      .ok (simOut X Y ![![1, 0], ![2, -1]]) ∧
    ∑ i, ∑ t, (∑ j, X i j * (![![1, 0], ![2, -1]] : Fin 2 → Fin 2 → ℝ) j t) ^ 2 =
      3 ^ 2 * ∑ i, ∑ t, (Y i t - ∑ j, X i j * (![![1, 0], ![2, -1]] : Fin 2 → Fin 2 → ℝ) j t) ^ 2 :=
  C66_given_partial exTrunc exRng (fun k => 1 / (k + 1)) (fun _ => rfl) (fun k => by positivity) two_pos two_pos two_pos 0 3 1 le_rfl
    zero_lt_one one_pos le_rfl three_pos _

example : ∃ X : Fin 2 → Fin 2 → ℝ, Py.makeCorrelatedData exTrunc exRng 2 2 1 (XR.fin (1 / 2)) inf (XR.fin 1)
    (some (.two (mat ![![1], ![2]]))) = .ok (simOut X (fun i t => ∑ j, X i j * (![![1], ![2]] : Fin 2 → Fin 1 → ℝ) j t) ![![1], ![2]]) :=
  C66_noiseless exTrunc exRng (fun k => 1 / (k + 1)) (fun _ => rfl) two_pos (1 / 2) 1 (by norm_num) (by norm_num) one_pos le_rfl _

/-- A sequence of independent standard normal draws. -/
theorem gaussian_draws : Standard (fun (k : ℕ) (ω : ℕ → ℝ) => ω k)
    (Measure.infinitePi fun _ : ℕ => ProbabilityTheory.gaussianReal 0 1) :=
  standard_of_gaussian (fun _ => by fun_prop)
    (ProbabilityTheory.iIndepFun_infinitePi (X := fun (_ : ℕ) (x : ℝ) => x) (fun _ => measurable_id))
    (fun k => Measure.infinitePi_map_eval _ k)

-- three features with correlation 1/2
example : ∃ X : (ℕ → ℝ) → Fin 2 → Fin 3 → ℝ,
    (∀ ω, ∃ W : Fin 3 → Fin 1 → ℝ, Py.makeCorrelatedData exTrunc ⟨fun k => XR.fin (ω k), fun _ k => List.range k⟩ 2 3 1
      (XR.fin (1 / 2)) inf (XR.fin 1) none = .ok (simOut (X ω) (fun i t => ∑ j, X ω i j * W j t) W)) ∧
    ∫ ω, X ω 0 0 * X ω 0 2 ∂(Measure.infinitePi fun _ : ℕ => ProbabilityTheory.gaussianReal 0 1) = 1 / 4 := by
  obtain ⟨X, h1, -, h2⟩ := C66_correlation (n := 2) (p := 3) (T := 1) exTrunc exTrunc_spec (fun _ k => List.range k) _ gaussian_draws
    exRng_spec three_pos (1 / 2) 1 (by norm_num) (by norm_num) one_pos le_rfl
  exact ⟨X, h1, (h2 0 0 0 2).trans (by norm_num)⟩

example : Py.makeCorrelatedData exTrunc exRng 2 3 1 (XR.fin 1) (XR.fin 3) (XR.fin 1) none = .error (.valueError "corr") :=
  (C66_rejects _ _ _ _ _ _ _ _ _).1 (by
    have b : (XR.fin 1 <. (one : XR)) = decide ((1 : ℝ) < 1) := XR.s_lt _ _
    rw [b, decide_eq_false (lt_irrefl _), Bool.and_false])

end Sglm
