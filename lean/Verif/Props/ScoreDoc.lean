import Verif.Props.StepDoc
import Verif.Proofs.ScoreDoc

/-!
# C102: what `subdiff_distance` must return

The documentation of `Penalty::subdiff_distance` (`/repo/src/penalties/separable/mod.rs` lines 22-27) asks for the distances of the gradients
of the datafit to the subdifferentials of the penalty.  The solver needs the distances of the negative gradients (C99).  Exact
arithmetic; the contracts are those of C99, with arbitrary scores.
-/

namespace Sglm
open Scalar Spec
variable {n p : ℕ} {DM DF P : Type} [DesignMatrix XR DM] [Datafit XR DM DF] [Penalty XR P]
  {ds : Dataset DM XR} {df : DF} {pen : P} {f : (Fin n → ℝ) → ℝ} {X : Fin n → Fin p → ℝ} {L : Fin p → ℝ} {φ : ℝ → ℝ} {sc : ℝ → ℝ → ℝ}

/-- The documented scores. -/
noncomputable abbrev docScore (φ : ℝ → ℝ) (x g : ℝ) : ℝ := Metric.infDist g (frechetSubdiff φ x)

/-- The full claim: with a penalty which follows the documentation, a call which stops early is stationary up to the tolerance. -/
def C102_full : Prop :=
  ∀ (n p : ℕ) (DM DF P : Type) [DesignMatrix XR DM] [Datafit XR DM DF] [Penalty XR P] (ds : Dataset DM XR) (df : DF) (pen : P)
    (f : (Fin n → ℝ) → ℝ) (X : Fin n → Fin p → ℝ) (L : Fin p → ℝ) (φ : ℝ → ℝ), StorageOK ds.designMatrix X →
    LossOK f X L → DatafitOK ds df f X L → (∀ x, (frechetSubdiff φ x).Nonempty) → PenaltyScored pen φ (docScore φ) L →
    ∀ srt, ArgsortSpec srt → ∀ (cfg : Solver XR) (τ : ℝ), cfg.tolerance = XR.fin τ → ∀ v : Fin p → ℝ,
    CustomStops srt cfg ds df pen v → ∀ j, customViolation f X φ v j ≤ τ

/-- Least squares on the sample `x = 2`, `y = 1` with the penalty of slope `1` for positive and `2` for negative coefficients, written
after the documentation: for every tolerance the call stops at once with a zero coefficient, whose violation is `1`. -/
theorem C102_stops_at_zero {srt : Argsort XR} (hs : ArgsortSpec srt) (cfg : Solver XR) {τ : ℝ} (ht : cfg.tolerance = XR.fin τ)
    (hτ : 0 ≤ τ) (hi : 0 < cfg.maxIterations) :
    CustomStops (p := 1) srt cfg (⟨mat docX, Targets.one (vec docY)⟩ : Dataset (Mat XR) XR) (Quadratic.new : Quadratic XR)
      (DocScores.mk (⟨XR.fin 1, XR.fin 2⟩ : Asym XR)) (fun _ => 0) ∧
    customViolation (quadLoss docY) docX (asym 1 2) (fun _ => 0) 0 = 1 := by
  obtain ⟨R, -, hG, hsc, hm0, -, hrun⟩ := scored_run (dense_storageOK docX) doc_lossOK doc_datafit
    (docScores_ok (asym_penaltyOK zero_le_one zero_le_two (quadStep docX)))
  have h0 : ((R.viol (fun _ => 0) (List.finRange 1)).2 <=. cfg.tolerance) = true := by
    rw [ht]
    refine R.viol_le_of ?_ fun j => ?_
    · rcases hm0 with h | h
      · exact Or.inl h
      · exact Or.inr ⟨h, hτ⟩
    · rw [hsc, hG, doc_grad]
      refine le_trans (le_of_eq ?_) hτ
      rw [show (4 * (0 : ℝ) - 2) = -2 by norm_num]
      exact docScore_zero.1
  have h1 := R.run_zero (srt := srt) cfg h0
  refine ⟨⟨?_, ?_⟩, ?_⟩
  · rw [custom_solve (hrun hs cfg), h1]
    rfl
  · obtain ⟨st, df', log, h2, h3⟩ := custom_trace (fun cfg => hrun hs cfg) h1
    exact ⟨st, df', log, h2, by omega⟩
  · unfold customViolation
    rw [doc_grad, show (4 * (0 : ℝ) - 2) = -2 by norm_num]
    exact docScore_zero.2

theorem C102_false : ¬ C102_full := by
  intro h
  obtain ⟨h1, h2⟩ := C102_stops_at_zero argsortIns_spec ⟨10, 50, 1000, XR.fin (1 / 10 ^ 8), 5, false, false⟩ rfl (by norm_num) (by decide)
  have hp := asym_penaltyOK zero_le_one zero_le_two (quadStep docX)
  have h3 := h 1 1 (Mat XR) (Quadratic XR) (DocScores (Asym XR)) _ _ _ (quadLoss docY) docX (quadStep docX) (asym 1 2)
    (dense_storageOK docX) doc_lossOK doc_datafit hp.subdiff (docScores_ok hp) _ argsortIns_spec _ _ rfl _ h1 0
  rw [h2] at h3
  norm_num at h3

/-- **Whatever the scores**, the call returns (without acceleration, or with `0 < K ≤ ws_start_size` and at least `K` features). -/
theorem C102_returns (hX : StorageOK ds.designMatrix X) (hL : ∀ j, 0 ≤ L j) (hd : DatafitOK ds df f X L) (hp : PenaltyScored pen φ sc L)
    {srt : Argsort XR} (hs : ArgsortSpec srt) (cfg : Solver XR)
    (hacc : cfg.useAcceleration = true → 0 < cfg.K ∧ cfg.K ≤ cfg.wsStartSize ∧ cfg.K ≤ p) :
    ∃ v : Fin p → ℝ, cfg.solve srt ds df pen = .ok (vec v) := by
  obtain ⟨R, -, -, -, -, -, -, -, hrun⟩ := custom_scored hX hL hd hp
  obtain ⟨v, k, h⟩ := R.run_ok hs cfg (fun hu => by
    obtain ⟨h1, h2, h3⟩ := hacc hu
    exact ⟨h1, by show cfg.K ≤ cfg.wsStartSize * 1; omega, by show cfg.K ≤ p * 1; omega⟩)
  exact ⟨v, by rw [custom_solve (hrun hs cfg), h]; rfl⟩

/-- **Whatever the scores, the result is not worse than zero coefficients.** -/
theorem C102_not_worse (hX : StorageOK ds.designMatrix X) (hf : LossOK f X L) (hd : DatafitOK ds df f X L) (hp : PenaltyScored pen φ sc L)
    {srt : Argsort XR} (hs : ArgsortSpec srt) (cfg : Solver XR) (v : Fin p → ℝ) (hv : cfg.solve srt ds df pen = .ok (vec v)) :
    customObjective f X φ v ≤ customObjective f X φ 0 := by
  obtain ⟨R, hF, -, -, -, hM, hrun⟩ := scored_run hX hf hd hp
  obtain ⟨k, hk⟩ := custom_of_solve (hrun hs cfg) hv
  have := hM.run_le hs cfg v k hk
  rwa [hF, hF] at this

/-- **Scores which bound the distances up to a factor** `c` suffice: a call which stops early is stationary up to `c` times the
tolerance.  (With `c = 1`: upper bounds of the distances.) -/
theorem C102_bound (hX : StorageOK ds.designMatrix X) (hL : ∀ j, 0 ≤ L j) (hd : DatafitOK ds df f X L) (hp : PenaltyScored pen φ sc L)
    {c : ℝ} (hc : 0 ≤ c) (hb : ∀ x g, Metric.infDist (-g) (frechetSubdiff φ x) ≤ c * sc x g) {srt : Argsort XR} (hs : ArgsortSpec srt)
    (cfg : Solver XR) (τ : ℝ) (ht : cfg.tolerance = XR.fin τ) (v : Fin p → ℝ) (hv : CustomStops srt cfg ds df pen v) (j : Fin p) :
    customViolation f X φ v j ≤ c * τ := by
  obtain ⟨R, -, hG, -, hsc, -, -, -, hrun⟩ := custom_scored hX hL hd hp
  have h1 := scored_exit (fun cfg => hrun hs cfg) ht hv j
  rw [hsc, hG] at h1
  exact (hb _ _).trans (mul_le_mul_of_nonneg_left h1 hc)

/-- **Partial**: with a penalty which follows the documentation and is even, the violation of every zero coefficient of a call which
stops early is at most the tolerance; in particular a null result is stationary. -/
theorem C102_partial (hX : StorageOK ds.designMatrix X) (hL : ∀ j, 0 ≤ L j) (hd : DatafitOK ds df f X L)
    (hne : ∀ x, (frechetSubdiff φ x).Nonempty) (hp : PenaltyScored pen φ (docScore φ) L) (he : ∀ z, φ (-z) = φ z) {srt : Argsort XR}
    (hs : ArgsortSpec srt) (cfg : Solver XR) (τ : ℝ) (ht : cfg.tolerance = XR.fin τ) (v : Fin p → ℝ) (hv : CustomStops srt cfg ds df pen v)
    (j : Fin p) (hj : v j = 0) : customViolation f X φ v j ≤ τ := by
  obtain ⟨R, -, hG, -, hsc, -, -, -, hrun⟩ := custom_scored hX hL hd hp
  have h1 := scored_exit (fun cfg => hrun hs cfg) ht hv j
  rw [hsc, hG, hj] at h1
  unfold customViolation
  rw [hj, infDist_even he (hne 0)]
  exact h1

/-- **But nonzero coefficients are wrong**: with an L1 penalty which follows the documentation, the violation of every nonzero
coefficient of a call which stops early is at least `2 α - τ`. -/
theorem C102_nonzero (hX : StorageOK ds.designMatrix X) (hL : ∀ j, 0 ≤ L j) (hd : DatafitOK ds df f X L) {α : ℝ} (hα : 0 ≤ α)
    (hp : PenaltyScored pen (fun z => α * |z|) (docScore fun z => α * |z|) L) {srt : Argsort XR} (hs : ArgsortSpec srt)
    (cfg : Solver XR) (τ : ℝ) (ht : cfg.tolerance = XR.fin τ) (v : Fin p → ℝ) (hv : CustomStops srt cfg ds df pen v)
    (j : Fin p) (hj : v j ≠ 0) : 2 * α - τ ≤ customViolation f X (fun z => α * |z|) v j := by
  obtain ⟨R, -, hG, -, hsc, -, -, -, hrun⟩ := custom_scored hX hL hd hp
  have h1 := scored_exit (fun cfg => hrun hs cfg) ht hv j
  rw [hsc, hG, docScore, frechet_abs hα hj, Metric.infDist_singleton, Real.dist_eq] at h1
  unfold customViolation
  rw [frechet_abs hα hj, Metric.infDist_singleton, Real.dist_eq]
  rcases lt_or_gt_of_ne hj with h | h
  · rw [abs_of_neg h, div_neg, div_self hj] at h1 ⊢
    exact le_trans (by linarith [(abs_le.mp h1).2]) (le_abs_self _)
  · rw [abs_of_pos h, div_self hj] at h1 ⊢
    refine le_trans ?_ (neg_le_abs _)
    linarith [(abs_le.mp h1).1]

/-! ## Examples -/

-- the full claim fails on valid data
example : StorageOK (mat docX) docX ∧ LossOK (quadLoss docY) docX (quadStep docX) ∧
    DatafitOK (⟨mat docX, Targets.one (vec docY)⟩ : Dataset (Mat XR) XR) (Quadratic.new : Quadratic XR) (quadLoss docY) docX (quadStep docX) ∧
    PenaltyScored (DocScores.mk (⟨XR.fin 1, XR.fin 2⟩ : Asym XR)) (asym 1 2) (docScore (asym 1 2)) (quadStep docX) :=
  ⟨dense_storageOK docX, doc_lossOK, doc_datafit, docScores_ok (asym_penaltyOK zero_le_one zero_le_two _)⟩

-- a Lasso written after the documentation with `α = 3`: the null result is right
example : ∃ v : Fin 1 → ℝ, CustomStops argsortIns ⟨10, 50, 1000, XR.fin (1 / 10 ^ 8), 5, false, false⟩
      (⟨mat docX, Targets.one (vec docY)⟩ : Dataset (Mat XR) XR) (Quadratic.new : Quadratic XR) (DocScores.mk (L1.mk (XR.fin 3))) v ∧
    customViolation (quadLoss docY) docX (fun z => 3 * |z|) v 0 ≤ 1 / 10 ^ 8 := by
  have hl := l1_penaltyOK (α := 3) (by norm_num) (quadStep docX)
  have hp := docScores_ok hl
  obtain ⟨R, -, hG, hsc, hm0, -, hrun⟩ := scored_run (dense_storageOK docX) doc_lossOK doc_datafit hp
  set cfg : Solver XR := ⟨10, 50, 1000, XR.fin (1 / 10 ^ 8), 5, false, false⟩ with hcfg
  have hz : Metric.infDist (-2 : ℝ) (frechetSubdiff (fun z : ℝ => 3 * |z|) 0) = 0 := by
    refine Metric.infDist_zero_of_mem fun ε hε => ⟨1, one_pos, fun z _ => ?_⟩
    have h2 : inner ℝ (-2 : ℝ) (z - 0) = -2 * z := by simp [mul_comm]
    rw [h2]
    beta_reduce
    rw [abs_zero, mul_zero, zero_add]
    have := mul_nonneg hε.le (norm_nonneg (z - 0))
    linarith [neg_le_abs z, abs_nonneg z]
  have h0 : ((R.viol (fun _ => 0) (List.finRange 1)).2 <=. cfg.tolerance) = true := by
    refine R.viol_le_of (τ := 1 / 10 ^ 8) ?_ fun j => ?_
    · rcases hm0 with h | h
      · exact Or.inl h
      · exact Or.inr ⟨h, by norm_num⟩
    · rw [hsc, hG, doc_grad, show (4 * (0 : ℝ) - 2) = -2 by norm_num]
      exact le_trans (le_of_eq hz) (by norm_num)
  have h1 := R.run_zero (srt := argsortIns) cfg h0
  have hst : CustomStops argsortIns cfg (⟨mat docX, Targets.one (vec docY)⟩ : Dataset (Mat XR) XR) (Quadratic.new : Quadratic XR)
      (DocScores.mk (L1.mk (XR.fin 3))) (fun _ : Fin 1 => 0) := by
    refine ⟨by rw [custom_solve (hrun argsortIns_spec cfg), h1]; rfl, ?_⟩
    obtain ⟨st, df', log, h2, h3⟩ := custom_trace (fun cfg => hrun argsortIns_spec cfg) h1
    exact ⟨st, df', log, h2, by rw [h3]; decide⟩
  exact ⟨_, hst, C102_partial (dense_storageOK docX) doc_lossOK.steps doc_datafit hl.subdiff hp (fun z => by rw [abs_neg]) argsortIns_spec cfg _
    rfl _ hst 0 rfl⟩

end Sglm
