import Verif.Proofs.CustomLib
import Verif.Props.Converge

/-!
# C99: datafits and penalties supplied by the user

Exact arithmetic.  The solver works with every datafit and every penalty whose methods compute what their mathematical definition
prescribes (`LossOK`, `DatafitOK`, `PenaltyOK`, `Regular`): the guarantees are those which hold for the datafits and penalties of the library.
-/

namespace Sglm
open Scalar Spec
variable {n p : ℕ} {DM DF P : Type} [DesignMatrix XR DM] [Datafit XR DM DF] [Penalty XR P]
  {ds : Dataset DM XR} {df : DF} {pen : P} {f : (Fin n → ℝ) → ℝ} {X : Fin n → Fin p → ℝ} {L : Fin p → ℝ} {φ : ℝ → ℝ}

/-- **The call returns** finite coefficients (without acceleration, or with `0 < K ≤ ws_start_size` and at least `K` features). -/
theorem C99_returns (hX : StorageOK ds.designMatrix X) (hf : LossOK f X L) (hd : DatafitOK ds df f X L) (hp : PenaltyOK pen φ L)
    {srt : Argsort XR} (hs : ArgsortSpec srt) (cfg : Solver XR)
    (hacc : cfg.useAcceleration = true → 0 < cfg.K ∧ cfg.K ≤ cfg.wsStartSize ∧ cfg.K ≤ p) :
    ∃ v : Fin p → ℝ, cfg.solve srt ds df pen = .ok (vec v) := by
  obtain ⟨R, -, -, -, -, -, -, -, hrun⟩ := custom_run hX hf hd hp
  obtain ⟨v, k, h⟩ := R.run_ok hs cfg (fun hu => by
    obtain ⟨h1, h2, h3⟩ := hacc hu
    exact ⟨h1, by show cfg.K ≤ cfg.wsStartSize * 1; omega, by show cfg.K ≤ p * 1; omega⟩)
  exact ⟨v, by rw [custom_solve (hrun hs cfg), h]; rfl⟩

/-- **The result is not worse than zero coefficients.** -/
theorem C99_not_worse (hX : StorageOK ds.designMatrix X) (hf : LossOK f X L) (hd : DatafitOK ds df f X L) (hp : PenaltyOK pen φ L)
    {srt : Argsort XR} (hs : ArgsortSpec srt) (cfg : Solver XR) (v : Fin p → ℝ) (hv : cfg.solve srt ds df pen = .ok (vec v)) :
    customObjective f X φ v ≤ customObjective f X φ 0 := by
  obtain ⟨R, hF, -, -, -, -, hM, -, hrun⟩ := custom_run hX hf hd hp
  obtain ⟨k, hk⟩ := custom_of_solve (hrun hs cfg) hv
  have := hM.run_le hs cfg v k hk
  rwa [hF, hF] at this

/-- **Calls which stop early are stationary** up to the tolerance. -/
theorem C99_stationary (hX : StorageOK ds.designMatrix X) (hf : LossOK f X L) (hd : DatafitOK ds df f X L) (hp : PenaltyOK pen φ L)
    {srt : Argsort XR} (hs : ArgsortSpec srt) (cfg : Solver XR) (τ : ℝ) (ht : cfg.tolerance = XR.fin τ) (v : Fin p → ℝ)
    (hv : CustomStops srt cfg ds df pen v) (j : Fin p) : customViolation f X φ v j ≤ τ := by
  obtain ⟨R, -, hG, -, hsc, -, -, -, hrun⟩ := custom_run hX hf hd hp
  obtain ⟨h1, st, df', log, h2, h3⟩ := hv
  obtain ⟨k, hk⟩ := custom_of_solve (hrun hs cfg) h1
  obtain ⟨st', df'', log', h4, h5⟩ := custom_trace (fun cfg => hrun hs cfg) hk
  rw [h2] at h4
  injection h4 with h4
  injection h4 with _ h4
  injection h4 with _ h4
  rw [← h4] at h5
  have h6 := R.run_exit cfg hk (by omega)
  rw [ht] at h6
  have h7 := R.viol_le h6 j
  rw [hsc, hG] at h7
  exact h7

/-- **Convex penalties: calls which stop early are optimal** up to the tolerance. -/
theorem C99_certificate (hX : StorageOK ds.designMatrix X) (hf : LossOK f X L) (hd : DatafitOK ds df f X L) (hp : PenaltyOK pen φ L)
    (hφ : ConvexOn ℝ Set.univ φ) {srt : Argsort XR} (hs : ArgsortSpec srt) (cfg : Solver XR) (τ : ℝ) (ht : cfg.tolerance = XR.fin τ)
    (v : Fin p → ℝ) (hv : CustomStops srt cfg ds df pen v) (w : Fin p → ℝ) :
    customObjective f X φ v ≤ customObjective f X φ w + τ * ∑ j, |v j - w j| := by
  have h1 := C99_stationary hX hf hd hp hs cfg τ ht v hv
  have hw : WeaklyConvex φ 0 := weaklyConvex_of (by simpa using hφ)
  have h2 := tangent_le hf.convex hf.diff (fit X v) (fit X w)
  rw [fit_sub_columns, map_sum] at h2
  have h3 : f (fit X v) + ∑ j, inner ℝ (fderiv ℝ f (fit X v) (column X j)) (w j - v j) ≤ f (fit X w) := by
    refine le_trans (le_of_eq ?_) h2
    congr 1
    exact Finset.sum_congr rfl fun j _ => by rw [map_smul]; rfl
  have h4 := cert_gap (f := fun w => f (fit X w)) (φ := φ) (τ := τ) h3 fun j => by
    have h5 := h1 j
    unfold customViolation at h5
    rw [frechet_convex hw] at h5
    exact ⟨_, ⟨by rw [← frechet_convex hw]; exact hp.subdiff _, rfl⟩, h5⟩
  unfold customObjective
  simp only [Real.norm_eq_abs] at h4
  linarith

/-- **The number of iterations is bounded**: by `4 p (2 Λ + b)² F(0) / (μ τ²)`, where `F(0)` is the objective of zero coefficients, if
`Λ` bounds the step constants and the nonzero ones exceed `m`, the lack of convexity of the penalty, by `μ`.  (Inner loops must
not stop after an extrapolated epoch, which the default settings guarantee.) -/
theorem C99_iterations (hX : StorageOK ds.designMatrix X) (hf : LossOK f X L) (hd : DatafitOK ds df f X L) (hp : PenaltyOK pen φ L)
    {m b : ℝ} (hr : Regular φ m b) {μ Λ τ : ℝ} (hμ : 0 < μ) (hm : ∀ j, L j ≠ 0 → μ + m ≤ L j) (hΛ : ∀ j, L j ≤ Λ) (hτ : 0 < τ)
    {srt : Argsort XR} (hs : ArgsortSpec srt) (cfg : Solver XR) (ht : cfg.tolerance = XR.fin τ) (hw : 0 < cfg.wsStartSize)
    (he : 0 < cfg.maxEpochs) (hpl : StopsPlain cfg) {st : CDState XR} {df' : DF} {log : List (Event XR)}
    (hc : coordinateDescent srt ds df pen (cfg.setVerbose true) = .ok (st, df', log)) :
    iterationsPrinted log * (μ * τ ^ 2) ≤ 4 * p * (2 * Λ + b) ^ 2 * customObjective f X φ 0 := by
  obtain ⟨R, hF, -, hL, hsc, hm0, hM, hS, hrun⟩ := custom_run hX hf hd hp
  have H := custom_weak hp hr hsc hM hS
  have h1 := cd_rel srt ds df pen (cfg.setVerbose true)
  rw [hc, hrun hs] at h1
  cases hq : R.run srt (cfg.setVerbose true) with
  | error e => rw [hq] at h1; exact h1.elim
  | ok q =>
    rw [hq] at h1
    have h2 := h1.2.1 rfl
    have h3 := H.run_bound hm0 hμ (by rw [hL]; exact hm) (by rw [hL]; exact hΛ) hτ hs cfg ht hw he hpl.plainEnd q.1 q.2 hq
    rw [hF] at h3
    rw [h2]
    exact h3

/-- **The solver solves the problem**: with a `max_iterations` larger than the bound, the call stops early, hence returns a
`τ`-stationary point, and a `τ`-optimal one if the penalty is convex. -/
theorem C99_solves (hX : StorageOK ds.designMatrix X) (hf : LossOK f X L) (hd : DatafitOK ds df f X L) (hp : PenaltyOK pen φ L)
    {m b : ℝ} (hr : Regular φ m b) {μ Λ τ : ℝ} (hμ : 0 < μ) (hm : ∀ j, L j ≠ 0 → μ + m ≤ L j) (hΛ : ∀ j, L j ≤ Λ) (hτ : 0 < τ)
    {srt : Argsort XR} (hs : ArgsortSpec srt) (cfg : Solver XR) (ht : cfg.tolerance = XR.fin τ) (hw : 0 < cfg.wsStartSize)
    (he : 0 < cfg.maxEpochs) (hpl : StopsPlain cfg)
    (hacc : cfg.useAcceleration = true → 0 < cfg.K ∧ cfg.K ≤ cfg.wsStartSize ∧ cfg.K ≤ p)
    (hmax : 4 * p * (2 * Λ + b) ^ 2 * customObjective f X φ 0 < cfg.maxIterations * (μ * τ ^ 2)) :
    ∃ v : Fin p → ℝ, CustomStops srt cfg ds df pen v ∧ customObjective f X φ v ≤ customObjective f X φ 0 ∧
      (∀ j, customViolation f X φ v j ≤ τ) ∧
      (ConvexOn ℝ Set.univ φ → ∀ w, customObjective f X φ v ≤ customObjective f X φ w + τ * ∑ j, |v j - w j|) := by
  obtain ⟨v, hv⟩ := C99_returns hX hf hd hp hs cfg hacc
  have hst : CustomStops srt cfg ds df pen v := by
    refine ⟨hv, ?_⟩
    obtain ⟨R, -, -, -, -, -, -, -, hrun⟩ := custom_run hX hf hd hp
    obtain ⟨k, hk⟩ := custom_of_solve (hrun hs cfg) hv
    obtain ⟨st, df', log, h1, -⟩ := custom_trace (fun cfg => hrun hs cfg) hk
    refine ⟨st, df', log, h1, ?_⟩
    have h2 := C99_iterations hX hf hd hp hr hμ hm hΛ hτ hs cfg ht hw he hpl h1
    exact_mod_cast lt_of_mul_lt_mul_right (lt_of_le_of_lt h2 hmax) (by positivity)
  exact ⟨v, hst, C99_not_worse hX hf hd hp hs cfg v hv, C99_stationary hX hf hd hp hs cfg τ ht v hst,
    fun hφ => C99_certificate hX hf hd hp hφ hs cfg τ ht v hst⟩

omit [DesignMatrix XR DM] [Datafit XR DM DF] [Penalty XR P] in
/-- The datafits and penalties of the library, except the L0.5 penalty, meet the requirements (labels of the logistic loss in
`[-1, 1]`, step sizes of the MCP at most `γ`). -/
theorem C99_library (hn : 0 < n) (D : Design n p) (hD : D.Canonical) (y : Fin n → ℝ) (k : LossKind) (hy : k.LabelsOK y) (pen : Pen)
    (hv : pen.Valid) (hst : pen.StepOK D k) (hne : ∀ α, pen ≠ .l05 α) :
    LossOK (k.loss y) D.matrix (lipschitz D k) ∧ Regular pen.fn pen.concavity pen.modulus ∧
      call1 D y k pen (fun ds df pn => StorageOK ds.designMatrix D.matrix ∧
        DatafitOK ds df (k.loss y) D.matrix (lipschitz D k) ∧ PenaltyOK pn pen.fn (lipschitz D k)) := by
  refine ⟨library_lossOK D y k hy, library_regular pen hv hne, ?_⟩
  have hL : stepsOf D k = lipschitz D k := funext fun j => stepsOf_lipschitz D hD k j
  have H := prob1_weak hn D hD y k hy pen hv hst hne
  refine call1_elim hn D y k pen hv _ (fun r => r) fun ds df df0 pn hd hp => ?_
  rw [hL] at hd
  refine ⟨storageOK_of hd, datafitOK_of hd (library_fderiv D.matrix y k) df0, penaltyOK_of hp ?_ H.score fun j h0 _ v => ?_⟩
  · cases pen <;> first | exact Or.inl rfl | exact Or.inr rfl
  · have h1 := H.mm.prox j v (by show stepsOf D k j ≠ 0; rw [hL]; exact h0)
    have e : (prob1 D y k pen).L j = lipschitz D k j := congrFun hL j
    rw [e] at h1
    exact h1

/-! ## Examples -/

-- Huber regression with an asymmetric penalty: all requirements hold
example (X : Fin 3 → Fin 2 → ℝ) (y : Fin 3 → ℝ) :
    StorageOK (mat X) X ∧ LossOK (huberLoss 1 y) X (quadStep X) ∧
      DatafitOK (⟨mat X, Targets.one (vec y)⟩ : Dataset (Mat XR) XR) (⟨XR.fin 1, []⟩ : Huber XR) (huberLoss 1 y) X (quadStep X) ∧
      PenaltyOK (⟨XR.fin 1, XR.fin (1 / 2)⟩ : Asym XR) (asym 1 (1 / 2)) (quadStep X) ∧ Regular (asym 1 (1 / 2)) 0 0 :=
  ⟨dense_storageOK X, huber_lossOK X y zero_le_one, huber_datafitOK (by norm_num) X y 1 [],
    asym_penaltyOK zero_le_one (by norm_num) _, asym_regular zero_le_one (by norm_num)⟩

-- and the call solves the problem, with the default settings but without acceleration
example (X : Fin 3 → Fin 2 → ℝ) (hX : X = fun (i : Fin 3) (j : Fin 2) => if i.val = j.val then 1 else 0) (y : Fin 3 → ℝ) (τ : ℝ) (hτ : 0 < τ) : ∃ N : ℕ, ∃ v : Fin 2 → ℝ,
    (⟨10, N, 1000, XR.fin τ, 5, false, true⟩ : Solver XR).solve argsortIns
      (⟨mat X, Targets.one (vec y)⟩ : Dataset (Mat XR) XR) (⟨XR.fin 1, []⟩ : Huber XR)
      (⟨XR.fin 1, XR.fin (1 / 2)⟩ : Asym XR) = .ok (vec v) ∧
    ∀ w, customObjective (huberLoss 1 y) X (asym 1 (1 / 2)) v ≤
      customObjective (huberLoss 1 y) X (asym 1 (1 / 2)) w + τ * ∑ j, |v j - w j| := by
  have hL : ∀ j, quadStep X j = 1 / 3 := by
    intro j
    unfold quadStep
    rw [hX]
    fin_cases j <;> simp [Fin.sum_univ_three]
  obtain ⟨N, hN⟩ := exists_nat_gt (4 * (2 : ℕ) * (2 * (1 / 3) + 0) ^ 2 * customObjective (huberLoss 1 y) X (asym 1 (1 / 2)) 0 / (1 / 3 * τ ^ 2))
  obtain ⟨v, h1, -, -, h2⟩ := C99_solves (dense_storageOK X) (huber_lossOK X y zero_le_one) (huber_datafitOK (by norm_num) X y 1 [])
    (asym_penaltyOK zero_le_one (by norm_num) _) (asym_regular zero_le_one (by norm_num)) (μ := 1 / 3) (Λ := 1 / 3) (τ := τ) (by norm_num)
    (fun j _ => by rw [hL]; norm_num) (fun j => (hL j).le) hτ argsortIns_spec ⟨10, N, 1000, XR.fin τ, 5, false, true⟩ rfl (by norm_num)
    (by norm_num) (StopsPlain.default rfl rfl) (fun h => by cases h) ((div_lt_iff₀ (by positivity)).mp hN)
  exact ⟨N, v, h1.1, h2 (asym_convex zero_le_one (by norm_num))⟩

end Sglm
