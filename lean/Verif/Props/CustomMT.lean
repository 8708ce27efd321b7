import Verif.Proofs.CustomMT
import Verif.Proofs.CustomMTLib
import Verif.Props.Custom

/-!
# C101: multi-task datafits and penalties supplied by the user

The multi-task version of C99.  Exact arithmetic.
-/

namespace Sglm
open Scalar Spec
variable {n p T : ℕ} {DM DF P : Type} [DesignMatrix XR DM] [MTDatafit XR DM DF] [MTPenalty XR P]
  {ds : Dataset DM XR} {df : DF} {pen : P} {f : (Fin n → Fin T → ℝ) → ℝ} {X : Fin n → Fin p → ℝ} {L : Fin p → ℝ} {φ : Euc T → ℝ}

/-- **The call returns** finite coefficients (without acceleration, or with `0 < K ≤ ws_start_size` times the number of tasks and at least `K` coefficients). -/
theorem C101_returns (hX : StorageOKMT T ds.designMatrix X) (hf : LossOKMT f X L) (hd : DatafitOKMT ds df f X L) (hp : PenaltyOKMT pen φ L)
    {srt : Argsort XR} (hs : ArgsortSpec srt) (cfg : Solver XR)
    (hacc : cfg.useAcceleration = true → 0 < cfg.K ∧ cfg.K ≤ cfg.wsStartSize * T ∧ cfg.K ≤ p * T) :
    ∃ v : Fin p → Euc T, cfg.solveMultiTask srt ds df pen = .ok (emat v) := by
  obtain ⟨R, -, -, -, -, -, -, -, hrun⟩ := customMT_run hX hf hd hp
  obtain ⟨v, k, h⟩ := R.run_ok hs cfg (fun hu => by
    obtain ⟨h1, h2, h3⟩ := hacc hu
    exact ⟨h1, h2, h3⟩)
  exact ⟨v, by rw [customMT_solve (hrun hs cfg), h]; rfl⟩

/-- **The result is not worse than zero coefficients.** -/
theorem C101_not_worse (hX : StorageOKMT T ds.designMatrix X) (hf : LossOKMT f X L) (hd : DatafitOKMT ds df f X L) (hp : PenaltyOKMT pen φ L)
    {srt : Argsort XR} (hs : ArgsortSpec srt) (cfg : Solver XR) (v : Fin p → Euc T) (hv : cfg.solveMultiTask srt ds df pen = .ok (emat v)) :
    customObjectiveMT f X φ v ≤ customObjectiveMT f X φ 0 := by
  obtain ⟨R, hF, -, -, -, -, hM, -, hrun⟩ := customMT_run hX hf hd hp
  obtain ⟨k, hk⟩ := customMT_of_solve (hrun hs cfg) hv
  have := hM.run_le hs cfg v k hk
  rwa [hF, hF] at this

/-- **Calls which stop early are stationary** up to the tolerance. -/
theorem C101_stationary (hX : StorageOKMT T ds.designMatrix X) (hf : LossOKMT f X L) (hd : DatafitOKMT ds df f X L) (hp : PenaltyOKMT pen φ L)
    {srt : Argsort XR} (hs : ArgsortSpec srt) (cfg : Solver XR) (τ : ℝ) (ht : cfg.tolerance = XR.fin τ) (v : Fin p → Euc T)
    (hv : CustomStopsMT srt cfg ds df pen v) (j : Fin p) : customViolationMT f X φ v j ≤ τ := by
  obtain ⟨R, -, hG, -, hsc, -, -, -, hrun⟩ := customMT_run hX hf hd hp
  obtain ⟨h1, st, df', log, h2, h3⟩ := hv
  obtain ⟨k, hk⟩ := customMT_of_solve (hrun hs cfg) h1
  obtain ⟨st', df'', log', h4, h5⟩ := customMT_trace (fun cfg => hrun hs cfg) hk
  rw [h2] at h4
  injection h4 with h4
  injection h4 with _ h4
  injection h4 with _ h4
  rw [← h4] at h5
  have h6 := R.run_exit cfg hk (by omega)
  rw [ht] at h6
  have h7 := R.viol_le h6 j
  rw [hsc, hG] at h7
  exact h7

/-- **Convex penalties: calls which stop early are optimal** up to the tolerance. -/
theorem C101_certificate (hX : StorageOKMT T ds.designMatrix X) (hf : LossOKMT f X L) (hd : DatafitOKMT ds df f X L) (hp : PenaltyOKMT pen φ L)
    (hφ : ConvexOn ℝ Set.univ φ) {srt : Argsort XR} (hs : ArgsortSpec srt) (cfg : Solver XR) (τ : ℝ) (ht : cfg.tolerance = XR.fin τ)
    (v : Fin p → Euc T) (hv : CustomStopsMT srt cfg ds df pen v) (w : Fin p → Euc T) :
    customObjectiveMT f X φ v ≤ customObjectiveMT f X φ w + τ * ∑ j, ‖v j - w j‖ := by
  have h1 := C101_stationary hX hf hd hp hs cfg τ ht v hv
  have hw : WeaklyConvex φ 0 := weaklyConvex_iff.mpr (by simpa using hφ)
  have h3 := block_tangent (X := X) hf.convex hf.diff v w
  have h4 := cert_gap (f := fun w => f (predictions X w)) (φ := φ) (τ := τ) h3 fun j => by
    have h5 := h1 j
    unfold customViolationMT at h5
    rw [frechet_convex hw] at h5
    exact ⟨_, ⟨by rw [← frechet_convex hw]; exact hp.subdiff _, rfl⟩, h5⟩
  unfold customObjectiveMT
  linarith

/-- **The number of iterations is bounded**: by `4 p (2 Λ + b)² F(0) / (μ τ²)`, where `F(0)` is the objective of zero coefficients, if
`Λ` bounds the step constants and the nonzero ones exceed `m`, the lack of convexity of the penalty, by `μ`.  (Inner loops must
not stop after an extrapolated epoch, which the default settings guarantee.) -/
theorem C101_iterations (hX : StorageOKMT T ds.designMatrix X) (hf : LossOKMT f X L) (hd : DatafitOKMT ds df f X L) (hp : PenaltyOKMT pen φ L)
    {m b : ℝ} (hr : RegularMT φ m b) {μ Λ τ : ℝ} (hμ : 0 < μ) (hm : ∀ j, L j ≠ 0 → μ + m ≤ L j) (hΛ : ∀ j, L j ≤ Λ) (hτ : 0 < τ)
    {srt : Argsort XR} (hs : ArgsortSpec srt) (cfg : Solver XR) (ht : cfg.tolerance = XR.fin τ) (hw : 0 < cfg.wsStartSize)
    (he : 0 < cfg.maxEpochs) (hpl : StopsPlain cfg) {st : BCDState XR} {df' : DF} {log : List (Event XR)}
    (hc : MT.blockCoordinateDescent srt ds df pen (cfg.setVerbose true) = .ok (st, df', log)) :
    iterationsPrinted log * (μ * τ ^ 2) ≤ 4 * p * (2 * Λ + b) ^ 2 * customObjectiveMT f X φ 0 := by
  obtain ⟨R, hF, -, hL, hsc, hm0, hM, hS, hrun⟩ := customMT_run hX hf hd hp
  have H := customMT_weak hp hr hsc hM hS
  have h1 := MT.bcd_rel srt ds df pen (cfg.setVerbose true)
  rw [hc, hrun hs] at h1
  cases hq : R.run srt (cfg.setVerbose true) with
  | error e => rw [hq] at h1; exact h1.elim
  | ok q =>
    rw [hq] at h1
    have h2 := h1.2.1 rfl
    have h3 := H.run_bound hm0 hμ (by rw [hL]; exact hm) (by rw [hL]; exact hΛ) hτ hs cfg ht hw he hpl.plainEnd q.1 q.2 hq
    rw [hF] at h3
    rw [h2]
    exact h3

/-- **The solver solves the problem**: with a `max_iterations` larger than the bound, the call stops early, hence returns a
`τ`-stationary point, and a `τ`-optimal one if the penalty is convex. -/
theorem C101_solves (hX : StorageOKMT T ds.designMatrix X) (hf : LossOKMT f X L) (hd : DatafitOKMT ds df f X L) (hp : PenaltyOKMT pen φ L)
    {m b : ℝ} (hr : RegularMT φ m b) {μ Λ τ : ℝ} (hμ : 0 < μ) (hm : ∀ j, L j ≠ 0 → μ + m ≤ L j) (hΛ : ∀ j, L j ≤ Λ) (hτ : 0 < τ)
    {srt : Argsort XR} (hs : ArgsortSpec srt) (cfg : Solver XR) (ht : cfg.tolerance = XR.fin τ) (hw : 0 < cfg.wsStartSize)
    (he : 0 < cfg.maxEpochs) (hpl : StopsPlain cfg)
    (hacc : cfg.useAcceleration = true → 0 < cfg.K ∧ cfg.K ≤ cfg.wsStartSize * T ∧ cfg.K ≤ p * T)
    (hmax : 4 * p * (2 * Λ + b) ^ 2 * customObjectiveMT f X φ 0 < cfg.maxIterations * (μ * τ ^ 2)) :
    ∃ v : Fin p → Euc T, CustomStopsMT srt cfg ds df pen v ∧ customObjectiveMT f X φ v ≤ customObjectiveMT f X φ 0 ∧
      (∀ j, customViolationMT f X φ v j ≤ τ) ∧
      (ConvexOn ℝ Set.univ φ → ∀ w, customObjectiveMT f X φ v ≤ customObjectiveMT f X φ w + τ * ∑ j, ‖v j - w j‖) := by
  obtain ⟨v, hv⟩ := C101_returns hX hf hd hp hs cfg hacc
  have hst : CustomStopsMT srt cfg ds df pen v := by
    refine ⟨hv, ?_⟩
    obtain ⟨R, -, -, -, -, -, -, -, hrun⟩ := customMT_run hX hf hd hp
    obtain ⟨k, hk⟩ := customMT_of_solve (hrun hs cfg) hv
    obtain ⟨st, df', log, h1, -⟩ := customMT_trace (fun cfg => hrun hs cfg) hk
    refine ⟨st, df', log, h1, ?_⟩
    have h2 := C101_iterations hX hf hd hp hr hμ hm hΛ hτ hs cfg ht hw he hpl h1
    exact_mod_cast lt_of_mul_lt_mul_right (lt_of_le_of_lt h2 hmax) (by positivity)
  exact ⟨v, hst, C101_not_worse hX hf hd hp hs cfg v hv, C101_stationary hX hf hd hp hs cfg τ ht v hst,
    fun hφ => C101_certificate hX hf hd hp hφ hs cfg τ ht v hst⟩

omit [DesignMatrix XR DM] [MTDatafit XR DM DF] [MTPenalty XR P] in
/-- The multi-task datafit of the library and its L21 penalty meet the requirements.  (The scores of the other two block penalties are
not distances, see C12 and C13.) -/
theorem C101_library (hn : 0 < n) (D : Design n p) (hD : D.Canonical) (Y : Fin n → Fin T → ℝ) {α : ℝ} (hα : 0 < α) :
    LossOKMT (mtLoss Y) D.matrix (lipschitz D .quadratic) ∧ RegularMT (fun z : Euc T => α * ‖z‖) 0 0 ∧
      callMT D Y (.l21 α) (fun ds df pn => StorageOKMT T ds.designMatrix D.matrix ∧
        DatafitOKMT ds df (mtLoss Y) D.matrix (lipschitz D .quadratic) ∧
        PenaltyOKMT pn (fun z : Euc T => α * ‖z‖) (lipschitz D .quadratic)) := by
  refine ⟨libraryMT_lossOK D Y, by rw [l21_pen2]; exact pen2_regular hα.le le_rfl, ?_⟩
  have hL : stepsOf D .quadratic = lipschitz D .quadratic := funext fun j => stepsOf_lipschitz D hD .quadratic j
  refine callMT_elim hn D Y (.l21 α) hα _ (fun r => r) fun ds df df0 pn hd hp => ?_
  rw [hL] at hd
  refine ⟨storageOKMT_of hd, datafitOKMT_of hd (libraryMT_grad D.matrix Y) df0, penaltyOKMT_of hp (Or.inl rfl) (fun x g => ?_)
    fun j _ hs v => bproxOf_isProx (.l21 α) hα v hs fun _ _ h => by cases h⟩
  show IsDist _ (frechetSubdiff (fun z : Euc T => α * ‖z‖) x) (l21Score α x g)
  rw [l21_pen2, pen2_frechet hα.le le_rfl, ← l21_pen2]
  exact l21Score_dist hα.le x g

/-! ## Examples -/

-- Huber regression for three tasks with a group elastic net: all requirements hold
example (X : Fin 3 → Fin 2 → ℝ) (Y : Fin 3 → Fin 3 → ℝ) :
    StorageOKMT 3 (mat X) X ∧ LossOKMT (huberLossMT 1 Y) X (quadStep X) ∧
      DatafitOKMT (⟨mat X, Targets.two (mat Y)⟩ : Dataset (Mat XR) XR) (⟨XR.fin 1, []⟩ : HuberMT XR) (huberLossMT 1 Y) X (quadStep X) ∧
      PenaltyOKMT (⟨XR.fin 1, XR.fin (1 / 2)⟩ : GroupNet XR) (pen2 1 (1 / 2) : Euc 3 → ℝ) (quadStep X) ∧
      RegularMT (pen2 1 (1 / 2) : Euc 3 → ℝ) 0 (1 / 2) :=
  ⟨dense_storageOKMT 3 X, huberMT_lossOK X Y zero_le_one, huberMT_datafitOK (by norm_num) X Y 1 [],
    groupNet_penaltyOK one_pos (by norm_num) _, pen2_regular zero_le_one (by norm_num)⟩

-- and the call solves the problem, with acceleration
example (X : Fin 3 → Fin 2 → ℝ) (hX : X = fun (i : Fin 3) (j : Fin 2) => if i.val = j.val then 1 else 0) (Y : Fin 3 → Fin 3 → ℝ)
    (τ : ℝ) (hτ : 0 < τ) : ∃ N : ℕ, ∃ V : Fin 2 → Euc 3,
    (⟨10, N, 1000, XR.fin τ, 5, true, true⟩ : Solver XR).solveMultiTask argsortIns
      (⟨mat X, Targets.two (mat Y)⟩ : Dataset (Mat XR) XR) (⟨XR.fin 1, []⟩ : HuberMT XR)
      (⟨XR.fin 1, XR.fin (1 / 2)⟩ : GroupNet XR) = .ok (emat V) ∧
    ∀ W, customObjectiveMT (huberLossMT 1 Y) X (pen2 1 (1 / 2)) V ≤
      customObjectiveMT (huberLossMT 1 Y) X (pen2 1 (1 / 2)) W + τ * ∑ j, ‖V j - W j‖ := by
  have hL : ∀ j, quadStep X j = 1 / 3 := by
    intro j
    unfold quadStep
    rw [hX]
    fin_cases j <;> simp [Fin.sum_univ_three]
  obtain ⟨N, hN⟩ := exists_nat_gt (4 * (2 : ℕ) * (2 * (1 / 3) + 1 / 2) ^ 2 *
    customObjectiveMT (huberLossMT 1 Y) X (pen2 1 (1 / 2)) 0 / (1 / 3 * τ ^ 2))
  obtain ⟨v, h1, -, -, h2⟩ := C101_solves (dense_storageOKMT 3 X) (huberMT_lossOK X Y zero_le_one) (huberMT_datafitOK (by norm_num) X Y 1 [])
    (groupNet_penaltyOK one_pos (by norm_num) _) (pen2_regular zero_le_one (by norm_num)) (μ := 1 / 3) (Λ := 1 / 3) (τ := τ) (by norm_num)
    (fun j _ => by rw [hL]; norm_num) (fun j => (hL j).le) hτ argsortIns_spec ⟨10, N, 1000, XR.fin τ, 5, true, true⟩ rfl (by norm_num)
    (by norm_num) (StopsPlain.default rfl rfl) (fun _ => ⟨by norm_num, by norm_num, by norm_num⟩) ((div_lt_iff₀ (by positivity)).mp hN)
  exact ⟨N, v, h1.1, h2 (by simpa using (pen2_regular (T := 3) zero_le_one (by norm_num : (0:ℝ) ≤ 1 / 2)).convex)⟩

end Sglm
