import Verif.Props.Custom
import Verif.Proofs.StepDoc

/-!
# C100: what `step_size` must return

The documentation of `Datafit::step_size` (`/repo/src/datafits/single_task/mod.rs` lines 34-36) asks for the inverse of the Lipschitz
constant and promises a line search otherwise.  The solver divides by the returned numbers and performs no line search, so it needs the
Lipschitz constants themselves (C99).  Exact arithmetic; the contracts are those of C99.
-/

namespace Sglm
open Scalar Spec
variable {n p : ℕ} {DM DF P : Type} [DesignMatrix XR DM] [Datafit XR DM DF] [Penalty XR P]
  {ds : Dataset DM XR} {df : DF} {pen : P} {f : (Fin n → ℝ) → ℝ} {X : Fin n → Fin p → ℝ} {L : Fin p → ℝ} {φ : ℝ → ℝ}

/-- The full claim: with a datafit which follows the documentation, the result is not worse than zero coefficients. -/
def C100_full : Prop :=
  ∀ (n p : ℕ) (DM DF P : Type) [DesignMatrix XR DM] [Datafit XR DM DF] [Penalty XR P] (ds : Dataset DM XR) (df : DF) (pen : P)
    (f : (Fin n → ℝ) → ℝ) (X : Fin n → Fin p → ℝ) (L : Fin p → ℝ) (φ : ℝ → ℝ), (∀ j, 0 < L j) → StorageOK ds.designMatrix X →
    LossOK f X L → DatafitOK ds df f X (fun j => 1 / L j) → PenaltyOK pen φ (fun j => 1 / L j) → ∀ srt, ArgsortSpec srt →
    ∀ (cfg : Solver XR) (v : Fin p → ℝ), cfg.solve srt ds df pen = .ok (vec v) → customObjective f X φ v ≤ customObjective f X φ 0

/-- The Lasso on the sample `x = 2`, `y = 1` with `α = 1/4`, solved with the quadratic datafit of the library but for `step_size`, which
returns `1 / 4`, the inverse of the Lipschitz constant: the iterates diverge; whatever the numbers of iterations and epochs (without
acceleration), the objective of the result is more than 160 times that of zero. -/
theorem C100_diverges {srt : Argsort XR} (hs : ArgsortSpec srt) (cfg : Solver XR) {τ : ℝ} (ht : cfg.tolerance = XR.fin τ) (hτ : τ < 7 / 4)
    (hacc : cfg.useAcceleration = false) (hw : 0 < cfg.wsStartSize) (he : 0 < cfg.maxEpochs) (hi : 0 < cfg.maxIterations) :
    ∃ v : Fin 1 → ℝ, cfg.solve srt (⟨mat docX, Targets.one (vec docY)⟩ : Dataset (Mat XR) XR)
      (Documented.mk (Quadratic.new : Quadratic XR)) (L1.mk (XR.fin (1 / 4))) = .ok (vec v) ∧
      160 * customObjective (quadLoss docY) docX (fun z => 1 / 4 * |z|) 0 < customObjective (quadLoss docY) docX (fun z => 1 / 4 * |z|) v := by
  obtain ⟨v, h1, h2⟩ := doc_diverges hs cfg ht hτ hacc hw he hi
  refine ⟨v, h1, ?_⟩
  unfold customObjective quadLoss fit docX docY
  simp only [Fin.sum_univ_one, Fin.isValue, Pi.zero_apply, abs_zero, Nat.cast_one, mul_zero, sub_zero, mul_one, add_zero, one_pow]
  have h3 : 0 ≤ |v 0| := abs_nonneg _
  rcases le_abs.mp h2 with h | h <;> nlinarith

theorem C100_false : ¬ C100_full := by
  intro h
  obtain ⟨v, h1, h2⟩ := C100_diverges argsortIns_spec ⟨10, 50, 1000, XR.fin (1 / 10 ^ 8), 5, false, false⟩ rfl (by norm_num) rfl
    (by decide) (by decide) (by decide)
  have h3 := h 1 1 (Mat XR) (Documented (Quadratic XR)) (L1 XR) ⟨mat docX, Targets.one (vec docY)⟩ ⟨Quadratic.new⟩ ⟨XR.fin (1 / 4)⟩
    (quadLoss docY) docX (quadStep docX) (fun z => 1 / 4 * |z|) (fun j => by rw [doc_step]; norm_num) (dense_storageOK docX) doc_lossOK
    (documented_ok doc_datafit fun j => by rw [doc_step]; norm_num) (l1_penaltyOK (by norm_num) _) _ argsortIns_spec _ v h1
  have h4 : customObjective (quadLoss docY) docX (fun z => 1 / 4 * |z|) 0 = 1 / 2 := by
    unfold customObjective quadLoss fit docX docY
    norm_num
  rw [h4] at h2 h3
  linarith

/-- **Partial**: the documented values are safe if no Lipschitz constant exceeds `1`, for then the inverse is a Lipschitz constant too. -/
theorem C100_partial (hX : StorageOK ds.designMatrix X) (hL : ∀ j, 0 < L j) (h1 : ∀ j, L j ≤ 1) (hf : LossOK f X L)
    (hd : DatafitOK ds df f X fun j => 1 / L j) (hp : PenaltyOK pen φ fun j => 1 / L j) {srt : Argsort XR} (hs : ArgsortSpec srt)
    (cfg : Solver XR) (v : Fin p → ℝ) (hv : cfg.solve srt ds df pen = .ok (vec v)) :
    customObjective f X φ v ≤ customObjective f X φ 0 := by
  refine C99_not_worse hX ⟨hf.convex, hf.diff, hf.nonneg, fun j => (one_div_pos.mpr (hL j)).le, fun u j t => ?_⟩ hd hp hs cfg v hv
  refine (hf.lipschitz u j t).trans (mul_le_mul_of_nonneg_right ?_ (abs_nonneg t))
  rw [le_div_iff₀ (hL j)]
  nlinarith [hL j, h1 j]

/-- **Whatever `step_size` returns** (nonnegative numbers), the call returns (without acceleration, or with `0 < K ≤ ws_start_size` and at least
`K` features). -/
theorem C100_returns (hX : StorageOK ds.designMatrix X) (hL : ∀ j, 0 ≤ L j) (hd : DatafitOK ds df f X L) (hp : PenaltyOK pen φ L)
    {srt : Argsort XR} (hs : ArgsortSpec srt) (cfg : Solver XR)
    (hacc : cfg.useAcceleration = true → 0 < cfg.K ∧ cfg.K ≤ cfg.wsStartSize ∧ cfg.K ≤ p) :
    ∃ v : Fin p → ℝ, cfg.solve srt ds df pen = .ok (vec v) := by
  obtain ⟨R, -, -, -, -, -, -, -, hrun⟩ := custom_problem hX hL hd hp
  obtain ⟨v, k, h⟩ := R.run_ok hs cfg (fun hu => by
    obtain ⟨h1, h2, h3⟩ := hacc hu
    exact ⟨h1, by show cfg.K ≤ cfg.wsStartSize * 1; omega, by show cfg.K ≤ p * 1; omega⟩)
  exact ⟨v, by rw [custom_solve (hrun hs cfg), h]; rfl⟩

/-- **Whatever `step_size` returns, a call which stops early is stationary** up to the tolerance: wrong step sizes show as calls which
use up `max_iterations`, never as a wrong certificate. -/
theorem C100_stationary (hX : StorageOK ds.designMatrix X) (hL : ∀ j, 0 ≤ L j) (hd : DatafitOK ds df f X L) (hp : PenaltyOK pen φ L)
    {srt : Argsort XR} (hs : ArgsortSpec srt) (cfg : Solver XR) (τ : ℝ) (ht : cfg.tolerance = XR.fin τ) (v : Fin p → ℝ)
    (hv : CustomStops srt cfg ds df pen v) (j : Fin p) : customViolation f X φ v j ≤ τ := by
  obtain ⟨R, -, hG, -, hsc, -, -, -, hrun⟩ := custom_problem hX hL hd hp
  obtain ⟨h1, st, df', log, h2, h3⟩ := hv
  obtain ⟨k, hk⟩ := custom_of_solve (hrun hs cfg) h1
  obtain ⟨st', df'', log', h4, h5⟩ := custom_trace (fun cfg => hrun hs cfg) hk
  rw [h2] at h4
  injection h4 with h4
  injection h4 with _ h4
  injection h4 with _ h4
  rw [← h4] at h5
  have h6 := R.run_exit cfg hk (by omega)
  rw [ht] at h6
  have h7 := R.viol_le h6 j
  rw [hsc, hG] at h7
  exact h7

/-! ## Examples -/

-- the full claim fails on valid data
example : (∀ j, 0 < quadStep docX j) ∧ StorageOK (mat docX) docX ∧ LossOK (quadLoss docY) docX (quadStep docX) ∧
    DatafitOK (⟨mat docX, Targets.one (vec docY)⟩ : Dataset (Mat XR) XR) (Documented.mk (Quadratic.new : Quadratic XR)) (quadLoss docY) docX
      (fun j => 1 / quadStep docX j) ∧ PenaltyOK (L1.mk (XR.fin (1 / 4))) (fun z => 1 / 4 * |z|) (fun j => 1 / quadStep docX j) :=
  ⟨fun j => by rw [doc_step]; norm_num, dense_storageOK docX, doc_lossOK, documented_ok doc_datafit fun j => by rw [doc_step]; norm_num,
    l1_penaltyOK (by norm_num) _⟩

-- Huber regression as documented, small features: the partial claim applies
example (X : Fin 3 → Fin 2 → ℝ) (hX : X = fun (i : Fin 3) (j : Fin 2) => if i.val = j.val then 1 else 0) (y : Fin 3 → ℝ) :
    ∃ v : Fin 2 → ℝ, (⟨10, 50, 1000, XR.fin (1 / 10 ^ 8), 2, true, false⟩ : Solver XR).solve argsortIns
      (⟨mat X, Targets.one (vec y)⟩ : Dataset (Mat XR) XR) (Documented.mk (⟨XR.fin 1, []⟩ : Huber XR))
      (⟨XR.fin 1, XR.fin (1 / 2)⟩ : Asym XR) = .ok (vec v) ∧
    customObjective (huberLoss 1 y) X (asym 1 (1 / 2)) v ≤ customObjective (huberLoss 1 y) X (asym 1 (1 / 2)) 0 := by
  have hL : ∀ j, quadStep X j = 1 / 3 := by
    intro j
    unfold quadStep
    rw [hX]
    fin_cases j <;> simp [Fin.sum_univ_three]
  have hd := documented_ok (huber_datafitOK (by norm_num) X y 1 []) fun j => by rw [hL]; norm_num
  have hp := asym_penaltyOK zero_le_one (by norm_num : (0 : ℝ) ≤ 1 / 2) fun j => 1 / quadStep X j
  obtain ⟨v, hv⟩ := C100_returns (dense_storageOK X) (fun j => by rw [hL]; norm_num) hd hp argsortIns_spec
    ⟨10, 50, 1000, XR.fin (1 / 10 ^ 8), 2, true, false⟩ (fun _ => ⟨by decide, by decide, le_rfl⟩)
  exact ⟨v, hv, C100_partial (dense_storageOK X) (fun j => by rw [hL]; norm_num) (fun j => by rw [hL]; norm_num)
    (huber_lossOK X y zero_le_one) hd hp argsortIns_spec _ v hv⟩

end Sglm
