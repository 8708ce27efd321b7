import Verif.Spec.Custom
import Verif.Spec.Quality

/-!
# Specification: multi-task datafits and penalties supplied by the user

The contracts of `Verif.Spec.Custom` for the traits `MultiTaskDatafit` and `MultiTaskPenalty`
(`/repo/src/datafits/multi_task/mod.rs`, `/repo/src/penalties/block_separable/mod.rs`).  The loss `f` is a function of the predictions `X W`
(samples × tasks), the penalty `φ` a function of one row of the coefficients.
-/

namespace Sglm.Spec
open Scalar
variable {n p T : ℕ} {DM DF P : Type} [DesignMatrix XR DM]

/-- Change of the predictions when row `j` of the coefficients changes by `d`. -/
def rowDir (X : Fin n → Fin p → ℝ) (j : Fin p) (d : Fin T → ℝ) : Fin n → Fin T → ℝ := fun i t => X i j * d t

/-- Gradient of the loss with respect to row `j` of the coefficients: the partial derivatives. -/
noncomputable def blockGrad (f : (Fin n → Fin T → ℝ) → ℝ) (X : Fin n → Fin p → ℝ) (u : Fin n → Fin T → ℝ) (j : Fin p) : Euc T :=
  WithLp.toLp 2 fun t => fderiv ℝ f u (rowDir X j (Pi.single t 1))

/-- The design object stores the matrix `X`. -/
structure StorageOKMT (T : ℕ) (dm : DM) (X : Fin n → Fin p → ℝ) : Prop where
  features : DesignMatrix.nFeatures dm = .ok p
  update : ∀ (u : Fin n → Fin T → ℝ) (d : Fin T → ℝ) (j : Fin p),
    DesignMatrix.updateModelFitMT dm (mat u) (vec d) j = .ok (mat fun i t => u i t + d t * X i j)
  combine : ∀ (ws : List (Fin p)) (W : Fin p → Fin T → ℝ), DesignMatrix.extrapolatedFitMT dm (ws.map Fin.val) (mat W) n T =
    .ok (mat fun i t => (ws.map fun j => X i j * W j t).sum)

/-- A smooth convex loss, bounded from below by `0`, whose gradient with respect to row `j` is `L j`-Lipschitz in row `j`. -/
structure LossOKMT (f : (Fin n → Fin T → ℝ) → ℝ) (X : Fin n → Fin p → ℝ) (L : Fin p → ℝ) : Prop where
  convex : ConvexOn ℝ Set.univ f
  diff : Differentiable ℝ f
  nonneg : ∀ u, 0 ≤ f u
  steps : ∀ j, 0 ≤ L j
  lipschitz : ∀ u j (d : Euc T), ‖blockGrad f X (u + rowDir X j d.ofLp) j - blockGrad f X u j‖ ≤ L j * ‖d‖

/-- The datafit object `df0`, once initialized with the data, computes the loss `f`, its gradients with respect to the rows and the
step constants `L`. -/
def DatafitOKMT [MTDatafit XR DM DF] (ds : Dataset DM XR) (df0 : DF) (f : (Fin n → Fin T → ℝ) → ℝ) (X : Fin n → Fin p → ℝ)
    (L : Fin p → ℝ) : Prop :=
  ds.targets.nSamples = n ∧ ds.targets.nTasks = T ∧ ∃ df : DF, MTDatafit.init df0 ds = .ok df ∧
    (∀ u, MTDatafit.value df ds (mat u) = .ok (XR.fin (f u))) ∧
    (∀ u (j : Fin p), MTDatafit.gradientJ df ds (mat u) j = .ok (evec (blockGrad f X u j))) ∧
    (∀ u, MTDatafit.fullGrad df ds (mat u) = .ok (emat fun j => blockGrad f X u j)) ∧
    MTDatafit.stepSize (DM := DM) df = vec L

/-- The penalty object computes the penalty `φ`, its proximal operator for the step sizes `1 / L j`, and, for the features of a
working set, the distances of the negative gradients to the subdifferentials of `φ` together with their maximum. -/
structure PenaltyOKMT [MTPenalty XR P] (pen : P) (φ : Euc T → ℝ) (L : Fin p → ℝ) : Prop where
  value : ∀ {q : ℕ} (W : Fin q → Euc T), MTPenalty.value pen (emat W) = .ok (XR.fin (∑ j, φ (W j)))
  prox : ∀ (v : Euc T) (s : ℝ), 0 < s → ∃ x, MTPenalty.prox pen (evec v) (XR.fin s) = .ok (evec x) ∧
    ((∃ j, L j ≠ 0 ∧ s = 1 / L j) → IsProx (fun z => s * φ z) v x)
  subdiff : ∀ x, (frechetSubdiff φ x).Nonempty
  scores : ∃ m0 : XR, (m0 = XR.ninf ∨ m0 = XR.fin 0) ∧ ∀ {q : ℕ} (W g : Fin q → Euc T) (ws : List (Fin q)), ∃ m : XR,
    MTPenalty.subdiffDistance pen (emat W) ⟨T, ws.map fun j => evec (g j)⟩ (ws.map Fin.val) =
      .ok (ws.map fun j => XR.fin (Metric.infDist (-g j) (frechetSubdiff φ (W j))), m) ∧
    (ws = [] → m = m0) ∧
    (ws ≠ [] → ∃ r, m = XR.fin r ∧ IsGreatest {d | ∃ j ∈ ws, d = Metric.infDist (-g j) (frechetSubdiff φ (W j))} r)

/-- The predictions `X W`. -/
def predictions (X : Fin n → Fin p → ℝ) (W : Fin p → Euc T) : Fin n → Fin T → ℝ := fitMT X fun j => (W j).ofLp

/-- The objective: loss of the predictions plus penalty of the rows. -/
noncomputable def customObjectiveMT (f : (Fin n → Fin T → ℝ) → ℝ) (X : Fin n → Fin p → ℝ) (φ : Euc T → ℝ) (W : Fin p → Euc T) : ℝ :=
  f (predictions X W) + ∑ j, φ (W j)

/-- Distance of row `j` from stationarity. -/
noncomputable def customViolationMT (f : (Fin n → Fin T → ℝ) → ℝ) (X : Fin n → Fin p → ℝ) (φ : Euc T → ℝ) (W : Fin p → Euc T) (j : Fin p) :
    ℝ :=
  Metric.infDist (-(blockGrad f X (predictions X W) j)) (frechetSubdiff φ (W j))

/-- The call returns the coefficients `V`, and stops before `max_iterations`: the same call with `verbose` prints fewer iterations. -/
def CustomStopsMT [MTDatafit XR DM DF] [MTPenalty XR P] (srt : Argsort XR) (cfg : Solver XR) (ds : Dataset DM XR) (df : DF) (pen : P)
    (V : Fin p → Euc T) : Prop :=
  cfg.solveMultiTask srt ds df pen = .ok (emat V) ∧ ∃ st df' log,
    MT.blockCoordinateDescent srt ds df pen (cfg.setVerbose true) = .ok (st, df', log) ∧ iterationsPrinted log < cfg.maxIterations

/-- A penalty of rows which is minimal at `0`, convex up to `m ‖z‖² / 2`, and whose subgradients at `z` are within `b ‖z‖` of
subgradients at `0`. -/
structure RegularMT (φ : Euc T → ℝ) (m b : ℝ) : Prop where
  zero : φ 0 = 0
  nonneg : ∀ z, 0 ≤ φ z
  convex : ConvexOn ℝ Set.univ fun z => φ z + m / 2 * ‖z‖ ^ 2
  bound : 0 ≤ b
  near : ∀ z, ∀ s ∈ frechetSubdiff φ z, ∃ s' ∈ frechetSubdiff φ 0, ‖s - s'‖ ≤ b * ‖z‖

end Sglm.Spec
