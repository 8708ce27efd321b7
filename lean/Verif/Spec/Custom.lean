import Verif.Spec.Run
import Verif.Spec.Problem
import Verif.Bridge
import Mathlib.Analysis.Calculus.FDeriv.Basic
import Mathlib.Analysis.Convex.Function

/-!
# Specification: datafits and penalties supplied by the user

What the user of the solver has to know about their own implementations of the traits `DesignMatrix`, `Datafit` and
`Penalty` (`/repo/src/datasets/mod.rs`, `/repo/src/datafits/single_task/mod.rs`, `/repo/src/penalties/separable/mod.rs`): the methods compute, exactly
and on finite data, what a textbook loss `f` (a function of the prediction `X w`) and a textbook penalty `φ` (a function of one
coefficient) prescribe.
-/

namespace Sglm.Spec
open Scalar
variable {n p : ℕ} {DM DF P : Type} [DesignMatrix XR DM]

/-- Column `j` of a matrix. -/
def column (X : Fin n → Fin p → ℝ) (j : Fin p) : Fin n → ℝ := fun i => X i j

/-- The design object stores the matrix `X`. -/
structure StorageOK (dm : DM) (X : Fin n → Fin p → ℝ) : Prop where
  features : DesignMatrix.nFeatures dm = .ok p
  update : ∀ (u : Fin n → ℝ) (d : ℝ) (j : Fin p),
    DesignMatrix.updateModelFit dm (vec u) (XR.fin d) j = .ok (vec fun i => u i + d * X i j)
  combine : ∀ (ws : List (Fin p)) (w : Fin p → ℝ), DesignMatrix.extrapolatedFit dm (ws.map Fin.val) (vec w) n =
    .ok (vec fun i => (ws.map fun j => X i j * w j).sum)

/-- A smooth convex loss, bounded from below by `0`, whose derivative along column `j` is `L j`-Lipschitz along column `j`. -/
structure LossOK (f : (Fin n → ℝ) → ℝ) (X : Fin n → Fin p → ℝ) (L : Fin p → ℝ) : Prop where
  convex : ConvexOn ℝ Set.univ f
  diff : Differentiable ℝ f
  nonneg : ∀ u, 0 ≤ f u
  steps : ∀ j, 0 ≤ L j
  lipschitz : ∀ u j (t : ℝ), |fderiv ℝ f (u + t • column X j) (column X j) - fderiv ℝ f u (column X j)| ≤ L j * |t|

/-- The datafit object `df0`, once initialized with the data, computes the loss `f`, its derivatives along the columns and the
step constants `L`. -/
def DatafitOK [Datafit XR DM DF] (ds : Dataset DM XR) (df0 : DF) (f : (Fin n → ℝ) → ℝ) (X : Fin n → Fin p → ℝ) (L : Fin p → ℝ) : Prop :=
  ds.targets.nSamples = n ∧ ∃ df : DF, Datafit.init df0 ds = .ok df ∧
    (∀ u, Datafit.value df ds (vec u) = .ok (XR.fin (f u))) ∧
    (∀ u (j : Fin p), Datafit.gradientJ df ds (vec u) j = .ok (XR.fin (fderiv ℝ f u (column X j)))) ∧
    (∀ u, Datafit.fullGrad df ds (vec u) = .ok (vec fun j => fderiv ℝ f u (column X j))) ∧
    Datafit.stepSize (DM := DM) df = vec L

/-- The penalty object computes the penalty `φ`, its proximal operator for the step sizes `1 / L j`, and, for the features of a
working set, the distances of the negative gradients to the subdifferentials of `φ` together with their maximum. -/
structure PenaltyOK [Penalty XR P] (pen : P) (φ : ℝ → ℝ) (L : Fin p → ℝ) : Prop where
  value : ∀ {q : ℕ} (w : Fin q → ℝ), Penalty.value pen (vec w) = .ok (XR.fin (∑ j, φ (w j)))
  prox : ∀ v s : ℝ, 0 < s → ∃ x, Penalty.prox pen (XR.fin v) (XR.fin s) = .ok (XR.fin x) ∧
    ((∃ j, L j ≠ 0 ∧ s = 1 / L j) → IsProx (fun z => s * φ z) v x)
  subdiff : ∀ x, (frechetSubdiff φ x).Nonempty
  scores : ∃ m0 : XR, (m0 = XR.ninf ∨ m0 = XR.fin 0) ∧ ∀ {q : ℕ} (w g : Fin q → ℝ) (ws : List (Fin q)), ∃ m : XR,
    Penalty.subdiffDistance pen (vec w) (ws.map fun j => XR.fin (g j)) (ws.map Fin.val) =
      .ok (ws.map fun j => XR.fin (Metric.infDist (-g j) (frechetSubdiff φ (w j))), m) ∧
    (ws = [] → m = m0) ∧
    (ws ≠ [] → ∃ r, m = XR.fin r ∧ IsGreatest {d | ∃ j ∈ ws, d = Metric.infDist (-g j) (frechetSubdiff φ (w j))} r)

/-- The same with arbitrary scores `sc w_j g_j` in place of the distances. -/
structure PenaltyScored [Penalty XR P] (pen : P) (φ : ℝ → ℝ) (sc : ℝ → ℝ → ℝ) (L : Fin p → ℝ) : Prop where
  value : ∀ {q : ℕ} (w : Fin q → ℝ), Penalty.value pen (vec w) = .ok (XR.fin (∑ j, φ (w j)))
  prox : ∀ v s : ℝ, 0 < s → ∃ x, Penalty.prox pen (XR.fin v) (XR.fin s) = .ok (XR.fin x) ∧
    ((∃ j, L j ≠ 0 ∧ s = 1 / L j) → IsProx (fun z => s * φ z) v x)
  scores : ∃ m0 : XR, (m0 = XR.ninf ∨ m0 = XR.fin 0) ∧ ∀ {q : ℕ} (w g : Fin q → ℝ) (ws : List (Fin q)), ∃ m : XR,
    Penalty.subdiffDistance pen (vec w) (ws.map fun j => XR.fin (g j)) (ws.map Fin.val) =
      .ok (ws.map fun j => XR.fin (sc (w j) (g j)), m) ∧
    (ws = [] → m = m0) ∧ (ws ≠ [] → ∃ r, m = XR.fin r ∧ IsGreatest {d | ∃ j ∈ ws, d = sc (w j) (g j)} r)

/-- The objective: loss of the prediction plus penalty of the coefficients. -/
noncomputable def customObjective (f : (Fin n → ℝ) → ℝ) (X : Fin n → Fin p → ℝ) (φ : ℝ → ℝ) (w : Fin p → ℝ) : ℝ :=
  f (fit X w) + ∑ j, φ (w j)

/-- Distance of coefficient `j` from stationarity: from the negative partial derivative of the loss to the subdifferential of the
penalty. -/
noncomputable def customViolation (f : (Fin n → ℝ) → ℝ) (X : Fin n → Fin p → ℝ) (φ : ℝ → ℝ) (w : Fin p → ℝ) (j : Fin p) : ℝ :=
  Metric.infDist (-(fderiv ℝ f (fit X w) (column X j))) (frechetSubdiff φ (w j))

/-- The call returns the coefficients `v`, and stops before `max_iterations`: the same call with `verbose` prints fewer iterations. -/
def CustomStops [Datafit XR DM DF] [Penalty XR P] (srt : Argsort XR) (cfg : Solver XR) (ds : Dataset DM XR) (df : DF) (pen : P)
    (v : Fin p → ℝ) : Prop :=
  cfg.solve srt ds df pen = .ok (vec v) ∧ ∃ st df' log, coordinateDescent srt ds df pen (cfg.setVerbose true) = .ok (st, df', log) ∧
    iterationsPrinted log < cfg.maxIterations

/-- A penalty which is minimal at `0`, convex up to `m z² / 2`, and whose subgradients at `z` are within `b |z|` of subgradients
at `0`. -/
structure Regular (φ : ℝ → ℝ) (m b : ℝ) : Prop where
  zero : φ 0 = 0
  nonneg : ∀ z, 0 ≤ φ z
  convex : ConvexOn ℝ Set.univ fun z => φ z + m / 2 * z ^ 2
  bound : 0 ≤ b
  near : ∀ z, ∀ s ∈ frechetSubdiff φ z, ∃ s' ∈ frechetSubdiff φ 0, |s - s'| ≤ b * |z|

end Sglm.Spec
