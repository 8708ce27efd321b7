import Mathlib.Analysis.InnerProductSpace.PiL2
import Mathlib.Topology.MetricSpace.HausdorffDistance

/-!
# Specification: penalties, proximal operators, subdifferentials

Textbook definitions over the reals, independent of the model.
-/

namespace Sglm.Spec

/-- `x` minimises `z ↦ ‖z - v‖²/2 + f z`: `x` is a value of the proximal operator of `f` at `v`. -/
def IsProx {E : Type*} [NormedAddCommGroup E] (f : E → ℝ) (v x : E) : Prop :=
  ∀ z, ‖x - v‖ ^ 2 / 2 + f x ≤ ‖z - v‖ ^ 2 / 2 + f z

/-- `x` is the only minimiser of `z ↦ ‖z - v‖²/2 + f z`. -/
def IsUniqueProx {E : Type*} [NormedAddCommGroup E] (f : E → ℝ) (v x : E) : Prop :=
  ∀ z, z ≠ x → ‖x - v‖ ^ 2 / 2 + f x < ‖z - v‖ ^ 2 / 2 + f z

/-- Convex subdifferential. -/
def subdiff {E : Type*} [NormedAddCommGroup E] [InnerProductSpace ℝ E] (f : E → ℝ) (x : E) : Set E :=
  {g | ∀ z, f x + inner ℝ g (z - x) ≤ f z}

/-- Fréchet (regular) subdifferential. -/
def frechetSubdiff {E : Type*} [NormedAddCommGroup E] [InnerProductSpace ℝ E] (f : E → ℝ) (x : E) :
    Set E :=
  {g | ∀ ε > 0, ∃ δ > 0, ∀ z, ‖z - x‖ < δ → f x + inner ℝ g (z - x) - ε * ‖z - x‖ ≤ f z}

/-- `d` is the Euclidean distance from `x` to the nonempty set `S`. -/
def IsDist {E : Type*} [PseudoMetricSpace E] (x : E) (S : Set E) (d : ℝ) : Prop :=
  S.Nonempty ∧ d = Metric.infDist x S

/-- The elastic-net function `α (ρ ‖z‖ + (1 - ρ) ‖z‖²/2)`. -/
noncomputable def enet {E : Type*} [NormedAddCommGroup E] (α ρ : ℝ) (z : E) : ℝ :=
  α * (ρ * ‖z‖ + (1 - ρ) * ‖z‖ ^ 2 / 2)

/-- The minimax concave penalty of `‖z‖`. -/
noncomputable def mcp {E : Type*} [NormedAddCommGroup E] (α γ : ℝ) (z : E) : ℝ :=
  if ‖z‖ ≤ γ * α then α * ‖z‖ - ‖z‖ ^ 2 / (2 * γ) else γ * α ^ 2 / 2

/-- Euclidean space of dimension `n`. -/
abbrev Euc (n : ℕ) := EuclideanSpace ℝ (Fin n)

end Sglm.Spec
