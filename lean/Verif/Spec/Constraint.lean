import Verif.Spec.Custom

/-!
# Specification: constraints supplied by the user as penalties

A constraint `w_j ∈ D` on every coefficient is a penalty with the value `+∞` outside `D`.  What the user has to know about their own
implementation of the trait `Penalty` (`/repo/src/penalties/separable/mod.rs`).
-/

namespace Sglm.Spec
open Scalar
variable {n p : ℕ} {P : Type}

/-- All coefficients satisfy the constraint. -/
def Feasible (D : Set ℝ) {q : ℕ} (w : Fin q → ℝ) : Prop := ∀ j, w j ∈ D

/-- Subgradients at `x` of the function which is `φ` on `D` and `+∞` elsewhere. -/
def subdiffOn (φ : ℝ → ℝ) (D : Set ℝ) (x : ℝ) : Set ℝ := {s | ∀ z ∈ D, φ x + s * (z - x) ≤ φ z}

open Classical in
/-- The penalty object computes the convex penalty `φ` on `D` and `+∞` elsewhere, its proximal operator for the step sizes `1 / L j`, and,
for feasible coefficients, the distances of the negative gradients to the subdifferentials together with their maximum. -/
structure ConstrainedOK [Penalty XR P] (pen : P) (φ : ℝ → ℝ) (D : Set ℝ) (L : Fin p → ℝ) : Prop where
  zero : (0 : ℝ) ∈ D
  convex : ConvexOn ℝ D φ
  value : ∀ {q : ℕ} (w : Fin q → ℝ), Penalty.value pen (vec w) =
    .ok (if Feasible D w then XR.fin (∑ j, φ (w j)) else inf)
  prox : ∀ v s : ℝ, 0 < s → ∃ x, Penalty.prox pen (XR.fin v) (XR.fin s) = .ok (XR.fin x) ∧
    ((∃ j, L j ≠ 0 ∧ s = 1 / L j) → x ∈ D ∧ ∀ z ∈ D, (x - v) ^ 2 / 2 + s * φ x ≤ (z - v) ^ 2 / 2 + s * φ z)
  subdiff : ∀ x ∈ D, (subdiffOn φ D x).Nonempty
  scores : ∃ m0 : XR, (m0 = XR.ninf ∨ m0 = XR.fin 0) ∧ ∀ {q : ℕ} (w g : Fin q → ℝ) (ws : List (Fin q)), Feasible D w → ∃ m : XR,
    Penalty.subdiffDistance pen (vec w) (ws.map fun j => XR.fin (g j)) (ws.map Fin.val) =
      .ok (ws.map fun j => XR.fin (Metric.infDist (-g j) (subdiffOn φ D (w j))), m) ∧
    (ws = [] → m = m0) ∧
    (ws ≠ [] → ∃ r, m = XR.fin r ∧ IsGreatest {d | ∃ j ∈ ws, d = Metric.infDist (-g j) (subdiffOn φ D (w j))} r)

/-- Distance of coefficient `j` from stationarity under the constraint. -/
noncomputable def constrainedViolation (f : (Fin n → ℝ) → ℝ) (X : Fin n → Fin p → ℝ) (φ : ℝ → ℝ) (D : Set ℝ) (w : Fin p → ℝ)
    (j : Fin p) : ℝ :=
  Metric.infDist (-(fderiv ℝ f (fit X w) (column X j))) (subdiffOn φ D (w j))

/-- The penalty is at least `c` on `D`, and its subgradients at `z`, up to size `B`, are within `b |z|` of subgradients at `0`. -/
structure RegularOn (φ : ℝ → ℝ) (D : Set ℝ) (c b B : ℝ) : Prop where
  low : ∀ z ∈ D, c ≤ φ z
  bound : 0 ≤ b
  near : ∀ z ∈ D, ∀ s ∈ subdiffOn φ D z, |s| ≤ B → ∃ s' ∈ subdiffOn φ D 0, |s - s'| ≤ b * |z|

/-- Objective of the linear support vector machine with the hinge loss, for `p` observations with `n` variables; observation `j`, times its
label, is column `j` of `X`. -/
noncomputable def svmPrimal (C : ℝ) (X : Fin n → Fin p → ℝ) (β : Fin n → ℝ) : ℝ :=
  (n : ℝ) / 2 * ∑ i, β i ^ 2 + C * ∑ j, max 0 (1 - ∑ i, X i j * β i)

end Sglm.Spec
