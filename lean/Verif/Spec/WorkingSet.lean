import Verif.Scalar

/-!
# Specification of a working set
-/

namespace Sglm.Spec
open Scalar

/-- `ws` is a working set for `p` features with violation scores `score`, of which those with `nz j = true` are in
the support, for the start size `start`. -/
structure WorkingSet {F : Type} [Scalar F] (p start : ℕ) (nz : ℕ → Bool) (score : ℕ → F) (ws : List ℕ) :
    Prop where
  /-- Indices are distinct and in range. -/
  nodup : ws.Nodup
  lt : ∀ j ∈ ws, j < p
  /-- The size is `max(start, min(2 * nnz, p))`. -/
  size : ws.length = max start (min (2 * (List.range p).countP nz) p)
  /-- The support is contained. -/
  support : ∀ j < p, nz j = true → j ∈ ws
  /-- No excluded feature has a larger score than an included zero-weight feature. -/
  best : ∀ i ∈ ws, nz i = false → ∀ j < p, j ∉ ws → (score i <. score j) = false
  /-- Decreasing priority: the support first, then by decreasing score. -/
  order : ws.Pairwise (fun i j => (nz j = true → nz i = true) ∧
    (nz i = false → nz j = false → (score i <. score j) = false))

end Sglm.Spec
