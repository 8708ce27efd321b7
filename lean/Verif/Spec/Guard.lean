import Verif.Model.SolverBCD

/-!
# Specification: constraints in floating point

No law of arithmetic is assumed here: `F` is any scalar type, in particular `f64` and `f32`.
-/

namespace Sglm.Spec
open Scalar
variable {F P : Type} [Scalar F]

/-- Zero satisfies the constraint `S`, and every result of the proximal operator does. -/
structure ProxGuards [Penalty F P] (pen : P) (S : F → Prop) : Prop where
  zero : S zero
  prox : ∀ v s x, Penalty.prox pen v s = .ok x → S x

/-- and no objective with coefficients outside `S` compares below another number (e.g. it is `+∞` or NaN). -/
structure Guards [Penalty F P] (pen : P) (S : F → Prop) : Prop extends ProxGuards pen S where
  value : ∀ w b, Penalty.value pen w = .ok b → (∃ z ∈ w, ¬ S z) → ∀ a c, (a +. b <. c) = false

/-- The same for the penalties of several tasks. -/
structure ProxGuardsMT [MTPenalty F P] (pen : P) (S : F → Prop) : Prop where
  zero : S zero
  prox : ∀ v s x, MTPenalty.prox pen v s = .ok x → ∀ z ∈ x, S z

structure GuardsMT [MTPenalty F P] (pen : P) (S : F → Prop) : Prop extends ProxGuardsMT pen S where
  value : ∀ W b, MTPenalty.value pen W = .ok b → (∃ r ∈ W.rows, ∃ z ∈ r, ¬ S z) → ∀ a c, (a +. b <. c) = false

end Sglm.Spec
