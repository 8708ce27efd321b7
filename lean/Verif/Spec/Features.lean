import Verif.Spec.Quality

/-!
# Specification: datasets with the same samples and other features
-/

namespace Sglm.Spec
variable {n p q T : ℕ}

/-- The features of the second design are features of the first, in some order: feature `k` is feature `f k`. -/
structure Subfeatures (D : Design n p) (D' : Design n q) (f : Fin q → Fin p) : Prop where
  inj : Function.Injective f
  cols : ∀ i k, D'.matrix i k = D.matrix i (f k)

/-- Coefficients for all features: those given, and zero for the features which are missing. -/
noncomputable def spread {E : Type} [Zero E] (f : Fin q → Fin p) (u : Fin q → E) : Fin p → E := Function.extend f u 0

end Sglm.Spec
