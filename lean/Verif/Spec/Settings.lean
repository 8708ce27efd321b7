import Verif.Model.Estimators

/-!
# Settings of the solvers which have the same effect
-/

namespace Sglm.Spec
open Scalar

/-- Two settings of the solver which differ at most in `K`, if acceleration is off, and in `ws_start_size`, if it is at least the number
of features. -/
structure SameEffect {F : Type} (p : ℕ) (c c' : Solver F) : Prop where
  iterations : c.maxIterations = c'.maxIterations
  epochs : c.maxEpochs = c'.maxEpochs
  tolerance : c.tolerance = c'.tolerance
  acceleration : c.useAcceleration = c'.useAcceleration
  verbose : c.verbose = c'.verbose
  workingSet : min c.wsStartSize p = min c'.wsStartSize p
  K : c.useAcceleration = true → c.K = c'.K

/-- A run which never extrapolates: acceleration is off, or the number of epochs does not exceed `K`. -/
def NeverExtrapolates {F : Type} (c : Solver F) : Prop := c.useAcceleration = false ∨ c.maxEpochs ≤ c.K

/-- A run which never changes the coefficients. -/
def NeverUpdates {F : Type} (c : Solver F) : Prop := c.maxIterations = 0 ∨ c.maxEpochs = 0

end Sglm.Spec
