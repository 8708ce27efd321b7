import Verif.Model.SolverCD

/-!
# Observables of a run
-/

namespace Sglm.Spec

/-- Is this printed line an `Iteration ..` line? -/
def isIteration {F : Type} : Event F → Bool
  | .iteration _ _ => true
  | _ => false

/-- Number of `Iteration ..` lines printed, i.e. of outer iterations in which a subproblem was solved. -/
def iterationsPrinted {F : Type} (log : List (Event F)) : Nat := log.countP isIteration

end Sglm.Spec
