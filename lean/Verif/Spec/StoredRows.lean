import Verif.Model.Datasets

/-!
# Specification: samples without stored entries
-/

namespace Sglm.Spec
variable {F : Type}

/-- The targets agree on all samples with a stored entry in the sparse array. -/
def AgreeOnStored (X : CSC F) (y y' : List F) : Prop :=
  y.length = y'.length ∧ ∀ i : ℕ, (i : Int) ∈ X.indices → y[i]? = y'[i]?

/-- The same for targets of several tasks, given by their rows. -/
def RowsAgreeOnStored (X : CSC F) (Y Y' : Mat F) : Prop :=
  ∀ i : ℕ, (i : Int) ∈ X.indices → Y.rows[i]? = Y'.rows[i]?

end Sglm.Spec
