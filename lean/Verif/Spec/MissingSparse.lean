import Verif.Model.Datasets
import Verif.XR

/-!
# Specification: missing values in a sparse design
-/

namespace Sglm.Spec

/-- The stored entry `i` belongs to the column `j`. -/
def EntryOf {F : Type} (X : CSC F) (j i : ℕ) : Prop :=
  ∃ a b : Int, X.indptr[j]? = some a ∧ X.indptr[j + 1]? = some b ∧ a ≤ i ∧ (i : Int) < b

/-- A stored value of the feature `j` is missing (NaN). -/
def MissingStored (X : CSC XR) (j : ℕ) : Prop := ∃ i, EntryOf X j i ∧ X.data[i]? = some XR.nan

/-- `X'` is the array `X` with the stored values of the feature `j` replaced by zeros. -/
structure BlankedColumn (X X' : CSC XR) (j : ℕ) : Prop where
  indices : X.indices = X'.indices
  indptr : X.indptr = X'.indptr
  length : X.data.length = X'.data.length
  other : ∀ k, k ≠ j → ∀ i, EntryOf X k i → X.data[i]? = X'.data[i]?
  blank : ∀ i, EntryOf X j i → i < X.data.length → X'.data[i]? = some (XR.fin 0)

/-- The feature `j` has a stored entry in a sample whose target is missing. -/
def UnseenTarget (X : CSC XR) (y : List XR) (j : ℕ) : Prop :=
  ∃ e i : ℕ, EntryOf X j e ∧ X.indices[e]? = some (i : Int) ∧ y[i]? = some XR.nan

end Sglm.Spec
