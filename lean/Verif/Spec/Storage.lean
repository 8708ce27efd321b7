import Verif.Spec.Data

/-!
# Specification: what a sparse array stores

The entries of a column as a multiset: the order in which they are stored is forgotten, repetitions are kept.
-/

namespace Sglm.Spec
open Classical
variable {n p : ℕ}

/-- The stored entries (row, value) of the column `j`, in no particular order. -/
noncomputable def entries (A : CSCData n p) (j : Fin p) : Multiset (Fin n × ℝ) :=
  (Finset.univ.filter fun k => A.InCol j k).val.map fun k => (A.row k, A.data k)

/-- The two arrays store the same non-zero entries in each column, possibly in another order; any number of zeros may be stored explicitly. -/
def SameEntries (A A' : CSCData n p) : Prop :=
  ∀ j, (entries A j).filter (fun e => e.2 ≠ 0) = (entries A' j).filter (fun e => e.2 ≠ 0)

end Sglm.Spec
