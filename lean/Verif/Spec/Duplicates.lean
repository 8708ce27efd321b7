import Verif.Spec.Quality

/-!
# Specification: sparse arrays in which positions are stored more than once

The usual meaning of such arrays (e.g. `scipy.sparse`) is that entries at the same position are added, see `CSCData.dense`.
-/

namespace Sglm.Spec
variable {n p : ℕ}

/-- Sum of the squares of the stored entries of a column. -/
noncomputable def storedSq (A : CSCData n p) (j : Fin p) : ℝ := ∑ k, if A.InCol j k then A.data k ^ 2 else 0

/-- The squared norm of every column of the matrix is at most `c` times the sum of the squares of the stored entries. -/
def StoredBound (c : ℝ) (A : CSCData n p) : Prop := ∀ j, ∑ i, A.dense i j ^ 2 ≤ c * storedSq A j

/-- No position is stored more than `r` times. -/
def StoredTimes (r : ℕ) (A : CSCData n p) : Prop := ∀ i j, (Finset.univ.filter fun k => A.InCol j k ∧ A.row k = i).card ≤ r

/-- Entries stored at the same position have opposite signs (or are zero). -/
def StoredOpposite (A : CSCData n p) : Prop :=
  ∀ j k k', A.InCol j k → A.InCol j k' → A.row k = A.row k' → k ≠ k' → A.data k * A.data k' ≤ 0

/-- The matrix `(r)` of one row and one column, stored as `r` entries 1 at the same position. -/
def onesCSC (r : ℕ) : CSCData 1 1 := ⟨r, fun _ => 1, fun _ => 0, ![0, r], fun j => by fin_cases j <;> simp⟩

end Sglm.Spec
