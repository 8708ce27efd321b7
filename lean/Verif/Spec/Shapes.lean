import Verif.Model.Datasets

/-!
# Shape-consistent data

Only shapes are constrained; the entries are arbitrary (NaN and infinities included).
-/

namespace Sglm

/-- `A` is an `r × c` array. -/
def Shaped {F : Type} (A : Mat F) (r c : ℕ) : Prop :=
  A.rows.length = r ∧ A.ncols = c ∧ ∀ x ∈ A.rows, x.length = c

namespace Spec

/-- Targets with `n` samples and `t` tasks. -/
structure ShapedTargets {F : Type} (T : Targets F) (n t : ℕ) : Prop where
  nSamples : T.nSamples = n
  nTasks : T.nTasks = t
  multi : Shaped T.asMulti n t

/-- A CSC array with `p` columns whose stored entries lie within the arrays and whose row indices are `< n`. -/
structure ShapedCSC {F : Type} (X : CSC F) (n p : ℕ) : Prop where
  indptr : X.indptr.length = p + 1
  entry : ∀ j a b, X.indptr[j]? = some a → X.indptr[j + 1]? = some b → ∀ k : Int, a ≤ k → k < b →
    0 ≤ k ∧ k < X.data.length ∧ k < X.indices.length
  row : ∀ i ∈ X.indices, 0 ≤ i ∧ i < n

end Spec
end Sglm
