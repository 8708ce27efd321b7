import Verif.Spec.Quality

/-!
# Specification: the encoding of the two classes
-/

namespace Sglm.Spec
variable {n p m : ℕ}

/-- Labels `0` and `1`. -/
def ZeroOne (y : Fin n → ℝ) : Prop := ∀ i, y i = 0 ∨ y i = 1

/-- The same classes with the labels `-1` and `1`. -/
def signed (y : Fin n → ℝ) (i : Fin n) : ℝ := 2 * y i - 1

/-- `e` lists the samples whose label is not zero, each once. -/
def Listed (y : Fin n → ℝ) (e : Fin m → Fin n) : Prop := Function.Injective e ∧ ∀ i, y i ≠ 0 ↔ ∃ l, e l = i

end Sglm.Spec
