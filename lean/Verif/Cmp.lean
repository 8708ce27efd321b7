import Mathlib.Data.EReal.Basic
import Verif.Scalar

/-!
# Floating point comparisons

`LawfulCmp F` states that comparisons and `max` on `F` are exact: every value which is not NaN denotes an
extended real number, and `<`, `<=`, `==`, `max` compare these numbers.  This holds for `f32` and `f64` (IEEE 754
section 5.11; `Float::max` of num_traits ignores NaN operands).  Nothing is assumed about the arithmetic
operations.
-/

namespace Sglm
open Scalar

class LawfulCmp (F : Type) [Scalar F] where
  /-- The number denoted by a value, `none` for NaN. -/
  key : F → Option EReal
  lt_iff : ∀ a b : F, (a <. b) = true ↔ ∃ x y, key a = some x ∧ key b = some y ∧ x < y
  le_iff : ∀ a b : F, (a <=. b) = true ↔ ∃ x y, key a = some x ∧ key b = some y ∧ x ≤ y
  beq_iff : ∀ a b : F, (a ==. b) = true ↔ ∃ x y, key a = some x ∧ key b = some y ∧ x = y
  key_zero : key zero = some 0
  key_inf : key inf = some ⊤
  key_negInf : key negInf = some ⊥
  key_fmax : ∀ a b : F, key (fmax a b) = match key a, key b with
    | some x, some y => some (max x y)
    | some x, none => some x
    | none, k => k

end Sglm
