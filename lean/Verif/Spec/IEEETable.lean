import Verif.IEEE

/-!
# What IEEE 754 requires of the basic operations

Written without the rounding functions of the model: only with the set of numbers of the format.
-/

namespace Sglm.Spec

/-- `k` is `r` correctly rounded in the format `f`: a number of the format nearest to `r`; or an infinity with the sign of `r`, if some
`± m 2 ^ e` with a significand of the format, but beyond the largest number, is as near to `r` as any number of the format. -/
def Rounds (f : Format) (r : ℝ) (k : EReal) : Prop :=
  (∃ q : ℝ, k = (q : EReal) ∧ f.IsMag |q| ∧ |q| < (2 : ℝ) ^ f.emax ∧ ∀ z : ℝ, f.IsMag |z| → |q - r| ≤ |z - r|) ∨
  ((k = ⊤ ∧ 0 < r ∨ k = ⊥ ∧ r < 0) ∧
    ∃ w : ℝ, f.IsMag |w| ∧ (2 : ℝ) ^ f.emax ≤ |w| ∧ ∀ z : ℝ, f.IsMag |z| → |w - r| ≤ |z - r|)

/-- The result `c` of an operation with the operands `a`, `b` (`none` is NaN), whose exact result on real numbers is `op`. `bad` are the
operands with result NaN, `lim` gives the results with an infinite operand or a division by zero. -/
structure Operation (f : Format) (op : ℝ → ℝ → ℝ) (dom bad : EReal → EReal → Prop) (lim : EReal → EReal → EReal → Prop)
    (a b c : Option EReal) : Prop where
  nan : a = none ∨ b = none → c = none
  invalid : ∀ x y, a = some x → b = some y → bad x y → c = none
  exact : ∀ x y : ℝ, a = some (x : EReal) → b = some (y : EReal) → dom x y → ∃ k, c = some k ∧ Rounds f (op x y) k
  limit : ∀ x y, a = some x → b = some y → ¬ bad x y → (¬ ∃ r s : ℝ, x = r ∧ y = s ∧ dom x y) → ∃ k, c = some k ∧ lim x y k

/-- Addition: `∞ - ∞` is invalid, otherwise an infinite operand is the result. -/
def IsSum (f : Format) (a b c : Option EReal) : Prop :=
  Operation f (· + ·) (fun _ _ => True) (fun x y => x = ⊤ ∧ y = ⊥ ∨ x = ⊥ ∧ y = ⊤) (fun x y k => k = x + y) a b c

/-- Multiplication: `0 · ∞` is invalid, otherwise an infinite operand gives an infinity of the right sign. -/
def IsProduct (f : Format) (a b c : Option EReal) : Prop :=
  Operation f (· * ·) (fun _ _ => True) (fun x y => x = 0 ∧ (y = ⊤ ∨ y = ⊥) ∨ (x = ⊤ ∨ x = ⊥) ∧ y = 0) (fun x y k => k = x * y) a b c

/-- Division: `∞ / ∞` and `0 / 0` are invalid; a finite number divided by an infinity is zero; an infinity divided by a finite number, and a
non-zero number divided by zero, are infinite. -/
def IsQuotient (f : Format) (a b c : Option EReal) : Prop :=
  Operation f (· / ·) (fun _ y => y ≠ 0)
    (fun x y => x = 0 ∧ y = 0 ∨ (x = ⊤ ∨ x = ⊥) ∧ (y = ⊤ ∨ y = ⊥))
    (fun x y k => if y = ⊤ ∨ y = ⊥ then k = 0 else if y = 0 then k = ⊤ ∨ k = ⊥ else k = x * y⁻¹) a b c

/-- Square root: NaN for negative numbers. -/
structure IsSqrt (f : Format) (a c : Option EReal) : Prop where
  nan : a = none → c = none
  invalid : ∀ x, a = some x → x < 0 → c = none
  exact : ∀ x : ℝ, a = some (x : EReal) → 0 ≤ x → ∃ k, c = some k ∧ Rounds f (Real.sqrt x) k
  limit : a = some ⊤ → c = some ⊤

end Sglm.Spec
