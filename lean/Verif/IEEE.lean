import Verif.XR
import Verif.Cmp
import Mathlib.Data.Int.Log
import Mathlib.Algebra.Order.Round
import Mathlib.Algebra.Order.Floor.Ring

/-!
# IEEE 754 binary formats

`IEEE f S` interprets the float operations as IEEE 754 arithmetic in the binary format `f` (`binary32`, `binary64`: Rust's `f32`, `f64`):
the results of addition, subtraction, multiplication, division and square root are the exact results, rounded to the nearest number of
the format, ties to even, with gradual underflow, overflow to infinity, signed zeros, infinities and NaN.

Sums and dot products are additions in some order, which the summation scheme `S` determines (ndarray unrolls loops, depending on the
memory layout).  IEEE 754 does not prescribe `exp`, `ln`, `cos`, `acos` and `powf`; here they are correctly rounded.  The sign bit of
NaN is not kept.
-/

namespace Sglm

/-- A binary format: significands of `t + 1` bits, smallest positive number `2 ^ emin`, all numbers below `2 ^ emax`. -/
structure Format where
  t : ℕ
  emin : ℤ
  emax : ℤ
  ht : 4 ≤ t
  hmax : (t : ℤ) + 8 ≤ emax
  hmin : emin ≤ -(t : ℤ) - 8

/-- Rust's `f64`. -/
def binary64 : Format := ⟨52, -1074, 1024, by norm_num, by norm_num, by norm_num⟩

/-- Rust's `f32`. -/
def binary32 : Format := ⟨23, -149, 128, by norm_num, by norm_num, by norm_num⟩

open Classical in
/-- The nearest integer, ties to even. -/
noncomputable def roundEven (x : ℝ) : ℤ := if Int.fract x = 1 / 2 ∧ Even ⌊x⌋ then ⌊x⌋ else round x

theorem roundEven_err (x : ℝ) : |(roundEven x : ℝ) - x| ≤ 1 / 2 := by
  unfold roundEven
  split
  · rename_i h
    have := Int.floor_add_fract x
    rw [h.1] at this
    rw [show ((⌊x⌋ : ℤ) : ℝ) - x = -(1 / 2) by linarith]
    norm_num
  · rw [abs_sub_comm]; exact abs_sub_round x

theorem roundEven_nonneg {x : ℝ} (h : 0 ≤ x) : 0 ≤ roundEven x := by
  have := (abs_le.mp (roundEven_err x)).1
  by_contra hc
  have h1 : roundEven x ≤ -1 := by omega
  have h2 : (roundEven x : ℝ) ≤ -1 := by exact_mod_cast h1
  linarith

namespace Format
variable (f : Format)

/-- Absolute values of the numbers of the format, apart from the upper bound. -/
def IsMag (x : ℝ) : Prop := ∃ (m : ℕ) (k : ℤ), m < 2 ^ (f.t + 1) ∧ f.emin ≤ k ∧ x = m * (2 : ℝ) ^ k

/-- The exponent of the distance of neighbouring numbers at `x`. -/
noncomputable def scale (x : ℝ) : ℤ := max f.emin (Int.log 2 x - f.t)

/-- `x ≥ 0` rounded to the nearest number of the format, ties to even. -/
noncomputable def near (x : ℝ) : ℝ := roundEven (x / (2 : ℝ) ^ f.scale x) * (2 : ℝ) ^ f.scale x

theorem near_mag {x : ℝ} (hx : 0 ≤ x) : f.IsMag (f.near x) := by
  have hpos : (0 : ℝ) < 2 ^ f.scale x := by positivity
  have h0 := roundEven_nonneg (div_nonneg hx hpos.le)
  obtain ⟨m, hm⟩ := Int.eq_ofNat_of_zero_le h0
  have hle : m ≤ 2 ^ (f.t + 1) := by
    have h1 : x < (2 : ℝ) ^ (Int.log 2 x + 1) := by
      exact_mod_cast Int.lt_zpow_succ_log_self (b := 2) (by norm_num) x
    have h2 : (2 : ℝ) ^ (Int.log 2 x + 1) ≤ (2 : ℝ) ^ ((f.t + 1 : ℕ) : ℤ) * 2 ^ f.scale x := by
      rw [← zpow_add₀ (by norm_num)]
      refine zpow_le_zpow_right₀ (by norm_num) ?_
      have := le_max_right f.emin (Int.log 2 x - f.t)
      unfold scale
      push_cast
      omega
    have h3 : x / 2 ^ f.scale x < (2 : ℝ) ^ (f.t + 1) := by
      rw [div_lt_iff₀ hpos]
      rw [zpow_natCast] at h2
      linarith
    have h4 := (abs_le.mp (roundEven_err (x / 2 ^ f.scale x))).2
    rw [hm] at h4
    have h5 : ((m : ℤ) : ℝ) < ((2 ^ (f.t + 1) + 1 : ℕ) : ℝ) := by push_cast; push_cast at h4; linarith
    have h6 : m < 2 ^ (f.t + 1) + 1 := by exact_mod_cast h5
    omega
  have hs : f.emin ≤ f.scale x := le_max_left _ _
  rcases hle.lt_or_eq with h | h
  · exact ⟨m, f.scale x, h, hs, by unfold near; rw [hm]; norm_cast⟩
  · refine ⟨2 ^ f.t, f.scale x + 1, by rw [pow_succ]; have := Nat.pos_of_ne_zero (pow_ne_zero f.t two_ne_zero); omega, by omega, ?_⟩
    unfold near
    rw [hm, h, zpow_add₀ (by norm_num)]
    push_cast
    rw [pow_succ]
    ring

end Format

/-- A number of the format, an infinity, or NaN; `neg` is the sign bit. -/
inductive Num (f : Format) where
  | nan
  | inf (neg : Bool)
  | fin (neg : Bool) (x : ℝ) (h : f.IsMag x) (h' : x < (2 : ℝ) ^ f.emax)

/-- The real number with the given sign and absolute value. -/
noncomputable def signed (neg : Bool) (x : ℝ) : ℝ := if neg then -x else x

namespace Num
noncomputable section
open Classical
variable {f : Format}

/-- The number denoted, `none` for NaN. -/
def key : Num f → Option EReal
  | nan => none
  | inf s => some (if s then ⊥ else ⊤)
  | fin s x _ _ => some (signed s x : ℝ)

/-- `± |x|`, rounded. -/
def mk (neg : Bool) (x : ℝ) : Num f :=
  if h : f.near |x| < (2 : ℝ) ^ f.emax then .fin neg (f.near |x|) (f.near_mag (abs_nonneg x)) h else .inf neg

/-- `r`, rounded; `z` is the sign bit if `r = 0`. -/
def ofReal (z : Bool) (r : ℝ) : Num f := mk (if r = 0 then z else decide (r < 0)) r

def zero : Num f := mk false 0
def one : Num f := mk false 1

def add : Num f → Num f → Num f
  | nan, _ => nan
  | _, nan => nan
  | inf s, inf s' => if s = s' then inf s else nan
  | inf s, fin .. => inf s
  | fin .., inf s => inf s
  | fin s x _ _, fin s' x' _ _ => ofReal (s && s') (signed s x + signed s' x')

def neg : Num f → Num f
  | nan => nan
  | inf s => inf !s
  | fin s x h h' => fin (!s) x h h'

def mul : Num f → Num f → Num f
  | nan, _ => nan
  | _, nan => nan
  | inf s, inf s' => inf (s ^^ s')
  | inf s, fin s' x _ _ => if x = 0 then nan else inf (s ^^ s')
  | fin s x _ _, inf s' => if x = 0 then nan else inf (s ^^ s')
  | fin s x _ _, fin s' x' _ _ => mk (s ^^ s') (x * x')

def div : Num f → Num f → Num f
  | nan, _ => nan
  | _, nan => nan
  | inf _, inf _ => nan
  | inf s, fin s' _ _ _ => inf (s ^^ s')
  | fin s _ _ _, inf s' => mk (s ^^ s') 0
  | fin s x _ _, fin s' x' _ _ => if x' = 0 then (if x = 0 then nan else inf (s ^^ s')) else mk (s ^^ s') (x / x')

def abs : Num f → Num f
  | nan => nan
  | inf _ => inf false
  | fin _ x h h' => fin false x h h'

def sqrt : Num f → Num f
  | nan => nan
  | inf s => if s then nan else inf false
  | fin s x _ _ => if x = 0 then mk s 0 else if s then nan else mk false (Real.sqrt x)

def exp : Num f → Num f
  | nan => nan
  | inf s => if s then zero else inf false
  | fin s x _ _ => mk false (Real.exp (signed s x))

def ln : Num f → Num f
  | nan => nan
  | inf s => if s then nan else inf false
  | fin s x _ _ => if x = 0 then inf true else if s then nan else ofReal false (Real.log x)

def cos : Num f → Num f
  | fin s x _ _ => ofReal false (Real.cos (signed s x))
  | _ => nan

def acos : Num f → Num f
  | fin s x _ _ => if x ≤ 1 then ofReal false (Real.arccos (signed s x)) else nan
  | _ => nan

/-- `powf`; negative bases give NaN (the crate only uses non-negative bases). -/
def powf : Num f → Num f → Num f
  | fin s x _ _, fin s' y _ _ =>
    if y = 0 then one
    else if x = 0 then (if s' then inf false else zero)
    else if s then nan else mk false (x ^ signed s' y)
  | inf false, fin s' y _ _ => if y = 0 then one else if s' then zero else inf false
  | _, _ => nan

def signum : Num f → Num f
  | nan => nan
  | inf s => mk s 1
  | fin s _ _ _ => mk s 1

def lt (a b : Num f) : Bool := decide (∃ x y, key a = some x ∧ key b = some y ∧ x < y)
def le (a b : Num f) : Bool := decide (∃ x y, key a = some x ∧ key b = some y ∧ x ≤ y)
def beq (a b : Num f) : Bool := decide (∃ x y, key a = some x ∧ key b = some y ∧ x = y)

/-- `f64::max`: NaN operands are ignored. -/
def fmax : Num f → Num f → Num f
  | nan, b => b
  | a, nan => a
  | a, b => if lt a b then b else a

def signBit : Num f → Bool
  | nan => false
  | inf s => s
  | fin s _ _ _ => s

/-- Conversion between formats (`as`). -/
def cast {g : Format} : Num f → Num g
  | nan => nan
  | inf s => inf s
  | fin s x _ _ => mk s x

/-- `s` is a sum of the numbers in the list, added in some order. -/
inductive SumOf : List (Num f) → Num f → Prop
  | zero : SumOf [] zero
  | single (x : Num f) : SumOf [x] x
  | add {l l' : List (Num f)} {a b : Num f} : SumOf l a → SumOf l' b → SumOf (l ++ l') (add a b)
  | perm {l l' : List (Num f)} {a : Num f} : SumOf l a → l.Perm l' → SumOf l' a

end
end Num

/-- How sums and dot products are computed. -/
structure Summation (f : Format) where
  sum : List (Num f) → Num f
  dot : List (Num f) → List (Num f) → Num f
  /-- entries of matrix products; nothing is assumed about them (the kernels of matrixmultiply may use fused operations) -/
  mmdot : List (Num f) → List (Num f) → Num f
  sum_spec : ∀ l, Num.SumOf l (sum l)
  dot_spec : ∀ a b, Num.SumOf (List.zipWith Num.mul a b) (dot a b)

/-- Numbers of the format `f`, with the summation scheme `S`. -/
def IEEE (f : Format) (_S : Summation f) : Type := Num f

namespace IEEE
noncomputable section
variable {f : Format} {S : Summation f}

instance : Scalar (IEEE f S) where
  zero := Num.zero
  one := Num.one
  add := Num.add
  sub a b := Num.add a (Num.neg b)
  mul := Num.mul
  div := Num.div
  neg := Num.neg
  abs := Num.abs
  sqrt := Num.sqrt
  exp := Num.exp
  ln := Num.ln
  cos := Num.cos
  acos := Num.acos
  signum := Num.signum
  powf := Num.powf
  fmax := Num.fmax
  lt := Num.lt
  le := Num.le
  beq := Num.beq
  inf := Num.inf false
  negInf := Num.inf true
  signBit := Num.signBit
  ofNat n := Num.mk false (n : ℝ)
  lit n d := Num.cast (Num.ofReal false ((n : ℝ) / (d : ℝ)) : Num binary64)
  eConst := Num.cast (Num.mk false (Real.exp 1) : Num binary64)
  sum := S.sum
  dot := S.dot
  mmdot := S.mmdot

end
end IEEE
end Sglm
