import Mathlib.Analysis.SpecialFunctions.Pow.Real
import Mathlib.Analysis.SpecialFunctions.Trigonometric.Inverse
import Verif.Scalar

/-!
# Exact extended reals with IEEE special values

`XR` interprets the float operations without rounding: finite numbers are reals, and `±inf`, `NaN`
follow the IEEE rules.  Simplification: zero is unsigned and treated as `+0.0`.
-/

namespace Sglm

/-- A real number, an infinity, or NaN. -/
inductive XR where
  | fin (r : ℝ)
  | pinf
  | ninf
  | nan

namespace XR
noncomputable section
open Classical

def add : XR → XR → XR
  | fin a, fin b => fin (a + b)
  | nan, _ => nan
  | _, nan => nan
  | pinf, ninf => nan
  | ninf, pinf => nan
  | pinf, _ => pinf
  | _, pinf => pinf
  | ninf, _ => ninf
  | _, ninf => ninf

def neg : XR → XR
  | fin a => fin (-a)
  | pinf => ninf
  | ninf => pinf
  | nan => nan

/-- Infinity with the sign of `a` (NaN when `a = 0`): the rule for `a * inf`. -/
def infTimes (a : ℝ) : XR := if 0 < a then pinf else if a < 0 then ninf else nan

def mul : XR → XR → XR
  | fin a, fin b => fin (a * b)
  | nan, _ => nan
  | _, nan => nan
  | fin a, pinf => infTimes a
  | fin a, ninf => infTimes (-a)
  | pinf, fin b => infTimes b
  | ninf, fin b => infTimes (-b)
  | pinf, pinf => pinf
  | pinf, ninf => ninf
  | ninf, pinf => ninf
  | ninf, ninf => pinf

/-- Division; a zero denominator counts as `+0.0`. -/
def div : XR → XR → XR
  | fin a, fin b => if b = 0 then infTimes a else fin (a / b)
  | nan, _ => nan
  | _, nan => nan
  | fin _, pinf => fin 0
  | fin _, ninf => fin 0
  | pinf, fin b => if b < 0 then ninf else pinf
  | ninf, fin b => if b < 0 then pinf else ninf
  | _, _ => nan

def abs : XR → XR
  | fin a => fin |a|
  | pinf => pinf
  | ninf => pinf
  | nan => nan

def sqrt : XR → XR
  | fin a => if a < 0 then nan else fin (Real.sqrt a)
  | pinf => pinf
  | _ => nan

def exp : XR → XR
  | fin a => fin (Real.exp a)
  | pinf => pinf
  | ninf => fin 0
  | nan => nan

def ln : XR → XR
  | fin a => if 0 < a then fin (Real.log a) else if a = 0 then ninf else nan
  | pinf => pinf
  | _ => nan

def cos : XR → XR
  | fin a => fin (Real.cos a)
  | _ => nan

def acos : XR → XR
  | fin a => if -1 ≤ a ∧ a ≤ 1 then fin (Real.arccos a) else nan
  | _ => nan

def signum : XR → XR
  | fin a => fin (if a < 0 then -1 else 1)
  | pinf => fin 1
  | ninf => fin (-1)
  | nan => nan

/-- `powf`; negative bases give NaN (the crate only uses non-negative bases). -/
def powf : XR → XR → XR
  | fin a, fin b =>
    if 0 < a then fin (a ^ b)
    else if a = 0 then (if 0 < b then fin 0 else if b = 0 then fin 1 else pinf)
    else nan
  | pinf, fin b => if 0 < b then pinf else if b = 0 then fin 1 else fin 0
  | _, _ => nan

def lt : XR → XR → Bool
  | fin a, fin b => decide (a < b)
  | ninf, fin _ => true
  | ninf, pinf => true
  | fin _, pinf => true
  | _, _ => false

def beq : XR → XR → Bool
  | fin a, fin b => decide (a = b)
  | pinf, pinf => true
  | ninf, ninf => true
  | _, _ => false

def le (a b : XR) : Bool := lt a b || beq a b

/-- `f64::max`: NaN operands are ignored. -/
def fmax : XR → XR → XR
  | nan, b => b
  | a, nan => a
  | a, b => if lt a b then b else a

def signBit : XR → Bool
  | fin a => decide (a < 0)
  | ninf => true
  | _ => false

def sum (l : List XR) : XR := l.foldl add (fin 0)

def dot (a b : List XR) : XR := sum (List.zipWith mul a b)

instance : Scalar XR where
  zero := fin 0
  one := fin 1
  add := add
  sub := fun a b => add a (neg b)
  mul := mul
  div := div
  neg := neg
  abs := abs
  sqrt := sqrt
  exp := exp
  ln := ln
  cos := cos
  acos := acos
  signum := signum
  powf := powf
  fmax := fmax
  lt := lt
  le := le
  beq := beq
  inf := pinf
  negInf := ninf
  signBit := signBit
  ofNat := fun n => fin (n : ℝ)
  lit := fun n d => fin ((n : ℝ) / (d : ℝ))
  eConst := fin (Real.exp 1)
  sum := sum
  dot := dot
  mmdot := dot

end
end XR
end Sglm
