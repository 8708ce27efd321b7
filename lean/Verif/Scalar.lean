import Mathlib.Data.List.Basic

/-!
# Scalars and panics

The Rust crate is generic over `F: Float` (`/repo/src/lib.rs`, trait `Float`).  `Scalar F` lists the
operations the code uses on `F`.  It has **no laws**: a theorem about an arbitrary `Scalar F` holds for
`f32`, `f64` or any other interpretation of the operations.
-/

namespace Sglm

/-- Operations of `num_traits::Float` (plus ndarray reductions) used by the crate.

* `sum`   : ndarray `ArrayBase::sum` (unrolled, order is ndarray's business);
* `dot`   : ndarray 1-d `dot`, and each entry of a matrix/vector product;
* `mmdot` : an entry of a matrix/matrix product (`matrixmultiply` kernel);
* `lit n d` : `F::cast(n as f64 / d as f64)` for the literals of the source;
* `eConst` : `F::cast(std::f64::consts::E)`;
* `signBit` : `num_traits::Signed::is_negative` on floats, i.e. the sign bit;
* `beq`, `lt`, `le` : the IEEE comparisons, as Booleans. -/
class Scalar (F : Type) where
  zero : F
  one : F
  add : F → F → F
  sub : F → F → F
  mul : F → F → F
  div : F → F → F
  neg : F → F
  abs : F → F
  sqrt : F → F
  exp : F → F
  ln : F → F
  cos : F → F
  acos : F → F
  signum : F → F
  powf : F → F → F
  fmax : F → F → F
  lt : F → F → Bool
  le : F → F → Bool
  beq : F → F → Bool
  inf : F
  negInf : F
  signBit : F → Bool
  ofNat : Nat → F
  lit : Int → Nat → F
  eConst : F
  sum : List F → F
  dot : List F → List F → F
  mmdot : List F → List F → F

namespace Scalar
scoped infixl:65 " +. " => Scalar.add
scoped infixl:65 " -. " => Scalar.sub
scoped infixl:70 " *. " => Scalar.mul
scoped infixl:70 " /. " => Scalar.div
scoped prefix:75 "-." => Scalar.neg
scoped infix:50 " <. " => Scalar.lt
scoped infix:50 " <=. " => Scalar.le
scoped infix:50 " ==. " => Scalar.beq

/-- `x.powi(2)`: compiled to a single multiplication. -/
def sq {F : Type} [Scalar F] (x : F) : F := x *. x

/-- `Iterator::sum` for floats: a left fold of `+` from zero. -/
def iterSum {F : Type} [Scalar F] (l : List F) : F := l.foldl Scalar.add Scalar.zero

/-- `x.is_nan()`: a float is NaN iff it does not compare equal to itself. -/
def isNaN {F : Type} [Scalar F] (x : F) : Bool := !(x ==. x)
end Scalar

/-- The ways the Rust code can panic. -/
inductive Panic where
  /-- index out of bounds (slices, ndarray indexing, ndarray slicing) -/
  | index
  /-- incompatible ndarray shapes (dot, element-wise operators, `from_shape_vec().unwrap()`) -/
  | shape
  /-- `unwrap`/`expect` on an error value -/
  | unwrap
  /-- `partial_cmp(..).expect("Elements must not be NaN.")` -/
  | nanCompare
  /-- `usize` subtraction below zero -/
  | underflow
  deriving DecidableEq, Repr

/-- Computations which may panic. -/
abbrev M := Except Panic

/-- Checked read `l[i]`. -/
def getM {α : Type} (l : List α) (i : Nat) : M α :=
  match l[i]? with
  | some a => .ok a
  | none => .error .index

/-- Checked write `l[i] = a`. -/
def setM {α : Type} (l : List α) (i : Nat) (a : α) : M (List α) :=
  if i < l.length then .ok (l.set i a) else .error .index

/-- `usize` subtraction `a - b`.  Panics in debug builds; in release builds it wraps to a huge value,
which at every use in the crate is then used as a bound or index and panics there. -/
def subM (a b : Nat) : M Nat := if b ≤ a then .ok (a - b) else .error .underflow

end Sglm
