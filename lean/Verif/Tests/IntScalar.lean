import Verif.Model.Estimators
import Mathlib.Data.List.Sort

/-!
# A computable scalar type for examples

`Int` with integer division.  Theorems stated for every `Scalar` apply to it, and runs of the model on it
can be evaluated by the kernel.  Used only in `example`s.
-/

namespace Sglm.Test
open Sglm Scalar

/-- Integer scalars; the transcendental functions are placeholders. -/
scoped instance : Scalar Int where
  zero := 0
  one := 1
  add := (· + ·)
  sub := (· - ·)
  mul := (· * ·)
  div := Int.tdiv
  neg := fun x => -x
  abs := fun x => if x < 0 then -x else x
  sqrt := id
  exp := id
  ln := id
  cos := id
  acos := id
  signum := fun x => if x < 0 then -1 else 1
  powf := fun x _ => x
  fmax := fun x y => if x < y then y else x
  lt := fun x y => decide (x < y)
  le := fun x y => decide (x ≤ y)
  beq := fun x y => decide (x = y)
  inf := 1000000
  negInf := -1000000
  signBit := fun x => decide (x < 0)
  ofNat := fun n => n
  lit := fun n d => n / d
  eConst := 3
  sum := fun l => l.foldl (· + ·) 0
  dot := fun l m => (List.zipWith (· * ·) l m).foldl (· + ·) 0
  mmdot := fun l m => (List.zipWith (· * ·) l m).foldl (· + ·) 0

/-- Insertion argsort. -/
def isort : Argsort Int := fun l =>
  .ok ((List.range l.length).insertionSort (fun i j => l.getD j 0 ≤ l.getD i 0))

/-- Design `[[1, 1], [1, -1]]` with targets `[20, -40]`. -/
def ds : Dataset (Mat Int) Int := ⟨⟨2, [[1, 1], [1, -1]]⟩, Targets.one [20, -40]⟩

/-- The same design with two tasks. -/
def dsMT : Dataset (Mat Int) Int := ⟨⟨2, [[1, 1], [1, -1]]⟩, Targets.two ⟨2, [[20, 0], [-40, 2]]⟩⟩

/-- A correlated design. -/
def dsC : Dataset (Mat Int) Int := ⟨⟨2, [[2, 1], [2, 1]]⟩, Targets.one [40, 40]⟩

/-- Solver settings: no acceleration, tolerance 0. -/
def cfg : Solver Int := ⟨10, 5, 3, 0, 1, false, true⟩

example : Solver.solve isort cfg ds (Quadratic.new : Quadratic Int) (L1.mk (1 : Int)) = .ok [-9, 29] := by
  decide +kernel

end Sglm.Test
