import Verif.Scalar

/-!
# ndarray containers

Model of the ndarray operations used by the crate.  1-d arrays are lists.
-/

namespace Sglm
open Scalar

/-- `Array2<F>`: number of columns and the list of rows.  `ndarray` guarantees rectangularity; here it is
the predicate `Mat.WF`.  Memory layout is not modelled. -/
structure Mat (F : Type) where
  ncols : Nat
  rows : List (List F)

namespace Mat
variable {F : Type}

/-- `len_of(Axis(0))`. -/
def nrows (A : Mat F) : Nat := A.rows.length

/-- Rectangularity, guaranteed by ndarray's type. -/
def WF (A : Mat F) : Prop := ∀ r ∈ A.rows, r.length = A.ncols

/-- `A[[i, j]]`. -/
def get2 (A : Mat F) (i j : Nat) : M F := do
  let r ← getM A.rows i
  getM r j

/-- `A[[i, j]] = a`. -/
def set2 (A : Mat F) (i j : Nat) (a : F) : M (Mat F) := do
  let r ← getM A.rows i
  let r' ← setM r j a
  let rows' ← setM A.rows i r'
  pure { A with rows := rows' }

/-- `A.slice(s![i, ..])`. -/
def rowM (A : Mat F) (i : Nat) : M (List F) := getM A.rows i

/-- `A.slice(s![.., j])`. -/
def colM (A : Mat F) (j : Nat) : M (List F) :=
  if j < A.ncols then A.rows.mapM (fun r => getM r j) else .error .index

/-- `A.t()`. -/
def tM (A : Mat F) : M (Mat F) := do
  let cs ← (List.range A.ncols).mapM A.colM
  pure { ncols := A.nrows, rows := cs }

/-- `Array2::zeros((r, c))`. -/
def zeros [Scalar F] (r c : Nat) : Mat F := ⟨c, List.replicate r (List.replicate c zero)⟩

/-- `Array2::from_shape_vec((r, c), v).unwrap()`. -/
def fromShapeVec (r c : Nat) (v : List F) : M (Mat F) :=
  if v.length = r * c then
    .ok ⟨c, (List.range r).map (fun i => (v.drop (i * c)).take c)⟩
  else .error .shape

end Mat

variable {F : Type} [Scalar F]

/-- 1-d `a.dot(&b)`: panics when lengths differ. -/
def dotM (a b : List F) : M F :=
  if a.length = b.length then .ok (dot a b) else .error .shape

/-- Element-wise binary operator on 1-d arrays, with ndarray 0.15 broadcasting of length-1 arrays. -/
def bop (f : F → F → F) (a b : List F) : M (List F) :=
  if a.length = b.length then .ok (List.zipWith f a b)
  else match a, b with
    | [x], _ => .ok (b.map (fun y => f x y))
    | _, [y] => .ok (a.map (fun x => f x y))
    | _, _ => .error .shape

/-- Element-wise binary operator on 2-d arrays.  Simplification: ndarray would also broadcast axes of
length 1; the solvers only combine arrays of equal shapes and any other combination is an error here. -/
def bopMat (f : F → F → F) (A B : Mat F) : M (Mat F) :=
  if A.ncols = B.ncols ∧ A.nrows = B.nrows then
    .ok ⟨A.ncols, List.zipWith (List.zipWith f) A.rows B.rows⟩
  else .error .shape

/-- `a.scaled_add(c, &b)`: `a[i] += c * b[i]`; `b` may be broadcast if it has length 1. -/
def scaledAdd (a : List F) (c : F) (b : List F) : M (List F) :=
  if a.length = b.length then .ok (List.zipWith (fun x y => x +. c *. y) a b)
  else match b with
    | [y] => .ok (a.map (fun x => x +. c *. y))
    | _ => .error .shape

/-- `A.t().dot(&v)`: one dot product per column; panics when the row counts differ. -/
def tMulVec (A : Mat F) (v : List F) : M (List F) := do
  if A.nrows ≠ v.length then throw .shape
  (List.range A.ncols).mapM (fun j => do
    let c ← A.colM j
    pure (dot c v))

/-- `v.dot(&A)` for a vector and a matrix: one dot product per column of `A`. -/
def vecMul (v : List F) (A : Mat F) : M (List F) := do
  if v.length ≠ A.nrows then throw .shape
  (List.range A.ncols).mapM (fun t => do
    let c ← A.colM t
    pure (dot v c))

/-- Matrix product `A.t().dot(&B)`: entry `(i, j)` combines columns `i` of `A` and `j` of `B`. -/
def tMulMat (A B : Mat F) : M (Mat F) := do
  if A.nrows ≠ B.nrows then throw .shape
  let rows ← (List.range A.ncols).mapM (fun i => do
    let a ← A.colM i
    (List.range B.ncols).mapM (fun j => do
      let b ← B.colM j
      pure (mmdot a b)))
  pure ⟨B.ncols, rows⟩

end Sglm
