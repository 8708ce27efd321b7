import Verif.Model.Mat

/-!
# Data generators of `/repo/src/utils/mod.rs`, `test_helpers` (lines 176-256)

Public, and used by the tests, the examples and the benchmark.  The random number generator is external: `rng k` is the `k`-th
draw of `Normal(0, 1)` from `StdRng::seed_from_u64(42)`, the same in every call.
-/

namespace Sglm
open Scalar
variable {F : Type} [Scalar F]

/-- `fill_random_vector`, `/repo/src/utils/mod.rs` lines 217-226.  The generator is seeded in every call.  Simplification:
`Vec::with_capacity(c)` is taken to allocate exactly `c` elements (it may allocate more; then `from_shape_vec` panics). -/
def fillRandomVector (rng : Nat → F) (capacity : Nat) : List F := (List.range capacity).map rng

/-- `Array2::from_shape_vec((r, c).f(), v).unwrap()`: filled column by column. -/
def Mat.fromShapeVecF (r c : Nat) (v : List F) : M (Mat F) :=
  if v.length = r * c then do
    let rows ← (List.range r).mapM (fun i => (List.range c).mapM (fun j => getM v (j * r + i)))
    pure ⟨c, rows⟩
  else .error .shape

/-- `X.dot(&w)` for a vector: panics when the sizes differ. -/
def Mat.dotVec (X : Mat F) (w : List F) : M (List F) :=
  if X.ncols = w.length then .ok (X.rows.map (fun r => dot r w)) else .error .shape

/-- `X.dot(&W)` for a matrix: panics when the sizes differ. -/
def Mat.dotMat (X W : Mat F) : M (Mat F) :=
  if X.ncols = W.nrows then do
    let Wt ← W.tM
    pure ⟨W.ncols, X.rows.map (fun r => Wt.rows.map (fun c => mmdot r c))⟩
  else .error .shape

/-- `generate_random_data`, `/repo/src/utils/mod.rs` lines 228-239. -/
def generateRandomData (rng : Nat → F) (n p : Nat) : M (Mat F × List F) := do
  let data_x := fillRandomVector rng (n * p)
  let data_w := fillRandomVector rng p
  let data_e := fillRandomVector rng n
  let X ← Mat.fromShapeVecF n p data_x
  let Xw ← X.dotVec data_w
  let y ← bop add Xw data_e
  pure (X, y)

/-- `generate_random_data_mtl`, `/repo/src/utils/mod.rs` lines 241-255. -/
def generateRandomDataMtl (rng : Nat → F) (n p T : Nat) : M (Mat F × Mat F) := do
  let data_x := fillRandomVector rng (n * p)
  let data_w := fillRandomVector rng (p * T)
  let data_e := fillRandomVector rng (n * T)
  let X ← Mat.fromShapeVecF n p data_x
  let W ← Mat.fromShapeVec p T data_w
  let E ← Mat.fromShapeVec n T data_e
  let XW ← X.dotMat W
  let Y ← bopMat add XW E
  pure (X, Y)

end Sglm
