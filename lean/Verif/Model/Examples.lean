import Verif.Model.TestHelpers
import Verif.Model.Estimators

/-!
# The example programs in `/repo/examples` and the assertions of `/repo/src/utils/mod.rs`, `test_helpers`

`rng` and `srt` are external: the random numbers and the sorting routine.  Printing is left out.
-/

namespace Sglm
open Scalar
variable {F : Type} [Scalar F]

/-- How an example program fails: a panic of the library, or one of its own assertions. -/
inductive ExFail where
  | panic (p : Panic)
  | assertion
  deriving DecidableEq, Repr

/-- Run library code. -/
def ExFail.lib {R : Type} : M R → Except ExFail R
  | .ok r => .ok r
  | .error e => .error (.panic e)

/-- `.unwrap()` of a fitted estimator. -/
def ExFail.unwrap {E R : Type} : M (Except E R) → Except ExFail R
  | .ok (.ok r) => .ok r
  | .ok (.error _) => .error (.panic .unwrap)
  | .error e => .error (.panic e)

/-- `x.abs_diff_ne(&y, delta)` of the crate `approx` for floating-point numbers: not `|x - y| <= delta`. -/
def absDiffNe (x y delta : F) : Bool := !(abs (x -. y) <=. delta)

/-- `assert_array_all_close`, `/repo/src/utils/mod.rs` lines 185-195. -/
def assertArrayAllClose (x y : List F) (delta : F) : Except ExFail Unit :=
  if x.length = y.length then
    if (x.zip y).any (fun q => absDiffNe q.1 q.2 delta) then .error .assertion else .ok ()
  else .error .assertion

/-- `assert_array2d_all_close`, `/repo/src/utils/mod.rs` lines 197-215. -/
def assertArray2dAllClose (x y : Mat F) (delta : F) : Except ExFail Unit :=
  if x.nrows = y.nrows ∧ x.ncols = y.ncols then
    if (x.rows.zip y.rows).any (fun r => (r.1.zip r.2).any (fun q => absDiffNe q.1 q.2 delta)) then .error .assertion
    else .ok ()
  else .error .assertion

/-- `/repo/examples/lasso.rs` lines 17-34, on data of any size.  Returns the two coefficient vectors (`main` drops them). -/
def lassoProgram (srt : Argsort F) (x : Mat F) (y : List F) : Except ExFail (List F × List F) := do
  let alpha_max ← ExFail.lib (computeAlphaMax x y)
  let dataset : Dataset (Mat F) F := ⟨x, .one y⟩
  let alpha := alpha_max *. lit 1 10
  let coefficients ← ExFail.lib (Solver.new.solve srt dataset (Quadratic.new : Quadratic F) (L1.mk alpha))
  let estimator ← ExFail.unwrap (Lasso.fit srt (LassoParams.new.setAlpha alpha) dataset)
  assertArrayAllClose coefficients estimator (lit 1 10000)
  pure (coefficients, estimator)

/-- `/repo/examples/lasso.rs` lines 15-35. -/
def exampleLasso (srt : Argsort F) (rng : Nat → F) : Except ExFail (List F × List F) := do
  let (x, y) ← ExFail.lib (generateRandomData rng 30 100)
  lassoProgram srt x y

/-- `/repo/examples/elastic_net.rs` lines 14-35, on data of any size. -/
def elasticNetProgram (srt : Argsort F) (x : Mat F) (y : List F) : Except ExFail (List F × List F) := do
  let dataset : Dataset (Mat F) F := ⟨x, .one y⟩
  let alpha : F := lit 1 20
  let l1_ratio : F := lit 7 10
  let coefficients ← ExFail.lib (Solver.new.solve srt dataset (Quadratic.new : Quadratic F) (L1PlusL2.mk alpha l1_ratio))
  let estimator ← ExFail.unwrap (ElasticNet.fit srt ((ElasticNetParams.new.setAlpha alpha).setL1Ratio l1_ratio) dataset)
  assertArrayAllClose coefficients estimator (lit 1 10000)
  pure (coefficients, estimator)

/-- `/repo/examples/elastic_net.rs` lines 12-36. -/
def exampleElasticNet (srt : Argsort F) (rng : Nat → F) : Except ExFail (List F × List F) := do
  let (x, y) ← ExFail.lib (generateRandomData rng 100 60)
  elasticNetProgram srt x y

/-- `/repo/examples/multi_task_lasso.rs` lines 17-36, on data of any size. -/
def multiTaskLassoProgram (srt : Argsort F) (x y : Mat F) : Except ExFail (Mat F × Mat F) := do
  let alpha_max ← ExFail.lib (computeAlphaMaxMtl x y)
  let dataset : Dataset (Mat F) F := ⟨x, .two y⟩
  let alpha := alpha_max *. lit 1 10
  let coefficients ← ExFail.lib (Solver.new.solveMultiTask srt dataset (QuadraticMT.new : QuadraticMT F) (L21.mk alpha))
  let estimator ← ExFail.unwrap (MultiTaskLasso.fit srt (LassoParams.new.setAlpha alpha) dataset)
  assertArray2dAllClose coefficients estimator (lit 1 10000)
  pure (coefficients, estimator)

/-- `/repo/examples/multi_task_lasso.rs` lines 15-37. -/
def exampleMultiTaskLasso (srt : Argsort F) (rng : Nat → F) : Except ExFail (Mat F × Mat F) := do
  let (x, y) ← ExFail.lib (generateRandomDataMtl rng 30 100 40)
  multiTaskLassoProgram srt x y

/-- `/repo/examples/sparse_logistic_regression.rs` lines 13-24, on data of any size. -/
def logisticProgram (srt : Argsort F) (x : Mat F) (y : List F) : Except ExFail (List F) := do
  let dataset : Dataset (Mat F) F := ⟨x, .one y⟩
  let alpha : F := lit 1 2
  let gamma : F := lit 3 1
  ExFail.lib (Solver.new.solve srt dataset (Logistic.new : Logistic F) (MCP.mk alpha gamma))

/-- `/repo/examples/sparse_logistic_regression.rs` lines 11-25.  The targets of the linear model are used as labels. -/
def exampleLogistic (srt : Argsort F) (rng : Nat → F) : Except ExFail (List F) := do
  let (x, y) ← ExFail.lib (generateRandomData rng 30 100)
  logisticProgram srt x y

end Sglm
