import Verif.Model.Estimators

/-!
# The Python package: `/repo/python/sparseglm/estimators.py`, the wrappers in `/repo/python/src`, `utils.py`

Modelled: the constructors, `fit` and `predict` of the six Python estimators, the PyO3 wrapper classes
between them and the Rust estimators, and the helpers `compute_alpha_max` and `sum_squared` of `utils.py`
(`make_correlated_data`: see `PySim.lean`).  `F` is `f64`.

External code is modelled by its documented behaviour:
* sklearn's `check_array` (`checkDesign`, `checkTargets`): NaN and infinite entries, arrays without samples or
  without features are rejected with `ValueError`; 64-bit sparse indices are rejected when
  `accept_large_sparse=False`; arrays of the listed dtypes keep their dtype, others are converted to the first one.
  Only 2-d designs and 1-d or 2-d targets are modelled; any sparse format is given by its CSC form;
* PyO3: an argument of the wrong array type (dtype or number of dimensions) is a `TypeError`; a Rust panic is a
  `PanicException`;
* numpy: the truth value of an array with more than one element is a `ValueError`.
-/

namespace Sglm
open Scalar

/-- A Python argument as seen by the checks: an instance of `float`, an instance of `int`, or anything else
(strings, `None`, numpy integers, …). -/
inductive PyArg (F : Type) where
  | float (x : F)
  | int (z : Int)
  | other

/-- The exceptions raised. -/
inductive PyExc where
  /-- `ValueError`, with the argument or the operation blamed -/
  | valueError (what : String)
  | typeError
  /-- `pyo3_runtime.PanicException`: a Rust panic crossing the language boundary -/
  | panicException
  /-- `Exception("Estimator must be fitted before inference.")` -/
  | notFitted
  | indexError
  deriving DecidableEq, Repr

/-- Element types of numpy arrays. -/
inductive DType where
  | f64
  | f32
  /-- any other type which converts to `float64` -/
  | other
  deriving DecidableEq

/-- dtype after `check_array(.., dtype=[np.float64, np.float32])`. -/
def DType.kept : DType → DType
  | .f32 => .f32
  | _ => .f64

/-- A design matrix handed to `fit`.  For a sparse one: whether the index arrays are 32-bit, and the number of
rows of the scipy matrix. -/
inductive PyDesign (F : Type) where
  | dense (dt : DType) (X : Mat F)
  | sparse (dt : DType) (i32 : Bool) (nRows : Nat) (X : CSC F)

/-- Targets handed to `fit`. -/
inductive PyTargets (F : Type) where
  | one (y : List F)
  | two (Y : Mat F)

/-- The settings common to all estimators, `Estimator.__init__`, `/repo/python/sparseglm/estimators.py`
lines 22-32. -/
structure PySettings (F : Type) where
  maxIter : PyArg F
  maxEpochs : PyArg F
  tol : PyArg F
  p0 : PyArg F
  useAccel : Bool
  K : PyArg F
  verbose : Bool

/-- The attribute `coef_` of a fitted estimator. -/
inductive PyCoef (F : Type) where
  | one (w : List F)
  | two (V : Mat F)

namespace Py
variable {F : Type} [Scalar F]

/-! ## Constructors -/

/-- `if not isinstance(alpha, float) or alpha < 0: raise ValueError`, `/repo/python/sparseglm/estimators.py`
lines 95-98 (and 175-178, 270-271, 359-360, 457-460, 546-549). -/
def checkAlpha : PyArg F → Except PyExc F
  | .float x => if x <. zero then .error (.valueError "alpha") else .ok x
  | _ => .error (.valueError "alpha")

/-- `Lasso.__init__` lines 90-98 and `MultiTaskLasso.__init__` lines 170-178 of
`/repo/python/sparseglm/estimators.py`. -/
def lassoInit (alpha : PyArg F) : Except PyExc F := checkAlpha alpha

/-- `MCPRegressor.__init__` lines 265-277 and `BlockMCPRegressor.__init__` lines 354-366 of
`/repo/python/sparseglm/estimators.py`; the second test is `not isinstance(gamma, float) or alpha < 1`. -/
def mcpInit (alpha gamma : PyArg F) : Except PyExc (F × F) := do
  let a ← checkAlpha alpha
  match gamma with
  | .float g => if a <. one then .error (.valueError "gamma") else .ok (a, g)
  | _ => .error (.valueError "gamma")

/-- `ElasticNet.__init__` lines 452-466 and `MultiTaskElasticNet.__init__` lines 541-554 of
`/repo/python/sparseglm/estimators.py`; the second test is
`not isinstance(l1_ratio, float) or alpha < 0 or alpha > 1`. -/
def elasticNetInit (alpha l1_ratio : PyArg F) : Except PyExc (F × F) := do
  let a ← checkAlpha alpha
  match l1_ratio with
  | .float r => if (a <. zero) || (one <. a) then .error (.valueError "l1_ratio") else .ok (a, r)
  | _ => .error (.valueError "l1_ratio")

/-! ## Parameter checks of `fit` -/

/-- `_check_types(var, int, name)`, `/repo/python/sparseglm/estimators.py` lines 35-38. -/
def checkInt (name : String) : PyArg F → Except PyExc Nat
  | .int z => if z < 0 then .error (.valueError name) else .ok z.toNat
  | _ => .error (.valueError name)

/-- `_check_types(var, float, name)`, `/repo/python/sparseglm/estimators.py` lines 35-38. -/
def checkFloat (name : String) : PyArg F → Except PyExc F
  | .float x => if x <. zero then .error (.valueError name) else .ok x
  | _ => .error (.valueError name)

/-- The settings after `_validate_params`. -/
structure Checked (F : Type) where
  maxIter : Nat
  maxEpochs : Nat
  tol : F
  p0 : Nat
  K : Nat
  useAccel : Bool
  verbose : Bool

/-- `_validate_params`, `/repo/python/sparseglm/estimators.py` lines 34-43, called at the start of every
`fit`. -/
def validateParams (s : PySettings F) : Except PyExc (Checked F) := do
  let K ← checkInt "K" s.K
  let p0 ← checkInt "p0" s.p0
  let tol ← checkFloat "tol" s.tol
  let maxIter ← checkInt "max_iter" s.maxIter
  let maxEpochs ← checkInt "max_epochs" s.maxEpochs
  pure ⟨maxIter, maxEpochs, tol, p0, K, s.useAccel, s.verbose⟩

/-! ## Array checks of `fit` -/

/-- `np.isfinite`. -/
def finite (x : F) : Bool := !(isNaN x) && (abs x <. inf)

/-- `check_array(X, 'csc', dtype=[np.float64, np.float32], order='F', …)`,
`/repo/python/sparseglm/estimators.py` lines 112-113 (`accept_large_sparse=False`; also 291-292, 480-481) and,
through `_validate_data`, lines 192-196 (64-bit indices accepted; also 380-384, 569-573). -/
def checkDesign (acceptLarge : Bool) : PyDesign F → Except PyExc (PyDesign F)
  | .dense dt X =>
    if X.rows.all (fun r => r.all finite) then
      if 0 < X.nrows ∧ 0 < X.ncols then .ok (.dense dt.kept X) else .error (.valueError "X")
    else .error (.valueError "X")
  | .sparse dt i32 nRows X =>
    if i32 || acceptLarge then
      if X.data.all finite then
        if 0 < nRows ∧ 1 < X.indptr.length then .ok (.sparse dt.kept i32 nRows X) else .error (.valueError "X")
      else .error (.valueError "X")
    else .error (.valueError "X")

/-- `check_array(y, 'csc', dtype=X.dtype.type, ensure_2d=False)`, `/repo/python/sparseglm/estimators.py` lines 114-115
(and 293-294, 482-483), and `check_array(Y, ensure_2d=False)`, lines 194-196 (and 382-384, 571-573).  The targets
are then converted to the dtype of `X`. -/
def checkTargets : PyTargets F → Except PyExc (PyTargets F)
  | .one y => if y.all finite then (if 0 < y.length then .ok (.one y) else .error (.valueError "y"))
    else .error (.valueError "y")
  | .two Y =>
    if Y.rows.all (fun r => r.all finite) then
      if 0 < Y.nrows ∧ 0 < Y.ncols then .ok (.two Y) else .error (.valueError "y")
    else .error (.valueError "y")

/-- `X.shape[0]`. -/
def _root_.Sglm.PyDesign.nSamples : PyDesign F → Nat
  | .dense _ X => X.nrows
  | .sparse _ _ n _ => n

/-! ## The wrapper classes -/

/-- `LassoWrapper::new`, `/repo/python/src/lasso.rs` lines 17-37 (and `mtl_lasso.rs`, same lines), called with the
keyword arguments of `/repo/python/sparseglm/estimators.py` lines 117-120 (208-211). -/
def lassoWrapper (alpha : F) (c : Checked F) : LassoParams F :=
  ((((((((LassoParams.new : LassoParams F).setAlpha alpha).setMaxIterations c.maxIter).setMaxEpochs c.maxEpochs).setTolerance
    c.tol).setWsStartSize c.p0).setUseAcceleration c.useAccel).setK c.K).setVerbose c.verbose

/-- `MCPWrapper::new`, `/repo/python/src/mcp.rs` lines 17-39 (and `block_mcp.rs`), called with the keyword arguments
of `/repo/python/sparseglm/estimators.py` lines 296-300 (396-400). -/
def mcpWrapper (alpha gamma : F) (c : Checked F) : MCParams F :=
  (((((((((MCParams.new : MCParams F).setAlpha alpha).setGamma gamma).setMaxIterations c.maxIter).setMaxEpochs
    c.maxEpochs).setTolerance c.tol).setWsStartSize c.p0).setUseAcceleration c.useAccel).setK c.K).setVerbose c.verbose

/-- `ElasticNetWrapper::new`, `/repo/python/src/elastic_net.rs` lines 17-39 (and `multi_task_elastic_net.rs`), called
with the keyword arguments of `/repo/python/sparseglm/estimators.py` lines 485-489 (585-589). -/
def elasticNetWrapper (alpha l1Ratio : F) (c : Checked F) : ElasticNetParams F :=
  (((((((((ElasticNetParams.new : ElasticNetParams F).setAlpha alpha).setL1Ratio l1Ratio).setMaxIterations
    c.maxIter).setMaxEpochs c.maxEpochs).setTolerance c.tol).setWsStartSize c.p0).setUseAcceleration c.useAccel).setK
    c.K).setVerbose c.verbose

/-- `self.inner.fit(&dataset).unwrap()` across the language boundary, e.g. `/repo/python/src/lasso.rs` line 46. -/
def unwrapped {E R : Type} : M (Except E R) → Except PyExc R
  | .ok (.ok r) => .ok r
  | _ => .error .panicException

/-- `if sp.issparse(X): fit_sparse(X.data, X.indices, X.indptr, y) else: fit(X, y)`,
`/repo/python/sparseglm/estimators.py` lines 122-125: the wrapper methods (`/repo/python/src/lasso.rs` lines 39-62) take
`f64` arrays and `i32` indices. -/
def callWrapper {E R : Type} (X : PyDesign F) (dense : Mat F → M (Except E R)) (sparse : CSC F → M (Except E R)) :
    Except PyExc R :=
  match X with
  | .dense .f64 A => unwrapped (dense A)
  | .sparse .f64 true _ A => unwrapped (sparse A)
  | _ => .error .typeError

/-- The body of the single-task `fit` methods, `/repo/python/sparseglm/estimators.py` lines 111-128 (Lasso),
290-308 (MCPRegressor), 479-497 (ElasticNet).  A 2-d `y` is not a `PyArray1`.  `coefs.T` of a 1-d array is the array. -/
def fitSingle {E : Type} (s : PySettings F) (X : PyDesign F) (y : PyTargets F)
    (dense : Checked F → Mat F → List F → M (Except E (List F)))
    (sparse : Checked F → CSC F → List F → M (Except E (List F))) : Except PyExc (PyCoef F) := do
  let c ← validateParams s
  let X ← checkDesign false X
  let y ← checkTargets y
  match y with
  | .two _ => .error .typeError
  | .one y => do
    let w ← callWrapper X (fun A => dense c A y) (fun A => sparse c A y)
    pure (.one w)

/-- The body of the multi-task `fit` methods, `/repo/python/sparseglm/estimators.py` lines 191-219 (MultiTaskLasso),
379-408 (BlockMCPRegressor), 568-597 (MultiTaskElasticNet).  `self.coef_ = coefs.T`. -/
def fitMulti {E : Type} (s : PySettings F) (X : PyDesign F) (Y : PyTargets F)
    (dense : Checked F → Mat F → Mat F → M (Except E (Mat F)))
    (sparse : Checked F → CSC F → Mat F → M (Except E (Mat F))) : Except PyExc (PyCoef F) := do
  let c ← validateParams s
  let X ← checkDesign true X
  let Y ← checkTargets Y
  match Y with
  | .one _ => .error (.valueError "Y")
  | .two Y =>
    if X.nSamples ≠ Y.nrows then .error (.valueError "X and Y")
    else do
      let W ← callWrapper X (fun A => dense c A Y) (fun A => sparse c A Y)
      match W.tM with
      | .ok V => pure (.two V)
      | .error _ => .error .panicException

/-! ## `fit` of the six estimators -/

/-- `Lasso(alpha, …).fit(X, y)`, `/repo/python/sparseglm/estimators.py` lines 100-128. -/
def lassoFit (srt : Argsort F) (alpha : F) (s : PySettings F) (X : PyDesign F) (y : PyTargets F) :
    Except PyExc (PyCoef F) :=
  fitSingle s X y (fun c A y => Lasso.fit srt (lassoWrapper alpha c) ⟨A, Targets.one y⟩)
    (fun c A y => Lasso.fit srt (lassoWrapper alpha c) ⟨A, Targets.one y⟩)

/-- `MCPRegressor(alpha, gamma, …).fit(X, y)`, `/repo/python/sparseglm/estimators.py` lines 279-308. -/
def mcpFit (srt : Argsort F) (alpha gamma : F) (s : PySettings F) (X : PyDesign F) (y : PyTargets F) :
    Except PyExc (PyCoef F) :=
  fitSingle s X y (fun c A y => MCPEstimator.fit srt (mcpWrapper alpha gamma c) ⟨A, Targets.one y⟩)
    (fun c A y => MCPEstimator.fit srt (mcpWrapper alpha gamma c) ⟨A, Targets.one y⟩)

/-- `ElasticNet(alpha, l1_ratio, …).fit(X, y)`, `/repo/python/sparseglm/estimators.py` lines 468-497. -/
def elasticNetFit (srt : Argsort F) (alpha l1Ratio : F) (s : PySettings F) (X : PyDesign F) (y : PyTargets F) :
    Except PyExc (PyCoef F) :=
  fitSingle s X y (fun c A y => ElasticNet.fit srt (elasticNetWrapper alpha l1Ratio c) ⟨A, Targets.one y⟩)
    (fun c A y => ElasticNet.fit srt (elasticNetWrapper alpha l1Ratio c) ⟨A, Targets.one y⟩)

/-- `MultiTaskLasso(alpha, …).fit(X, Y)`, `/repo/python/sparseglm/estimators.py` lines 180-219. -/
def multiTaskLassoFit (srt : Argsort F) (alpha : F) (s : PySettings F) (X : PyDesign F) (Y : PyTargets F) :
    Except PyExc (PyCoef F) :=
  fitMulti s X Y (fun c A Y => MultiTaskLasso.fit srt (lassoWrapper alpha c) ⟨A, Targets.two Y⟩)
    (fun c A Y => MultiTaskLasso.fit srt (lassoWrapper alpha c) ⟨A, Targets.two Y⟩)

/-- `BlockMCPRegressor(alpha, gamma, …).fit(X, Y)`, `/repo/python/sparseglm/estimators.py` lines 368-408. -/
def blockMcpFit (srt : Argsort F) (alpha gamma : F) (s : PySettings F) (X : PyDesign F) (Y : PyTargets F) :
    Except PyExc (PyCoef F) :=
  fitMulti s X Y (fun c A Y => BlockMCPEstimator.fit srt (mcpWrapper alpha gamma c) ⟨A, Targets.two Y⟩)
    (fun c A Y => BlockMCPEstimator.fit srt (mcpWrapper alpha gamma c) ⟨A, Targets.two Y⟩)

/-- `MultiTaskElasticNet(alpha, l1_ratio, …).fit(X, Y)`, `/repo/python/sparseglm/estimators.py` lines 556-597. -/
def multiTaskElasticNetFit (srt : Argsort F) (alpha l1Ratio : F) (s : PySettings F) (X : PyDesign F)
    (Y : PyTargets F) : Except PyExc (PyCoef F) :=
  fitMulti s X Y (fun c A Y => MultiTaskElasticNet.fit srt (elasticNetWrapper alpha l1Ratio c) ⟨A, Targets.two Y⟩)
    (fun c A Y => MultiTaskElasticNet.fit srt (elasticNetWrapper alpha l1Ratio c) ⟨A, Targets.two Y⟩)

/-! ## `predict` -/

/-- `bool(self.coef_)`: `None` and empty arrays are false, an array with one element has the truth value of the
element, larger arrays have none. -/
def truth : Option (PyCoef F) → Except PyExc Bool
  | none => .ok false
  | some c =>
    match (match c with | .one w => w | .two V => V.rows.flatten) with
    | [] => .ok false
    | [x] => .ok (!(x ==. zero))
    | _ => .error (.valueError "truth value")

/-- `X @ self.coef_.T` for a dense `X`. -/
def matmulT (X : Mat F) : PyCoef F → Except PyExc (PyCoef F)
  | .one w => if X.ncols = w.length then .ok (.one (X.rows.map (fun r => dot r w))) else .error (.valueError "matmul")
  | .two V => if X.ncols = V.ncols then .ok (.two ⟨V.nrows, X.rows.map (fun r => V.rows.map (fun v => mmdot r v))⟩)
    else .error (.valueError "matmul")

/-- `Estimator.predict`, `/repo/python/sparseglm/estimators.py` lines 45-49. -/
def predict (coef : Option (PyCoef F)) (X : Mat F) : Except PyExc (PyCoef F) := do
  let t ← truth coef
  match t, coef with
  | true, some c => matmulT X c
  | _, _ => .error .notFitted

/-! ## `utils.py` -/

/-- `np.maximum(a, b)`: NaN if one of the operands is. -/
def npMaximum (a b : F) : F := if isNaN a || (b <=. a) then a else b

/-- `np.max(a)`, `a.max()`: a `ValueError` for an empty array. -/
def npMax : List F → Except PyExc F
  | [] => .error (.valueError "zero-size array to reduction operation")
  | x :: xs => .ok (xs.foldl npMaximum x)

/-- Operands of `@` whose shapes do not match are a `ValueError`. -/
def matmulOk {R : Type} : M R → Except PyExc R
  | .ok r => .ok r
  | .error _ => .error (.valueError "matmul")

/-- `X.T @ y` for a scipy matrix with CSC arrays `X`: the transposed matrix is traversed row by row.  The arrays of a scipy matrix
are consistent; inconsistent ones are an error here. -/
def cscTMulVec (X : CSC F) (y : List F) : M (List F) := do
  let n_features ← subM X.indptr.length 1
  (List.range n_features).mapM (fun j => do
    let r ← X.colRange j
    r.foldlM (fun acc idx => do
      let d ← X.dataAt idx
      let i ← X.rowAt idx
      let yi ← getM y i
      pure (acc +. d *. yi)) zero)

/-- `X.T @ Y` for a scipy matrix with CSC arrays `X` and a 2-d array `Y`, see `cscTMulVec`. -/
def cscTMulMat (X : CSC F) (Y : Mat F) : M (Mat F) := do
  let n_features ← subM X.indptr.length 1
  let rows ← (List.range n_features).mapM (fun j => do
    let r ← X.colRange j
    (List.range Y.ncols).mapM (fun t =>
      r.foldlM (fun acc idx => do
        let d ← X.dataAt idx
        let i ← X.rowAt idx
        let yi ← Y.get2 i t
        pure (acc +. d *. yi)) zero))
  pure ⟨Y.ncols, rows⟩

/-- `norm(A, axis=1)`: `sqrt` of the sum of the squares of each row. -/
def rowNorms (A : Mat F) : List F := A.rows.map (fun r => sqrt (sum (r.map (fun x => x *. x))))

/-- `compute_alpha_max(X, Y)`, `/repo/python/sparseglm/utils.py` lines 6-9, for dense and sparse `X`. -/
def computeAlphaMax (X : PyDesign F) (Y : PyTargets F) : Except PyExc F :=
  match X, Y with
  | .dense _ A, .one y => do
    let c ← matmulOk (tMulVec A y)
    let m ← npMax (c.map abs)
    pure (m /. ofNat A.nrows)
  | .dense _ A, .two Y => do
    let C ← matmulOk (tMulMat A Y)
    let m ← npMax (rowNorms C)
    pure (m /. ofNat A.nrows)
  | .sparse _ _ n A, .one y =>
    if y.length = n then do
      let c ← matmulOk (cscTMulVec A y)
      let m ← npMax (c.map abs)
      pure (m /. ofNat n)
    else .error (.valueError "matmul")
  | .sparse _ _ n A, .two Y =>
    if Y.nrows = n then do
      let C ← matmulOk (cscTMulMat A Y)
      let m ← npMax (rowNorms C)
      pure (m /. ofNat n)
    else .error (.valueError "matmul")

/-- `sum_squared(X)`, `/repo/python/sparseglm/utils.py` lines 12-14.  The order of the flattened array (by rows or by columns,
depending on the memory layout) is a parameter: `flat` is the flattened array. -/
def sumSquared (flat : List F) : F := dot flat flat

end Py
end Sglm
