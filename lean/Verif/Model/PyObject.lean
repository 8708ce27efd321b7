import Verif.Model.Python

/-!
# Python estimator objects

The six classes of `/repo/python/sparseglm/estimators.py` as objects with attributes: construction with keyword arguments, `get_params`,
`set_params` and `clone` of scikit-learn (external code, modelled by its documented behaviour: the parameters are those of the signature
of `__init__`; `set_params` assigns the attributes one after the other and raises a `ValueError` at an unknown name; `clone` calls the
constructor with the current parameters), `fit`, and `predict`.

PyO3 converts `alpha`, `gamma`, `l1_ratio` with `float(..)` and accepts only Python booleans for `use_accel` and `verbose`; anything else
is a `TypeError`.  `fit` also stores the wrapper object in `_inner`, and scikit-learn stores `n_features_in_`; nothing reads them.
-/

namespace Sglm
open Scalar

/-- The classes, `/repo/python/sparseglm/estimators.py` lines 52, 131, 222, 311, 411, 500. -/
inductive PyClass where
  | lasso
  | multiTaskLasso
  | mcp
  | blockMcp
  | elasticNet
  | multiTaskElasticNet
  deriving DecidableEq

/-- The names of constructor arguments. -/
inductive PyParam where
  | alpha
  | gamma
  | l1_ratio
  | max_iter
  | max_epochs
  | tol
  | p0
  | use_accel
  | K
  | verbose
  deriving DecidableEq

/-- A Python value: an instance of `float`, of `int`, of `bool`, or anything else, with the result of `float(..)` if it has one. -/
inductive PyVal (F : Type) where
  | float (x : F)
  | int (z : Int)
  | bool (b : Bool)
  | other (x : Option F)

namespace PyVal
variable {F : Type} [Scalar F]

/-- As seen by `isinstance(.., float)` and `isinstance(.., int)`: booleans are integers. -/
def arg : PyVal F → PyArg F
  | .float x => .float x
  | .int z => .int z
  | .bool b => .int (if b then 1 else 0)
  | .other _ => .other

/-- An integer as a float. -/
def ofInt (z : Int) : F := if z < 0 then -.(ofNat z.natAbs) else ofNat z.natAbs

/-- Conversion to `f64`. -/
def toFloat : PyVal F → Option F
  | .float x => some x
  | .int z => some (ofInt z)
  | .bool b => some (ofInt (if b then 1 else 0))
  | .other x => x

/-- Conversion to `bool`. -/
def toBool : PyVal F → Option Bool
  | .bool b => some b
  | _ => none

end PyVal

namespace PyClass

/-- The arguments without default value. -/
def required : PyClass → List PyParam
  | lasso | multiTaskLasso => [.alpha]
  | mcp | blockMcp => [.alpha, .gamma]
  | elasticNet | multiTaskElasticNet => [.alpha, .l1_ratio]

/-- The signature of `__init__`, `/repo/python/sparseglm/estimators.py` lines 90-91, 170-171, 265-266, 354-355, 452-453, 541-542. -/
def signature (c : PyClass) : List PyParam :=
  c.required ++ [.max_iter, .max_epochs, .tol, .p0, .use_accel, .K, .verbose]

end PyClass

/-- An estimator object: its class, its parameter attributes and `coef_`.  Attributes outside the signature are never read. -/
structure PyObj (F : Type) where
  cls : PyClass
  params : PyParam → PyVal F
  coef : Option (PyCoef F)

namespace PyObj
variable {F : Type} [Scalar F]

/-- The default values, `/repo/python/sparseglm/estimators.py` lines 90-91, 170-171, 265-266, 354-355, 452-453, 541-542. -/
def default : PyParam → PyVal F
  | .max_iter => .int 50
  | .max_epochs => .int 1000
  | .tol => .float (lit 1 1000000000)
  | .p0 => .int 10
  | .use_accel => .bool true
  | .K => .int 5
  | .verbose => .bool true
  | _ => .other none

/-- The checks of the constructors, see `Py.lassoInit`, `Py.mcpInit`, `Py.elasticNetInit`. -/
def checkInit (c : PyClass) (params : PyParam → PyVal F) : Except PyExc Unit :=
  match c with
  | .lasso | .multiTaskLasso => do
    let _ ← Py.lassoInit (params .alpha).arg
    pure ()
  | .mcp | .blockMcp => do
    let _ ← Py.mcpInit (params .alpha).arg (params .gamma).arg
    pure ()
  | .elasticNet | .multiTaskElasticNet => do
    let _ ← Py.elasticNetInit (params .alpha).arg (params .l1_ratio).arg
    pure ()

/-- The constructors with keyword arguments, `/repo/python/sparseglm/estimators.py` lines 90-98, 170-178, 265-277, 354-366, 452-466,
541-554, and 22-32 (`coef_ = None`).  Unknown or missing arguments are a `TypeError`. -/
def construct (c : PyClass) (kw : List (PyParam × PyVal F)) : Except PyExc (PyObj F) :=
  if kw.all (fun q => q.1 ∈ c.signature) && c.required.all (fun k => k ∈ kw.map Prod.fst) then do
    let params := fun k => (kw.lookup k).getD (default k)
    checkInit c params
    pure ⟨c, params, none⟩
  else .error .typeError

/-- `BaseEstimator.get_params`. -/
def getParams (o : PyObj F) : List (PyParam × PyVal F) := o.cls.signature.map fun k => (k, o.params k)

/-- `BaseEstimator.set_params`: the exception raised, if any, and the object after the call. -/
def setParams (o : PyObj F) : List (PyParam × PyVal F) → Except PyExc Unit × PyObj F
  | [] => (.ok (), o)
  | (k, v) :: l =>
    if k ∈ o.cls.signature then setParams { o with params := Function.update o.params k v } l
    else (.error (.valueError "parameter"), o)

/-- `sklearn.base.clone`. -/
def clone (o : PyObj F) : Except PyExc (PyObj F) := construct o.cls o.getParams

/-- The settings read by `_validate_params`. -/
def settings (o : PyObj F) (useAccel verbose : Bool) : PySettings F :=
  ⟨(o.params .max_iter).arg, (o.params .max_epochs).arg, (o.params .tol).arg, (o.params .p0).arg, useAccel, (o.params .K).arg, verbose⟩

/-- The checks before the construction of the wrapper, single-task: `/repo/python/sparseglm/estimators.py` lines 111-115. -/
def prepSingle (s : PySettings F) (X : PyDesign F) (y : PyTargets F) : Except PyExc Unit := do
  let _ ← Py.validateParams s
  let _ ← Py.checkDesign false X
  let _ ← Py.checkTargets y
  pure ()

/-- The checks before the construction of the wrapper, multi-task: `/repo/python/sparseglm/estimators.py` lines 191-206. -/
def prepMulti (s : PySettings F) (X : PyDesign F) (Y : PyTargets F) : Except PyExc Unit := do
  let _ ← Py.validateParams s
  let X ← Py.checkDesign true X
  let Y ← Py.checkTargets Y
  match Y with
  | .one _ => .error (.valueError "Y")
  | .two Y => if X.nSamples ≠ Y.nrows then .error (.valueError "X and Y") else pure ()

/-- The coefficients computed by `fit`, `/repo/python/sparseglm/estimators.py` lines 100-128, 180-219, 279-308, 368-408, 468-497, 556-597:
the checks, the conversion of the attributes by the constructor of the wrapper, the Rust fit. -/
def computed (srt : Argsort F) (o : PyObj F) (X : PyDesign F) (y : PyTargets F) : Except PyExc (PyCoef F) :=
  let second := match o.cls with
    | .lasso | .multiTaskLasso => some zero
    | .mcp | .blockMcp => (o.params .gamma).toFloat
    | .elasticNet | .multiTaskElasticNet => (o.params .l1_ratio).toFloat
  match (o.params .alpha).toFloat, second, (o.params .use_accel).toBool, (o.params .verbose).toBool with
  | some a, some b, some u, some v =>
    match o.cls with
    | .lasso => Py.lassoFit srt a (o.settings u v) X y
    | .multiTaskLasso => Py.multiTaskLassoFit srt a (o.settings u v) X y
    | .mcp => Py.mcpFit srt a b (o.settings u v) X y
    | .blockMcp => Py.blockMcpFit srt a b (o.settings u v) X y
    | .elasticNet => Py.elasticNetFit srt a b (o.settings u v) X y
    | .multiTaskElasticNet => Py.multiTaskElasticNetFit srt a b (o.settings u v) X y
  | _, _, _, _ => do
    match o.cls with
    | .lasso | .mcp | .elasticNet => prepSingle (o.settings true true) X y
    | .multiTaskLasso | .blockMcp | .multiTaskElasticNet => prepMulti (o.settings true true) X y
    .error .typeError

/-- `fit`: the exception raised, if any, and the object after the call.  `self.coef_ = coefs.T` is the last statement. -/
def fit (srt : Argsort F) (o : PyObj F) (X : PyDesign F) (y : PyTargets F) : Except PyExc Unit × PyObj F :=
  match o.computed srt X y with
  | .ok c => (.ok (), { o with coef := some c })
  | .error e => (.error e, o)

/-- `predict`. -/
def predict (o : PyObj F) (X : Mat F) : Except PyExc (PyCoef F) := Py.predict o.coef X

/-- The methods which can change an object. -/
inductive Call (F : Type) where
  | setParams (kw : List (PyParam × PyVal F))
  | fit (X : PyDesign F) (y : PyTargets F)

/-- The object after a call, whether it raised an exception or not. -/
def after (srt : Argsort F) (o : PyObj F) : Call F → PyObj F
  | .setParams kw => (o.setParams kw).2
  | .fit X y => (o.fit srt X y).2

/-- The object after a sequence of calls. -/
def history (srt : Argsort F) (o : PyObj F) (calls : List (Call F)) : PyObj F := calls.foldl (after srt) o

end PyObj
end Sglm
