import Verif.Model.Python

/-!
# Specification: Python scripts

`pyLasso srt alpha s X y` is what a user gets from `Lasso(alpha, **s).fit(X, y).coef_`, and so on.
-/

namespace Sglm.Spec
open Scalar
variable {F : Type} [Scalar F]

/-- Keyword arguments `max_iter=mi, max_epochs=me, tol=tol, p0=p0, use_accel=accel, K=K, verbose=verbose` with
non-negative integers and a float. -/
def pySettings (mi me p0 K : ℕ) (tol : F) (accel verbose : Bool) : PySettings F :=
  ⟨.int mi, .int me, .float tol, .int p0, accel, .int K, verbose⟩

/-- `Lasso(alpha, **s).fit(X, y).coef_`. -/
def pyLasso (srt : Argsort F) (alpha : PyArg F) (s : PySettings F) (X : PyDesign F) (y : PyTargets F) :
    Except PyExc (PyCoef F) := do
  let a ← Py.lassoInit alpha
  Py.lassoFit srt a s X y

/-- `MCPRegressor(alpha, gamma, **s).fit(X, y).coef_`. -/
def pyMCP (srt : Argsort F) (alpha gamma : PyArg F) (s : PySettings F) (X : PyDesign F) (y : PyTargets F) :
    Except PyExc (PyCoef F) := do
  let (a, g) ← Py.mcpInit alpha gamma
  Py.mcpFit srt a g s X y

/-- `ElasticNet(alpha, l1_ratio, **s).fit(X, y).coef_`. -/
def pyElasticNet (srt : Argsort F) (alpha ratio : PyArg F) (s : PySettings F) (X : PyDesign F) (y : PyTargets F) :
    Except PyExc (PyCoef F) := do
  let (a, r) ← Py.elasticNetInit alpha ratio
  Py.elasticNetFit srt a r s X y

/-- `MultiTaskLasso(alpha, **s).fit(X, Y).coef_`. -/
def pyMTLasso (srt : Argsort F) (alpha : PyArg F) (s : PySettings F) (X : PyDesign F) (Y : PyTargets F) :
    Except PyExc (PyCoef F) := do
  let a ← Py.lassoInit alpha
  Py.multiTaskLassoFit srt a s X Y

/-- `BlockMCPRegressor(alpha, gamma, **s).fit(X, Y).coef_`. -/
def pyBlockMCP (srt : Argsort F) (alpha gamma : PyArg F) (s : PySettings F) (X : PyDesign F) (Y : PyTargets F) :
    Except PyExc (PyCoef F) := do
  let (a, g) ← Py.mcpInit alpha gamma
  Py.blockMcpFit srt a g s X Y

/-- `MultiTaskElasticNet(alpha, l1_ratio, **s).fit(X, Y).coef_`. -/
def pyMTElasticNet (srt : Argsort F) (alpha ratio : PyArg F) (s : PySettings F) (X : PyDesign F) (Y : PyTargets F) :
    Except PyExc (PyCoef F) := do
  let (a, r) ← Py.elasticNetInit alpha ratio
  Py.multiTaskElasticNetFit srt a r s X Y

/-- The six scripts. -/
inductive PyScript (F : Type) where
  | lasso (alpha : PyArg F)
  | mcp (alpha gamma : PyArg F)
  | elasticNet (alpha ratio : PyArg F)
  | mtLasso (alpha : PyArg F)
  | blockMCP (alpha gamma : PyArg F)
  | mtElasticNet (alpha ratio : PyArg F)

/-- Run a script. -/
def PyScript.run (srt : Argsort F) (k : PyScript F) (s : PySettings F) (X : PyDesign F) (y : PyTargets F) :
    Except PyExc (PyCoef F) :=
  match k with
  | .lasso a => pyLasso srt a s X y
  | .mcp a g => pyMCP srt a g s X y
  | .elasticNet a r => pyElasticNet srt a r s X y
  | .mtLasso a => pyMTLasso srt a s X y
  | .blockMCP a g => pyBlockMCP srt a g s X y
  | .mtElasticNet a r => pyMTElasticNet srt a r s X y

/-- Single-task estimators. -/
def PyScript.Single : PyScript F → Prop
  | .lasso _ | .mcp _ _ | .elasticNet _ _ => True
  | _ => False

/-- Neither NaN nor infinite. -/
def FiniteVal (x : F) : Prop := isNaN x = false ∧ (abs x <. inf) = true

/-- The entries of a design handed to Python. -/
def pyEntries : PyDesign F → List F
  | .dense _ X => X.rows.flatten
  | .sparse _ _ _ X => X.data

/-- The entries of targets handed to Python. -/
def pyTargetEntries : PyTargets F → List F
  | .one y => y
  | .two Y => Y.rows.flatten

/-- Finite data with at least one sample and one feature. -/
def GoodDesign (X : PyDesign F) : Prop :=
  (∀ x ∈ pyEntries X, FiniteVal x) ∧
    match X with
    | .dense _ A => 0 < A.nrows ∧ 0 < A.ncols
    | .sparse _ _ n A => 0 < n ∧ 1 < A.indptr.length

/-- Finite targets with at least one sample and one task. -/
def GoodTargets (y : PyTargets F) : Prop :=
  (∀ x ∈ pyTargetEntries y, FiniteVal x) ∧
    match y with
    | .one y => 0 < y.length
    | .two Y => 0 < Y.nrows ∧ 0 < Y.ncols

/-- `V` is the transpose of `W`. -/
def IsTranspose (V W : Mat F) : Prop :=
  V.nrows = W.ncols ∧ V.ncols = W.nrows ∧ (∀ r ∈ V.rows, r.length = V.ncols) ∧
    ∀ i < W.nrows, ∀ t < W.ncols, V.get2 t i = W.get2 i t

/-- What Python shows of a single-task Rust fit: the coefficients, or a `PanicException` when the fit panics or
returns an error. -/
def Seen1 {E : Type} : M (Except E (List F)) → Except PyExc (PyCoef F) → Prop
  | .ok (.ok w), o => o = .ok (.one w)
  | _, o => o = .error .panicException

/-- What Python shows of a multi-task Rust fit: the transposed coefficients. -/
def SeenMT {E : Type} : M (Except E (Mat F)) → Except PyExc (PyCoef F) → Prop
  | .ok (.ok W), o => ∃ V, IsTranspose V W ∧ o = .ok (.two V)
  | _, o => o = .error .panicException

/-- The number of samples of targets. -/
def pyTargetSamples : PyTargets F → ℕ
  | .one y => y.length
  | .two Y => Y.nrows

/-- numpy arrays are rectangular. -/
def Rectangular : PyDesign F → Prop
  | .dense _ A => ∀ r ∈ A.rows, r.length = A.ncols
  | .sparse _ _ _ _ => True

/-- An integer setting accepted by Python: a non-negative `int`. -/
def NonNegInt : PyArg F → Prop
  | .int z => 0 ≤ z
  | _ => False

/-- A float setting accepted by Python: a `float` which is not below zero. -/
def NonNegFloat : PyArg F → Prop
  | .float x => (x <. zero) = false
  | _ => False

end Sglm.Spec
