import Verif.Model.Python

/-!
# `make_correlated_data`, `/repo/python/sparseglm/utils.py` lines 17-106

The random number generator is external (`Rng`): a stream of standard normal draws and the result of `choice`.  Sizes are
natural numbers (numpy raises a `ValueError` for negative ones).
-/

namespace Sglm
open Scalar

/-- `rng = check_random_state(random_state)`: the `k`-th standard normal draw, and what
`rng.choice(n, k, replace=False)` returns. -/
structure Rng (F : Type) where
  normal : Nat → F
  choice : Nat → Nat → List Nat

/-- Contract of `rng.choice(n, k, replace=False)`: `k` different numbers below `n`. -/
def Rng.Spec {F : Type} (r : Rng F) : Prop :=
  ∀ n k, k ≤ n → (r.choice n k).length = k ∧ (r.choice n k).Nodup ∧ ∀ j ∈ r.choice n k, j < n

/-- The outcome of `make_correlated_data`. -/
structure SimData (F : Type) where
  X : Mat F
  y : PyTargets F
  w : PyCoef F

namespace Py
variable {F : Type} [Scalar F]

/-- `rng.randn(m)` after `k` draws. -/
def randn (r : Rng F) (k m : Nat) : List F := (List.range m).map (fun i => r.normal (k + i))

/-- `rng.randn(a, b)` after `k` draws, filled row by row. -/
def randn2 (r : Rng F) (k a b : Nat) : Mat F := ⟨b, (List.range a).map (fun i => randn r (k + i * b) b)⟩

/-- Shape errors and index errors of numpy. -/
def numpyErr {R : Type} (e : PyExc) : M R → Except PyExc R
  | .ok r => .ok r
  | .error _ => .error e

/-- One step of the loop of lines 89-92 of `/repo/python/sparseglm/utils.py`: `U *= corr; U += sigma * rng.randn(n_samples)`. -/
def arStep (corr sigma : F) (U eps : List F) : List F := List.zipWith (fun u e => u *. corr +. sigma *. e) U eps

/-- The columns `j, …, j + m` of `X`, `/repo/python/sparseglm/utils.py` lines 88-92; `U` is column `j`. -/
def arColumns (r : Rng F) (n : Nat) (corr sigma : F) : Nat → Nat → List F → List (List F)
  | _, 0, U => [U]
  | j, m + 1, U => U :: arColumns r n corr sigma (j + 1) m (arStep corr sigma U (randn r ((j + 1) * n) n))

/-- The design matrix, `/repo/python/sparseglm/utils.py` lines 78-92.  `corr ** 2` is a multiplication.  Without features, `X[:, 0] = U` is an `IndexError`. -/
def simDesign (r : Rng F) (n p : Nat) (corr : F) : Except PyExc (Mat F) :=
  if corr ==. zero then .ok (randn2 r 0 n p)
  else match p with
    | 0 => .error .indexError
    | m + 1 => numpyErr .indexError (Mat.tM ⟨n, arColumns r n corr (sqrt (one -. corr *. corr)) 0 m (randn r 0 n)⟩)

/-- `w_true = np.zeros((n_features, n_tasks)); w_true[support, :] = rng.randn(nnz, n_tasks)`,
`/repo/python/sparseglm/utils.py` lines 95-97, after `k` draws. -/
def simCoef (r : Rng F) (k p T nnz : Nat) : M (Mat F) := do
  let rows ← ((r.choice p nnz).zip (randn2 r k nnz T).rows).foldlM (fun rows jr => setM rows jr.1 jr.2) (Mat.zeros p T).rows
  pure ⟨T, rows⟩

/-- `X @ w_true`, `/repo/python/sparseglm/utils.py` line 99. -/
def matmul (X : Mat F) : PyCoef F → Except PyExc (PyTargets F)
  | .one w => if X.ncols = w.length then .ok (.one (X.rows.map (fun r => dot r w))) else .error (.valueError "matmul")
  | .two W =>
    if X.ncols = W.nrows then do
      let Wt ← numpyErr (.valueError "matmul") W.tM
      pure (.two ⟨W.ncols, X.rows.map (fun r => Wt.rows.map (fun c => mmdot r c))⟩)
    else .error (.valueError "matmul")

/-- `A.flatten()`. -/
def _root_.Sglm.PyTargets.flat : PyTargets F → List F
  | .one y => y
  | .two Y => Y.rows.flatten

/-- `w.flatten()`. -/
def _root_.Sglm.PyCoef.flat : PyCoef F → List F
  | .one w => w
  | .two W => W.rows.flatten

/-- `norm(A)` of the flattened array (`numpy.linalg.norm` without `ord`). -/
def frob (l : List F) : F := sqrt (dot l l)

/-- `noise / norm(noise) * norm(Y) / snr`, `/repo/python/sparseglm/utils.py` line 102. -/
def simNoise (noise : Mat F) (normY snr : F) : Mat F :=
  ⟨noise.ncols, noise.rows.map (fun row => row.map (fun z => z /. frob noise.rows.flatten *. normY /. snr))⟩

/-- `Y += E` (`/repo/python/sparseglm/utils.py` line 102) for an array `E` of shape `(n_samples, n_tasks)`: the shape of `Y` must not change, a column is broadcast. -/
def addNoise : PyTargets F → Mat F → Except PyExc (PyTargets F)
  | .one _, _ => .error (.valueError "broadcast")
  | .two Y, E =>
    if Y.ncols = E.ncols then .ok (.two ⟨Y.ncols, List.zipWith (List.zipWith Scalar.add) Y.rows E.rows⟩)
    else if E.ncols = 1 then
      .ok (.two ⟨Y.ncols, List.zipWith (fun y e => y.flatMap (fun a => e.map (fun b => a +. b))) Y.rows E.rows⟩)
    else .error (.valueError "broadcast")

/-- `/repo/python/sparseglm/utils.py` lines 99-106, after `k` draws. -/
def simTargets (r : Rng F) (k n T : Nat) (snr : F) (X : Mat F) (w : PyCoef F) : Except PyExc (SimData F) := do
  let Y ← matmul X w
  let Y ← if !(snr ==. inf) then addNoise Y (simNoise (randn2 r k n T) (frob Y.flat) snr) else pure Y
  if T = 1 then pure ⟨X, .one Y.flat, .one w.flat⟩ else pure ⟨X, Y, w⟩

/-- `make_correlated_data(n_samples, n_features, n_tasks, corr, snr, density, w_true)`,
`/repo/python/sparseglm/utils.py` lines 17-19 and 71-106.  `int(density * n_features)` uses the parameter `trunc`. -/
def makeCorrelatedData (trunc : F → Nat) (r : Rng F) (n p T : Nat) (corr snr density : F) (wTrue : Option (PyCoef F)) :
    Except PyExc (SimData F) :=
  if !((zero <=. corr) && (corr <. one)) then .error (.valueError "corr")
  else if !((zero <. density) && (density <=. one)) then .error (.valueError "density")
  else do
    let nnz := trunc (density *. ofNat p)
    let X ← simDesign r n p corr
    match wTrue with
    | none => do
      let W ← numpyErr .indexError (simCoef r (n * p) p T nnz)
      simTargets r (n * p + nnz * T) n T snr X (.two W)
    | some w => simTargets r (n * p) n T snr X w

end Py
end Sglm
