import Verif.Model.Datasets

/-!
# `/repo/src/datafits`
-/

namespace Sglm
open Scalar

/-- Trait `Datafit`, `/repo/src/datafits/single_task/mod.rs` lines 15-38.  `DF` is the type of the
datafit object; `initialize` takes `&mut self`, i.e. returns the updated object. -/
class Datafit (F : outParam Type) (DM : Type) (DF : Type) where
  init : DF → Dataset DM F → M DF
  value : DF → Dataset DM F → (Xw : List F) → M F
  gradientJ : DF → Dataset DM F → (Xw : List F) → (j : Nat) → M F
  fullGrad : DF → Dataset DM F → (Xw : List F) → M (List F)
  stepSize : DF → List F

/-- Trait `MultiTaskDatafit`, `/repo/src/datafits/multi_task/mod.rs` lines 12-35. -/
class MTDatafit (F : outParam Type) (DM : Type) (DF : Type) where
  init : DF → Dataset DM F → M DF
  value : DF → Dataset DM F → (XW : Mat F) → M F
  gradientJ : DF → Dataset DM F → (XW : Mat F) → (j : Nat) → M (List F)
  fullGrad : DF → Dataset DM F → (XW : Mat F) → M (Mat F)
  stepSize : DF → List F

/-- `Quadratic`, `/repo/src/datafits/single_task/mod.rs` lines 48-51. -/
structure Quadratic (F : Type) where
  lipschitz : List F
  Xty : List F

/-- `Logistic`, `/repo/src/datafits/single_task/mod.rs` lines 193-195. -/
structure Logistic (F : Type) where
  lipschitz : List F

/-- `QuadraticMultiTask`, `/repo/src/datafits/multi_task/mod.rs` lines 45-48. -/
structure QuadraticMT (F : Type) where
  lipschitz : List F
  XtY : Mat F

section
variable {F : Type} [Scalar F]

/-- `Quadratic::new`, `/repo/src/datafits/single_task/mod.rs` lines 54-59. -/
def Quadratic.new : Quadratic F := ⟨[zero], [zero]⟩

/-- `Logistic::new`, `/repo/src/datafits/single_task/mod.rs` lines 198-202. -/
def Logistic.new : Logistic F := ⟨[zero]⟩

/-- `QuadraticMultiTask::new`, `/repo/src/datafits/multi_task/mod.rs` lines 51-56. -/
def QuadraticMT.new : QuadraticMT F := ⟨[zero], ⟨1, [[zero]]⟩⟩

/-! ## Quadratic, dense -/

/-- `X.map_axis(Axis(0), |Xj| Xj.dot(&Xj) / c)`: one value per column. -/
def colSqNorms (X : Mat F) (c : F) : M (List F) :=
  (List.range X.ncols).mapM (fun j => do
    let x ← X.colM j
    pure (dot x x /. c))

namespace Quadratic

/-- Dense `initialize`, `/repo/src/datafits/single_task/mod.rs` lines 67-73. -/
def initDense (ds : Dataset (Mat F) F) : M (Quadratic F) := do
  let n_samples : F := ofNat ds.targets.nSamples
  let X := ds.designMatrix
  let y ← ds.targets.single
  let Xty ← tMulVec X y
  let lipschitz ← colSqNorms X n_samples
  pure ⟨lipschitz, Xty⟩

/-- `value` (dense lines 76-81 and sparse lines 170-176 of
`/repo/src/datafits/single_task/mod.rs` are the same code). -/
def value {DM : Type} (ds : Dataset DM F) (Xw : List F) : M F := do
  let n_samples := ds.targets.nSamples
  let y ← ds.targets.single
  let r ← bop Scalar.sub y Xw
  let rr ← dotM r r
  pure (rr /. ofNat (2 * n_samples))

/-- Dense `gradient_j`, `/repo/src/datafits/single_task/mod.rs` lines 85-95. -/
def gradDense (df : Quadratic F) (ds : Dataset (Mat F) F) (Xw : List F) (j : Nat) : M F := do
  let n_samples : F := ofNat ds.targets.nSamples
  let c ← ds.designMatrix.colM j
  let res ← dotM c Xw
  let xty ← getM df.Xty j
  pure ((res -. xty) /. n_samples)

/-- Sparse `initialize`, `/repo/src/datafits/single_task/mod.rs` lines 123-140. -/
def initCSC (ds : Dataset (CSC F) F) : M (Quadratic F) := do
  let n_samples := ds.targets.nSamples
  let n_features ← ds.designMatrix.nFeatures
  let X := ds.designMatrix
  let y ← ds.targets.single
  let ps ← (List.range n_features).mapM (fun j => do
    let r ← X.colRange j
    let (nrm2, xty) ← r.foldlM (fun (acc : F × F) idx => do
      let d ← X.dataAt idx
      let i ← X.rowAt idx
      let yi ← getM y i
      pure (acc.1 +. d *. d, acc.2 +. d *. yi)) (zero, zero)
    pure (nrm2 /. ofNat n_samples, xty))
  pure ⟨ps.map Prod.fst, ps.map Prod.snd⟩

/-- Sparse `gradient_j`, `/repo/src/datafits/single_task/mod.rs` lines 144-157. -/
def gradCSC (df : Quadratic F) (ds : Dataset (CSC F) F) (Xw : List F) (j : Nat) : M F := do
  let n_samples := ds.targets.nSamples
  let X := ds.designMatrix
  let r ← X.colRange j
  let XjTXw ← r.foldlM (fun acc idx => do
    let d ← X.dataAt idx
    let i ← X.rowAt idx
    let xw ← getM Xw i
    pure (acc +. d *. xw)) zero
  let xty ← getM df.Xty j
  pure ((XjTXw -. xty) /. ofNat n_samples)

end Quadratic

/-- `Datafit<F, ArrayBase<D, Ix2>, T> for Quadratic<F>`, `/repo/src/datafits/single_task/mod.rs`
lines 62-115 (`full_grad` is lines 99-110). -/
instance : Datafit F (Mat F) (Quadratic F) where
  init _ ds := Quadratic.initDense ds
  value _ ds Xw := Quadratic.value ds Xw
  gradientJ := Quadratic.gradDense
  fullGrad df ds Xw :=
    (List.range ds.designMatrix.ncols).mapM (fun j => Quadratic.gradDense df ds Xw j)
  stepSize df := df.lipschitz

/-- `Datafit<F, CSCArray, T> for Quadratic<F>`, `/repo/src/datafits/single_task/mod.rs` lines 120-183
(`full_grad` is lines 160-167). -/
instance : Datafit F (CSC F) (Quadratic F) where
  init _ ds := Quadratic.initCSC ds
  value _ ds Xw := Quadratic.value ds Xw
  gradientJ := Quadratic.gradCSC
  fullGrad df ds Xw := do
    let p ← ds.designMatrix.nFeatures
    (List.range p).mapM (fun j => Quadratic.gradCSC df ds Xw j)
  stepSize df := df.lipschitz

/-! ## Logistic -/

namespace Logistic

/-- Dense `initialize`, `/repo/src/datafits/single_task/mod.rs` lines 210-214. -/
def initDense (ds : Dataset (Mat F) F) : M (Logistic F) := do
  let n_samples := ds.targets.nSamples
  let lipschitz ← colSqNorms ds.designMatrix (ofNat (4 * n_samples))
  pure ⟨lipschitz⟩

/-- `F::log(x, F::cast(E))`, i.e. `ln x / ln E`. -/
def logE (x : F) : F := ln x /. ln eConst

/-- `value` (dense lines 217-224 and sparse lines 283-290 of
`/repo/src/datafits/single_task/mod.rs` are the same code). -/
def value {DM : Type} (ds : Dataset DM F) (Xw : List F) : M F := do
  let y ← ds.targets.single
  pure (iterSum (List.zipWith (fun xw_i y_i => logE (one +. exp ((-.xw_i) *. y_i))) Xw y)
    /. ofNat y.length)

/-- Dense `gradient_j`, `/repo/src/datafits/single_task/mod.rs` lines 228-245. -/
def gradDense (ds : Dataset (Mat F) F) (Xw : List F) (j : Nat) : M F := do
  let y ← ds.targets.single
  let tmp := List.zipWith (fun y_i xw_i => y_i *. sigmoid ((-.y_i) *. xw_i)) y Xw
  let c ← ds.designMatrix.colM j
  let d ← dotM c tmp
  pure ((-.d) /. ofNat Xw.length)

/-- Sparse `initialize`, `/repo/src/datafits/single_task/mod.rs` lines 268-280. -/
def initCSC (ds : Dataset (CSC F) F) : M (Logistic F) := do
  let n_samples := ds.targets.nSamples
  let n_features ← ds.designMatrix.nFeatures
  let X := ds.designMatrix
  let ls ← (List.range n_features).mapM (fun j => do
    let r ← X.colRange j
    let nrm2 ← r.foldlM (fun acc idx => do
      let d ← X.dataAt idx
      pure (acc +. d *. d)) zero
    pure (nrm2 /. ofNat (4 * n_samples)))
  pure ⟨ls⟩

/-- Sparse `gradient_j`, `/repo/src/datafits/single_task/mod.rs` lines 294-311. -/
def gradCSC (ds : Dataset (CSC F) F) (Xw : List F) (j : Nat) : M F := do
  let X := ds.designMatrix
  let y ← ds.targets.single
  let n_samples := ds.targets.nSamples
  let r ← X.colRange j
  r.foldlM (fun grad idx => do
    let d ← X.dataAt idx
    let i ← X.rowAt idx
    let yi ← getM y i
    let xw ← getM Xw i
    pure (grad -. d *. yi *. sigmoid ((-.yi) *. xw) /. ofNat n_samples)) zero

end Logistic

/-- `Datafit<F, ArrayBase<D, Ix2>, T> for Logistic<F>`, `/repo/src/datafits/single_task/mod.rs`
lines 205-263. -/
instance : Datafit F (Mat F) (Logistic F) where
  init _ ds := Logistic.initDense ds
  value _ ds Xw := Logistic.value ds Xw
  gradientJ _ ds Xw j := Logistic.gradDense ds Xw j
  fullGrad _ ds Xw :=
    (List.range ds.designMatrix.ncols).mapM (fun j => Logistic.gradDense ds Xw j)
  stepSize df := df.lipschitz

/-- `Datafit<F, CSCArray, T> for Logistic<F>`, `/repo/src/datafits/single_task/mod.rs` lines 265-325. -/
instance : Datafit F (CSC F) (Logistic F) where
  init _ ds := Logistic.initCSC ds
  value _ ds Xw := Logistic.value ds Xw
  gradientJ _ ds Xw j := Logistic.gradCSC ds Xw j
  fullGrad _ ds Xw := do
    let p ← ds.designMatrix.nFeatures
    (List.range p).mapM (fun j => Logistic.gradCSC ds Xw j)
  stepSize df := df.lipschitz

/-! ## QuadraticMultiTask -/

namespace QuadraticMT

/-- Dense `initialize`, `/repo/src/datafits/multi_task/mod.rs` lines 68-74. -/
def initDense (ds : Dataset (Mat F) F) : M (QuadraticMT F) := do
  let n_samples : F := ofNat ds.targets.nSamples
  let X := ds.designMatrix
  let XtY ← tMulMat X ds.targets.asMulti
  let lipschitz ← colSqNorms X n_samples
  pure ⟨lipschitz, XtY⟩

/-- `value` (dense lines 77-83 and sparse lines 161-167 of `/repo/src/datafits/multi_task/mod.rs` are
the same code). -/
def value {DM : Type} (ds : Dataset DM F) (XW : Mat F) : M F := do
  let n_samples := ds.targets.nSamples
  let R ← bopMat Scalar.sub ds.targets.asMulti XW
  let frob := iterSum (R.rows.flatten.map sq)
  pure (frob /. ofNat (2 * n_samples))

/-- Dense `gradient_j`, `/repo/src/datafits/multi_task/mod.rs` lines 87-97. -/
def gradDense (df : QuadraticMT F) (ds : Dataset (Mat F) F) (XW : Mat F) (j : Nat) :
    M (List F) := do
  let n_samples : F := ofNat ds.targets.nSamples
  let Xj ← ds.designMatrix.colM j
  let v ← vecMul Xj XW
  let xty ← df.XtY.rowM j
  let r ← bop Scalar.sub v xty
  pure (r.map (fun x => x /. n_samples))

/-- Sparse `initialize`, `/repo/src/datafits/multi_task/mod.rs` lines 135-158. -/
def initCSC (ds : Dataset (CSC F) F) : M (QuadraticMT F) := do
  let n_samples : F := ofNat ds.targets.nSamples
  let n_features ← ds.designMatrix.nFeatures
  let n_tasks := ds.targets.nTasks
  let X := ds.designMatrix
  let Y := ds.targets.asMulti
  let ps ← (List.range n_features).mapM (fun j => do
    let r ← X.colRange j
    let (nrm2, xty) ← r.foldlM (fun (acc : F × List F) idx => do
      let d ← X.dataAt idx
      let xty ← (List.range n_tasks).foldlM (fun xty t => do
        let a ← getM xty t
        let i ← X.rowAt idx
        let yit ← Y.get2 i t
        setM xty t (a +. d *. yit)) acc.2
      pure (acc.1 +. d *. d, xty)) (zero, List.replicate n_tasks zero)
    pure (nrm2 /. n_samples, xty))
  pure ⟨ps.map Prod.fst, ⟨n_tasks, ps.map Prod.snd⟩⟩

/-- Sparse `gradient_j`, `/repo/src/datafits/multi_task/mod.rs` lines 171-188. -/
def gradCSC (df : QuadraticMT F) (ds : Dataset (CSC F) F) (XW : Mat F) (j : Nat) :
    M (List F) := do
  let n_samples : F := ofNat ds.targets.nSamples
  let n_tasks := ds.targets.nTasks
  let X := ds.designMatrix
  let r ← X.colRange j
  let v ← r.foldlM (fun acc idx =>
    (List.range n_tasks).foldlM (fun acc t => do
      let a ← getM acc t
      let d ← X.dataAt idx
      let i ← X.rowAt idx
      let xw ← XW.get2 i t
      setM acc t (a +. d *. xw)) acc) (List.replicate n_tasks zero)
  let xty ← df.XtY.rowM j
  let g ← bop Scalar.sub v xty
  pure (g.map (fun x => x /. n_samples))

end QuadraticMT

/-- `MultiTaskDatafit<F, ArrayBase<D, Ix2>, T> for QuadraticMultiTask<F>`,
`/repo/src/datafits/multi_task/mod.rs` lines 63-124. -/
instance : MTDatafit F (Mat F) (QuadraticMT F) where
  init _ ds := QuadraticMT.initDense ds
  value _ ds XW := QuadraticMT.value ds XW
  gradientJ := QuadraticMT.gradDense
  fullGrad df ds XW := do
    let p := ds.designMatrix.ncols
    let rows ← (List.range p).mapM (fun j => QuadraticMT.gradDense df ds XW j)
    Mat.fromShapeVec p ds.targets.nTasks rows.flatten
  stepSize df := df.lipschitz

/-- `MultiTaskDatafit<F, CSCArray, T> for QuadraticMultiTask<F>`,
`/repo/src/datafits/multi_task/mod.rs` lines 130-210. -/
instance : MTDatafit F (CSC F) (QuadraticMT F) where
  init _ ds := QuadraticMT.initCSC ds
  value _ ds XW := QuadraticMT.value ds XW
  gradientJ := QuadraticMT.gradCSC
  fullGrad df ds XW := do
    let p ← ds.designMatrix.nFeatures
    let rows ← (List.range p).mapM (fun j => QuadraticMT.gradCSC df ds XW j)
    Mat.fromShapeVec p ds.targets.nTasks rows.flatten
  stepSize df := df.lipschitz

end
end Sglm
