import Verif.Model.Utils

/-!
# `/repo/src/datasets`
-/

namespace Sglm
open Scalar

/-- `CSCArray`, `/repo/src/datasets/csc_array.rs` lines 7-11.  `i32` entries are modelled as `Int`. -/
structure CSC (F : Type) where
  data : List F
  indices : List Int
  indptr : List Int

/-- `as usize` on an `i32` used as an index: a negative value becomes a huge index, out of bounds. -/
def toIdx (i : Int) : M Nat := if 0 ≤ i then .ok i.toNat else .error .index

/-- The `i32` range `a..b`. -/
def intRange (a b : Int) : List Int := (List.range (b - a).toNat).map (fun k : Nat => a + (k : Int))

namespace CSC
variable {F : Type}

/-- `X.indptr[j]..X.indptr[j + 1]`. -/
def colRange (X : CSC F) (j : Nat) : M (List Int) := do
  let a ← getM X.indptr j
  let b ← getM X.indptr (j + 1)
  pure (intRange a b)

/-- `X.data[idx as usize]`. -/
def dataAt (X : CSC F) (idx : Int) : M F := do
  let i ← toIdx idx
  getM X.data i

/-- `X.indices[idx as usize] as usize`. -/
def rowAt (X : CSC F) (idx : Int) : M Nat := do
  let i ← toIdx idx
  let r ← getM X.indices i
  toIdx r

end CSC

/-- The observable behaviour of an implementor of `AsMultiTargets`
(`/repo/src/datasets/mod.rs` lines 93-106). -/
structure Targets (F : Type) where
  nSamples : Nat
  nTasks : Nat
  asMulti : Mat F

/-- Errors of `/repo/src/datasets/mod.rs` lines 33-37. -/
inductive DatasetError where
  | nonCastableSingleTargets

namespace Targets
variable {F : Type}

/-- `AsMultiTargets for ArrayBase<S, Ix2>`, `/repo/src/datasets/impl_targets.rs` lines 5-19. -/
def two (Y : Mat F) : Targets F := ⟨Y.nrows, Y.ncols, Y⟩

/-- `AsMultiTargets for ArrayBase<S, Ix1>`, `/repo/src/datasets/impl_targets.rs` lines 22-36. -/
def one (y : List F) : Targets F := ⟨y.length, 1, ⟨1, y.map (fun v => [v])⟩⟩

/-- `try_single_target`, `/repo/src/datasets/mod.rs` lines 115-123.  `index_axis_move(Axis(1), 0)`
panics when there is no column. -/
def trySingle (T : Targets F) : M (Except DatasetError (List F)) :=
  if 1 < T.asMulti.ncols then .ok (.error .nonCastableSingleTargets)
  else do
    let c ← T.asMulti.colM 0
    pure (.ok c)

/-- `try_single_target().unwrap()`. -/
def single (T : Targets F) : M (List F) := do
  match ← T.trySingle with
  | .ok y => pure y
  | .error _ => throw .unwrap

end Targets

/-- `DatasetBase`, `/repo/src/datasets/mod.rs` lines 17-20. -/
structure Dataset (DM F : Type) where
  designMatrix : DM
  targets : Targets F

/-- `DesignMatrixType`, `/repo/src/datasets/mod.rs` lines 26-29. -/
inductive DesignMatrixType where
  | dense
  | sparse

/-- Trait `DesignMatrix`, `/repo/src/datasets/mod.rs` lines 50-89. -/
class DesignMatrix (F : outParam Type) (DM : Type) where
  nFeatures : DM → M Nat
  matrixType : DM → DesignMatrixType
  extrapolatedFit : DM → (ws : List Nat) → (w_acc : List F) → (n_samples : Nat) → M (List F)
  extrapolatedFitMT : DM → (ws : List Nat) → (W_acc : Mat F) → (n_samples n_tasks : Nat) → M (Mat F)
  updateModelFit : DM → (Xw : List F) → (diff : F) → (j : Nat) → M (List F)
  updateModelFitMT : DM → (XW : Mat F) → (diff : List F) → (j : Nat) → M (Mat F)

section
variable {F : Type} [Scalar F]

/-- Dense `compute_extrapolated_fit`, `/repo/src/datasets/impl_design_matrix.rs` lines 17-29. -/
def Mat.extrapolatedFit (X : Mat F) (ws : List Nat) (w_acc : List F) : M (List F) :=
  X.rows.mapM (fun row => do
    let ts ← ws.mapM (fun j => do
      let x ← getM row j
      let w ← getM w_acc j
      pure (x *. w))
    pure (iterSum ts))

/-- Dense `compute_extrapolated_fit_multi_task`, `/repo/src/datasets/impl_design_matrix.rs` lines 31-55.
`W_acc.columns()` has `W_acc.ncols` elements. -/
def Mat.extrapolatedFitMT (X : Mat F) (ws : List Nat) (W_acc : Mat F) (n_samples n_tasks : Nat) :
    M (Mat F) := do
  let rows ← X.rows.mapM (fun row =>
    (List.range W_acc.ncols).mapM (fun t => do
      let col ← W_acc.colM t
      let ts ← ws.mapM (fun j => do
        let x ← getM row j
        let w ← getM col j
        pure (x *. w))
      pure (iterSum ts)))
  Mat.fromShapeVec n_samples n_tasks rows.flatten

/-- Dense `update_model_fit`, `/repo/src/datasets/impl_design_matrix.rs` lines 57-59. -/
def Mat.updateModelFit (X : Mat F) (Xw : List F) (diff : F) (j : Nat) : M (List F) := do
  let c ← X.colM j
  scaledAdd Xw diff c

/-- Dense `update_model_fit_multi_task`, `/repo/src/datasets/impl_design_matrix.rs` lines 61-74. -/
def Mat.updateModelFitMT (X : Mat F) (XW : Mat F) (diff : List F) (j : Nat) : M (Mat F) :=
  (List.range XW.nrows).foldlM (fun A i =>
    (List.range XW.ncols).foldlM (fun A t => do
      let a ← A.get2 i t
      let d ← getM diff t
      let x ← X.get2 i j
      A.set2 i t (a +. d *. x)) A) XW

/-- `impl DesignMatrix for ArrayBase<S, Ix2>`, `/repo/src/datasets/impl_design_matrix.rs` lines 6-75. -/
instance : DesignMatrix F (Mat F) where
  nFeatures X := .ok X.ncols
  matrixType _ := .dense
  extrapolatedFit X ws w _ := X.extrapolatedFit ws w
  extrapolatedFitMT X ws W n t := X.extrapolatedFitMT ws W n t
  updateModelFit := Mat.updateModelFit
  updateModelFitMT := Mat.updateModelFitMT

/-- Sparse `n_features`, `/repo/src/datasets/impl_design_matrix.rs` lines 81-83. -/
def CSC.nFeatures (X : CSC F) : M Nat := subM X.indptr.length 1

/-- Sparse `compute_extrapolated_fit`, `/repo/src/datasets/impl_design_matrix.rs` lines 89-102. -/
def CSC.extrapolatedFit (X : CSC F) (ws : List Nat) (w_acc : List F) (n_samples : Nat) :
    M (List F) :=
  ws.foldlM (fun acc j => do
    let r ← X.colRange j
    r.foldlM (fun acc idx => do
      let i ← X.rowAt idx
      let a ← getM acc i
      let d ← X.dataAt idx
      let w ← getM w_acc j
      setM acc i (a +. d *. w)) acc) (List.replicate n_samples zero)

/-- Sparse `compute_extrapolated_fit_multi_task`, `/repo/src/datasets/impl_design_matrix.rs`
lines 104-121. -/
def CSC.extrapolatedFitMT (X : CSC F) (ws : List Nat) (W_acc : Mat F) (n_samples n_tasks : Nat) :
    M (Mat F) :=
  ws.foldlM (fun acc j => do
    let r ← X.colRange j
    r.foldlM (fun acc idx =>
      (List.range n_tasks).foldlM (fun acc t => do
        let i ← X.rowAt idx
        let a ← acc.get2 i t
        let d ← X.dataAt idx
        let w ← W_acc.get2 j t
        acc.set2 i t (a +. d *. w)) acc) acc) (Mat.zeros n_samples n_tasks)

/-- Sparse `update_model_fit`, `/repo/src/datasets/impl_design_matrix.rs` lines 123-127. -/
def CSC.updateModelFit (X : CSC F) (Xw : List F) (diff : F) (j : Nat) : M (List F) := do
  let r ← X.colRange j
  r.foldlM (fun acc idx => do
    let i ← X.rowAt idx
    let a ← getM acc i
    let d ← X.dataAt idx
    setM acc i (a +. diff *. d)) Xw

/-- Sparse `update_model_fit_multi_task`, `/repo/src/datasets/impl_design_matrix.rs` lines 129-141. -/
def CSC.updateModelFitMT (X : CSC F) (XW : Mat F) (diff : List F) (j : Nat) : M (Mat F) := do
  let r ← X.colRange j
  r.foldlM (fun A idx =>
    (List.range XW.ncols).foldlM (fun A t => do
      let i ← X.rowAt idx
      let a ← A.get2 i t
      let d ← getM diff t
      let x ← X.dataAt idx
      A.set2 i t (a +. d *. x)) A) XW

/-- `impl DesignMatrix for CSCArray`, `/repo/src/datasets/impl_design_matrix.rs` lines 78-142. -/
instance : DesignMatrix F (CSC F) where
  nFeatures := CSC.nFeatures
  matrixType _ := .sparse
  extrapolatedFit := CSC.extrapolatedFit
  extrapolatedFitMT := CSC.extrapolatedFitMT
  updateModelFit := CSC.updateModelFit
  updateModelFitMT := CSC.updateModelFitMT

/-- `compute_alpha_max_sparse`, `/repo/src/utils/mod.rs` lines 83-94. -/
def computeAlphaMaxSparse (X : CSC F) (y : List F) : M F := do
  let n_samples : F := ofNat y.length
  let n_features ← subM X.indptr.length 1
  let Xty ← (List.range n_features).mapM (fun j => do
    let r ← X.colRange j
    r.foldlM (fun acc idx => do
      let d ← X.dataAt idx
      let i ← X.rowAt idx
      let yi ← getM y i
      pure (acc +. d *. yi)) zero)
  let alpha_max := Xty.foldl (fun max_val x => fmax max_val (abs x)) zero
  pure (alpha_max /. n_samples)

end
end Sglm
