import Verif.Spec.FloatProblem
import Verif.Proofs.Arrays

/-!
# Array operations on floating point data
-/

namespace Sglm
open Scalar Spec

section
variable {F : Type} {n p m : ℕ}

@[simp] theorem matOf_nrows (x : Fin n → Fin p → F) : (matOf x).nrows = n := by simp [matOf, Mat.nrows]
@[simp] theorem matOf_ncols (x : Fin n → Fin p → F) : (matOf x).ncols = p := rfl

@[simp] theorem colM_matOf (x : Fin n → Fin p → F) (j : Fin p) :
    (matOf x).colM j = .ok (List.ofFn (fun i => x i j)) := by
  unfold Mat.colM
  rw [if_pos (show (j : ℕ) < (matOf x).ncols from j.isLt)]
  exact mapM_ofFn _ _ fun i => getM_ofFn _ _

theorem one_asMultiOf (y : Fin n → F) : (Targets.one (List.ofFn y)).asMulti = matOf (fun i (_ : Fin 1) => y i) := by
  unfold Targets.one matOf
  simp [List.map_ofFn, Function.comp_def]

@[simp] theorem one_nSamplesOf (y : Fin n → F) : (Targets.one (List.ofFn y)).nSamples = n := by simp [Targets.one]

@[simp] theorem single_oneOf (y : Fin n → F) : (Targets.one (List.ofFn y)).single = .ok (List.ofFn y) := by
  unfold Targets.single Targets.trySingle
  rw [one_asMultiOf, if_neg (by simp)]
  have := colM_matOf (fun i (_ : Fin 1) => y i) 0
  rw [show (matOf (fun i (_ : Fin 1) => y i)).colM 0 = _ from this]
  rfl

theorem zipWith_ofFn {α β γ : Type} (f : α → β → γ) (a : Fin n → α) (b : Fin n → β) :
    List.zipWith f (List.ofFn a) (List.ofFn b) = List.ofFn (fun i => f (a i) (b i)) := by
  apply List.ext_getElem (by simp)
  intro i h1 h2
  simp

variable [Scalar F]

theorem tMulVec_matOf (x : Fin n → Fin p → F) (v : Fin n → F) :
    tMulVec (matOf x) (List.ofFn v) = .ok (List.ofFn (fun j => dot (List.ofFn fun i => x i j) (List.ofFn v))) := by
  unfold tMulVec
  rw [if_neg (by simp)]
  simp only [matOf_ncols]
  apply mapM_range
  intro j
  rw [colM_matOf]
  rfl

theorem dotM_ofFn (a b : Fin n → F) : dotM (List.ofFn a) (List.ofFn b) = .ok (dot (List.ofFn a) (List.ofFn b)) := by
  unfold dotM
  rw [if_pos (by simp)]

omit [Scalar F] in
theorem bop_ofFn (f : F → F → F) (a b : Fin n → F) :
    bop f (List.ofFn a) (List.ofFn b) = .ok (List.ofFn fun i => f (a i) (b i)) := by
  unfold bop
  rw [if_pos (by simp), zipWith_ofFn]

theorem scaledAdd_ofFn (a b : Fin n → F) (c : F) :
    scaledAdd (List.ofFn a) c (List.ofFn b) = .ok (List.ofFn fun i => a i +. c *. b i) := by
  unfold scaledAdd
  rw [if_pos (by simp), zipWith_ofFn]

theorem colSqNorms_matOf (x : Fin n → Fin p → F) (c : F) :
    colSqNorms (matOf x) c = .ok (List.ofFn (fun j => dot (List.ofFn fun i => x i j) (List.ofFn fun i => x i j) /. c)) := by
  unfold colSqNorms
  simp only [matOf_ncols]
  apply mapM_range
  intro j
  rw [colM_matOf]
  rfl

/-! ## Sparse columns -/

omit [Scalar F] in
theorem colRange_toCSCOf (A : CSCData n p) (x : Fin A.nnz → F) (j : Fin p) :
    (A.toCSCOf x).colRange j = .ok ((colList A j).map (fun k : Fin A.nnz => ((k : ℕ) : ℤ))) := by
  have := colRange_toCSC A j
  unfold CSC.colRange CSCData.toCSC at this
  unfold CSC.colRange CSCData.toCSCOf
  exact this

omit [Scalar F] in
@[simp] theorem dataAt_toCSCOf (A : CSCData n p) (x : Fin A.nnz → F) (k : Fin A.nnz) :
    (A.toCSCOf x).dataAt ((k : ℕ) : ℤ) = .ok (x k) := by
  unfold CSC.dataAt toIdx
  rw [if_pos (by omega)]
  simp only [bind, Except.bind, Int.toNat_natCast]
  exact getM_ofFn _ _

omit [Scalar F] in
@[simp] theorem rowAt_toCSCOf (A : CSCData n p) (x : Fin A.nnz → F) (k : Fin A.nnz) :
    (A.toCSCOf x).rowAt ((k : ℕ) : ℤ) = .ok (A.row k : ℕ) := by
  have := rowAt_toCSC A k
  unfold CSC.rowAt CSCData.toCSC at this
  unfold CSC.rowAt CSCData.toCSCOf
  exact this

omit [Scalar F] in
theorem nFeatures_toCSCOf (A : CSCData n p) (x : Fin A.nnz → F) : (A.toCSCOf x).nFeatures = .ok p := by
  unfold CSC.nFeatures CSCData.toCSCOf subM
  simp

/-- The sums computed along a column. -/
def colFold (A : CSCData n p) (x : Fin A.nnz → F) (v : Fin A.nnz → F) (j : Fin p) : F :=
  (colList A j).foldl (fun acc k => acc +. x k *. v k) zero

omit [Scalar F] in
theorem foldl_pair {α β γ : Type} (l : List γ) (f : α → γ → α) (g : β → γ → β) (a : α) (b : β) :
    l.foldl (fun (s : α × β) k => (f s.1 k, g s.2 k)) (a, b) = (l.foldl f a, l.foldl g b) := by
  induction l generalizing a b with
  | nil => rfl
  | cons k l ih => exact ih _ _

/-- Sparse update of the fit. -/
theorem updateCSC_of (A : CSCData n p) (x : Fin A.nnz → F) (u : Fin n → F) (d : F) (j : Fin p) :
    (A.toCSCOf x).updateModelFit (List.ofFn u) d j = .ok (List.ofFn
      ((colList A j).foldl (fun u k => Function.update u (A.row k) (u (A.row k) +. d *. x k)) u)) := by
  unfold CSC.updateModelFit
  rw [colRange_toCSCOf]
  exact foldlM_col A j (fun u : Fin n → F => List.ofFn u) _
    (fun u k => Function.update u (A.row k) (u (A.row k) +. d *. x k)) (by
      intro t k
      rw [rowAt_toCSCOf]
      simp only [bind, Except.bind, getM_ofFn, dataAt_toCSCOf, setM_ofFn]) u

end
end Sglm
