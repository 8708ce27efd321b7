import Verif.Bridge
import Verif.Model.Datafits
import Mathlib.Analysis.SpecialFunctions.Log.Basic

/-!
# Specification: datasets and losses
-/

namespace Sglm.Spec

/-- The linear predictor `X w`. -/
def fit {n p : ℕ} (X : Fin n → Fin p → ℝ) (w : Fin p → ℝ) (i : Fin n) : ℝ := ∑ j, X i j * w j

/-- The multi-task linear predictor `X W`. -/
def fitMT {n p T : ℕ} (X : Fin n → Fin p → ℝ) (W : Fin p → Fin T → ℝ) (i : Fin n) (t : Fin T) : ℝ :=
  ∑ j, X i j * W j t

/-- Least squares loss `‖y - u‖² / (2n)`. -/
noncomputable def quadLoss {n : ℕ} (y u : Fin n → ℝ) : ℝ := (∑ i, (y i - u i) ^ 2) / (2 * n)

/-- Logistic loss `(1/n) ∑ log (1 + exp (-y_i u_i))`. -/
noncomputable def logLoss {n : ℕ} (y u : Fin n → ℝ) : ℝ :=
  (∑ i, Real.log (1 + Real.exp (-(y i * u i)))) / n

/-- Multi-task least squares loss `‖Y - U‖_F² / (2n)`. -/
noncomputable def mtLoss {n T : ℕ} (Y U : Fin n → Fin T → ℝ) : ℝ :=
  (∑ i, ∑ t, (Y i t - U i t) ^ 2) / (2 * n)

/-- Compressed sparse column data of an `n × p` matrix with in-range indices: `data k` is at row
`row k`, and the entries of column `j` are those with `ptr j ≤ k < ptr (j+1)`. -/
structure CSCData (n p : ℕ) where
  nnz : ℕ
  data : Fin nnz → ℝ
  row : Fin nnz → Fin n
  ptr : Fin (p + 1) → ℕ
  ptr_le : ∀ j, ptr j ≤ nnz

namespace CSCData
variable {n p : ℕ} (A : CSCData n p)

/-- Stored entry `k` belongs to column `j`. -/
def InCol (j : Fin p) (k : Fin A.nnz) : Prop := A.ptr j.castSucc ≤ k ∧ (k : ℕ) < A.ptr j.succ

instance (j : Fin p) (k : Fin A.nnz) : Decidable (A.InCol j k) := by unfold InCol; infer_instance

/-- The matrix represented; duplicate entries are added, as is conventional. -/
def dense (i : Fin n) (j : Fin p) : ℝ := ∑ k, if A.InCol j k ∧ A.row k = i then A.data k else 0

/-- No row index occurs twice in a column. -/
def NoDup : Prop := ∀ j k k', A.InCol j k → A.InCol j k' → A.row k = A.row k' → k = k'

/-- The arrays handed to the crate. -/
noncomputable def toCSC : CSC XR :=
  ⟨vec A.data, List.ofFn (fun k => ((A.row k : ℕ) : ℤ)), List.ofFn (fun j => (A.ptr j : ℤ))⟩

end CSCData

variable {n p T : ℕ}

/-- The dense single-task dataset `(X, y)`. -/
noncomputable def denseDs (X : Fin n → Fin p → ℝ) (y : Fin n → ℝ) : Dataset (Mat XR) XR :=
  ⟨mat X, Targets.one (vec y)⟩

/-- The sparse single-task dataset `(A, y)`. -/
noncomputable def cscDs (A : CSCData n p) (y : Fin n → ℝ) : Dataset (CSC XR) XR :=
  ⟨A.toCSC, Targets.one (vec y)⟩

/-- The dense multi-task dataset `(X, Y)`. -/
noncomputable def denseDsMT (X : Fin n → Fin p → ℝ) (Y : Fin n → Fin T → ℝ) : Dataset (Mat XR) XR :=
  ⟨mat X, Targets.two (mat Y)⟩

/-- The sparse multi-task dataset `(A, Y)`. -/
noncomputable def cscDsMT (A : CSCData n p) (Y : Fin n → Fin T → ℝ) : Dataset (CSC XR) XR :=
  ⟨A.toCSC, Targets.two (mat Y)⟩

end Sglm.Spec
