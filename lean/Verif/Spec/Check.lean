import Verif.Spec.FloatProblem

/-!
# Specification: checking coefficients in floating point

`initialize` and `opt_cond_violation` are public.  Here they are called with finite floating point data, which denote the real
problem exactly (no error of storage: the problem is the one given by the stored numbers).
-/

namespace Sglm.Spec
open Scalar
variable {n p : ℕ} {F : Type}

/-- The entries are finite, and their values are those of the design. -/
def Design.Holds [Scalar F] [LawfulCmp F] : (D : Design n p) → D.Entries F → Prop
  | .dense X, x => ∀ i j, Den (x i j) (X i j)
  | .csc A, x => ∀ k, Den (x k) (A.data k)

/-- The hyperparameters are finite, and their values are those of the penalty. -/
def PenOf.Holds [Scalar F] [LawfulCmp F] : PenOf F → Pen → Prop
  | .l1 a, .l1 α => Den a α
  | .enet a r, .enet α ρ => Den a α ∧ Den r ρ
  | _, _ => False

/-- The parameter `alpha` of a penalty. -/
def Pen.alpha : Pen → ℝ
  | .l1 α | .enet α _ | .mcp α _ | .l05 α => α

/-- `opt_cond_violation` for all features at coefficients `w` and predictions `z`, after `initialize`; the maximal violation. -/
def checkOf [Scalar F] (D : Design n p) (x : D.Entries F) (y : Fin n → F) (k : LossKind) (pen : PenOf F) (w : Fin p → F)
    (z : Fin n → F) : M F :=
  callOf D x y k pen fun ds df pn => do
    let df ← Datafit.init df ds
    let (_, m) ← optCondViolation ds (List.ofFn w) (List.ofFn z) (List.range p) df pn
    pure m

/-- The same with the predictions computed by `compute_extrapolated_fit` from the coefficients. -/
def recheckOf [Scalar F] (D : Design n p) (x : D.Entries F) (y : Fin n → F) (k : LossKind) (pen : PenOf F) (w : Fin p → F) : M F :=
  callOf D x y k pen fun ds df pn => do
    let df ← Datafit.init df ds
    let z ← DesignMatrix.extrapolatedFit ds.designMatrix (List.range p) (List.ofFn w) n
    let (_, m) ← optCondViolation ds (List.ofFn w) z (List.range p) df pn
    pure m

/-- Derivative of the least squares loss with respect to coefficient `j`, at predictions `z`: `X_jᵀ (z - y) / n`. -/
noncomputable def lsqGrad (X : Fin n → Fin p → ℝ) (y z : Fin n → ℝ) (j : Fin p) : ℝ := (∑ i, X i j * (z i - y i)) / n

/-- Size of the numbers which occur in the computation of the `j`-th violation. -/
noncomputable def checkSize (X : Fin n → Fin p → ℝ) (y : Fin n → ℝ) (pen : Pen) (v : Fin p → ℝ) (z : Fin n → ℝ) (j : Fin p) : ℝ :=
  ∑ i, |X i j| * (|z i| + |y i|) + (pen.alpha + 1) * (|v j| + 1)

/-- The same when the predictions are computed from the coefficients. -/
noncomputable def recheckSize (X : Fin n → Fin p → ℝ) (y : Fin n → ℝ) (pen : Pen) (v : Fin p → ℝ) (j : Fin p) : ℝ :=
  ∑ i, |X i j| * (∑ l, |X i l * v l| + |y i| + 1) + (pen.alpha + 1) * (|v j| + 1)

/-- What a difference between the predictions `z` and `X v` changes in the `j`-th derivative. -/
noncomputable def drift (X : Fin n → Fin p → ℝ) (v : Fin p → ℝ) (z : Fin n → ℝ) (j : Fin p) : ℝ :=
  |(∑ i, X i j * (z i - fit X v i)) / n|

end Sglm.Spec
