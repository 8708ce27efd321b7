import Verif.Spec.Check
import Verif.Spec.Prox

/-!
# Specification: checking the coefficients of the multi-task Lasso in floating point
-/

namespace Sglm.Spec
open Scalar
variable {n p T : ℕ} {F : Type}

/-- What the Euclidean norms of rows need beyond `Precise`: squares of small numbers have a small absolute error `η` (underflow), squares
of large numbers up to `1 / η` are finite, square roots and matrix products are accurate.  The laws hold of IEEE 754 binary64 with
`e = 2⁻⁵⁰`, `η = 2⁻¹⁰⁰⁰`, and of binary32 with `e = 2⁻²¹`, `η = 2⁻¹²⁰`. -/
structure PreciseNorm (F : Type) [Scalar F] [LawfulCmp F] (e η : ℝ) : Prop where
  pos : 0 < η
  small : η ≤ e ^ 4
  mul : ∀ (x y : F) r s, Den x r → Den y s →
    (|r * s| ≤ 1 / η → ∃ t, Den (x *. y) t) ∧ ∀ t, Den (x *. y) t → |t - r * s| ≤ e * |r * s| + η
  add : ∀ (x y : F) r s, Den x r → Den y s → |r + s| ≤ 1 / η → ∃ t, Den (x +. y) t
  dot : ∀ (n : ℕ) (x y : Fin n → F) (r s : Fin n → ℝ), (∀ i, Den (x i) (r i)) → (∀ i, Den (y i) (s i)) → n * e ≤ 1 →
    ((∑ i, |r i * s i|) ≤ 1 / η → ∃ t, Den (Scalar.dot (List.ofFn x) (List.ofFn y)) t) ∧
    ∀ t, Den (Scalar.dot (List.ofFn x) (List.ofFn y)) t → |t - ∑ i, r i * s i| ≤ n * (e * (∑ i, |r i * s i|) + η)
  dot_nonneg : ∀ x : List F, NonNeg (Scalar.dot x x)
  sq_nonneg : ∀ x : F, NonNeg (x *. x)
  add_nonneg : ∀ x y : F, NonNeg x → NonNeg y → NonNeg (x +. y)
  sqrt : ∀ (x : F) r, Den x r → 0 ≤ r → ∃ t, Den (Scalar.sqrt x) t ∧ |t - Real.sqrt r| ≤ e * Real.sqrt r
  mmdot : ∀ (n : ℕ) (x y : Fin n → F) (r s : Fin n → ℝ), (∀ i, Den (x i) (r i)) → (∀ i, Den (y i) (s i)) → n * e ≤ 1 →
    ((∑ i, |r i * s i|) ≤ 1 / e → ∃ t, Den (Scalar.mmdot (List.ofFn x) (List.ofFn y)) t) ∧
    ∀ t, Den (Scalar.mmdot (List.ofFn x) (List.ofFn y)) t → |t - ∑ i, r i * s i| ≤ n * e * ((∑ i, |r i * s i|) + 1)

/-- Give the dataset, a fresh datafit object and the L21 penalty to `run`. -/
def callMTOf [Scalar F] {α : Type} (D : Design n p) (x : D.Entries F) (y : Fin n → Fin T → F) (a : F)
    (run : ∀ {DM DF P : Type} [DesignMatrix F DM] [MTDatafit F DM DF] [MTPenalty F P], Dataset DM F → DF → P → α) : α :=
  match D, x with
  | .dense _, x => run (⟨matOf x, Targets.two (matOf y)⟩ : Dataset (Mat F) F) (QuadraticMT.new : QuadraticMT F) (L21.mk a)
  | .csc A, x => run (⟨A.toCSCOf x, Targets.two (matOf y)⟩ : Dataset (CSC F) F) (QuadraticMT.new : QuadraticMT F) (L21.mk a)

/-- `opt_cond_violation` for all features at coefficients `W` and predictions `Z`, after `initialize`; the maximal violation. -/
def checkMTOf [Scalar F] (D : Design n p) (x : D.Entries F) (y : Fin n → Fin T → F) (a : F) (w : Fin p → Fin T → F)
    (z : Fin n → Fin T → F) : M F :=
  callMTOf D x y a fun ds df pn => do
    let df ← MTDatafit.init df ds
    let (_, m) ← MT.optCondViolation ds (matOf w) (matOf z) (List.range p) df pn
    pure m

/-- `Solver::solve_multi_task` with floating point data, returning also the predictions and the printed lines. -/
def traceMTOf [Scalar F] (srt : Argsort F) (cfg : Solver F) (D : Design n p) (x : D.Entries F) (y : Fin n → Fin T → F) (a : F) :
    M (BCDState F × List (Event F)) :=
  callMTOf D x y a fun ds df pn => do
    let (st, _, log) ← MT.blockCoordinateDescent srt ds df pn cfg
    pure (st, log)

/-- Row `j` of the derivative of the multi-task loss at predictions `Z`: `X_jᵀ (Z - Y) / n`. -/
noncomputable def mtRowGrad (X : Fin n → Fin p → ℝ) (Y Z : Fin n → Fin T → ℝ) (j : Fin p) : Euc T :=
  WithLp.toLp 2 fun t => (∑ i, X i j * (Z i t - Y i t)) / n

/-- Size of the numbers which occur in the computation of the `j`-th violation. -/
noncomputable def mtCheckSize (X : Fin n → Fin p → ℝ) (Y : Fin n → Fin T → ℝ) (α : ℝ) (Z : Fin n → Fin T → ℝ) (j : Fin p) : ℝ :=
  ∑ t, (∑ i, |X i j| * (|Z i t| + |Y i t|) + 1) + (T + 1) * (α + 1)

/-- A row of coefficients which is zero, or whose norm is neither tiny nor huge. -/
def RowOK (e η α : ℝ) (V : Euc T) : Prop :=
  V = 0 ∨ T * η ≤ (e * ‖V‖) ^ 2 ∧ (α + 1) * (‖V‖ + 1) ^ 2 * η ≤ 1

/-- What a difference between the predictions `Z` and `X V` changes in row `j` of the derivative. -/
noncomputable def mtDrift (X : Fin n → Fin p → ℝ) (V : Fin p → Euc T) (Z : Fin n → Fin T → ℝ) (j : Fin p) : ℝ :=
  ‖mtRowGrad X (fitMT X fun j => (V j).ofLp) Z j‖

end Sglm.Spec
