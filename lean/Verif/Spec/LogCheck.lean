import Verif.Spec.Check

/-!
# Specification: checking coefficients of logistic regression in floating point
-/

namespace Sglm.Spec
open Scalar
variable {n p : ℕ}

/-- Overflow goes to infinity, and one over infinity is zero.  These laws hold of IEEE 754 arithmetic with any exponential function which
does not return `NaN` at a finite number.  (Without them nothing is known about the logistic function where the exponential overflows.) -/
structure Saturates (F : Type) [Scalar F] [LawfulCmp F] : Prop where
  exp_num : ∀ (x : F) r, Den x r → ∃ k, LawfulCmp.key (Scalar.exp x) = some k
  add_num : ∀ (x y : F) r s, Den x r → Den y s → ∃ k, LawfulCmp.key (x +. y) = some k
  add_nonneg : ∀ (x y : F) r s k, Den x r → Den y s → 0 ≤ r → 0 ≤ s → LawfulCmp.key (x +. y) = some k → 0 ≤ k
  add_top : ∀ (x y : F) r, Den x r → LawfulCmp.key y = some ⊤ → LawfulCmp.key (x +. y) = some ⊤
  div_top : ∀ (x y : F) r, Den x r → LawfulCmp.key y = some ⊤ → Den (x /. y) 0

/-- Derivative of the logistic loss with respect to coefficient `j`, at predictions `z`: `-∑ X_ij y_i / (1 + exp(y_i z_i)) / n`. -/
noncomputable def logisticGrad (X : Fin n → Fin p → ℝ) (y z : Fin n → ℝ) (j : Fin p) : ℝ :=
  -(∑ i, X i j * (y i / (1 + Real.exp (y i * z i)))) / n

/-- Size of the numbers which occur for sample `i`. -/
noncomputable def marginSize (y z : Fin n → ℝ) (i : Fin n) : ℝ := (|y i| + 1) * (|y i * z i| + 1)

/-- Size of the numbers which occur in the computation of the `j`-th violation. -/
noncomputable def logSize (X : Fin n → Fin p → ℝ) (y : Fin n → ℝ) (pen : Pen) (v : Fin p → ℝ) (z : Fin n → ℝ) (j : Fin p) : ℝ :=
  ∑ i, (|X i j| * marginSize y z i + 1) + (pen.alpha + 1) * (|v j| + 1)

/-- The same when the predictions are computed from the coefficients. -/
noncomputable def fitSize (X : Fin n → Fin p → ℝ) (y : Fin n → ℝ) (v : Fin p → ℝ) (i : Fin n) : ℝ :=
  (|y i| + 1) ^ 2 * (∑ l, |X i l * v l| + 1)

noncomputable def logRecheckSize (X : Fin n → Fin p → ℝ) (y : Fin n → ℝ) (pen : Pen) (v : Fin p → ℝ) (j : Fin p) : ℝ :=
  ∑ i, (|X i j| * fitSize X y v i + 1) + (pen.alpha + 1) * (|v j| + 1)

/-- What a difference between the predictions `z` and `X v` changes in the `j`-th derivative. -/
noncomputable def logDrift (X : Fin n → Fin p → ℝ) (y : Fin n → ℝ) (v : Fin p → ℝ) (z : Fin n → ℝ) (j : Fin p) : ℝ :=
  |logisticGrad X y (fit X v) j - logisticGrad X y z j|

end Sglm.Spec
