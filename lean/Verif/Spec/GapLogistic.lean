import Verif.Spec.Gap
import Mathlib.Analysis.SpecialFunctions.BinaryEntropy

/-!
# Specification: the duality gap of sparse logistic regression

The dual problem maximises the mean entropy of `n` probabilities of error.  The penalty is `a * |z| + b * z ^ 2 / 2`.
-/

namespace Sglm.Spec
variable {n p : ℕ}

/-- The probability which the model gives to the wrong label of sample `i`. -/
noncomputable def errorProb (D : Design n p) (y : Fin n → ℝ) (w : Fin p → ℝ) (i : Fin n) : ℝ :=
  (1 + Real.exp (y i * fit D.matrix w i))⁻¹

/-- Correlation of feature `j` with the signed probabilities. -/
noncomputable def errorCorr (D : Design n p) (y : Fin n → ℝ) (w : Fin p → ℝ) (j : Fin p) : ℝ :=
  (∑ i, D.matrix i j * (y i * errorProb D y w i)) / n

/-- The duality gap of logistic regression at the coefficients `w`, for the dual point obtained from the probabilities. -/
noncomputable def dualityGapLog (D : Design n p) (y : Fin n → ℝ) (a b : ℝ) (w : Fin p → ℝ) : ℝ :=
  let s := dualScale a (⨆ j, |errorCorr D y w j - b * w j|)
  (∑ i, Real.log (1 + Real.exp (-(y i * fit D.matrix w i)))) / n + b * (∑ j, w j ^ 2) / 2 + a * ∑ j, |w j| -
    ((∑ i, Real.binEntropy (s * errorProb D y w i)) / n - s ^ 2 * b * (∑ j, w j ^ 2) / 2)

end Sglm.Spec
