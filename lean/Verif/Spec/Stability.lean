import Verif.Spec.Quality

/-!
# Specification: changed data
-/

namespace Sglm.Spec
variable {n p T : ℕ}

/-- Loss of one sample with target `y` and prediction `u`. -/
noncomputable def LossKind.sample : LossKind → ℝ → ℝ → ℝ
  | .quadratic, y, u => (y - u) ^ 2 / 2
  | .logistic, y, u => Real.log (1 + Real.exp (-(y * u)))

/-- Derivative of the loss of one sample in the prediction. -/
noncomputable def LossKind.slope : LossKind → ℝ → ℝ → ℝ
  | .quadratic, y, u => u - y
  | .logistic, y, u => -y / (1 + Real.exp (y * u))

/-- Euclidean length. -/
noncomputable def len {m : ℕ} (z : Fin m → ℝ) : ℝ := Real.sqrt (∑ i, z i ^ 2)

/-- Two data sets which differ in the sample `k` only. -/
def SameExcept (k : Fin n) (D D' : Design n p) (y y' : Fin n → ℝ) : Prop :=
  ∀ i, i ≠ k → y' i = y i ∧ D'.matrix i = D.matrix i

end Sglm.Spec
