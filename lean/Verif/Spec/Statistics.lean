import Verif.Spec.ClosedForm

/-!
# Specification: the statistics of the data on which a least squares fit depends
-/

namespace Sglm.Spec
variable {n p T : ℕ}

/-- The Gram matrix of the features: `X_jᵀ X_k / n`. -/
noncomputable def gramMat (D : Design n p) (j k : Fin p) : ℝ := (∑ i, D.matrix i j * D.matrix i k) / n

/-- The features are centred. -/
def CentredColumns (D : Design n p) : Prop := ∀ j, ∑ i, D.matrix i j = 0

/-- The data with which the Lasso computes the elastic net: below the features there is `√δ` times the unit matrix, ... -/
noncomputable def ridgeRows (X : Fin n → Fin p → ℝ) (δ : ℝ) : Fin (n + p) → Fin p → ℝ :=
  Fin.addCases X fun k j => if k = j then Real.sqrt δ else 0

/-- ... and below the targets there are zeros. -/
noncomputable def ridgeTargets (y : Fin n → ℝ) : Fin (n + p) → ℝ := Fin.addCases y fun _ => 0

/-- Mean of the samples. -/
noncomputable def mean (y : Fin n → ℝ) : ℝ := (∑ i, y i) / n

/-- The features with their means subtracted. -/
noncomputable def centred (D : Design n p) : Design n p := .dense fun i j => D.matrix i j - mean fun i => D.matrix i j

/-- The targets with their mean subtracted. -/
noncomputable def centredTargets (y : Fin n → ℝ) (i : Fin n) : ℝ := y i - mean y

/-- Least squares objective of a model with an intercept `b`, which is not penalised. -/
noncomputable def objectiveIntercept (D : Design n p) (y : Fin n → ℝ) (pen : Pen) (w : Fin p → ℝ) (b : ℝ) : ℝ :=
  quadLoss y (fun i => fit D.matrix w i + b) + ∑ j, pen.fn (w j)

/-- The intercept which belongs to coefficients of centred data: `mean y - ∑ mean X_j w_j`. -/
noncomputable def interceptOf (D : Design n p) (y : Fin n → ℝ) (w : Fin p → ℝ) : ℝ :=
  mean y - ∑ j, (mean fun i => D.matrix i j) * w j

/-- The same for several tasks, with an intercept for each. -/
noncomputable def objectiveInterceptMT (D : Design n p) (Y : Fin n → Fin T → ℝ) (pen : BPen) (W : Fin p → Euc T) (b : Fin T → ℝ) : ℝ :=
  mtLoss Y (fun i t => fitMT D.matrix (fun j => (W j).ofLp) i t + b t) + ∑ j, pen.fn (W j)

end Sglm.Spec
