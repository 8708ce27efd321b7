import Verif.Spec.Quality

/-!
# Specification: the duality gap of the elastic net

The stopping criterion of other libraries (scikit-learn): coefficients are accepted once the duality gap is at most `tol * ‖y‖²` (here everything
is divided by `n`).  The penalty is `a * |z| + b * z ^ 2 / 2`.
-/

namespace Sglm.Spec
variable {n p T : ℕ}

/-- Residuals. -/
noncomputable def resid (D : Design n p) (y : Fin n → ℝ) (w : Fin p → ℝ) (i : Fin n) : ℝ := y i - fit D.matrix w i

/-- The factor which makes the residuals feasible for the dual problem, if `c` is the largest correlation. -/
noncomputable def dualScale (a c : ℝ) : ℝ := if a < c then a / c else 1

/-- The duality gap at the coefficients `w`, for the dual point obtained from the residuals. -/
noncomputable def dualityGap (D : Design n p) (y : Fin n → ℝ) (a b : ℝ) (w : Fin p → ℝ) : ℝ :=
  let s := dualScale a (⨆ j, |residCorr D y w j - b * w j|)
  (1 + s ^ 2) / 2 * ((∑ i, resid D y w i ^ 2) / n + b * ∑ j, w j ^ 2) + a * ∑ j, |w j| - s * ((∑ i, resid D y w i * y i) / n)

/-- Residuals of several tasks. -/
noncomputable def residMT (D : Design n p) (Y : Fin n → Fin T → ℝ) (W : Fin p → Euc T) (i : Fin n) (t : Fin T) : ℝ :=
  Y i t - fitMT D.matrix (fun j => (W j).ofLp) i t

/-- The duality gap of the multi-task Lasso. -/
noncomputable def dualityGapMT (D : Design n p) (Y : Fin n → Fin T → ℝ) (a : ℝ) (W : Fin p → Euc T) : ℝ :=
  let s := dualScale a (⨆ j, ‖residCorrMT D Y W j‖)
  (1 + s ^ 2) / 2 * ((∑ i, ∑ t, residMT D Y W i t ^ 2) / n) + a * ∑ j, ‖W j‖ - s * ((∑ i, ∑ t, residMT D Y W i t * Y i t) / n)

/-- Coefficients are close in the sense of `numpy.testing.assert_allclose(v, u, atol=atol)`, whose default `rtol` is `1e-7`. -/
def NearCoefs (atol : ℝ) (v u : Fin p → ℝ) : Prop := ∀ j, |v j - u j| ≤ atol + 1 / 10 ^ 7 * |u j|

end Sglm.Spec
