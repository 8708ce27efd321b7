import Verif.Spec.Problem

/-!
# Specification: fitting the estimators on a real dataset

`Params.fit` on a dataset in either storage format.
-/

namespace Sglm.Spec
variable {n p T : ℕ}

/-- `LassoParams::fit`. -/
noncomputable def fitLasso (srt : Argsort XR) (ps : LassoParams XR) (D : Design n p) (y : Fin n → ℝ) :
    M (Except (EstimatorError XR) (List XR)) :=
  match D with
  | .dense X => Lasso.fit srt ps (denseDs X y)
  | .csc A => Lasso.fit srt ps (cscDs A y)

/-- `ElasticNetParams::fit`. -/
noncomputable def fitElasticNet (srt : Argsort XR) (ps : ElasticNetParams XR) (D : Design n p) (y : Fin n → ℝ) :
    M (Except (EstimatorError XR) (List XR)) :=
  match D with
  | .dense X => ElasticNet.fit srt ps (denseDs X y)
  | .csc A => ElasticNet.fit srt ps (cscDs A y)

/-- `MCParams::fit`. -/
noncomputable def fitMCP (srt : Argsort XR) (ps : MCParams XR) (D : Design n p) (y : Fin n → ℝ) :
    M (Except (EstimatorError XR) (List XR)) :=
  match D with
  | .dense X => MCPEstimator.fit srt ps (denseDs X y)
  | .csc A => MCPEstimator.fit srt ps (cscDs A y)

/-- `MultiTaskLassoParams::fit`. -/
noncomputable def fitMTLasso (srt : Argsort XR) (ps : LassoParams XR) (D : Design n p) (Y : Fin n → Fin T → ℝ) :
    M (Except (EstimatorError XR) (Mat XR)) :=
  match D with
  | .dense X => MultiTaskLasso.fit srt ps (denseDsMT X Y)
  | .csc A => MultiTaskLasso.fit srt ps (cscDsMT A Y)

/-- `MultiTaskElasticNetParams::fit`. -/
noncomputable def fitMTElasticNet (srt : Argsort XR) (ps : ElasticNetParams XR) (D : Design n p)
    (Y : Fin n → Fin T → ℝ) : M (Except (EstimatorError XR) (Mat XR)) :=
  match D with
  | .dense X => MultiTaskElasticNet.fit srt ps (denseDsMT X Y)
  | .csc A => MultiTaskElasticNet.fit srt ps (cscDsMT A Y)

/-- `BlockMCParams::fit`. -/
noncomputable def fitBlockMCP (srt : Argsort XR) (ps : MCParams XR) (D : Design n p) (Y : Fin n → Fin T → ℝ) :
    M (Except (EstimatorError XR) (Mat XR)) :=
  match D with
  | .dense X => BlockMCPEstimator.fit srt ps (denseDsMT X Y)
  | .csc A => BlockMCPEstimator.fit srt ps (cscDsMT A Y)

/-- The Lasso settings with an `l1_ratio`. -/
def withL1Ratio {F : Type} (ps : LassoParams F) (ρ : F) : ElasticNetParams F where
  alpha := ps.alpha
  l1Ratio := ρ
  maxIterations := ps.maxIterations
  maxEpochs := ps.maxEpochs
  wsStartSize := ps.wsStartSize
  tolerance := ps.tolerance
  K := ps.K
  useAcceleration := ps.useAcceleration
  verbose := ps.verbose

/-- The Lasso settings with a `gamma`. -/
def withGamma {F : Type} (ps : LassoParams F) (γ : F) : MCParams F where
  alpha := ps.alpha
  gamma := γ
  maxIterations := ps.maxIterations
  maxEpochs := ps.maxEpochs
  wsStartSize := ps.wsStartSize
  tolerance := ps.tolerance
  K := ps.K
  useAcceleration := ps.useAcceleration
  verbose := ps.verbose

/-- Apply a function to fitted coefficients, leaving panics and errors as they are. -/
def mapFit {F A B : Type} (f : A → B) (r : M (Except (EstimatorError F) A)) : M (Except (EstimatorError F) B) :=
  (fun e => f <$> e) <$> r

end Sglm.Spec
