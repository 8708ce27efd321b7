import Verif.Spec.Fits

/-!
# Specification: calls whose outcomes correspond
-/

namespace Sglm.Spec
variable {n p T T' : ℕ}

/-- Both calls panic in the same way, or the second returns the image under `g` of the coefficients of the first. -/
def Corresponds (g : (Fin p → ℝ) → (Fin p → ℝ)) (r r' : M (List XR)) : Prop :=
  (∃ e, r = .error e ∧ r' = .error e) ∨ ∃ w, r = .ok (vec w) ∧ r' = .ok (vec (g w))

/-- The same for matrices of coefficients. -/
def CorrespondsMT (g : (Fin p → Euc T) → (Fin p → Euc T')) (r r' : M (Mat XR)) : Prop :=
  (∃ e, r = .error e ∧ r' = .error e) ∨ ∃ W, r = .ok (emat W) ∧ r' = .ok (emat (g W))

/-- The same for fits, which may also be refused. -/
def CorrespondsFit (g : (Fin p → ℝ) → (Fin p → ℝ)) (r r' : M (Except (EstimatorError XR) (List XR))) : Prop :=
  (∃ e, r = .error e ∧ r' = .error e) ∨ (∃ e, r = .ok (.error e) ∧ r' = .ok (.error e)) ∨
    ∃ w, r = .ok (.ok (vec w)) ∧ r' = .ok (.ok (vec (g w)))

/-- The same for multi-task fits. -/
def CorrespondsFitMT (g : (Fin p → Euc T) → (Fin p → Euc T')) (r r' : M (Except (EstimatorError XR) (Mat XR))) :
    Prop :=
  (∃ e, r = .error e ∧ r' = .error e) ∨ (∃ e, r = .ok (.error e) ∧ r' = .ok (.error e)) ∨
    ∃ W, r = .ok (.ok (emat W)) ∧ r' = .ok (.ok (emat (g W)))

/-- The columns of the second design are those of the first, some of them negated. -/
structure Negated (D D' : Design n p) (s : Fin p → ℝ) : Prop where
  sign : ∀ j, s j = 1 ∨ s j = -1
  cols : ∀ i j, D'.matrix i j = s j * D.matrix i j

/-- The targets of all samples, mapped by a linear isometry of the task space. -/
noncomputable def mapTargets (U : Euc T →ₗᵢ[ℝ] Euc T') (Y : Fin n → Fin T → ℝ) (i : Fin n) (t : Fin T') : ℝ :=
  (U (WithLp.toLp 2 (Y i))).ofLp t

/-- Hyperparameters after scaling the coefficients by `a` and the gradients by `b`. -/
inductive Pen.Scaled (a b : ℝ) : Pen → Pen → Prop
  | l1 (α : ℝ) : Pen.Scaled a b (.l1 α) (.l1 (b * α))
  | enet (α ρ α' ρ' : ℝ) (h1 : α' * ρ' = b * (α * ρ)) (h2 : α' * (1 - ρ') = b / a * (α * (1 - ρ))) :
    Pen.Scaled a b (.enet α ρ) (.enet α' ρ')
  | mcp (α γ : ℝ) : Pen.Scaled a b (.mcp α γ) (.mcp (b * α) (a / b * γ))
  | l05 (α : ℝ) : Pen.Scaled a b (.l05 α) (.l05 (b * Real.sqrt a * α))

/-- The same for the block penalties. -/
inductive BPen.Scaled (a b : ℝ) : BPen → BPen → Prop
  | l21 (α : ℝ) : BPen.Scaled a b (.l21 α) (.l21 (b * α))
  | enet (α ρ α' ρ' : ℝ) (h1 : α' * ρ' = b * (α * ρ)) (h2 : α' * (1 - ρ') = b / a * (α * (1 - ρ))) :
    BPen.Scaled a b (.enet α ρ) (.enet α' ρ')
  | mcp (α γ : ℝ) : BPen.Scaled a b (.mcp α γ) (.mcp (b * α) (a / b * γ))

/-- The settings with a scaled tolerance. -/
noncomputable def scaleTolerance (cfg : Solver XR) (b : ℝ) : Solver XR :=
  { cfg with tolerance := Scalar.mul (XR.fin b) cfg.tolerance }

/-- Lasso settings with `alpha` and tolerance scaled. -/
noncomputable def scaleLasso (ps : LassoParams XR) (b : ℝ) : LassoParams XR :=
  { ps with alpha := Scalar.mul (XR.fin b) ps.alpha, tolerance := Scalar.mul (XR.fin b) ps.tolerance }

/-- MCP settings with `alpha` and tolerance scaled. -/
noncomputable def scaleMCP (ps : MCParams XR) (b : ℝ) : MCParams XR :=
  { ps with alpha := Scalar.mul (XR.fin b) ps.alpha, tolerance := Scalar.mul (XR.fin b) ps.tolerance }

end Sglm.Spec
