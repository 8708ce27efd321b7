import Verif.Spec.Quality

/-!
# Specification: solutions for orthogonal designs
-/

namespace Sglm.Spec
variable {n p T : ℕ}

/-- The columns of the design are orthogonal. -/
def OrthogonalColumns (D : Design n p) : Prop := ∀ j k, j ≠ k → ∑ i, D.matrix i j * D.matrix i k = 0

/-- Correlation of feature `j` with the targets. -/
noncomputable def corr (D : Design n p) (y : Fin n → ℝ) (j : Fin p) : ℝ := (∑ i, D.matrix i j * y i) / n

/-- The same for several tasks. -/
noncomputable def corrMT (D : Design n p) (Y : Fin n → Fin T → ℝ) (j : Fin p) : Euc T :=
  WithLp.toLp 2 fun t => (∑ i, D.matrix i j * Y i t) / n

/-- Soft thresholding. -/
noncomputable def soft (a z : ℝ) : ℝ := if z < -a then z + a else if a < z then z - a else 0

/-- Firm thresholding: `0` up to `α`, the least squares solution `z / L` from `γ α L` on, linear in between. -/
noncomputable def firm (α γ L z : ℝ) : ℝ := if |z| ≤ γ * α * L then soft α z / (L - 1 / γ) else z / L

/-- The Lasso, elastic net and MCP solutions of a problem with one feature, `z` being its correlation with the targets and `L` its
squared norm divided by the number of samples. -/
noncomputable def closedForm : Pen → ℝ → ℝ → ℝ
  | .l1 α, L, z => soft α z / L
  | .enet α ρ, L, z => soft (α * ρ) z / (L + α * (1 - ρ))
  | .mcp α γ, L, z => firm α γ L z
  | .l05 _, _, _ => 0

/-- Block soft thresholding. -/
noncomputable def blockSoft (a : ℝ) (z : Euc T) : Euc T := if ‖z‖ ≤ a then 0 else (1 - a / ‖z‖) • z

end Sglm.Spec
