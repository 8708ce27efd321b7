import Verif.Spec.Quality
import Verif.Model.Examples

/-!
# Specification: the example programs

Random numbers are reals `z 0, z 1, …`.
-/

namespace Sglm.Spec

/-- The features: filled column by column with random numbers. -/
def drawnX (z : ℕ → ℝ) (n p : ℕ) (i : Fin n) (j : Fin p) : ℝ := z (j * n + i)

/-- The targets: a linear model whose coefficients are the first random numbers, with the first random numbers as noise. -/
noncomputable def drawnY (z : ℕ → ℝ) (n p : ℕ) (i : Fin n) : ℝ := ∑ j : Fin p, drawnX z n p i j * z j + z i

/-- The same for several tasks. -/
noncomputable def drawnYT (z : ℕ → ℝ) (n p T : ℕ) (i : Fin n) (t : Fin T) : ℝ :=
  ∑ j : Fin p, drawnX z n p i j * z (j * T + t) + z (i * T + t)

/-- The settings of `Solver::new()`. -/
noncomputable def solverDefaults : Solver XR := ⟨10, 50, 1000, XR.fin (1 / 10 ^ 8), 5, true, true⟩

/-- The settings of the estimators. -/
noncomputable def estimatorDefaults : Solver XR := ⟨10, 50, 1000, XR.fin (1 / 10 ^ 6), 5, true, true⟩

/-- All entries differ by at most `δ`. -/
def AllClose {p : ℕ} (v w : Fin p → ℝ) (δ : ℝ) : Prop := ∀ j, |v j - w j| ≤ δ

/-- The same for matrices. -/
def AllClose2 {p T : ℕ} (V W : Fin p → Fin T → ℝ) (δ : ℝ) : Prop := ∀ j t, |V j t - W j t| ≤ δ

/-- The regularisation of the Lasso example: a tenth of the smallest one for which zero is optimal, `max_j |⟨X_j, y⟩| / n`. -/
def TenthOfMax {n p : ℕ} (X : Fin n → Fin p → ℝ) (y : Fin n → ℝ) (α : ℝ) : Prop :=
  IsLeast {a : ℝ | 0 ≤ a ∧ ∀ j, |∑ i, X i j * y i| / n ≤ a} (10 * α)

/-- The same for several tasks: `max_j ‖⟨X_j, Y⟩‖ / n`. -/
def TenthOfMaxMT {n p T : ℕ} (X : Fin n → Fin p → ℝ) (Y : Fin n → Fin T → ℝ) (α : ℝ) : Prop :=
  IsLeast {a : ℝ | 0 ≤ a ∧ ∀ j, Real.sqrt (∑ t, (∑ i, X i j * Y i t) ^ 2) / n ≤ a} (10 * α)

end Sglm.Spec
