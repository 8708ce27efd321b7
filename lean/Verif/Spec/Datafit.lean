import Verif.Spec.Loss

/-!
# Specification: what a datafit has to compute

Stated through the public methods of the datafit traits, on a dataset with real entries.
-/

namespace Sglm.Spec

/-- After `initialize`, whatever the state of the object before, `value` computes the loss of the model
fit, `gradient_j` its partial derivatives with respect to the weights and `full_grad` collects them. -/
def ComputesLoss {DM DF : Type} [Datafit XR DM DF] (ds : Dataset DM XR) {n p : ℕ}
    (X : Fin n → Fin p → ℝ) (loss : (Fin n → ℝ) → ℝ) : Prop :=
  ∀ df0 : DF, ∃ df, Datafit.init df0 ds = .ok df ∧
    (∀ u : Fin n → ℝ, Datafit.value df ds (vec u) = .ok (XR.fin (loss u))) ∧
    ∀ w : Fin p → ℝ, ∃ g : Fin p → ℝ, Datafit.fullGrad df ds (vec (fit X w)) = .ok (vec g) ∧
      ∀ j : Fin p, Datafit.gradientJ df ds (vec (fit X w)) j = .ok (XR.fin (g j)) ∧
        IsPartial (fun w => loss (fit X w)) w j (g j)

/-- Multi-task version of `ComputesLoss`. -/
def ComputesLossMT {DM DF : Type} [MTDatafit XR DM DF] (ds : Dataset DM XR) {n p T : ℕ}
    (X : Fin n → Fin p → ℝ) (loss : (Fin n → Fin T → ℝ) → ℝ) : Prop :=
  ∀ df0 : DF, ∃ df, MTDatafit.init df0 ds = .ok df ∧
    (∀ U : Fin n → Fin T → ℝ, MTDatafit.value df ds (mat U) = .ok (XR.fin (loss U))) ∧
    ∀ W : Fin p → Fin T → ℝ, ∃ g : Fin p → Fin T → ℝ,
      MTDatafit.fullGrad df ds (mat (fitMT X W)) = .ok (mat g) ∧
      ∀ j : Fin p, MTDatafit.gradientJ df ds (mat (fitMT X W)) j = .ok (vec (g j)) ∧
        ∀ t, IsPartialMT (fun W => loss (fitMT X W)) W j t (g j t)

/-- The step constants are non-negative numbers `L_j` such that moving `w_j` changes the `j`-th
derivative by at most `L_j |t - w_j|`, and the loss lies below the corresponding parabola.  When `exact`
is set the change is exactly `L_j |t - w_j|`. -/
def StepsValid {DM DF : Type} [Datafit XR DM DF] (ds : Dataset DM XR) {n p : ℕ}
    (X : Fin n → Fin p → ℝ) (loss : (Fin n → ℝ) → ℝ) (exact : Prop) : Prop :=
  ∀ df0 : DF, ∃ df, Datafit.init df0 ds = .ok df ∧ ∃ L : Fin p → ℝ,
    Datafit.stepSize (DM := DM) df = vec L ∧ (∀ j, 0 ≤ L j) ∧
    ∀ (w : Fin p → ℝ) (j : Fin p) (t : ℝ), ∃ g g' : ℝ,
      Datafit.gradientJ df ds (vec (fit X w)) j = .ok (XR.fin g) ∧
      Datafit.gradientJ df ds (vec (fit X (Function.update w j t))) j = .ok (XR.fin g') ∧
      |g' - g| ≤ L j * |t - w j| ∧ (exact → |g' - g| = L j * |t - w j|) ∧
      loss (fit X (Function.update w j t)) ≤
        loss (fit X w) + g * (t - w j) + L j * (t - w j) ^ 2 / 2

/-- Multi-task version of `StepsValid`: the row gradient changes by exactly `L_j ‖v - W_j‖` and the loss
equals the corresponding parabola. -/
def StepsExactMT {DM DF : Type} [MTDatafit XR DM DF] (ds : Dataset DM XR) {n p T : ℕ}
    (X : Fin n → Fin p → ℝ) (loss : (Fin n → Fin T → ℝ) → ℝ) : Prop :=
  ∀ df0 : DF, ∃ df, MTDatafit.init df0 ds = .ok df ∧ ∃ L : Fin p → ℝ,
    MTDatafit.stepSize (DM := DM) df = vec L ∧ (∀ j, 0 ≤ L j) ∧
    ∀ (W : Fin p → Fin T → ℝ) (j : Fin p) (v : Fin T → ℝ), ∃ g g' : Fin T → ℝ,
      MTDatafit.gradientJ df ds (mat (fitMT X W)) j = .ok (vec g) ∧
      MTDatafit.gradientJ df ds (mat (fitMT X (Function.update W j v))) j = .ok (vec g') ∧
      nrm (fun t => g' t - g t) = L j * nrm (fun t => v t - W j t) ∧
      loss (fitMT X (Function.update W j v)) =
        loss (fitMT X W) + ∑ t, g t * (v t - W j t) + L j * nrm (fun t => v t - W j t) ^ 2 / 2

/-- All methods of the datafit agree on two datasets (with designs of possibly different types). -/
def DatafitsAgree {DM DM' DF : Type} [Datafit XR DM DF] [Datafit XR DM' DF] (ds : Dataset DM XR)
    (ds' : Dataset DM' XR) (n p : ℕ) : Prop :=
  ∀ df0 df0' : DF, ∃ df, Datafit.init df0 ds = .ok df ∧ Datafit.init df0' ds' = .ok df ∧
    Datafit.stepSize (DM := DM) df = Datafit.stepSize (DM := DM') df ∧
    ∀ u : Fin n → ℝ, Datafit.value df ds (vec u) = Datafit.value df ds' (vec u) ∧
      Datafit.fullGrad df ds (vec u) = Datafit.fullGrad df ds' (vec u) ∧
      ∀ j : Fin p, Datafit.gradientJ df ds (vec u) j = Datafit.gradientJ df ds' (vec u) j

/-- Multi-task version of `DatafitsAgree`. -/
def DatafitsAgreeMT {DM DM' DF : Type} [MTDatafit XR DM DF] [MTDatafit XR DM' DF] (ds : Dataset DM XR)
    (ds' : Dataset DM' XR) (n p T : ℕ) : Prop :=
  ∀ df0 df0' : DF, ∃ df, MTDatafit.init df0 ds = .ok df ∧ MTDatafit.init df0' ds' = .ok df ∧
    MTDatafit.stepSize (DM := DM) df = MTDatafit.stepSize (DM := DM') df ∧
    ∀ U : Fin n → Fin T → ℝ, MTDatafit.value df ds (mat U) = MTDatafit.value df ds' (mat U) ∧
      MTDatafit.fullGrad df ds (mat U) = MTDatafit.fullGrad df ds' (mat U) ∧
      ∀ j : Fin p, MTDatafit.gradientJ df ds (mat U) j = MTDatafit.gradientJ df ds' (mat U) j

end Sglm.Spec
