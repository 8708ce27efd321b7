import Verif.Proofs.Problem
import Verif.Spec.Fits

/-!
# Estimators as guarded calls of the solver
-/

namespace Sglm
open Scalar Spec
variable {n p T : ℕ}

/-- A guarded call. -/
noncomputable def guarded {A Ps : Type} (c : Except (EstimatorError XR) Ps) (m : M A) :
    M (Except (EstimatorError XR) A) :=
  match c with
  | .error e => .ok (.error e)
  | .ok _ => Except.ok <$> m

theorem guarded_error {A Ps : Type} (e : EstimatorError XR) (m : M A) :
    guarded (.error e : Except (EstimatorError XR) Ps) m = .ok (.error e) := rfl

theorem guarded_ok {A Ps : Type} (q : Ps) (m : M A) :
    guarded (.ok q : Except (EstimatorError XR) Ps) m = Except.ok <$> m := rfl

theorem guarded_congr {A Ps : Type} {c : Except (EstimatorError XR) Ps} {m m' : M A}
    (h : ∀ q, c = .ok q → m = m') : guarded c m = guarded c m' := by
  cases c with
  | error e => rfl
  | ok q => rw [h q rfl]

theorem guarded_map {A B Ps : Type} (c : Except (EstimatorError XR) Ps) (m : M A) (f : A → B) :
    guarded c (f <$> m) = mapFit f (guarded c m) := by
  cases c with
  | error e => rfl
  | ok q => cases m <;> rfl

theorem checkTail_ok {A : Type} {τ : XR} {K ws : ℕ} {a b : A} (h : checkTail τ K ws a = .ok b) : b = a := by
  unfold checkTail at h
  split at h
  · cases h
  · split at h
    · cases h
    · split at h
      · cases h
      · injection h with h; exact h.symm

theorem LassoParams.checkRef_ok {ps q : LassoParams XR} (h : ps.checkRef = .ok q) :
    q = ps ∧ signBit ps.alpha = false := by
  unfold LassoParams.checkRef at h
  split at h
  · cases h
  · rename_i h0; exact ⟨checkTail_ok h, by simpa using h0⟩

theorem ElasticNetParams.checkRef_ok {ps q : ElasticNetParams XR} (h : ps.checkRef = .ok q) :
    q = ps ∧ signBit ps.alpha = false ∧ (one <. ps.l1Ratio) = false ∧ (ps.l1Ratio <. zero) = false := by
  unfold ElasticNetParams.checkRef at h
  split at h
  · cases h
  · rename_i h0
    split at h
    · cases h
    · rename_i h1
      simp only [Bool.or_eq_true, not_or, Bool.not_eq_true] at h1
      exact ⟨checkTail_ok h, by simpa using h0, h1⟩

theorem MCParams.checkRef_ok {ps q : MCParams XR} (h : ps.checkRef = .ok q) :
    q = ps ∧ signBit ps.alpha = false ∧ (ps.gamma <. one) = false := by
  unfold MCParams.checkRef at h
  split at h
  · cases h
  · rename_i h0
    split at h
    · cases h
    · rename_i h1
      exact ⟨checkTail_ok h, by simpa using h0, by simpa using h1⟩

theorem MCParams.checkRefBlock_ok {ps q : MCParams XR} (h : ps.checkRefBlock = .ok q) :
    q = ps ∧ signBit ps.alpha = false := by
  unfold MCParams.checkRefBlock at h
  split at h
  · cases h
  · rename_i h0; exact ⟨checkTail_ok h, by simpa using h0⟩

theorem guardedFit_eq {A Ps : Type} {check : Ps → Except (EstimatorError XR) Ps}
    {fv : Ps → M (Except (EstimatorError XR) A)} {ps : Ps} {m : M A} (hq : ∀ q, check ps = .ok q → q = ps)
    (h : fv ps = Except.ok <$> m) : guardedFit check fv ps = guarded (check ps) m := by
  unfold guardedFit guarded
  split
  · rename_i e he; rw [he]; rfl
  · rename_i q hc; rw [hc, hq q hc]; exact h

theorem fitLasso_eq (srt : Argsort XR) (ps : LassoParams XR) (α : ℝ) (ha : ps.alpha = XR.fin α) (D : Design n p)
    (y : Fin n → ℝ) :
    fitLasso srt ps D y = guarded ps.checkRef (solve1 srt ps.solver D y .quadratic (.l1 α)) := by
  cases D <;>
  · refine guardedFit_eq (fun q h => (LassoParams.checkRef_ok h).1) ?_
    unfold Lasso.fitValid
    rw [fitCD_eq, ha]
    rfl

theorem fitElasticNet_eq (srt : Argsort XR) (ps : ElasticNetParams XR) (α ρ : ℝ) (ha : ps.alpha = XR.fin α)
    (hr : ps.l1Ratio = XR.fin ρ) (D : Design n p) (y : Fin n → ℝ) :
    fitElasticNet srt ps D y = guarded ps.checkRef (solve1 srt ps.solver D y .quadratic (.enet α ρ)) := by
  cases D <;>
  · refine guardedFit_eq (fun q h => (ElasticNetParams.checkRef_ok h).1) ?_
    unfold ElasticNet.fitValid
    rw [fitCD_eq, ha, hr]
    rfl

theorem fitMCP_eq (srt : Argsort XR) (ps : MCParams XR) (α γ : ℝ) (ha : ps.alpha = XR.fin α)
    (hr : ps.gamma = XR.fin γ) (D : Design n p) (y : Fin n → ℝ) :
    fitMCP srt ps D y = guarded ps.checkRef (solve1 srt ps.solver D y .quadratic (.mcp α γ)) := by
  cases D <;>
  · refine guardedFit_eq (fun q h => (MCParams.checkRef_ok h).1) ?_
    unfold MCPEstimator.fitValid
    rw [fitCD_eq, ha, hr]
    rfl

theorem fitMTLasso_eq (srt : Argsort XR) (ps : LassoParams XR) (α : ℝ) (ha : ps.alpha = XR.fin α) (D : Design n p)
    (Y : Fin n → Fin T → ℝ) :
    fitMTLasso srt ps D Y = guarded ps.checkRef (solveMT srt ps.solver D Y (.l21 α)) := by
  cases D <;>
  · refine guardedFit_eq (fun q h => (LassoParams.checkRef_ok h).1) ?_
    unfold MultiTaskLasso.fitValid
    rw [fitBCD_eq, ha]
    rfl

theorem fitMTElasticNet_eq (srt : Argsort XR) (ps : ElasticNetParams XR) (α ρ : ℝ) (ha : ps.alpha = XR.fin α)
    (hr : ps.l1Ratio = XR.fin ρ) (D : Design n p) (Y : Fin n → Fin T → ℝ) :
    fitMTElasticNet srt ps D Y = guarded ps.checkRef (solveMT srt ps.solver D Y (.enet α ρ)) := by
  cases D <;>
  · refine guardedFit_eq (fun q h => (ElasticNetParams.checkRef_ok h).1) ?_
    unfold MultiTaskElasticNet.fitValid
    rw [fitBCD_eq, ha, hr]
    rfl

theorem fitBlockMCP_eq (srt : Argsort XR) (ps : MCParams XR) (α γ : ℝ) (ha : ps.alpha = XR.fin α)
    (hr : ps.gamma = XR.fin γ) (D : Design n p) (Y : Fin n → Fin T → ℝ) :
    fitBlockMCP srt ps D Y = guarded ps.checkRefBlock (solveMT srt ps.solver D Y (.mcp α γ)) := by
  cases D <;>
  · refine guardedFit_eq (fun q h => (MCParams.checkRefBlock_ok h).1) ?_
    unfold BlockMCPEstimator.fitValid
    rw [fitBCD_eq, ha, hr]
    rfl

/-! The hyperparameters accepted are meaningful. -/

theorem lasso_valid {ps q : LassoParams XR} {α : ℝ} (ha : ps.alpha = XR.fin α) (h : ps.checkRef = .ok q) :
    Pen.Valid (.l1 α) := by
  have := (LassoParams.checkRef_ok h).2
  rw [ha, XR.s_signBit, decide_eq_false_iff_not, not_lt] at this
  exact this

theorem enet_valid {ps q : ElasticNetParams XR} {α ρ : ℝ} (ha : ps.alpha = XR.fin α) (hr : ps.l1Ratio = XR.fin ρ)
    (h : ps.checkRef = .ok q) : Pen.Valid (.enet α ρ) := by
  obtain ⟨-, h1, h2, h3⟩ := ElasticNetParams.checkRef_ok h
  rw [ha, XR.s_signBit, decide_eq_false_iff_not, not_lt] at h1
  rw [hr, XR.s_one, XR.s_lt, decide_eq_false_iff_not, not_lt] at h2
  rw [hr, XR.s_zero, XR.s_lt, decide_eq_false_iff_not, not_lt] at h3
  exact ⟨h1, h3, h2⟩

theorem mcp_valid {ps q : MCParams XR} {α γ : ℝ} (ha : ps.alpha = XR.fin α) (hr : ps.gamma = XR.fin γ)
    (h : ps.checkRef = .ok q) : Pen.Valid (.mcp α γ) := by
  obtain ⟨-, h1, h2⟩ := MCParams.checkRef_ok h
  rw [ha, XR.s_signBit, decide_eq_false_iff_not, not_lt] at h1
  rw [hr, XR.s_one, XR.s_lt, decide_eq_false_iff_not, not_lt] at h2
  exact ⟨h1, lt_of_lt_of_le one_pos h2⟩

end Sglm
