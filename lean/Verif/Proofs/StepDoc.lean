import Verif.Proofs.CustomLib
import Verif.Proofs.CustomHuber
import Verif.Proofs.SingleRun

/-!
# Step sizes as documented

A datafit whose `step_size` returns what the documentation of the trait says, and a run with it.
-/

namespace Sglm
open Scalar Spec
variable {n p : ℕ}

/-- A datafit changed in one method: `step_size` returns the inverses of the numbers returned by the original (a user's code, not
part of `/repo`). -/
structure Documented (DF : Type) where
  inner : DF

instance {F DM DF : Type} [Scalar F] [Datafit F DM DF] : Datafit F DM (Documented DF) where
  init d ds := Documented.mk <$> Datafit.init d.inner ds
  value d ds Xw := Datafit.value d.inner ds Xw
  gradientJ d ds Xw j := Datafit.gradientJ d.inner ds Xw j
  fullGrad d ds Xw := Datafit.fullGrad d.inner ds Xw
  stepSize d := (Datafit.stepSize (DM := DM) d.inner).map fun l => one /. l

theorem documented_ok {DM DF : Type} [DesignMatrix XR DM] [Datafit XR DM DF] {ds : Dataset DM XR} {df : DF} {f : (Fin n → ℝ) → ℝ}
    {X : Fin n → Fin p → ℝ} {L : Fin p → ℝ} (h : DatafitOK ds df f X L) (hL : ∀ j, L j ≠ 0) :
    DatafitOK ds (Documented.mk df) f X fun j => 1 / L j := by
  obtain ⟨h1, d, h2, h3, h4, h5, h6⟩ := h
  refine ⟨h1, ⟨d⟩, ?_, h3, h4, h5, ?_⟩
  · show Documented.mk <$> Datafit.init df ds = _
    rw [h2]
    rfl
  · show (Datafit.stepSize (DM := DM) d).map _ = _
    rw [h6]
    unfold vec
    rw [List.map_ofFn]
    congr 1
    funext j
    show one /. XR.fin (L j) = _
    rw [XR.s_one, XR.s_div _ _ (hL j)]

theorem l1_penaltyOK {α : ℝ} (hα : 0 ≤ α) (L : Fin p → ℝ) : PenaltyOK (L1.mk (XR.fin α)) (fun z => α * |z|) L := by
  have h : PSem (L1.mk (XR.fin α)) (fun z : ℝ => α * |z|) (fun v s => softR v (α * s)) (l1Score α) XR.ninf := l1_sem α
  refine penaltyOK_of h (Or.inl rfl) (fun x g => ?_) fun j _ hs v => ?_
  · have h1 := scoreOf_dist (.l1 α) hα trivial x g
    have h2 : (Pen.l1 α).fn = pen2 (E := ℝ) α 0 := by
      funext z; show α * |z| = α * ‖z‖ + 0 * ‖z‖ ^ 2 / 2; rw [Real.norm_eq_abs]; ring
    rw [h2, ← pen2_frechet hα le_rfl, ← h2] at h1
    exact h1
  · exact proxOf_isProx (.l1 α) hα v hs (fun _ _ h => by cases h)

/-- One sample, one feature: `X = 2`, `y = 1`. -/
def docX : Fin 1 → Fin 1 → ℝ := fun _ _ => 2
def docY : Fin 1 → ℝ := fun _ => 1

theorem doc_step (j : Fin 1) : quadStep docX j = 4 := by
  unfold quadStep docX
  norm_num

theorem doc_datafit : DatafitOK (⟨mat docX, Targets.one (vec docY)⟩ : Dataset (Mat XR) XR) (Quadratic.new : Quadratic XR)
    (quadLoss docY) docX (quadStep docX) :=
  datafitOK_of (quad_dense docX docY one_pos) (library_fderiv docX docY .quadratic) _

theorem doc_lossOK : LossOK (quadLoss docY) docX (quadStep docX) := by
  have h := library_lossOK (.dense docX) docY .quadratic trivial
  have e : lipschitz (.dense docX) .quadratic = quadStep docX := by
    funext j
    rw [← stepsOf_lipschitz (.dense docX) trivial]
    rfl
  rw [e] at h
  exact h

theorem doc_diverges {srt : Argsort XR} (hs : ArgsortSpec srt) (cfg : Solver XR) {τ : ℝ} (ht : cfg.tolerance = XR.fin τ) (hτ : τ < 7 / 4)
    (hacc : cfg.useAcceleration = false) (hw : 0 < cfg.wsStartSize) (he : 0 < cfg.maxEpochs) (hi : 0 < cfg.maxIterations) :
    ∃ v : Fin 1 → ℝ, cfg.solve srt (⟨mat docX, Targets.one (vec docY)⟩ : Dataset (Mat XR) XR)
      (Documented.mk (Quadratic.new : Quadratic XR)) (L1.mk (XR.fin (1 / 4))) = .ok (vec v) ∧ 7 ≤ |v 0| := by
  have hd := documented_ok doc_datafit fun j => by rw [doc_step]; norm_num
  have hp := l1_penaltyOK (α := 1 / 4) (by norm_num) fun j => 1 / quadStep docX j
  obtain ⟨R, -, hG, hL, hsc, -, hpx, -, hrun⟩ := custom_problem (dense_storageOK docX)
    (fun j => by rw [doc_step]; norm_num) hd hp
  have hL0 : ∀ j, R.L j = 1 / 4 := fun j => by rw [hL]; show 1 / quadStep docX j = _; rw [doc_step]
  have hg : ∀ w j, R.G w j = 4 * w 0 - 2 := fun w j => by
    rw [hG]
    refine (library_fderiv docX docY .quadratic _ j).trans ?_
    show quadGrad docX docY _ j = _
    unfold quadGrad fit docX docY
    norm_num
    ring
  have hx : ∀ v, R.px v 4 = softR v (1 / 4 * 4) := fun v => by
    have h1 := hpx v 4 (by norm_num)
    have h2 := (l1_sem (1 / 4)).prox v 4 (by norm_num)
    rw [h1] at h2
    injection h2 with h2
    exact XR.fin.inj h2
  have hstep : ∀ w, R.step w 0 0 = softR (8 - 15 * w 0) 1 := fun w => by
    unfold RProb.step
    rw [if_neg (by rw [hL0]; norm_num), Function.update_self, hL0, hg, show (1 : ℝ) / (1 / 4) = 4 by norm_num, hx]
    congr 1
    · rw [smul_eq_mul]; ring
    · norm_num
  suffices H : ∃ q, R.run srt cfg = .ok q ∧ 7 ≤ |q.1 0| by
    obtain ⟨q, h1, h2⟩ := H
    refine ⟨q.1, ?_, h2⟩
    rw [custom_solve (hrun hs cfg), h1]
    rfl
  refine RProb.run_solo (R := R) hs cfg he hw hi 0 (fun j hj => absurd (Subsingleton.elim j 0) hj)
    (fun j hj => absurd (Subsingleton.elim j 0) hj) (fun w => 7 ≤ |w 0|) ?_ ?_ (fun _ _ => True) (fun _ => trivial) ?_ ?_
  · rw [hstep]
    unfold softR
    norm_num
  · intro w h
    rw [hstep]
    unfold softR
    rcases le_abs.mp h with h | h
    · rw [if_neg (by linarith), if_pos (by linarith)]
      exact le_abs.mpr (Or.inr (by linarith))
    · rw [if_pos (by linarith)]
      exact le_abs.mpr (Or.inl (by linarith))
  · intro l e b w _ _ hI _
    unfold RProb.accel
    rw [hacc]
    exact ⟨trivial, hI⟩
  · rw [← Bool.not_eq_true, ht]
    intro h
    have h1 := R.viol_le h 0
    rw [hsc, hg] at h1
    have h2 := scoreOf_dist (.l1 (1 / 4)) (by norm_num : (0 : ℝ) ≤ 1 / 4) trivial 0 (-2)
    have h3 : (Pen.l1 (1 / 4)).fn = pen2 (E := ℝ) (1 / 4) 0 := by
      funext z; show 1 / 4 * |z| = 1 / 4 * ‖z‖ + 0 * ‖z‖ ^ 2 / 2; rw [Real.norm_eq_abs]; ring
    rw [h3, ← pen2_frechet (by norm_num) le_rfl, ← h3] at h2
    have h4 := h2.2
    have e : scoreOf (.l1 (1 / 4)) 0 (-2) = 7 / 4 := by
      show l1Score (1 / 4) 0 (-2) = _
      unfold l1Score
      norm_num
    rw [e] at h4
    have h5 : Metric.infDist (-(4 * (0:ℝ) - 2)) (frechetSubdiff (fun z : ℝ => 1 / 4 * |z|) 0) ≤ τ := h1
    rw [show -(4 * (0:ℝ) - 2) = -(-2) by norm_num] at h5
    have h6 : (7 / 4 : ℝ) = Metric.infDist (-(-2)) (frechetSubdiff (fun z : ℝ => 1 / 4 * |z|) 0) := h4
    linarith

end Sglm
