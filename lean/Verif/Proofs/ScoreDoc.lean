import Verif.Proofs.StepDoc

/-!
# Scores as documented

A penalty whose `subdiff_distance` returns what the documentation of the trait says, and a run with it.
-/

namespace Sglm
open Scalar Spec
variable {n p : ℕ}

/-- A penalty changed in one method: `subdiff_distance` returns the distances of the gradients, not of the negative gradients, to the
subdifferentials (a user's code, not part of `/repo`). -/
structure DocScores (P : Type) where
  inner : P

instance {F P : Type} [Scalar F] [Penalty F P] : Penalty F (DocScores P) where
  value pen w := Penalty.value pen.inner w
  prox pen v s := Penalty.prox pen.inner v s
  subdiffDistance pen w g ws := Penalty.subdiffDistance pen.inner w (g.map Scalar.neg) ws

theorem docScores_ok {P : Type} [Penalty XR P] {pen : P} {φ : ℝ → ℝ} {L : Fin p → ℝ} (h : PenaltyOK pen φ L) :
    PenaltyScored (DocScores.mk pen) φ (fun x g => Metric.infDist g (frechetSubdiff φ x)) L where
  value := h.value
  prox := h.prox
  scores := by
    obtain ⟨m0, h0, h1⟩ := h.scores
    refine ⟨m0, h0, fun {q} w g ws => ?_⟩
    obtain ⟨m, h2, h3, h4⟩ := h1 w (fun j => -g j) ws
    simp only [neg_neg] at h2 h4
    refine ⟨m, ?_, h3, h4⟩
    show Penalty.subdiffDistance pen (vec w) ((ws.map fun j => XR.fin (g j)).map Scalar.neg) (ws.map Fin.val) = _
    rw [List.map_map]
    exact h2

section Call
variable {DM DF P : Type} [DesignMatrix XR DM] [Datafit XR DM DF] [Penalty XR P]
  {ds : Dataset DM XR} {df : DF} {pen : P} {f : (Fin n → ℝ) → ℝ} {X : Fin n → Fin p → ℝ} {L : Fin p → ℝ} {φ : ℝ → ℝ} {sc : ℝ → ℝ → ℝ}

theorem scored_run (hX : StorageOK ds.designMatrix X) (hf : LossOK f X L) (hd : DatafitOK ds df f X L)
    (hp : PenaltyScored pen φ sc L) : ∃ R : RProb ℝ p,
      (∀ w, R.F w = customObjective f X φ w) ∧ (∀ w j, R.G w j = fderiv ℝ f (fit X w) (column X j)) ∧
      R.sc = sc ∧ (R.m0 = XR.ninf ∨ R.m0 = XR.fin 0) ∧ R.MM (fun w => f (fit X w)) φ ∧
      ∀ {srt : Argsort XR}, ArgsortSpec srt → ∀ cfg : Solver XR,
        runCD srt ds df pen cfg = (fun q => (⟨vec q.1, vec (fit X q.1)⟩, q.2)) <$> R.run srt cfg := by
  obtain ⟨R, hF, hG, hL, hsc, hm0, -, hpx, hrun⟩ := custom_scored hX hf.steps hd hp
  refine ⟨R, hF, hG, hsc, hm0, ⟨hF, by rw [hL]; exact hf.steps, fun w j v => ?_, by rw [hL]; exact hpx⟩, hrun⟩
  rw [hG, hL, fit_update_column, Real.norm_eq_abs, sq_abs]
  exact line_major hf (fit X w) j (v - w j)

theorem scored_exit {R : RProb ℝ p} {srt : Argsort XR} {cfg : Solver XR}
    (hrun : ∀ cfg : Solver XR, runCD srt ds df pen cfg = (fun q => (⟨vec q.1, vec (fit X q.1)⟩, q.2)) <$> R.run srt cfg)
    {τ : ℝ} (ht : cfg.tolerance = XR.fin τ) {v : Fin p → ℝ} (hv : CustomStops srt cfg ds df pen v) (j : Fin p) :
    R.sc (v j) (R.G v j) ≤ τ := by
  obtain ⟨h1, st, df', log, h2, h3⟩ := hv
  obtain ⟨k, hk⟩ := custom_of_solve (hrun cfg) h1
  obtain ⟨st', df'', log', h4, h5⟩ := custom_trace hrun hk
  rw [h2] at h4
  injection h4 with h4
  injection h4 with _ h4
  injection h4 with _ h4
  rw [← h4] at h5
  have h6 := R.run_exit cfg hk (by omega)
  rw [ht] at h6
  exact R.viol_le h6 j
end Call

/-- Subdifferentials of even functions at `0` are symmetric. -/
theorem frechet_even {φ : ℝ → ℝ} (he : ∀ z, φ (-z) = φ z) {g : ℝ} (h : g ∈ frechetSubdiff φ 0) : -g ∈ frechetSubdiff φ 0 := by
  intro ε hε
  obtain ⟨δ, hδ, h1⟩ := h ε hε
  refine ⟨δ, hδ, fun z hz => ?_⟩
  have h2 := h1 (-z) (by simpa using hz)
  rw [he] at h2
  simp only [sub_zero, norm_neg, inner_neg_right, inner_neg_left] at h2 ⊢
  exact h2

theorem infDist_even {φ : ℝ → ℝ} (he : ∀ z, φ (-z) = φ z) (hne : (frechetSubdiff φ 0).Nonempty) (g : ℝ) :
    Metric.infDist (-g) (frechetSubdiff φ 0) = Metric.infDist g (frechetSubdiff φ 0) := by
  have key : ∀ g, Metric.infDist (-g) (frechetSubdiff φ 0) ≤ Metric.infDist g (frechetSubdiff φ 0) := fun g => by
    refine (Metric.le_infDist hne).mpr fun s hs => ?_
    refine (Metric.infDist_le_dist_of_mem (frechet_even he hs)).trans (le_of_eq ?_)
    rw [Real.dist_eq, Real.dist_eq, ← abs_neg]
    congr 1; ring
  refine le_antisymm (key g) ?_
  have := key (-g)
  rwa [neg_neg] at this

theorem doc_grad (w : Fin 1 → ℝ) (j : Fin 1) : fderiv ℝ (quadLoss docY) (fit docX w) (column docX j) = 4 * w 0 - 2 := by
  refine (library_fderiv docX docY .quadratic _ j).trans ?_
  show quadGrad docX docY _ j = _
  unfold quadGrad fit docX docY
  norm_num
  ring

theorem asym_frechet_zero {a b : ℝ} (ha : 0 ≤ a) (hb : 0 ≤ b) : frechetSubdiff (asym a b) 0 = Set.Icc (-b) a := by
  rw [frechet_convex (asym_weak ha hb), subdiff_asym_zero ha hb]

/-- With slopes 1 and 2, the documented score at zero is 0, but the distance is 1. -/
theorem docScore_zero : Metric.infDist (-2 : ℝ) (frechetSubdiff (asym 1 2) 0) = 0 ∧
    Metric.infDist (-(-2) : ℝ) (frechetSubdiff (asym 1 2) 0) = 1 := by
  rw [asym_frechet_zero zero_le_one zero_le_two]
  refine ⟨Metric.infDist_zero_of_mem ⟨le_rfl, by norm_num⟩, le_antisymm ?_ ?_⟩
  · refine (Metric.infDist_le_dist_of_mem (show (1 : ℝ) ∈ Set.Icc (-2 : ℝ) 1 from ⟨by norm_num, le_rfl⟩)).trans (le_of_eq ?_)
    rw [Real.dist_eq]; norm_num
  · refine (Metric.le_infDist (⟨1, by norm_num, le_rfl⟩ : (Set.Icc (-2 : ℝ) 1).Nonempty)).mpr fun s hs => ?_
    rw [Real.dist_eq]
    exact le_trans (by linarith [hs.2]) (le_abs_self _)

/-- Absolute values. -/
theorem frechet_abs {α : ℝ} (hα : 0 ≤ α) {x : ℝ} (hx : x ≠ 0) : frechetSubdiff (fun z : ℝ => α * |z|) x = {α * (x / |x|)} := by
  have h2 : (fun z : ℝ => α * |z|) = pen2 (E := ℝ) α 0 := by
    funext z; show α * |z| = α * ‖z‖ + 0 * ‖z‖ ^ 2 / 2; rw [Real.norm_eq_abs]; ring
  rw [h2, pen2_frechet hα le_rfl]
  refine (subdiff_enet_ne hα le_rfl hx).trans ?_
  rw [Real.norm_eq_abs, smul_eq_mul]
  congr 1; ring

end Sglm
