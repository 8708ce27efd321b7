import Verif.Proofs.MissingSparse
import Verif.Proofs.MissingRow
import Verif.Props.StoredRows

/-!
# C111 for sparse designs: features with missing values
-/

namespace Sglm
open Scalar Spec
variable {X X' : CSC XR} {j n p : ℕ} {y : List XR}

/-- A missing value among the stored entries of a feature: with the L1 penalty the fit is the one of the array in which the values of the feature are
replaced by zeros, and its coefficient is 0. -/
theorem C111_sparse_lasso_partial (h : MissingStored X j) (hb : BlankedColumn X X' j) (hX : ShapedCSC X n p) (hj : j < p) (hy : y.length = n)
    {α : ℝ} (hα : 0 ≤ α) (srt : Argsort XR) (cfg : Solver XR) (hu : cfg.useAcceleration = false) :
    cfg.solve srt (⟨X, Targets.one y⟩ : Dataset (CSC XR) XR) (Quadratic.new : Quadratic XR) (L1.mk (XR.fin α)) =
      cfg.solve srt (⟨X', Targets.one y⟩ : Dataset (CSC XR) XR) (Quadratic.new : Quadratic XR) (L1.mk (XR.fin α)) ∧
    ∀ w, cfg.solve srt (⟨X, Targets.one y⟩ : Dataset (CSC XR) XR) (Quadratic.new : Quadratic XR) (L1.mk (XR.fin α)) = .ok w →
      w[j]? = some (XR.fin 0) := by
  obtain ⟨df, df', h1, h2, h3⟩ := quad_csc_sameBut h hb hX hj hy hα
  exact h3.solve (df0 := (Quadratic.new : Quadratic XR)) (df0' := (Quadratic.new : Quadratic XR)) hj (ShapedCSC.nFeatures hX)
    (ShapedCSC.nFeatures (blank_shaped hb hX)) h1 h2 ((nSamples_one y).trans hy) ((nSamples_one y).trans hy) srt cfg hu

/-- The same for sparse logistic regression. -/
theorem C111_sparse_logistic_partial (h : MissingStored X j) (hb : BlankedColumn X X' j) (hX : ShapedCSC X n p) (hj : j < p) (hy : y.length = n)
    {α : ℝ} (hα : 0 ≤ α) (srt : Argsort XR) (cfg : Solver XR) (hu : cfg.useAcceleration = false) :
    cfg.solve srt (⟨X, Targets.one y⟩ : Dataset (CSC XR) XR) (Logistic.new : Logistic XR) (L1.mk (XR.fin α)) =
      cfg.solve srt (⟨X', Targets.one y⟩ : Dataset (CSC XR) XR) (Logistic.new : Logistic XR) (L1.mk (XR.fin α)) ∧
    ∀ w, cfg.solve srt (⟨X, Targets.one y⟩ : Dataset (CSC XR) XR) (Logistic.new : Logistic XR) (L1.mk (XR.fin α)) = .ok w →
      w[j]? = some (XR.fin 0) := by
  obtain ⟨df, df', h1, h2, h3⟩ := log_csc_sameBut h hb hX hj hy hα
  exact h3.solve (df0 := (Logistic.new : Logistic XR)) (df0' := (Logistic.new : Logistic XR)) hj (ShapedCSC.nFeatures hX)
    (ShapedCSC.nFeatures (blank_shaped hb hX)) h1 h2 ((nSamples_one y).trans hy) ((nSamples_one y).trans hy) srt cfg hu

/-- The Lasso estimator, with its checks. -/
theorem C111_sparse_estimator_partial (h : MissingStored X j) (hb : BlankedColumn X X' j) (hX : ShapedCSC X n p) (hj : j < p) (hy : y.length = n)
    (srt : Argsort XR) (ps : LassoParams XR) {α : ℝ} (ha : ps.alpha = XR.fin α) (hu : ps.useAcceleration = false) :
    Lasso.fit srt ps (⟨X, Targets.one y⟩ : Dataset (CSC XR) XR) = Lasso.fit srt ps (⟨X', Targets.one y⟩ : Dataset (CSC XR) XR) := by
  unfold Lasso.fit guardedFit
  cases hc : ps.checkRef with
  | error e => rfl
  | ok q =>
    obtain ⟨rfl, h2⟩ := LassoParams.checkRef_ok hc
    have hα : 0 ≤ α := by
      rw [ha] at h2
      exact not_lt.mp (of_decide_eq_false h2)
    dsimp only
    unfold Lasso.fitValid
    rw [fitCD_eq, fitCD_eq, ha, (C111_sparse_lasso_partial h hb hX hj hy hα srt q.solver hu).1]

/-! ## C112: missing targets of samples with stored entries -/

/-- A sparse design, a missing target: the Lasso coefficients of all features with an entry in that sample are 0. -/
theorem C112_unseen_lasso (h : UnseenTarget X y j) (hX : ShapedCSC X n p) (hj : j < p) (hy : y.length = n) (a : XR) (srt : Argsort XR)
    (cfg : Solver XR) (hu : cfg.useAcceleration = false) {w : List XR}
    (hw : cfg.solve srt (⟨X, Targets.one y⟩ : Dataset (CSC XR) XR) (Quadratic.new : Quadratic XR) (L1.mk a) = .ok w) :
    w[j]? = some (XR.fin 0) := by
  have hT : ShapedTargets (Targets.one y) n 1 := by rw [← hy]; exact shaped_one
  obtain ⟨df, hi, hs⟩ := Tri.exists_ok (quad_csc_safe hX hT (Quadratic.new : Quadratic XR))
  obtain ⟨b, h1, h2, h3⟩ := quad_init_at (ShapedCSC.nFeatures hX) hi hj
  rw [Tri.elim_ok (colSums_unseen h) h1] at h3
  refine nan_grad_zero hj (ShapedCSC.nFeatures hX) hi ((nSamples_one y).trans hy) hs (fun k Xw d r hr => csc_upd_length hr) (fun Xw hl => ?_) srt cfg
    hu hw
  obtain ⟨g, hg, e⟩ := tri_value (hs.grad Xw j hl hj) (quad_csc_grad_unseen h3 _ Xw)
  rw [hg, e]

/-- The same for sparse logistic regression. -/
theorem C112_unseen_logistic (h : UnseenTarget X y j) (hX : ShapedCSC X n p) (hj : j < p) (hy : y.length = n) (a : XR) (srt : Argsort XR)
    (cfg : Solver XR) (hu : cfg.useAcceleration = false) {w : List XR}
    (hw : cfg.solve srt (⟨X, Targets.one y⟩ : Dataset (CSC XR) XR) (Logistic.new : Logistic XR) (L1.mk a) = .ok w) :
    w[j]? = some (XR.fin 0) := by
  have hT : ShapedTargets (Targets.one y) n 1 := by rw [← hy]; exact shaped_one
  obtain ⟨df, hi, hs⟩ := Tri.exists_ok (log_csc_safe hX hT (Logistic.new : Logistic XR))
  refine nan_grad_zero hj (ShapedCSC.nFeatures hX) hi ((nSamples_one y).trans hy) hs (fun k Xw d r hr => csc_upd_length hr) (fun Xw hl => ?_) srt cfg
    hu hw
  obtain ⟨g, hg, e⟩ := tri_value (hs.grad Xw j hl hj) (log_csc_grad_unseen h Xw)
  rw [hg, e]

/-! ## Examples -/

/-- Two samples; the first feature is (1, 2), the second one (NaN, 0). -/
noncomputable def holeCSC : CSC XR := ⟨[XR.fin 1, XR.fin 2, XR.nan], [0, 1, 0], [0, 2, 3]⟩

/-- The second feature replaced by zeros. -/
noncomputable def filledCSC : CSC XR := ⟨[XR.fin 1, XR.fin 2, XR.fin 0], [0, 1, 0], [0, 2, 3]⟩

theorem holeCSC_missing : MissingStored holeCSC 1 := ⟨2, ⟨2, 3, rfl, rfl, by decide, by decide⟩, rfl⟩

theorem holeCSC_blanked : BlankedColumn holeCSC filledCSC 1 := by
  refine ⟨rfl, rfl, rfl, fun k hk i hi => ?_, fun i hi hl => ?_⟩
  · obtain ⟨a, b, h1, h2, h3, h4⟩ := hi
    match k, hk with
    | 0, _ =>
      cases h1; cases h2
      have : i = 0 ∨ i = 1 := by omega
      rcases this with rfl | rfl <;> rfl
    | 1, hk => exact absurd rfl hk
    | k + 2, _ => simp [holeCSC] at h2
  · obtain ⟨a, b, h1, h2, h3, h4⟩ := hi
    cases h1; cases h2
    have : i = 2 := by omega
    subst this
    rfl

theorem holeCSC_shaped : ShapedCSC holeCSC 2 2 := by
  refine ⟨rfl, fun k a b h1 h2 i h3 h4 => ?_, by simp [holeCSC]⟩
  match k with
  | 0 =>
    cases h1; cases h2
    simp only [holeCSC, List.length_cons, List.length_nil]; omega
  | 1 =>
    cases h1; cases h2
    simp only [holeCSC, List.length_cons, List.length_nil]; omega
  | k + 2 => simp [holeCSC] at h2

example : Lasso.fit argsortIns storedPs (⟨holeCSC, Targets.one [XR.fin 5, XR.fin 3]⟩ : Dataset (CSC XR) XR) =
    Lasso.fit argsortIns storedPs (⟨filledCSC, Targets.one [XR.fin 5, XR.fin 3]⟩ : Dataset (CSC XR) XR) :=
  C111_sparse_estimator_partial holeCSC_missing holeCSC_blanked holeCSC_shaped one_lt_two rfl argsortIns storedPs rfl rfl

-- both calls return, and the coefficient of the second feature is 0
example : ∃ w, (⟨10, 50, 1000, XR.fin 1, 5, false, true⟩ : Solver XR).solve argsortIns
      (⟨holeCSC, Targets.one [XR.fin 1, XR.fin (-1)]⟩ : Dataset (CSC XR) XR) (Logistic.new : Logistic XR) (L1.mk (XR.fin 1)) = .ok w ∧
    w[1]? = some (XR.fin 0) := by
  obtain ⟨w, hw⟩ := ((C25_never (n := 2) (p := 2) argsortIns_spec ⟨10, 50, 1000, XR.fin 1, 5, false, true⟩ rfl _
    (shaped_one (y := [XR.fin 1, XR.fin (-1)]))).2.2.2 holeCSC Logistic.new holeCSC_shaped).1 (XR.fin 1)
  exact ⟨w, hw, (C111_sparse_logistic_partial holeCSC_missing holeCSC_blanked holeCSC_shaped one_lt_two rfl zero_le_one argsortIns _ rfl).2 w hw⟩

-- the second target is missing: the first feature, with an entry there, gets coefficient 0
example : ∃ w, (⟨10, 50, 1000, XR.fin 1, 5, false, true⟩ : Solver XR).solve argsortIns
      (⟨holeCSC, Targets.one [XR.fin 1, XR.nan]⟩ : Dataset (CSC XR) XR) (Logistic.new : Logistic XR) (L1.mk (XR.fin 1)) = .ok w ∧
    w[0]? = some (XR.fin 0) := by
  obtain ⟨w, hw⟩ := ((C25_never (n := 2) (p := 2) argsortIns_spec ⟨10, 50, 1000, XR.fin 1, 5, false, true⟩ rfl _
    (shaped_one (y := [XR.fin 1, XR.nan]))).2.2.2 holeCSC Logistic.new holeCSC_shaped).1 (XR.fin 1)
  exact ⟨w, hw, C112_unseen_logistic ⟨1, 1, ⟨0, 2, rfl, rfl, by decide, by decide⟩, rfl, rfl⟩ holeCSC_shaped two_pos rfl _ argsortIns _ rfl hw⟩

end Sglm
