import Verif.Proofs.Empty
import Verif.Proofs.Fits
import Verif.Props.Certificate

/-!
# C109: data sets without samples or without features
-/

namespace Sglm
open Scalar Spec
variable {n p T : ℕ}

/-- Without samples the solver reports zeros, whatever the loss, the penalty, the storage and the settings: the gradients are
`0 / 0`, and NaN is not larger than the tolerance. -/
theorem C109_no_samples (srt : Argsort XR) (cfg : Solver XR) (ht : (XR.fin 0 <=. cfg.tolerance) = true) (D : Design 0 p) (y : Fin 0 → ℝ)
    (k : LossKind) (pen : Pen) (hv : pen.Valid) : solve1 srt cfg D y k pen = .ok (List.replicate p (XR.fin 0)) := by
  cases D with
  | dense X =>
    cases k with
    | quadratic =>
      exact callPen_blank pen hv (fun pn => cfg.solve srt (denseDs X y) (Quadratic.new : Quadratic XR) pn)
        (fun r : M (List XR) => r = .ok (List.replicate p (XR.fin 0)))
        fun pn hp => solve_blank pn hp srt cfg ht _ _ rfl rfl (quad_dense_blank rfl rfl)
    | logistic =>
      exact callPen_blank pen hv (fun pn => cfg.solve srt (denseDs X y) (Logistic.new : Logistic XR) pn)
        (fun r : M (List XR) => r = .ok (List.replicate p (XR.fin 0)))
        fun pn hp => solve_blank pn hp srt cfg ht _ _ rfl rfl (log_dense_blank rfl rfl)
  | csc A =>
    cases k with
    | quadratic =>
      exact callPen_blank pen hv (fun pn => cfg.solve srt (cscDs A y) (Quadratic.new : Quadratic XR) pn)
        (fun r : M (List XR) => r = .ok (List.replicate p (XR.fin 0)))
        fun pn hp => solve_blank pn hp srt cfg ht _ _ rfl (csc_nFeatures A) (quad_csc_blank A)
    | logistic =>
      exact callPen_blank pen hv (fun pn => cfg.solve srt (cscDs A y) (Logistic.new : Logistic XR) pn)
        (fun r : M (List XR) => r = .ok (List.replicate p (XR.fin 0)))
        fun pn hp => solve_blank pn hp srt cfg ht _ _ rfl (csc_nFeatures A) (log_csc_blank A)

/-- Two features and no samples. -/
example : ∃ (cfg : Solver XR), (XR.fin 0 <=. cfg.tolerance) = true ∧ (Pen.mcp 1 3).Valid ∧
    solve1 argsortIns cfg (Design.dense fun (_ : Fin 0) (_ : Fin 2) => (1 : ℝ)) (fun _ => 1) .logistic (.mcp 1 3) = .ok [XR.fin 0, XR.fin 0] := by
  have h : (XR.fin 0 <=. (⟨10, 50, 1000, XR.fin 1, 5, true, false⟩ : Solver XR).tolerance) = true := by
    show (XR.fin 0 <=. XR.fin 1) = true
    rw [XR.s_le]
    exact decide_eq_true zero_le_one
  have hv : (Pen.mcp 1 3).Valid := ⟨zero_le_one, by norm_num⟩
  exact ⟨⟨10, 50, 1000, XR.fin 1, 5, true, false⟩, h, hv, C109_no_samples argsortIns _ h _ _ _ _ hv⟩

/-- `Lasso::fit` on a data set without samples succeeds. -/
theorem C109_lasso (srt : Argsort XR) (ps : LassoParams XR) {α τ : ℝ} (ha : ps.alpha = XR.fin α) (hα : 0 ≤ α) (ht : ps.tolerance = XR.fin τ)
    (hτ : 0 ≤ τ) (hK : 0 < ps.K) (hw : 0 < ps.wsStartSize) (D : Design 0 p) (y : Fin 0 → ℝ) :
    fitLasso srt ps D y = .ok (.ok (List.replicate p (XR.fin 0))) := by
  have h : (XR.fin 0 <=. ps.solver.tolerance) = true := by
    show (XR.fin 0 <=. ps.tolerance) = true
    rw [ht]
    rw [XR.s_le]; exact decide_eq_true hτ
  rw [fitLasso_eq srt ps α ha, checkRef_ok ps ha hα ht hτ hK hw, guarded_ok,
    C109_no_samples srt ps.solver h D y .quadratic (.l1 α) (show (Pen.l1 α).Valid from hα)]
  rfl

/-- `compute_alpha_max` without samples is NaN. -/
theorem C109_alpha_max (X : Fin 0 → Fin p → ℝ) (y : Fin 0 → ℝ) : computeAlphaMax (mat X) (vec y) = .ok XR.nan := by
  have h1 : tMulVec (mat X) (vec y) = .ok (List.replicate p (XR.fin 0)) := by
    have hX : (mat X).rows = [] := rfl
    unfold tMulVec
    rw [if_neg (by show ¬ (mat X).rows.length ≠ (vec y).length; rw [hX]; exact fun h => h rfl)]
    have := mapM_const (b := XR.fin 0) (f := fun j => do let c ← (mat X).colM j; pure (dot c (vec y))) (List.range p) fun j hj => by
      rw [empty_colM hX rfl (List.mem_range.mp hj)]
      rfl
    rw [List.length_range] at this
    exact this
  unfold computeAlphaMax
  rw [h1]
  show Except.ok _ = _
  rw [show (mat X).nrows = 0 from rfl, ofNat_zero_xr, alpha_zeros]
  exact congrArg _ zero_div_zero

/-- `compute_alpha_max_sparse` without samples is NaN. -/
theorem C109_alpha_max_sparse (A : CSCData 0 p) (y : Fin 0 → ℝ) : computeAlphaMaxSparse A.toCSC (vec y) = .ok XR.nan := by
  have h1 := csc_nFeatures A
  unfold CSC.nFeatures at h1
  unfold computeAlphaMaxSparse
  rw [h1]
  have := mapM_const (b := XR.fin 0) (f := fun j => do
    let r ← A.toCSC.colRange j
    r.foldlM (fun acc idx => do
      let d ← A.toCSC.dataAt idx
      let i ← A.toCSC.rowAt idx
      let yi ← getM (vec y) i
      pure (acc +. d *. yi)) zero) (List.range p) fun j hj => by
    rw [empty_colRange A (List.mem_range.mp hj)]
    rfl
  rw [List.length_range] at this
  dsimp only [bind, Except.bind] at this ⊢
  erw [this]
  show Except.ok _ = _
  rw [show (vec y).length = 0 from rfl, ofNat_zero_xr, alpha_zeros']
  exact congrArg _ zero_div_zero

/-- Without features the solver returns the empty list, for every number of samples. -/
theorem C109_no_features (srt : Argsort XR) (cfg : Solver XR) (ht : (XR.fin 0 <=. cfg.tolerance) = true) (D : Design n 0) (y : Fin n → ℝ)
    (k : LossKind) (pen : Pen) : solve1 srt cfg D y k pen = .ok [] := by
  have ht' : (XR.ninf <=. cfg.tolerance) = true := maxDist_zeros (l := []) (by simp) _ ht
  have h0 : ∀ {X : Fin n → Fin 0 → ℝ}, tMulVec (mat X) (vec y) = .ok [] := fun {X} => by
    unfold tMulVec
    rw [if_neg (by show ¬ (mat X).rows.length ≠ (vec y).length; simp [mat, vec])]
    rfl
  cases D with
  | dense X =>
    cases k with
    | quadratic =>
      have h2 : Datafit.init (Quadratic.new : Quadratic XR) (denseDs X y) = .ok ⟨[], []⟩ := by
        show Quadratic.initDense _ = _
        unfold Quadratic.initDense denseDs
        dsimp only
        rw [single_one']
        dsimp only [bind, Except.bind]
        rw [h0]
        rfl
      cases pen <;> exact solve_null srt cfg _ _ _ _ 0 _ rfl h2 rfl (by first | exact ht | exact ht')
    | logistic => cases pen <;> exact solve_null srt cfg _ _ _ _ 0 _ rfl rfl rfl (by first | exact ht | exact ht')
  | csc A =>
    cases k with
    | quadratic =>
      have h2 : Datafit.init (Quadratic.new : Quadratic XR) (cscDs A y) = .ok ⟨[], []⟩ := by
        show Quadratic.initCSC _ = _
        unfold Quadratic.initCSC cscDs
        dsimp only
        rw [single_one', csc_nFeatures]
        rfl
      cases pen <;> exact solve_null srt cfg _ _ _ _ 0 _ (csc_nFeatures A) h2 rfl (by first | exact ht | exact ht')
    | logistic =>
      have h2 : Datafit.init (Logistic.new : Logistic XR) (cscDs A y) = .ok ⟨[]⟩ := by
        show Logistic.initCSC _ = _
        unfold Logistic.initCSC cscDs
        dsimp only
        rw [csc_nFeatures]
        rfl
      cases pen <;> exact solve_null srt cfg _ _ _ _ 0 _ (csc_nFeatures A) h2 rfl (by first | exact ht | exact ht')

/-- Without samples the multi-task solver reports a matrix of zeros, whatever the penalty, the storage and the settings. -/
theorem C109_no_samples_mt (srt : Argsort XR) (cfg : Solver XR) (ht : (XR.fin 0 <=. cfg.tolerance) = true) (D : Design 0 p)
    (Y : Fin 0 → Fin T → ℝ) (pen : BPen) (hv : pen.Valid) : solveMT srt cfg D Y pen = .ok (mat fun (_ : Fin p) (_ : Fin T) => 0) := by
  have e : (mat fun (_ : Fin p) (_ : Fin T) => (0 : ℝ)) = Mat.zeros p T := by
    unfold mat vec Mat.zeros
    simp only [List.ofFn_const]
    rfl
  rw [e]
  cases D with
  | dense X =>
    obtain ⟨df', h1, h2⟩ := quadMT_dense_blank X Y
    cases pen with
    | l21 α => exact solveMT_blank _ srt cfg (l21_blank (le_of_lt hv) _ ht) _ _ df' rfl rfl rfl h1 h2
    | enet α ρ => exact solveMT_blank _ srt cfg (blockEnet_blank (le_of_lt hv.1) (le_of_lt hv.2.1) _ ht) _ _ df' rfl rfl rfl h1 h2
    | mcp α γ => exact solveMT_blank _ srt cfg (blockMCP_blank hv.1 _ ht) _ _ df' rfl rfl rfl h1 h2
  | csc A =>
    obtain ⟨df', h1, h2⟩ := quadMT_csc_blank A Y
    cases pen with
    | l21 α => exact solveMT_blank _ srt cfg (l21_blank (le_of_lt hv) _ ht) _ _ df' rfl rfl (csc_nFeatures A) h1 h2
    | enet α ρ =>
      exact solveMT_blank _ srt cfg (blockEnet_blank (le_of_lt hv.1) (le_of_lt hv.2.1) _ ht) _ _ df' rfl rfl (csc_nFeatures A) h1 h2
    | mcp α γ => exact solveMT_blank _ srt cfg (blockMCP_blank hv.1 _ ht) _ _ df' rfl rfl (csc_nFeatures A) h1 h2

/-- `MultiTaskLasso::fit` on a data set without samples succeeds. -/
theorem C109_mt_lasso (srt : Argsort XR) (ps : LassoParams XR) {α τ : ℝ} (ha : ps.alpha = XR.fin α) (hα : 0 < α) (ht : ps.tolerance = XR.fin τ)
    (hτ : 0 ≤ τ) (hK : 0 < ps.K) (hw : 0 < ps.wsStartSize) (D : Design 0 p) (Y : Fin 0 → Fin T → ℝ) :
    fitMTLasso srt ps D Y = .ok (.ok (mat fun (_ : Fin p) (_ : Fin T) => 0)) := by
  have h : (XR.fin 0 <=. ps.solver.tolerance) = true := by
    show (XR.fin 0 <=. ps.tolerance) = true
    rw [ht, XR.s_le]
    exact decide_eq_true hτ
  rw [fitMTLasso_eq srt ps α ha, checkRef_ok ps ha (le_of_lt hα) ht hτ hK hw, guarded_ok,
    C109_no_samples_mt srt ps.solver h D Y (.l21 α) (show (BPen.l21 α).Valid from hα)]
  rfl

/-- Three features, two tasks and no samples, stored sparsely. -/
example : ∃ (ps : LassoParams XR) (r : Mat XR), fitMTLasso argsortIns ps
    (Design.csc (⟨0, fun k => k.elim0, fun k => k.elim0, fun _ => 0, fun _ => le_refl 0⟩ : CSCData 0 3)) (fun i (_ : Fin 2) => i.elim0) = .ok (.ok r) ∧
    r.rows.length = 3 :=
  ⟨⟨XR.fin 1, 50, 1000, 10, XR.fin 1, 5, true, false⟩, _,
    C109_mt_lasso argsortIns _ rfl one_pos rfl zero_le_one (by norm_num) (by norm_num) _ _, rfl⟩

end Sglm
