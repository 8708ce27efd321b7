import Verif.Proofs.StoredRows
import Verif.Props.NullModel
import Verif.Props.Equiv
import Verif.Props.Misc
import Verif.Props.MissingTargets
import Verif.Props.NeverPanics

/-!
# C112: samples without stored entries in a sparse design
-/

namespace Sglm
open Scalar Spec

section
variable {F P : Type} [Scalar F] [Penalty F P] {X : CSC F} {y y' : List F}

/-- Least squares on a sparse array: the targets of samples without stored entries do not matter, whatever they are
(NaN, infinite) and for every penalty. -/
theorem C112_quadratic_partial (h : AgreeOnStored X y y') (pen : P) (srt : Argsort F) (cfg : Solver F) (hu : cfg.useAcceleration = false) :
    cfg.solve srt (⟨X, Targets.one y⟩ : Dataset (CSC F) F) (Quadratic.new : Quadratic F) pen =
      cfg.solve srt (⟨X, Targets.one y'⟩ : Dataset (CSC F) F) (Quadratic.new : Quadratic F) pen := by
  cases hnf : (DesignMatrix.nFeatures X : M ℕ) with
  | error e => rw [solve_error_nf (e := e) hnf, solve_error_nf (e := e) hnf]
  | ok nf =>
    have hi2 := quad_init_stored h
    cases hi : Quadratic.initCSC (⟨X, Targets.one y⟩ : Dataset (CSC F) F) with
    | error e =>
      rw [solve_error_init (e := e) hnf hi, solve_error_init (e := e) hnf (hi2.symm.trans hi)]
    | ok df =>
      refine same_grad_solve (ds := ⟨X, Targets.one y⟩) (ds' := ⟨X, Targets.one y'⟩) (df := df) (n := y.length) rfl hnf hi (hi2.symm.trans hi) (nSamples_one y) ((nSamples_one y').trans h.1.symm)
        (fun Xw j => quad_grad_stored h df Xw j) (fun Xw hw => ?_) srt cfg hu
      obtain ⟨a, ha⟩ := quad_value_ok (X := X) (y := y) (Xw := Xw) hw
      obtain ⟨a', ha'⟩ := quad_value_ok (X := X) (y := y') (Xw := Xw) (hw.trans h.1)
      exact ⟨a, a', ha, ha'⟩

/-- The same for logistic regression. -/
theorem C112_logistic_partial (h : AgreeOnStored X y y') (pen : P) (srt : Argsort F) (cfg : Solver F) (hu : cfg.useAcceleration = false) :
    cfg.solve srt (⟨X, Targets.one y⟩ : Dataset (CSC F) F) (Logistic.new : Logistic F) pen =
      cfg.solve srt (⟨X, Targets.one y'⟩ : Dataset (CSC F) F) (Logistic.new : Logistic F) pen := by
  cases hnf : (DesignMatrix.nFeatures X : M ℕ) with
  | error e => rw [solve_error_nf (e := e) hnf, solve_error_nf (e := e) hnf]
  | ok nf =>
    have hi2 := log_init_stored h
    cases hi : Logistic.initCSC (⟨X, Targets.one y⟩ : Dataset (CSC F) F) with
    | error e =>
      rw [solve_error_init (e := e) hnf hi, solve_error_init (e := e) hnf (hi2.symm.trans hi)]
    | ok df =>
      refine same_grad_solve (ds := ⟨X, Targets.one y⟩) (ds' := ⟨X, Targets.one y'⟩) (df := df) (n := y.length) rfl hnf hi (hi2.symm.trans hi) (nSamples_one y) ((nSamples_one y').trans h.1.symm)
        (fun Xw j => log_grad_stored h Xw j) (fun Xw hw => ?_) srt cfg hu
      obtain ⟨a, ha⟩ := log_value_ok (X := X) (y := y) (Xw := Xw)
      obtain ⟨a', ha'⟩ := log_value_ok (X := X) (y := y') (Xw := Xw)
      exact ⟨a, a', ha, ha'⟩

omit [Scalar F] in
theorem guardedFit_valid_same {A Ps : Type} {check : Ps → Except (EstimatorError F) Ps} {fv fv' : Ps → M (Except (EstimatorError F) A)} {ps : Ps}
    (hq : ∀ q, check ps = .ok q → q = ps) (h : fv ps = fv' ps) : guardedFit check fv ps = guardedFit check fv' ps := by
  unfold guardedFit
  split
  · rfl
  · rename_i q hc
    rw [hq q hc]; exact h

/-- The estimators. -/
theorem C112_estimators_partial (h : AgreeOnStored X y y') (srt : Argsort F) :
    (∀ ps : LassoParams F, ps.useAcceleration = false →
      Lasso.fit srt ps (⟨X, Targets.one y⟩ : Dataset (CSC F) F) = Lasso.fit srt ps ⟨X, Targets.one y'⟩) ∧
    (∀ ps : ElasticNetParams F, ps.useAcceleration = false →
      ElasticNet.fit srt ps (⟨X, Targets.one y⟩ : Dataset (CSC F) F) = ElasticNet.fit srt ps ⟨X, Targets.one y'⟩) ∧
    (∀ ps : MCParams F, ps.useAcceleration = false →
      MCPEstimator.fit srt ps (⟨X, Targets.one y⟩ : Dataset (CSC F) F) = MCPEstimator.fit srt ps ⟨X, Targets.one y'⟩) := by
  refine ⟨fun ps hu => guardedFit_valid_same (fun q => lasso_check_eq) ?_, fun ps hu => guardedFit_valid_same (fun q => enet_check_eq) ?_,
    fun ps hu => guardedFit_valid_same (fun q => mcp_check_eq) ?_⟩
  · unfold Lasso.fitValid
    rw [fitCD_eq, fitCD_eq, C112_quadratic_partial h _ srt _ hu]
  · unfold ElasticNet.fitValid
    rw [fitCD_eq, fitCD_eq, C112_quadratic_partial h _ srt _ hu]
  · unfold MCPEstimator.fitValid
    rw [fitCD_eq, fitCD_eq, C112_quadratic_partial h _ srt _ hu]

end

section
variable {F P : Type} [Scalar F] [MTPenalty F P] {X : CSC F} {Y Y' : Mat F} {n t : ℕ}

/-- The same for several tasks. -/
theorem C112_mt_partial (h : RowsAgreeOnStored X Y Y') (hY : Shaped Y n t) (hY' : Shaped Y' n t) (pen : P) (srt : Argsort F)
    (cfg : Solver F) (hu : cfg.useAcceleration = false) :
    cfg.solveMultiTask srt (⟨X, Targets.two Y⟩ : Dataset (CSC F) F) (QuadraticMT.new : QuadraticMT F) pen =
      cfg.solveMultiTask srt (⟨X, Targets.two Y'⟩ : Dataset (CSC F) F) (QuadraticMT.new : QuadraticMT F) pen := by
  cases hnf : (DesignMatrix.nFeatures X : M ℕ) with
  | error e => rw [MT.solve_error_nf (e := e) hnf, MT.solve_error_nf (e := e) hnf]
  | ok nf =>
    have hi2 := MT.mt_init_stored h hY hY'
    cases hi : QuadraticMT.initCSC (⟨X, Targets.two Y⟩ : Dataset (CSC F) F) with
    | error e =>
      rw [MT.solve_error_init (e := e) hnf hi, MT.solve_error_init (e := e) hnf (hi2.symm.trans hi)]
    | ok df =>
      refine MT.same_grad_solve (ds := ⟨X, Targets.two Y⟩) (ds' := ⟨X, Targets.two Y'⟩) (df := df) (n := n) (t := t) rfl hnf hi
        (hi2.symm.trans hi) hY.1 hY'.1 hY.2.1 hY'.2.1 (fun XW j => MT.mt_grad_stored hY hY' df XW j) (fun XW hw => ?_) srt cfg hu
      obtain ⟨a, ha, -⟩ := Tri.exists_ok (MT.quad_value_safe (ds := (⟨X, Targets.two Y⟩ : Dataset (CSC F) F)) ⟨hY.1, hY.2.1, hY⟩ hw)
      obtain ⟨a', ha', -⟩ := Tri.exists_ok (MT.quad_value_safe (ds := (⟨X, Targets.two Y'⟩ : Dataset (CSC F) F)) ⟨hY'.1, hY'.2.1, hY'⟩ hw)
      exact ⟨a, a', ha, ha'⟩

/-- The multi-task estimators. -/
theorem C112_estimators_mt_partial (h : RowsAgreeOnStored X Y Y') (hY : Shaped Y n t) (hY' : Shaped Y' n t) (srt : Argsort F) :
    (∀ ps : LassoParams F, ps.useAcceleration = false →
      MultiTaskLasso.fit srt ps (⟨X, Targets.two Y⟩ : Dataset (CSC F) F) = MultiTaskLasso.fit srt ps ⟨X, Targets.two Y'⟩) ∧
    (∀ ps : ElasticNetParams F, ps.useAcceleration = false →
      MultiTaskElasticNet.fit srt ps (⟨X, Targets.two Y⟩ : Dataset (CSC F) F) = MultiTaskElasticNet.fit srt ps ⟨X, Targets.two Y'⟩) ∧
    (∀ ps : MCParams F, ps.useAcceleration = false →
      BlockMCPEstimator.fit srt ps (⟨X, Targets.two Y⟩ : Dataset (CSC F) F) = BlockMCPEstimator.fit srt ps ⟨X, Targets.two Y'⟩) := by
  refine ⟨fun ps hu => guardedFit_valid_same (fun q => lasso_check_eq) ?_, fun ps hu => guardedFit_valid_same (fun q => enet_check_eq) ?_,
    fun ps hu => guardedFit_valid_same (fun q => block_mcp_check_eq) ?_⟩
  · unfold MultiTaskLasso.fitValid
    rw [fitBCD_eq, fitBCD_eq, C112_mt_partial h hY hY' _ srt _ hu]
  · unfold MultiTaskElasticNet.fitValid
    rw [fitBCD_eq, fitBCD_eq, C112_mt_partial h hY hY' _ srt _ hu]
  · unfold BlockMCPEstimator.fitValid
    rw [fitBCD_eq, fitBCD_eq, C112_mt_partial h hY hY' _ srt _ hu]

end

/-- The full statement: a Lasso fit on a sparse array is the fit on the dense matrix with the same entries, also for targets that are
not finite.  (For real targets this is C34.) -/
def C112_full : Prop :=
  ∀ (n p : ℕ) (A : CSCData n p) (y : List XR) (srt : Argsort XR) (ps : LassoParams XR), 0 < n → A.NoDup → y.length = n → ArgsortSpec srt →
    Lasso.fit srt ps (⟨A.toCSC, Targets.one y⟩ : Dataset (CSC XR) XR) = Lasso.fit srt ps (⟨mat A.dense, Targets.one y⟩ : Dataset (Mat XR) XR)

/-- One feature, stored for the first of two samples only. -/
noncomputable def storedA : CSCData 2 1 where
  nnz := 1
  data := ![1]
  row := ![0]
  ptr := ![0, 1]
  ptr_le := by decide

theorem storedA_nodup : storedA.NoDup := by
  unfold CSCData.NoDup CSCData.InCol storedA
  dsimp only
  decide

/-- Settings without acceleration. -/
noncomputable def storedPs : LassoParams XR := ⟨XR.fin 1, 50, 1000, 10, XR.fin (1 / 1000000), 5, false, false⟩

theorem storedPs_ok : storedPs.checkRef = .ok storedPs := by
  unfold LassoParams.checkRef checkTail storedPs
  simp [Scalar.signBit, XR.signBit]
  norm_num

theorem storedPs_tol : (XR.fin 0 <=. storedPs.tolerance) = true := by
  rw [storedPs, XR.s_le]
  exact decide_eq_true (by norm_num)

theorem storedA_agree : AgreeOnStored storedA.toCSC [XR.fin 5, XR.nan] (vec ![5, 0]) := by
  refine ⟨rfl, fun i hi => ?_⟩
  have : i = 0 := by
    simpa [CSCData.toCSC, storedA] using hi
  subst this
  rfl

theorem storedA_nonzero (h2 : solve1 argsortIns storedPs.solver (.csc storedA) ![5, 0] .quadratic (.l1 1) = .ok (vec fun _ : Fin 1 => 0)) : False := by
  have key := (C91_null two_pos (.csc storedA) storedA_nodup ![5, 0] .quadratic trivial (.l1 1) zero_le_one (by simp)
    (fun j hj => lt_of_le_of_ne (lip_nonneg (.csc storedA) storedA_nodup .quadratic j) (Ne.symm hj))
    argsortIns_spec storedPs.solver (1 / 1000000) (by norm_num) rfl (by decide) (by decide) (by decide) _ h2).mp (fun _ => rfl) 0
  have hd : storedA.dense 0 0 = 1 := by
    unfold CSCData.dense
    refine (Fin.sum_univ_one _).trans ?_
    rw [if_pos ⟨⟨le_rfl, Nat.one_pos⟩, rfl⟩]
    rfl
  have hc : corr (.csc storedA) ![5, 0] 0 = 5 / 2 := by
    show (∑ i : Fin 2, storedA.dense i 0 * ![(5 : ℝ), 0] i) / ((2 : ℕ) : ℝ) = 5 / 2
    rw [Fin.sum_univ_two, hd]
    norm_num
  rw [hc] at key
  norm_num [LossKind.atZero, Pen.slope, abs_div] at key

theorem C112_false : ¬ C112_full := by
  intro h
  have h1 := h 2 1 storedA [XR.fin 5, XR.nan] argsortIns storedPs two_pos storedA_nodup rfl argsortIns_spec
  rw [C45_lasso_partial (n := 2) (p := 1) _ _ ⟨rfl, rfl, by simp [mat]⟩ rfl (by simp) argsortIns storedPs storedPs storedPs_ok storedPs_tol,
    (C112_estimators_partial storedA_agree argsortIns).1 storedPs rfl] at h1
  unfold Lasso.fit at h1
  rw [guardedFit_eq (m := storedPs.solver.solve argsortIns ⟨storedA.toCSC, Targets.one (vec ![5, 0])⟩ (Quadratic.new : Quadratic XR) (L1.mk storedPs.alpha))
      (fun q h => (LassoParams.checkRef_ok h).1) (by unfold Lasso.fitValid; rw [fitCD_eq]), storedPs_ok, guarded_ok] at h1
  have h2 : solve1 argsortIns storedPs.solver (.csc storedA) ![5, 0] .quadratic (.l1 1) = .ok (vec fun _ : Fin 1 => 0) := by
    show storedPs.solver.solve argsortIns ⟨storedA.toCSC, Targets.one (vec ![5, 0])⟩ (Quadratic.new : Quadratic XR) (L1.mk storedPs.alpha) = _
    cases h3 : storedPs.solver.solve argsortIns ⟨storedA.toCSC, Targets.one (vec ![5, 0])⟩ (Quadratic.new : Quadratic XR) (L1.mk storedPs.alpha) with
    | error e => rw [h3] at h1; cases h1
    | ok v =>
      rw [h3] at h1
      injection h1 with h1
      injection h1 with h1
      rw [h1]
      rfl
  exact storedA_nonzero h2

/-! ## Examples -/

example : Lasso.fit argsortIns storedPs (⟨storedA.toCSC, Targets.one [XR.fin 5, XR.nan]⟩ : Dataset (CSC XR) XR) =
    Lasso.fit argsortIns storedPs ⟨storedA.toCSC, Targets.one (vec ![5, 0])⟩ :=
  (C112_estimators_partial storedA_agree argsortIns).1 storedPs rfl

-- a missing target and an infinite one, both of a sample without entries
example : MultiTaskLasso.fit argsortIns storedPs
      (⟨storedA.toCSC, Targets.two ⟨2, [[XR.fin 5, XR.fin 1], [XR.nan, XR.pinf]]⟩⟩ : Dataset (CSC XR) XR) =
    MultiTaskLasso.fit argsortIns storedPs ⟨storedA.toCSC, Targets.two ⟨2, [[XR.fin 5, XR.fin 1], [XR.fin 0, XR.fin 0]]⟩⟩ :=
  (C112_estimators_mt_partial (n := 2) (t := 2) (fun i hi => by
    have : i = 0 := by simpa [CSCData.toCSC, storedA] using hi
    subst this
    rfl) (by simp [Shaped]) (by simp [Shaped]) argsortIns).1 storedPs rfl

-- logistic regression with MCP, any float format
example {f : Format} {S : Summation f} (srt : Argsort (IEEE f S)) (cfg : Solver (IEEE f S)) (hu : cfg.useAcceleration = false)
    (a b c d x : IEEE f S) :
    cfg.solve srt (⟨⟨[x], [1], [0, 1]⟩, Targets.one [a, c]⟩ : Dataset (CSC (IEEE f S)) (IEEE f S)) (Logistic.new : Logistic (IEEE f S)) (MCP.mk a d) =
      cfg.solve srt (⟨⟨[x], [1], [0, 1]⟩, Targets.one [b, c]⟩ : Dataset (CSC (IEEE f S)) (IEEE f S)) (Logistic.new : Logistic (IEEE f S)) (MCP.mk a d) :=
  C112_logistic_partial (X := ⟨[x], [1], [0, 1]⟩) (y := [a, c]) (y' := [b, c]) ⟨rfl, fun i hi => by
    have : i = 1 := by simpa using hi
    subst this
    rfl⟩ _ srt cfg hu

end Sglm
