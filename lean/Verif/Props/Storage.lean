import Verif.Proofs.Storage
import Verif.Props.Equiv
import Verif.Props.MissingSparse

/-!
# C113: the order of stored entries and explicitly stored zeros do not matter

Exact arithmetic, real data; positions may be stored more than once.  With a missing target, explicit zeros do matter: `C113_missing_false`.
-/

namespace Sglm
open Scalar Spec
variable {n p T : ℕ}

/-- `solve` on two sparse arrays with the same non-zero entries. -/
theorem C113_solve {srt : Argsort XR} (hs : ArgsortSpec srt) (hn : 0 < n) {A A' : CSCData n p} (h : SameEntries A A')
    (y : Fin n → ℝ) (k : LossKind) (pen : Pen) (hv : pen.Valid) (cfg : Solver XR) :
    solve1 srt cfg (.csc A) y k pen = solve1 srt cfg (.csc A') y k pen := by
  rw [solve1_eq hs hn (.csc A) y k pen hv, solve1_eq hs hn (.csc A') y k pen hv]
  have : prob1 (.csc A) y k pen = prob1 (.csc A') y k pen := by
    unfold prob1
    rw [same_steps h, show (Design.csc A).matrix = (Design.csc A').matrix from same_dense h]
  rw [this]

/-- The same for the multi-task solver. -/
theorem C113_solve_mt {srt : Argsort XR} (hs : ArgsortSpec srt) (hn : 0 < n) {A A' : CSCData n p} (h : SameEntries A A')
    (Y : Fin n → Fin T → ℝ) (pen : BPen) (hv : pen.Valid) (cfg : Solver XR) :
    solveMT srt cfg (.csc A) Y pen = solveMT srt cfg (.csc A') Y pen := by
  rw [solveMT_eq hs hn (.csc A) Y pen hv, solveMT_eq hs hn (.csc A') Y pen hv]
  have : probMT (.csc A) Y pen = probMT (.csc A') Y pen := by
    unfold probMT
    rw [same_steps h, show (Design.csc A).matrix = (Design.csc A').matrix from same_dense h]
  rw [this]

/-- The single-task estimators, with all settings (valid or not). -/
theorem C113_fit {srt : Argsort XR} (hs : ArgsortSpec srt) (hn : 0 < n) {A A' : CSCData n p} (h : SameEntries A A')
    (y : Fin n → ℝ) (α c : ℝ) :
    (∀ ps : LassoParams XR, ps.alpha = XR.fin α → fitLasso srt ps (.csc A) y = fitLasso srt ps (.csc A') y) ∧
    (∀ ps : ElasticNetParams XR, ps.alpha = XR.fin α → ps.l1Ratio = XR.fin c →
      fitElasticNet srt ps (.csc A) y = fitElasticNet srt ps (.csc A') y) ∧
    (∀ ps : MCParams XR, ps.alpha = XR.fin α → ps.gamma = XR.fin c →
      fitMCP srt ps (.csc A) y = fitMCP srt ps (.csc A') y) := by
  refine ⟨fun ps ha => ?_, fun ps ha hr => ?_, fun ps ha hr => ?_⟩
  · rw [fitLasso_eq srt ps α ha, fitLasso_eq srt ps α ha]
    exact guarded_congr fun q hq => C113_solve hs hn h y _ (.l1 α) (lasso_valid ha hq) _
  · rw [fitElasticNet_eq srt ps α c ha hr, fitElasticNet_eq srt ps α c ha hr]
    exact guarded_congr fun q hq => C113_solve hs hn h y _ (.enet α c) (enet_valid ha hr hq) _
  · rw [fitMCP_eq srt ps α c ha hr, fitMCP_eq srt ps α c ha hr]
    exact guarded_congr fun q hq => C113_solve hs hn h y _ (.mcp α c) (mcp_valid ha hr hq) _

/-- The multi-task estimators. -/
theorem C113_fit_mt {srt : Argsort XR} (hs : ArgsortSpec srt) (hn : 0 < n) {A A' : CSCData n p} (h : SameEntries A A')
    (Y : Fin n → Fin T → ℝ) (α c : ℝ) (hα : 0 < α) (hc : 0 < c) :
    (∀ ps : LassoParams XR, ps.alpha = XR.fin α → fitMTLasso srt ps (.csc A) Y = fitMTLasso srt ps (.csc A') Y) ∧
    (∀ ps : ElasticNetParams XR, ps.alpha = XR.fin α → ps.l1Ratio = XR.fin c →
      fitMTElasticNet srt ps (.csc A) Y = fitMTElasticNet srt ps (.csc A') Y) ∧
    (∀ ps : MCParams XR, ps.alpha = XR.fin α → ps.gamma = XR.fin c →
      fitBlockMCP srt ps (.csc A) Y = fitBlockMCP srt ps (.csc A') Y) := by
  refine ⟨fun ps ha => ?_, fun ps ha hr => ?_, fun ps ha hr => ?_⟩
  · rw [fitMTLasso_eq srt ps α ha, fitMTLasso_eq srt ps α ha]
    exact guarded_congr fun q hq => C113_solve_mt hs hn h Y (.l21 α) hα _
  · rw [fitMTElasticNet_eq srt ps α c ha hr, fitMTElasticNet_eq srt ps α c ha hr]
    exact guarded_congr fun q hq => C113_solve_mt hs hn h Y (.enet α c) ⟨hα, hc, (enet_valid ha hr hq).2.2⟩ _
  · rw [fitBlockMCP_eq srt ps α c ha hr, fitBlockMCP_eq srt ps α c ha hr]
    exact guarded_congr fun q hq => C113_solve_mt hs hn h Y (.mcp α c) ⟨hα.le, hc⟩ _

/-! ## Missing targets -/

/-- The array `storedA` with the zero of the second sample stored explicitly, before the other entry. -/
noncomputable def storedZero : CSCData 2 1 where
  nnz := 2
  data := ![0, 1]
  row := ![1, 0]
  ptr := ![0, 2]
  ptr_le := by decide

theorem storedZero_same : SameEntries storedZero storedA := by
  intro j
  have hj : j = 0 := Subsingleton.elim _ _
  subst hj
  have e1 : entries storedZero 0 = {((1 : Fin 2), (0 : ℝ)), ((0 : Fin 2), (1 : ℝ))} := by
    unfold entries
    rw [Finset.filter_true_of_mem fun k _ => ?_]
    · rfl
    · fin_cases k <;> simp [CSCData.InCol, storedZero]
  have e2 : entries storedA 0 = {((0 : Fin 2), (1 : ℝ))} := by
    unfold entries
    rw [Finset.filter_true_of_mem fun k _ => ?_]
    · rfl
    · fin_cases k
      simp [CSCData.InCol, storedA]
  rw [e1, e2]
  simp [Multiset.filter_singleton]

/-- The claim for targets which may be missing. -/
def C113_missing : Prop :=
  ∀ (n p : ℕ) (A A' : CSCData n p) (y : List XR) (srt : Argsort XR) (ps : LassoParams XR), 0 < n → SameEntries A A' → y.length = n →
    ArgsortSpec srt →
    Lasso.fit srt ps (⟨A.toCSC, Targets.one y⟩ : Dataset (CSC XR) XR) = Lasso.fit srt ps (⟨A'.toCSC, Targets.one y⟩ : Dataset (CSC XR) XR)

theorem C113_missing_false : ¬ C113_missing := by
  intro h
  have h1 := h 2 1 storedZero storedA [XR.fin 5, XR.nan] argsortIns storedPs two_pos storedZero_same rfl argsortIns_spec
  have hsh : ShapedCSC storedZero.toCSC 2 1 := shaped_toCSCOf storedZero fun k => XR.fin (storedZero.data k)
  obtain ⟨w, hw⟩ := ((C25_never (n := 2) (p := 1) argsortIns_spec storedPs.solver rfl _
    (shaped_one (y := [XR.fin 5, XR.nan]))).2.1 storedZero.toCSC Quadratic.new hsh).1 (XR.fin 1)
  have h0 := C112_unseen_lasso (X := storedZero.toCSC) (y := [XR.fin 5, XR.nan]) (j := 0)
    ⟨0, 1, ⟨0, 2, rfl, rfl, by decide, by decide⟩, rfl, rfl⟩ hsh one_pos rfl _ argsortIns _ rfl hw
  rw [(C112_estimators_partial storedA_agree argsortIns).1 storedPs rfl] at h1
  unfold Lasso.fit at h1
  rw [guardedFit_eq (m := storedPs.solver.solve argsortIns ⟨storedZero.toCSC, Targets.one [XR.fin 5, XR.nan]⟩ (Quadratic.new : Quadratic XR) (L1.mk storedPs.alpha))
      (fun q h => (LassoParams.checkRef_ok h).1) (by unfold Lasso.fitValid; rw [fitCD_eq]),
    guardedFit_eq (m := storedPs.solver.solve argsortIns ⟨storedA.toCSC, Targets.one (vec ![5, 0])⟩ (Quadratic.new : Quadratic XR) (L1.mk storedPs.alpha))
      (fun q h => (LassoParams.checkRef_ok h).1) (by unfold Lasso.fitValid; rw [fitCD_eq]), storedPs_ok, guarded_ok, guarded_ok] at h1
  change Except.ok <$> storedPs.solver.solve argsortIns ⟨storedZero.toCSC, Targets.one [XR.fin 5, XR.nan]⟩ (Quadratic.new : Quadratic XR)
    (L1.mk (XR.fin 1)) = _ at h1
  rw [hw] at h1
  have hlen := C24_solve_length _ _ _ _ _ w hw
  have ew : w = vec fun _ : Fin 1 => 0 := by
    match w, h0, hlen with
    | [a], h0, _ =>
      injection h0 with h0
      rw [h0]
      rfl
    | [], h0, _ => cases h0
    | _ :: _ :: _, _, hlen => cases hlen
  have h2 : solve1 argsortIns storedPs.solver (.csc storedA) ![5, 0] .quadratic (.l1 1) = .ok (vec fun _ : Fin 1 => 0) := by
    show storedPs.solver.solve argsortIns ⟨storedA.toCSC, Targets.one (vec ![5, 0])⟩ (Quadratic.new : Quadratic XR) (L1.mk storedPs.alpha) = _
    cases h3 : storedPs.solver.solve argsortIns ⟨storedA.toCSC, Targets.one (vec ![5, 0])⟩ (Quadratic.new : Quadratic XR) (L1.mk storedPs.alpha) with
    | error e => rw [h3] at h1; cases h1
    | ok v =>
      rw [h3] at h1
      injection h1 with h1
      injection h1 with h1
      rw [← h1, ew]
  exact storedA_nonzero h2

/-! ## Examples -/

example (ps : LassoParams XR) (ha : ps.alpha = XR.fin 1) :
    fitLasso argsortIns ps (.csc storedZero) ![5, 3] = fitLasso argsortIns ps (.csc storedA) ![5, 3] :=
  (C113_fit argsortIns_spec two_pos storedZero_same ![5, 3] 1 1).1 ps ha

end Sglm
