import Verif.Proofs.Sign
import Verif.Proofs.Fits
import Verif.Props.Certificate

/-!
# C34, C37, C38, C39, C49: fits which must agree

Exact arithmetic, real data.  Equality of the results includes panics and errors.
-/

namespace Sglm
open Scalar Spec
variable {n p T : ℕ}

/-! ## C34: sparse and dense fits agree -/

/-- `solve` on a CSC array without duplicates is `solve` on the dense matrix. -/
theorem C34_solve {srt : Argsort XR} (hs : ArgsortSpec srt) (hn : 0 < n) (A : CSCData n p) (hA : A.NoDup)
    (y : Fin n → ℝ) (k : LossKind) (pen : Pen) (hv : pen.Valid) (cfg : Solver XR) :
    solve1 srt cfg (.csc A) y k pen = solve1 srt cfg (.dense A.dense) y k pen := by
  rw [solve1_eq hs hn (.csc A) y k pen hv, solve1_eq hs hn (.dense A.dense) y k pen hv]
  have : prob1 (.csc A) y k pen = prob1 (.dense A.dense) y k pen := by
    unfold prob1
    rw [stepsOf_canonical (.csc A) hA]
    rfl
  rw [this]

/-- The same for the multi-task solver. -/
theorem C34_solve_mt {srt : Argsort XR} (hs : ArgsortSpec srt) (hn : 0 < n) (A : CSCData n p) (hA : A.NoDup)
    (Y : Fin n → Fin T → ℝ) (pen : BPen) (hv : pen.Valid) (cfg : Solver XR) :
    solveMT srt cfg (.csc A) Y pen = solveMT srt cfg (.dense A.dense) Y pen := by
  rw [solveMT_eq hs hn (.csc A) Y pen hv, solveMT_eq hs hn (.dense A.dense) Y pen hv]
  have : probMT (.csc A) Y pen = probMT (.dense A.dense) Y pen := by
    unfold probMT
    rw [stepsOf_canonical (.csc A) hA]
    rfl
  rw [this]

/-- The single-task estimators, with all settings (valid or not). -/
theorem C34_fit {srt : Argsort XR} (hs : ArgsortSpec srt) (hn : 0 < n) (A : CSCData n p) (hA : A.NoDup)
    (y : Fin n → ℝ) (α c : ℝ) :
    (∀ ps : LassoParams XR, ps.alpha = XR.fin α → fitLasso srt ps (.csc A) y = fitLasso srt ps (.dense A.dense) y) ∧
    (∀ ps : ElasticNetParams XR, ps.alpha = XR.fin α → ps.l1Ratio = XR.fin c →
      fitElasticNet srt ps (.csc A) y = fitElasticNet srt ps (.dense A.dense) y) ∧
    (∀ ps : MCParams XR, ps.alpha = XR.fin α → ps.gamma = XR.fin c →
      fitMCP srt ps (.csc A) y = fitMCP srt ps (.dense A.dense) y) := by
  refine ⟨fun ps ha => ?_, fun ps ha hr => ?_, fun ps ha hr => ?_⟩
  · rw [fitLasso_eq srt ps α ha, fitLasso_eq srt ps α ha]
    exact guarded_congr fun q hq => C34_solve hs hn A hA y _ (.l1 α) (lasso_valid ha hq) _
  · rw [fitElasticNet_eq srt ps α c ha hr, fitElasticNet_eq srt ps α c ha hr]
    exact guarded_congr fun q hq => C34_solve hs hn A hA y _ (.enet α c) (enet_valid ha hr hq) _
  · rw [fitMCP_eq srt ps α c ha hr, fitMCP_eq srt ps α c ha hr]
    exact guarded_congr fun q hq => C34_solve hs hn A hA y _ (.mcp α c) (mcp_valid ha hr hq) _

/-- The multi-task estimators. -/
theorem C34_fit_mt {srt : Argsort XR} (hs : ArgsortSpec srt) (hn : 0 < n) (A : CSCData n p) (hA : A.NoDup)
    (Y : Fin n → Fin T → ℝ) (α c : ℝ) (hα : 0 < α) (hc : 0 < c) :
    (∀ ps : LassoParams XR, ps.alpha = XR.fin α →
      fitMTLasso srt ps (.csc A) Y = fitMTLasso srt ps (.dense A.dense) Y) ∧
    (∀ ps : ElasticNetParams XR, ps.alpha = XR.fin α → ps.l1Ratio = XR.fin c →
      fitMTElasticNet srt ps (.csc A) Y = fitMTElasticNet srt ps (.dense A.dense) Y) ∧
    (∀ ps : MCParams XR, ps.alpha = XR.fin α → ps.gamma = XR.fin c →
      fitBlockMCP srt ps (.csc A) Y = fitBlockMCP srt ps (.dense A.dense) Y) := by
  refine ⟨fun ps ha => ?_, fun ps ha hr => ?_, fun ps ha hr => ?_⟩
  · rw [fitMTLasso_eq srt ps α ha, fitMTLasso_eq srt ps α ha]
    exact guarded_congr fun q hq => C34_solve_mt hs hn A hA Y (.l21 α) hα _
  · rw [fitMTElasticNet_eq srt ps α c ha hr, fitMTElasticNet_eq srt ps α c ha hr]
    exact guarded_congr fun q hq => C34_solve_mt hs hn A hA Y (.enet α c)
      ⟨hα, hc, (enet_valid ha hr hq).2.2⟩ _
  · rw [fitBlockMCP_eq srt ps α c ha hr, fitBlockMCP_eq srt ps α c ha hr]
    exact guarded_congr fun q hq => C34_solve_mt hs hn A hA Y (.mcp α c) ⟨hα.le, hc⟩ _

/-! ## C37: elastic net with `l1_ratio = 1` -/

/-- `solve` with the elastic net penalty with `l1_ratio = 1` is `solve` with the L1 penalty. -/
theorem C37_solve {srt : Argsort XR} (hs : ArgsortSpec srt) (hn : 0 < n) (D : Design n p) (y : Fin n → ℝ)
    (k : LossKind) (α : ℝ) (hα : 0 ≤ α) (cfg : Solver XR) :
    solve1 srt cfg D y k (.enet α 1) = solve1 srt cfg D y k (.l1 α) := by
  have e1 : (Pen.enet α 1).fn = (Pen.l1 α).fn := by
    funext z
    show enet α 1 z = α * |z|
    unfold enet
    rw [Real.norm_eq_abs]; ring
  have e2 : proxOf (.enet α 1) = proxOf (.l1 α) := by
    funext v s
    show enetProxR α 1 v s = softR v (α * s)
    unfold enetProxR
    rw [one_mul, sub_self, mul_zero, zero_mul, add_zero, div_one]
  have e3 : scoreOf (.enet α 1) = scoreOf (.l1 α) := by
    funext a b
    show enetScore α 1 a b = l1Score α a b
    unfold enetScore l1Score
    split_ifs <;> (congr 1; ring)
  have e : prob1 D y k (.enet α 1) = prob1 D y k (.l1 α) := by
    unfold prob1
    rw [e1, e2, e3]
    rfl
  rw [solve1_eq hs hn D y k (.l1 α) hα, solve1_eq hs hn D y k (.enet α 1) ⟨hα, zero_le_one, le_rfl⟩, e]

/-- `ElasticNet` with `l1_ratio = 1` is `Lasso` with the same settings. -/
theorem C37_fit {srt : Argsort XR} (hs : ArgsortSpec srt) (hn : 0 < n) (D : Design n p) (y : Fin n → ℝ)
    (α : ℝ) (ps : LassoParams XR) (ha : ps.alpha = XR.fin α) :
    fitElasticNet srt (withL1Ratio ps (XR.fin 1)) D y = fitLasso srt ps D y := by
  rw [fitElasticNet_eq srt (withL1Ratio ps (XR.fin 1)) α 1 ha rfl, fitLasso_eq srt ps α ha]
  have e : ElasticNetParams.checkRef (withL1Ratio ps (XR.fin 1)) =
      if signBit ps.alpha = true then .error (.invalidRegularization ps.alpha) else
        checkTail ps.tolerance ps.K ps.wsStartSize (withL1Ratio ps (XR.fin 1)) := by
    unfold ElasticNetParams.checkRef
    show (if signBit ps.alpha = true then _ else if ((one <. XR.fin 1) || (XR.fin 1 <. zero)) = true then _ else _) = _
    rw [XR.s_one, XR.s_zero, XR.s_lt, XR.s_lt]
    simp only [lt_self_iff_false, decide_false, not_lt.mpr (zero_le_one' ℝ), Bool.or_self, Bool.false_eq_true, if_false]
    rfl
  have e' : (withL1Ratio ps (XR.fin 1)).solver = ps.solver := rfl
  rw [e, e']
  unfold LassoParams.checkRef
  by_cases h0 : signBit ps.alpha = true
  · rw [if_pos h0, if_pos h0, guarded_error, guarded_error]
  · have hα : 0 ≤ α := by
      rw [ha, XR.s_signBit, decide_eq_true_iff, not_lt] at h0; exact h0
    rw [if_neg h0, if_neg h0, C37_solve hs hn D y .quadratic α hα]
    unfold checkTail
    split_ifs
    · rw [guarded_error, guarded_error]
    · rw [guarded_error, guarded_error]
    · rw [guarded_error, guarded_error]
    · rw [guarded_ok, guarded_ok]

/-- C37 for the multi-task estimators. -/
def C37_mt_full : Prop :=
  ∀ (srt : Argsort XR), ArgsortSpec srt → ∀ (n p T : ℕ), 0 < n → ∀ (D : Design n p) (Y : Fin n → Fin T → ℝ) (α : ℝ),
    0 < α → ∀ ps : LassoParams XR, ps.alpha = XR.fin α →
      fitMTElasticNet srt (withL1Ratio ps (XR.fin 1)) D Y = fitMTLasso srt ps D Y

/-- Part of C37 for the multi-task estimators: all block updates agree.  Missing (and false): the stopping tests and
working sets agree. -/
theorem C37_mt_update_partial (hn : 0 < n) (D : Design n p) (Y : Fin n → Fin T → ℝ) (α : ℝ) (hα : 0 < α)
    (W : Fin p → Euc T) (j : Fin p) :
    updateMT D Y (.enet α 1) ⟨emat W, mat (fitMT D.matrix fun j => (W j).ofLp)⟩ j =
      updateMT D Y (.l21 α) ⟨emat W, mat (fitMT D.matrix fun j => (W j).ofLp)⟩ j := by
  have h1 := updateMT_eq hn D Y (.enet α 1) ⟨hα, one_pos, le_rfl⟩ W j
  have h2 := updateMT_eq hn D Y (.l21 α) hα W j
  refine h1.trans (Eq.trans ?_ h2.symm)
  have h3 : (probMT D Y (.enet α 1)).step W j = (probMT D Y (.l21 α)).step W j := by
    have e : (bproxOf (.enet α 1) : Euc T → ℝ → Euc T) = bproxOf (.l21 α) := by
      funext v s
      show blockEnetProxR α 1 v s = blockSoftR v (α * s)
      unfold blockEnetProxR
      rw [mul_one, sub_self, mul_zero, zero_mul, add_zero, div_one, one_smul]
    unfold probMT
    rw [e]
    rfl
  rw [h3]

/-! ## C38: MCP with infinite `gamma` -/

/-- `solve` with the MCP penalty with `gamma = inf` is `solve` with the L1 penalty, given as the call on the penalty
object. -/
theorem C38_solve {srt : Argsort XR} (hs : ArgsortSpec srt) (hn : 0 < n) (X : Fin n → Fin p → ℝ) (A : CSCData n p)
    (y : Fin n → ℝ) (α : ℝ) (hα : 0 < α) (cfg : Solver XR) :
    cfg.solve srt (denseDs X y) (Quadratic.new : Quadratic XR) (MCP.mk (XR.fin α) XR.pinf) =
      cfg.solve srt (denseDs X y) (Quadratic.new : Quadratic XR) (L1.mk (XR.fin α)) ∧
    cfg.solve srt (cscDs A y) (Quadratic.new : Quadratic XR) (MCP.mk (XR.fin α) XR.pinf) =
      cfg.solve srt (cscDs A y) (Quadratic.new : Quadratic XR) (L1.mk (XR.fin α)) ∧
    cfg.solve srt (denseDs X y) (Logistic.new : Logistic XR) (MCP.mk (XR.fin α) XR.pinf) =
      cfg.solve srt (denseDs X y) (Logistic.new : Logistic XR) (L1.mk (XR.fin α)) ∧
    cfg.solve srt (cscDs A y) (Logistic.new : Logistic XR) (MCP.mk (XR.fin α) XR.pinf) =
      cfg.solve srt (cscDs A y) (Logistic.new : Logistic XR) (L1.mk (XR.fin α)) := by
  have h := fun {DM DF : Type} [DesignMatrix XR DM] [Datafit XR DM DF] (ds : Dataset DM XR) (df df0 : DF)
      (D : Design n p) (k : LossKind)
      (hd : DSem ds df D.matrix (k.loss y) (gradOf D.matrix y k) (stepsOf D k)) =>
    (solveCD_eq hd (mcp_inf_sem α hα) (stepsOf_nonneg D k) hs cfg df0).trans
      (solveCD_eq hd (l1_sem α) (stepsOf_nonneg D k) hs cfg df0).symm
  exact ⟨h _ _ _ (.dense X) .quadratic (quad_dense X y hn), h _ _ _ (.csc A) .quadratic (quad_csc_all A y hn),
    h _ _ _ (.dense X) .logistic (log_dense X y hn), h _ _ _ (.csc A) .logistic (log_csc_all A y hn)⟩

/-- The MCP estimator with `gamma = inf` and `alpha ≠ 0` is `Lasso` with the same settings. -/
theorem C38_fit {srt : Argsort XR} (hs : ArgsortSpec srt) (hn : 0 < n) (D : Design n p) (y : Fin n → ℝ)
    (α : ℝ) (hα0 : α ≠ 0) (ps : LassoParams XR) (ha : ps.alpha = XR.fin α) :
    fitMCP srt (withGamma ps XR.pinf) D y = fitLasso srt ps D y := by
  have key : ∀ {DM : Type} [DesignMatrix XR DM] [Datafit XR DM (Quadratic XR)] (ds : Dataset DM XR),
      (0 < α → ps.solver.solve srt ds (Quadratic.new : Quadratic XR) (MCP.mk (XR.fin α) XR.pinf) =
        ps.solver.solve srt ds (Quadratic.new : Quadratic XR) (L1.mk (XR.fin α))) →
      MCPEstimator.fit srt (withGamma ps XR.pinf) ds = Lasso.fit srt ps ds := by
    intro DM _ _ ds h
    unfold MCPEstimator.fit Lasso.fit guardedFit
    have e : MCParams.checkRef (withGamma ps XR.pinf) =
        if signBit ps.alpha = true then .error (.invalidRegularization ps.alpha) else
          checkTail ps.tolerance ps.K ps.wsStartSize (withGamma ps XR.pinf) := by
      unfold MCParams.checkRef
      show (if signBit ps.alpha = true then _ else if (XR.pinf <. one : Bool) = true then _ else _) = _
      rw [show (XR.pinf <. one : Bool) = false from rfl]
      rfl
    rw [e]
    unfold LassoParams.checkRef
    by_cases h0 : signBit ps.alpha = true
    · rw [if_pos h0, if_pos h0]
    · have hα : 0 ≤ α := by
        rw [ha, XR.s_signBit, decide_eq_true_iff, not_lt] at h0; exact h0
      rw [if_neg h0, if_neg h0]
      unfold checkTail
      split_ifs
      · rfl
      · rfl
      · rfl
      · show MCPEstimator.fitValid srt (withGamma ps XR.pinf) ds = Lasso.fitValid srt ps ds
        unfold MCPEstimator.fitValid Lasso.fitValid
        rw [fitCD_eq, fitCD_eq, ha]
        have := h (lt_of_le_of_ne hα (Ne.symm hα0))
        rw [← ha] at this
        rw [← ha]
        exact congrArg (Except.ok <$> ·) this
  cases D with
  | dense X =>
    exact key _ fun hα => (solveCD_eq (quad_dense X y hn) (mcp_inf_sem α hα) (quadStep_nonneg X) hs _ _).trans
      (solveCD_eq (quad_dense X y hn) (l1_sem α) (quadStep_nonneg X) hs _ _).symm
  | csc A =>
    exact key _ fun hα => (solveCD_eq (quad_csc_all A y hn) (mcp_inf_sem α hα)
      (stepsOf_nonneg (.csc A) .quadratic) hs _ _).trans
      (solveCD_eq (quad_csc_all A y hn) (l1_sem α) (stepsOf_nonneg (.csc A) .quadratic) hs _ _).symm

/-! ## C39: one task -/

/-- A vector as a matrix with one column. -/
def column {F : Type} (w : List F) : Mat F := ⟨1, w.map fun x => [x]⟩

theorem column_vec (w : Fin p → ℝ) : column (vec w) = emat fun j => row1 (w j) := by
  unfold column emat mat vec
  rw [List.map_ofFn]
  rfl

/-- The multi-task solver with the L21 penalty on one task is the single-task solver with the L1 penalty. -/
theorem C39_solve {srt : Argsort XR} (hs : ArgsortSpec srt) (hn : 0 < n) (D : Design n p) (y : Fin n → ℝ)
    (α : ℝ) (hα : 0 < α) (cfg : Solver XR) :
    solveMT srt cfg D (fun i (_ : Fin 1) => y i) (.l21 α) = column <$> solve1 srt cfg D y .quadratic (.l1 α) := by
  rw [solve1_eq hs hn D y .quadratic (.l1 α) hα.le, solveMT_eq hs hn D _ (.l21 α) hα,
    (prob1_row D y α hα).run]
  cases (prob1 D y .quadratic (.l1 α)).run srt cfg with
  | error e => rfl
  | ok q => exact congrArg Except.ok (column_vec q.1).symm

/-- `MultiTaskLasso` on one task is `Lasso` with the same settings. -/
theorem C39_fit {srt : Argsort XR} (hs : ArgsortSpec srt) (hn : 0 < n) (D : Design n p) (y : Fin n → ℝ)
    (α : ℝ) (hα : 0 < α) (ps : LassoParams XR) (ha : ps.alpha = XR.fin α) :
    fitMTLasso srt ps D (fun i (_ : Fin 1) => y i) = mapFit column (fitLasso srt ps D y) := by
  rw [fitMTLasso_eq srt ps α ha, fitLasso_eq srt ps α ha, ← guarded_map, C39_solve hs hn D y α hα]

/-! ## C37 is false for multi-task problems -/

/-- A single-sample problem solved in one update. -/
theorem oneD_solve (y v : ℝ) (pen : Pen) (hv : pen.Valid) (hm : m0Of pen = XR.ninf) (hp : proxOf pen y 1 = v)
    (h0 : 0 < scoreOf pen 0 (-y)) (h1 : scoreOf pen v (v - y) ≤ 0) :
    solve1 argsortIns oneCfg oneD (fun _ => y) .quadratic pen = .ok (vec fun _ : Fin 1 => v) := by
  have hr : (prob1 oneD (fun _ => y) .quadratic pen).run argsortIns oneCfg = .ok (fun _ => v, 1) := by
    rw [RProb.run_one argsortIns_spec _ rfl rfl (by decide) (by decide), oneD_step, hp]
    · refine RProb.viol_gt _ 0 ?_
      rw [oneD_grad, zero_sub]; exact h0
    · rw [oneD_step, hp]
      refine RProb.viol_le_of _ (Or.inl hm) fun j => ?_
      rw [Subsingleton.elim j 0, oneD_grad]
      exact h1
  rw [solve1_eq argsortIns_spec one_pos oneD (fun _ => y) .quadratic pen hv, hr]
  rfl

theorem C37_mt_false : ¬ C37_mt_full := by
  intro h
  have h1 := h argsortIns argsortIns_spec 1 1 1 one_pos c31D (fun _ _ => 1 / 2) (3 / 10) (by norm_num)
    ⟨XR.fin (3 / 10), 50, 1, 10, XR.fin 0, 5, false, true⟩ rfl
  rw [fitMTElasticNet_eq argsortIns _ (3 / 10) 1 rfl rfl, fitMTLasso_eq argsortIns _ (3 / 10) rfl] at h1
  have c1 : LassoParams.checkRef (F := XR) ⟨XR.fin (3 / 10), 50, 1, 10, XR.fin 0, 5, false, true⟩ = .ok _ :=
    checkRef_ok _ (α := 3 / 10) (τ := 0) rfl (by norm_num) rfl le_rfl (by decide) (by decide)
  have c2 : ∃ q, ElasticNetParams.checkRef (F := XR)
      (withL1Ratio ⟨XR.fin (3 / 10), 50, 1, 10, XR.fin 0, 5, false, true⟩ (XR.fin 1)) = .ok q := by
    refine ⟨withL1Ratio ⟨XR.fin (3 / 10), 50, 1, 10, XR.fin 0, 5, false, true⟩ (XR.fin 1), ?_⟩
    unfold ElasticNetParams.checkRef checkTail withL1Ratio
    dsimp only
    rw [XR.s_one, XR.s_zero, XR.s_lt, XR.s_lt, XR.s_signBit, XR.s_signBit, decide_eq_false (by norm_num),
      decide_eq_false (by norm_num), decide_eq_false (by norm_num), decide_eq_false (by norm_num)]
    simp
  obtain ⟨q, c2⟩ := c2
  rw [c1, c2, guarded_ok, guarded_ok] at h1
  have h2 := (C31_stops_at_zero argsortIns_spec oneCfg 0 le_rfl rfl).1
  have h3 : solveMT argsortIns oneCfg c31D (fun _ (_ : Fin 1) => 1 / 2) (.l21 (3 / 10)) =
      .ok (column (vec fun _ : Fin 1 => 1 / 5)) := by
    have := C39_solve argsortIns_spec one_pos c31D (fun _ => 1 / 2) (3 / 10) (by norm_num) oneCfg
    rw [this]
    have e : solve1 argsortIns oneCfg c31D (fun _ => 1 / 2) .quadratic (.l1 (3 / 10)) =
        .ok (vec fun _ : Fin 1 => 1 / 5) :=
      oneD_solve (1 / 2) (1 / 5) (.l1 (3 / 10)) (by norm_num [Pen.Valid]) rfl (by norm_num [proxOf, softR])
        (by norm_num [scoreOf, l1Score, abs_of_neg]) (by norm_num [scoreOf, l1Score])
    rw [e]
    rfl
  change Except.ok <$> solveMT argsortIns oneCfg c31D _ _ = Except.ok <$> solveMT argsortIns oneCfg c31D _ _ at h1
  rw [h2, h3, column_vec] at h1
  injection h1 with h1
  injection h1 with h1
  have h4 := congrFun (emat_injective h1) 0
  have h5 : (1 / 5 : ℝ) = 0 := row1_zero.mp h4.symm
  norm_num at h5

/-! ## C49: negated targets -/

/-- All entries negated. -/
noncomputable def negList (w : List XR) : List XR := w.map fun x => -.x

/-- All entries negated. -/
noncomputable def negMat (W : Mat XR) : Mat XR := ⟨W.ncols, W.rows.map negList⟩

theorem negList_vec (w : Fin p → ℝ) : negList (vec w) = vec fun j => -w j := by
  unfold negList vec
  rw [List.map_ofFn]
  rfl

theorem negMat_emat (W : Fin p → Euc T) : negMat (emat W) = emat fun j => -W j := by
  unfold negMat emat mat
  dsimp only
  rw [List.map_ofFn]
  exact congrArg _ (congrArg _ (funext fun j => negList_vec _))

/-- Negating targets (or labels) negates the coefficients. -/
theorem C49_solve {srt : Argsort XR} (hs : ArgsortSpec srt) (hn : 0 < n) (D : Design n p) (y : Fin n → ℝ)
    (k : LossKind) (pen : Pen) (hv : pen.Valid) (cfg : Solver XR) :
    solve1 srt cfg D (fun i => -y i) k pen = negList <$> solve1 srt cfg D y k pen := by
  rw [solve1_eq hs hn D y k pen hv, solve1_eq hs hn D _ k pen hv, (prob1_neg D y k pen hv).run]
  cases (prob1 D y k pen).run srt cfg with
  | error e => rfl
  | ok q => exact congrArg Except.ok (negList_vec q.1).symm

/-- The same for the multi-task solver. -/
theorem C49_solve_mt {srt : Argsort XR} (hs : ArgsortSpec srt) (hn : 0 < n) (D : Design n p) (Y : Fin n → Fin T → ℝ)
    (pen : BPen) (hv : pen.Valid) (cfg : Solver XR) :
    solveMT srt cfg D (fun i t => -Y i t) pen = negMat <$> solveMT srt cfg D Y pen := by
  rw [solveMT_eq hs hn D Y pen hv, solveMT_eq hs hn D _ pen hv, (probMT_neg D Y pen).run]
  cases (probMT D Y pen).run srt cfg with
  | error e => rfl
  | ok q => exact congrArg Except.ok (negMat_emat q.1).symm

/-- The single-task estimators. -/
theorem C49_fit {srt : Argsort XR} (hs : ArgsortSpec srt) (hn : 0 < n) (D : Design n p)
    (y : Fin n → ℝ) (α c : ℝ) :
    (∀ ps : LassoParams XR, ps.alpha = XR.fin α →
      fitLasso srt ps D (fun i => -y i) = mapFit negList (fitLasso srt ps D y)) ∧
    (∀ ps : ElasticNetParams XR, ps.alpha = XR.fin α → ps.l1Ratio = XR.fin c →
      fitElasticNet srt ps D (fun i => -y i) = mapFit negList (fitElasticNet srt ps D y)) ∧
    (∀ ps : MCParams XR, ps.alpha = XR.fin α → ps.gamma = XR.fin c →
      fitMCP srt ps D (fun i => -y i) = mapFit negList (fitMCP srt ps D y)) := by
  refine ⟨fun ps ha => ?_, fun ps ha hr => ?_, fun ps ha hr => ?_⟩
  · rw [fitLasso_eq srt ps α ha, fitLasso_eq srt ps α ha, ← guarded_map]
    exact guarded_congr fun q hq => C49_solve hs hn D y _ (.l1 α) (lasso_valid ha hq) _
  · rw [fitElasticNet_eq srt ps α c ha hr, fitElasticNet_eq srt ps α c ha hr, ← guarded_map]
    exact guarded_congr fun q hq => C49_solve hs hn D y _ (.enet α c) (enet_valid ha hr hq) _
  · rw [fitMCP_eq srt ps α c ha hr, fitMCP_eq srt ps α c ha hr, ← guarded_map]
    exact guarded_congr fun q hq => C49_solve hs hn D y _ (.mcp α c) (mcp_valid ha hr hq) _

/-! ## Examples -/

/-- The columns `(1, 2)` and `(0, 3)`. -/
noncomputable def eqCSC : CSCData 2 2 where
  nnz := 3
  data := ![1, 2, 3]
  row := ![0, 1, 1]
  ptr := ![0, 2, 3]
  ptr_le := by decide

theorem eqCSC_nodup : eqCSC.NoDup := by
  unfold CSCData.NoDup CSCData.InCol eqCSC
  dsimp only
  decide

/-- The default settings of the estimators with `alpha = a`. -/
noncomputable def psOf (a : ℝ) : LassoParams XR := (LassoParams.new : LassoParams XR).setAlpha (XR.fin a)

example : solve1 argsortIns oneCfg (.csc eqCSC) (fun i => i) .logistic (.mcp 1 3) =
    solve1 argsortIns oneCfg (.dense eqCSC.dense) (fun i => i) .logistic (.mcp 1 3) :=
  C34_solve argsortIns_spec two_pos eqCSC eqCSC_nodup _ _ (.mcp 1 3) ⟨zero_le_one, three_pos⟩ _

example : solveMT argsortIns oneCfg (.csc eqCSC) (fun i (t : Fin 3) => i + t) (.enet 1 1) =
    solveMT argsortIns oneCfg (.dense eqCSC.dense) (fun i (t : Fin 3) => i + t) (.enet 1 1) :=
  C34_solve_mt argsortIns_spec two_pos eqCSC eqCSC_nodup _ (.enet 1 1) ⟨one_pos, one_pos, le_rfl⟩ _

example : fitLasso argsortIns (psOf 1) (.csc eqCSC) (fun i => i) =
    fitLasso argsortIns (psOf 1) (.dense eqCSC.dense) (fun i => i) :=
  (C34_fit argsortIns_spec two_pos eqCSC eqCSC_nodup _ 1 0).1 _ rfl

example : fitMTLasso argsortIns (psOf 1) (.csc eqCSC) (fun i (t : Fin 3) => i + t) =
    fitMTLasso argsortIns (psOf 1) (.dense eqCSC.dense) (fun i (t : Fin 3) => i + t) :=
  (C34_fit_mt argsortIns_spec two_pos eqCSC eqCSC_nodup _ 1 1 one_pos one_pos).1 _ rfl

-- both sides of C37 are `[2]` here
example : solve1 argsortIns oneCfg oneD (fun _ => 3) .quadratic (.enet 1 1) = .ok (vec fun _ : Fin 1 => 2) :=
  (C37_solve argsortIns_spec one_pos oneD (fun _ => 3) .quadratic 1 zero_le_one oneCfg).trans
    (oneD_solve 3 2 (.l1 1) zero_le_one rfl (by norm_num [proxOf, softR]) (by norm_num [scoreOf, l1Score])
      (by norm_num [scoreOf, l1Score]))

example : fitElasticNet argsortIns (withL1Ratio (psOf 1) (XR.fin 1)) (.csc eqCSC) (fun i => i) =
    fitLasso argsortIns (psOf 1) (.csc eqCSC) (fun i => i) :=
  C37_fit argsortIns_spec two_pos _ _ 1 _ rfl

example (W : Fin 2 → Euc 3) (j : Fin 2) :
    updateMT (.csc eqCSC) (fun i (t : Fin 3) => i + t) (.enet 1 1) ⟨emat W, mat (fitMT eqCSC.dense fun j => (W j).ofLp)⟩ j =
    updateMT (.csc eqCSC) (fun i (t : Fin 3) => i + t) (.l21 1) ⟨emat W, mat (fitMT eqCSC.dense fun j => (W j).ofLp)⟩ j :=
  C37_mt_update_partial two_pos (.csc eqCSC) _ 1 one_pos W j

example : oneCfg.solve argsortIns (denseDs (fun _ _ : Fin 1 => 1) (fun _ => 3)) (Quadratic.new : Quadratic XR)
    (MCP.mk (XR.fin 1) XR.pinf) = .ok (vec fun _ : Fin 1 => 2) :=
  (C38_solve argsortIns_spec one_pos (fun _ _ : Fin 1 => 1) oneCSC (fun _ => 3) 1 one_pos oneCfg).1.trans
    (oneD_solve 3 2 (.l1 1) zero_le_one rfl (by norm_num [proxOf, softR]) (by norm_num [scoreOf, l1Score])
      (by norm_num [scoreOf, l1Score]))

example : fitMCP argsortIns (withGamma (psOf 1) XR.pinf) (.csc eqCSC) (fun i => i) =
    fitLasso argsortIns (psOf 1) (.csc eqCSC) (fun i => i) :=
  C38_fit argsortIns_spec two_pos _ _ 1 one_ne_zero _ rfl

example : solveMT argsortIns oneCfg oneD (fun _ (_ : Fin 1) => 3) (.l21 1) =
    .ok (column (vec fun _ : Fin 1 => 2)) := by
  rw [C39_solve argsortIns_spec one_pos oneD (fun _ => 3) 1 one_pos oneCfg,
    oneD_solve 3 2 (.l1 1) zero_le_one rfl (by norm_num [proxOf, softR]) (by norm_num [scoreOf, l1Score])
      (by norm_num [scoreOf, l1Score])]
  rfl

example : fitMTLasso argsortIns (psOf 1) (.csc eqCSC) (fun i (_ : Fin 1) => i) =
    mapFit column (fitLasso argsortIns (psOf 1) (.csc eqCSC) fun i => i) :=
  C39_fit argsortIns_spec two_pos _ _ 1 one_pos _ rfl

-- the solution for the target `-3` is `-2`
example : solve1 argsortIns oneCfg oneD (fun _ => -3) .quadratic (.l1 1) =
    .ok (negList (vec fun _ : Fin 1 => 2)) := by
  rw [C49_solve argsortIns_spec one_pos oneD (fun _ => 3) .quadratic (.l1 1) zero_le_one oneCfg,
    oneD_solve 3 2 (.l1 1) zero_le_one rfl (by norm_num [proxOf, softR]) (by norm_num [scoreOf, l1Score])
      (by norm_num [scoreOf, l1Score])]
  rfl

example : solveMT argsortIns oneCfg (.csc eqCSC) (fun i (t : Fin 3) => -(i + t)) (.mcp 1 3) =
    negMat <$> solveMT argsortIns oneCfg (.csc eqCSC) (fun i (t : Fin 3) => i + t) (.mcp 1 3) :=
  C49_solve_mt argsortIns_spec two_pos _ _ (.mcp 1 3) ⟨zero_le_one, three_pos⟩ _

example : fitElasticNet argsortIns (withL1Ratio (psOf 1) (XR.fin (1 / 2))) (.csc eqCSC) (fun i => -i) =
    mapFit negList (fitElasticNet argsortIns (withL1Ratio (psOf 1) (XR.fin (1 / 2))) (.csc eqCSC) (fun i => i)) :=
  (C49_fit argsortIns_spec two_pos (.csc eqCSC) _ 1 (1 / 2)).2.1 _ rfl rfl

end Sglm
