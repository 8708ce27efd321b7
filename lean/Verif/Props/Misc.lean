import Verif.Proofs.ZeroCol
import Verif.Proofs.NaN
import Verif.Proofs.Fits
import Verif.Props.Certificate

/-!
# C14, C44, C45: L0.5 penalties, zero columns, NaN targets
-/

namespace Sglm
open Scalar Spec
variable {n p T : ℕ}

/-! ## C14 -/

/-- If changing a single coefficient of the zero vector lowers the objective, then a run of the solver (at least one
epoch over at least one feature) returns coefficients with a smaller objective than zero. -/
def C14_full : Prop :=
  ∀ (n p : ℕ) (D : Design n p) (y : Fin n → ℝ) (α τ : ℝ) (srt : Argsort XR) (cfg : Solver XR),
    0 < n → ArgsortSpec srt → 0 < α → 0 ≤ τ → cfg.tolerance = XR.fin τ →
    0 < cfg.maxIterations → 0 < cfg.maxEpochs → 0 < cfg.wsStartSize →
    (∃ (j : Fin p) (z : ℝ), objective1 D y .quadratic (.l05 α) (Function.update (fun _ => 0) j z) <
      objective1 D y .quadratic (.l05 α) (fun _ => 0)) →
    ∀ v : Fin p → ℝ, solve1 srt cfg D y .quadratic (.l05 α) = .ok (vec v) →
      objective1 D y .quadratic (.l05 α) v < objective1 D y .quadratic (.l05 α) (fun _ => 0)

/-- What happens instead, in every float format and for every datafit and design: a run with the L0.5 penalty returns
zeros. -/
theorem C14_returns_zeros {F DM DF : Type} [Scalar F] [DesignMatrix F DM] [Datafit F DM DF] (srt : Argsort F)
    (cfg : Solver F) (ht : (zero <=. cfg.tolerance) = true) (ds : Dataset DM F) (df : DF) (α : F) (w : List F)
    (h : cfg.solve srt ds df (L05.mk α) = .ok w) : ∀ x ∈ w, x = zero := by
  rw [solve_eq] at h
  unfold runCD at h
  cases h1 : DesignMatrix.nFeatures ds.designMatrix with
  | error e => rw [h1] at h; cases h
  | ok nf =>
    rw [h1] at h
    dsimp only [bind, Except.bind] at h
    cases h2 : Datafit.init df ds with
    | error e => rw [h2] at h; cases h
    | ok df' =>
      rw [h2] at h
      dsimp only at h
      have key : (skelCD srt ds df' (L05.mk α) cfg nf (ws0CD cfg nf)).outer cfg.maxIterations
          (initCD ds.targets.nSamples nf) = .ok (initCD ds.targets.nSamples nf, 0) ∨
          ∃ e, (skelCD srt ds df' (L05.mk α) cfg nf (ws0CD cfg nf)).outer cfg.maxIterations
          (initCD ds.targets.nSamples nf) = .error e := by
        cases h3 : cfg.maxIterations with
        | zero => exact Or.inl rfl
        | succ r =>
          cases h4 : constructGrad ds (List.replicate ds.targets.nSamples zero) (List.range nf) df' with
          | error e =>
            refine Or.inr ⟨e, ?_⟩
            have : (skelCD srt ds df' (L05.mk α) cfg nf (ws0CD cfg nf)).viol (initCD ds.targets.nSamples nf) = .error e := by
              show optCondViolation _ _ _ _ _ _ = _
              unfold optCondViolation initCD
              dsimp only
              rw [h4]; rfl
            rw [Skel.outer, this]; rfl
          | ok g =>
            left
            refine Skel.outer_done _ _ _ (List.replicate (List.range nf).length zero) zero ?_ ht
            show optCondViolation _ _ _ _ _ _ = _
            unfold optCondViolation initCD
            dsimp only
            rw [h4]; rfl
      rcases key with key | ⟨e, key⟩
      · rw [key] at h
        injection h with h
        intro x hx
        rw [← h] at hx
        exact List.eq_of_mem_replicate hx
      · rw [key] at h; cases h

/-- On real problems: no panic, the result is zero. -/
theorem C14_null {srt : Argsort XR} (hs : ArgsortSpec srt) (hn : 0 < n) (D : Design n p) (y : Fin n → ℝ) (k : LossKind)
    (α : ℝ) (hα : 0 < α) (cfg : Solver XR) (τ : ℝ) (hτ : 0 ≤ τ) (ht : cfg.tolerance = XR.fin τ) :
    solve1 srt cfg D y k (.l05 α) = .ok (vec fun _ : Fin p => 0) := by
  rw [solve1_eq hs hn D y k (.l05 α) hα, RProb.run_zero]
  · rfl
  · rw [ht]
    exact (prob1 D y k (.l05 α)).viol_le_of (Or.inr ⟨rfl, hτ⟩) fun j => hτ

/-- What remains true: the result is never worse than zero. -/
theorem C14_not_worse_partial {srt : Argsort XR} (hs : ArgsortSpec srt) (hn : 0 < n) (D : Design n p)
    (hD : D.Canonical) (y : Fin n → ℝ) (k : LossKind) (hy : k.LabelsOK y) (α : ℝ) (hα : 0 < α) (cfg : Solver XR)
    (v : Fin p → ℝ) (h : solve1 srt cfg D y k (.l05 α) = .ok (vec v)) :
    objective1 D y k (.l05 α) v ≤ objective1 D y k (.l05 α) (fun _ => 0) :=
  C28_result hs hn D hD y k hy (.l05 α) hα trivial cfg v h

theorem oneD_objective (y z : ℝ) (pen : Pen) :
    objective1 oneD (fun _ => y) .quadratic pen (fun _ => z) = (y - z) ^ 2 / 2 + pen.fn z := by
  unfold objective1 oneD LossKind.loss quadLoss fit Design.matrix
  simp

/-- `x = 1`, `y = 3`, penalty `√|w|`: the objective at zero is 4.5, at three it is less than 2. -/
theorem C14_false : ¬ C14_full := by
  intro h
  have h1 := h 1 1 oneD (fun _ => 3) 1 0 argsortIns oneCfg one_pos argsortIns_spec one_pos le_rfl rfl (by decide)
    (by decide) (by decide) ⟨0, 3, ?_⟩ _ (C14_null argsortIns_spec one_pos oneD _ .quadratic 1 one_pos oneCfg 0 le_rfl rfl)
  · exact lt_irrefl _ h1
  · have : Function.update (fun _ : Fin 1 => (0 : ℝ)) 0 3 = fun _ => 3 := by
      funext j; rw [Subsingleton.elim j 0, Function.update_self]
    rw [this, oneD_objective, oneD_objective]
    have h3 : Real.sqrt |(3 : ℝ)| ≤ 2 := by
      rw [abs_of_pos (by norm_num)]
      exact Real.sqrt_le_iff.mpr ⟨by norm_num, by norm_num⟩
    simp only [Pen.fn]
    rw [abs_zero, Real.sqrt_zero]
    norm_num at h3 ⊢
    linarith

/-! ## C44 -/

/-- Exact arithmetic, with or without acceleration: a feature whose column is zero has coefficient zero. -/
theorem C44_zero_column {srt : Argsort XR} (hs : ArgsortSpec srt) (hn : 0 < n) (D : Design n p) (y : Fin n → ℝ)
    (k : LossKind) (pen : Pen) (hv : pen.Valid) (cfg : Solver XR) (j : Fin p) (hj : ∀ i, D.matrix i j = 0)
    (v : Fin p → ℝ) (h : solve1 srt cfg D y k pen = .ok (vec v)) : v j = 0 := by
  rw [solve1_eq hs hn D y k pen hv] at h
  cases hr : (prob1 D y k pen).run srt cfg with
  | error e => rw [hr] at h; cases h
  | ok q =>
    rw [hr] at h
    injection h with h
    rw [← vec_injective h]
    exact (prob1 D y k pen).run_zero_feature cfg j (fun w => gradOf_zero_col D.matrix y _ k j hj)
      (fun s hs => proxOf_zero pen hv s hs) (stepsOf_nonneg D k j) hr

/-- The same for multi-task problems. -/
theorem C44_zero_column_mt {srt : Argsort XR} (hs : ArgsortSpec srt) (hn : 0 < n) (D : Design n p)
    (Y : Fin n → Fin T → ℝ) (pen : BPen) (hv : pen.Valid) (cfg : Solver XR) (j : Fin p) (hj : ∀ i, D.matrix i j = 0)
    (V : Fin p → Euc T) (h : solveMT srt cfg D Y pen = .ok (emat V)) : V j = 0 := by
  rw [solveMT_eq hs hn D Y pen hv] at h
  cases hr : (probMT D Y pen).run srt cfg with
  | error e => rw [hr] at h; cases h
  | ok q =>
    rw [hr] at h
    injection h with h
    rw [← emat_injective h]
    refine (probMT D Y pen).run_zero_feature cfg j (fun w => ?_)
      (fun s hs => bproxOf_zero pen hv s hs) (stepsOf_nonneg D .quadratic j) hr
    exact congrArg (WithLp.toLp 2) (mtGrad_zero_col D.matrix Y _ j hj)

/-! ## C45 -/

/-- Fitting data whose targets contain NaN is reported as an error (or panics). -/
def C45_full : Prop :=
  ∀ (n p : ℕ) (X : Mat XR) (y : List XR) (srt : Argsort XR) (ps : LassoParams XR),
    Shaped X n p → y.length = n → XR.nan ∈ y →
    ¬ ∃ w, Lasso.fit srt ps ⟨X, Targets.one y⟩ = .ok (.ok w)

/-- What happens instead (dense designs, any entries; valid parameters, tolerance at least zero): the Lasso returns the
null model.  At least the NaN does not leak into the coefficients. -/
theorem C45_lasso_partial (X : Mat XR) (y : List XR) (hX : Shaped X n p) (hy : y.length = n) (hn : XR.nan ∈ y)
    (srt : Argsort XR) (ps q : LassoParams XR) (hp : ps.checkRef = .ok q)
    (ht : (XR.fin 0 <=. ps.tolerance) = true) :
    Lasso.fit srt ps ⟨X, Targets.one y⟩ = .ok (.ok (List.replicate p (XR.fin 0))) := by
  unfold Lasso.fit
  rw [guardedFit_eq (m := ps.solver.solve srt ⟨X, Targets.one y⟩ (Quadratic.new : Quadratic XR) (L1.mk ps.alpha))
    (fun q h => (LassoParams.checkRef_ok h).1) (by unfold Lasso.fitValid; rw [fitCD_eq]), hp, guarded_ok,
    solve_nan (L1.mk ps.alpha) (L1.dist (L1.mk ps.alpha)) rfl (by
      unfold L1.dist
      rw [if_pos (by simp [Scalar.beq, Scalar.zero, XR.beq])]
      rfl) srt ps.solver ht hX hy hn]
  rfl

/-- The same for the elastic net. -/
theorem C45_enet_partial (X : Mat XR) (y : List XR) (hX : Shaped X n p) (hy : y.length = n) (hn : XR.nan ∈ y)
    (srt : Argsort XR) (ps q : ElasticNetParams XR) (hp : ps.checkRef = .ok q)
    (ht : (XR.fin 0 <=. ps.tolerance) = true) :
    ElasticNet.fit srt ps ⟨X, Targets.one y⟩ = .ok (.ok (List.replicate p (XR.fin 0))) := by
  unfold ElasticNet.fit
  rw [guardedFit_eq (m := ps.solver.solve srt ⟨X, Targets.one y⟩ (Quadratic.new : Quadratic XR)
      (L1PlusL2.mk ps.alpha ps.l1Ratio))
    (fun q h => (ElasticNetParams.checkRef_ok h).1) (by unfold ElasticNet.fitValid; rw [fitCD_eq]), hp, guarded_ok,
    solve_nan (L1PlusL2.mk ps.alpha ps.l1Ratio) (L1PlusL2.dist (L1PlusL2.mk ps.alpha ps.l1Ratio)) rfl (by
      unfold L1PlusL2.dist
      rw [if_pos (by simp [Scalar.beq, Scalar.zero, XR.beq])]
      rfl) srt ps.solver ht hX hy hn]
  rfl

/-- The same for MCP. -/
theorem C45_mcp_partial (X : Mat XR) (y : List XR) (hX : Shaped X n p) (hy : y.length = n) (hn : XR.nan ∈ y)
    (srt : Argsort XR) (ps q : MCParams XR) (hp : ps.checkRef = .ok q)
    (ht : (XR.fin 0 <=. ps.tolerance) = true) :
    MCPEstimator.fit srt ps ⟨X, Targets.one y⟩ = .ok (.ok (List.replicate p (XR.fin 0))) := by
  unfold MCPEstimator.fit
  rw [guardedFit_eq (m := ps.solver.solve srt ⟨X, Targets.one y⟩ (Quadratic.new : Quadratic XR)
      (MCP.mk ps.alpha ps.gamma))
    (fun q h => (MCParams.checkRef_ok h).1) (by unfold MCPEstimator.fitValid; rw [fitCD_eq]), hp, guarded_ok,
    solve_nan (MCP.mk ps.alpha ps.gamma) (MCP.dist (MCP.mk ps.alpha ps.gamma)) rfl (by
      unfold MCP.dist
      rw [if_pos (by simp [Scalar.beq, Scalar.zero, XR.beq])]
      rfl) srt ps.solver ht hX hy hn]
  rfl

/-- Default-like parameters over `XR`. -/
noncomputable def nanPs : LassoParams XR := ⟨XR.fin 1, 50, 1000, 10, XR.fin (1 / 1000000), 5, true, false⟩

theorem nanPs_ok : nanPs.checkRef = .ok nanPs := by
  unfold LassoParams.checkRef checkTail nanPs
  simp [Scalar.signBit, XR.signBit]
  norm_num

theorem nanPs_tol : (XR.fin 0 <=. nanPs.tolerance) = true := by
  rw [nanPs, XR.s_le]
  exact decide_eq_true (by norm_num)

/-- Two samples, one of them with target NaN. -/
theorem C45_false : ¬ C45_full := fun h =>
  h 2 1 ⟨1, [[XR.fin 1], [XR.fin 2]]⟩ [XR.nan, XR.fin 5] argsortIns nanPs ⟨rfl, rfl, by simp⟩ rfl (by simp)
    ⟨_, C45_lasso_partial (n := 2) (p := 1) _ _ ⟨rfl, rfl, by simp⟩ rfl (by simp) argsortIns nanPs nanPs nanPs_ok nanPs_tol⟩

/-! ## Examples -/

section

example : solve1 argsortIns oneCfg oneD (fun _ => 3) .quadratic (.l05 1) = .ok (vec fun _ : Fin 1 => 0) :=
  C14_null argsortIns_spec one_pos oneD _ .quadratic 1 one_pos oneCfg 0 le_rfl rfl

/-- Second column zero. -/
noncomputable def zcD : Design 2 3 := .dense ![![1, 0, 2], ![-1, 0, 1]]

/-- Accelerated. -/
noncomputable def zcCfg : Solver XR := ⟨10, 50, 1000, XR.fin (1 / 1000), 2, true, false⟩

example : ∃ v : Fin 3 → ℝ, solve1 argsortIns zcCfg zcD ![3, 4] .quadratic (.l1 (1 / 10)) = .ok (vec v) ∧ v 1 = 0 := by
  obtain ⟨v, hv⟩ : ∃ v : Fin 3 → ℝ, solve1 argsortIns zcCfg zcD ![3, 4] .quadratic (.l1 (1 / 10)) = .ok (vec v) :=
    C26_finite_partial argsortIns_spec two_pos zcD ![3, 4] .quadratic (.l1 (1 / 10)) (by norm_num [Pen.Valid]) zcCfg
      (by decide) (by decide) (by decide)
  exact ⟨v, hv, C44_zero_column argsortIns_spec two_pos zcD ![3, 4] .quadratic (.l1 (1 / 10)) (by norm_num [Pen.Valid])
    zcCfg 1 (fun i => by fin_cases i <;> rfl) v hv⟩

example : ∃ V : Fin 3 → Euc 2, solveMT argsortIns zcCfg zcD ![![3, 4], ![-3, 1]] (.l21 (1 / 10)) = .ok (emat V) ∧ V 1 = 0 := by
  obtain ⟨V, hV⟩ : ∃ V : Fin 3 → Euc 2,
      solveMT argsortIns zcCfg zcD ![![3, 4], ![-3, 1]] (.l21 (1 / 10)) = .ok (emat V) := by
    obtain ⟨V, hV⟩ := C26_finite_mt_partial argsortIns_spec two_pos zcD ![![3, 4], ![-3, 1]] (.l21 (1 / 10))
      (by norm_num [BPen.Valid]) zcCfg (by decide) (by decide) (by decide)
    exact ⟨fun j => WithLp.toLp 2 (V j), hV⟩
  exact ⟨V, hV, C44_zero_column_mt argsortIns_spec two_pos zcD _ (.l21 (1 / 10)) (by norm_num [BPen.Valid])
    zcCfg 1 (fun i => by fin_cases i <;> rfl) V hV⟩

end
end Sglm
