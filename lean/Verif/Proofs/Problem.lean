import Verif.Proofs.SimBCD
import Verif.Proofs.Losses
import Verif.Spec.Problem
import Verif.Spec.Run

/-!
# Calls of the public API as runs over the reals
-/

namespace Sglm
open Scalar Spec
variable {n p T : ℕ}

theorem vec_injective {f g : Fin n → ℝ} (h : vec f = vec g) : f = g := vec_inj.mp h

theorem mat_injective {X X' : Fin n → Fin p → ℝ} (h : mat X = mat X') : X = X' := by
  unfold mat at h
  injection h with _ h
  funext i
  exact vec_inj.mp (congrFun (List.ofFn_injective h) i)

theorem emat_injective {W W' : Fin p → Euc T} (h : emat W = emat W') : W = W' := by
  funext j
  have := congrFun (mat_injective h) j
  ext t
  exact congrFun this t

/-- Gradient of the loss. -/
noncomputable def gradOf (X : Fin n → Fin p → ℝ) (y : Fin n → ℝ) : LossKind → (Fin n → ℝ) → Fin p → ℝ
  | .quadratic => quadGrad X y
  | .logistic => logGrad X y

/-- Step constants. -/
noncomputable def stepsOf : Design n p → LossKind → Fin p → ℝ
  | .dense X, .quadratic => quadStep X
  | .dense X, .logistic => logStep X
  | .csc A, .quadratic => cscStep A
  | .csc A, .logistic => cscLogStep A

/-- Proximal operators. -/
noncomputable def proxOf : Pen → ℝ → ℝ → ℝ
  | .l1 α => fun v s => softR v (α * s)
  | .enet α ρ => enetProxR α ρ
  | .mcp α γ => mcpProxR α γ
  | .l05 α => fun v s => prox05R v (s * α)

/-- Scores. -/
noncomputable def scoreOf : Pen → ℝ → ℝ → ℝ
  | .l1 α => l1Score α
  | .enet α ρ => enetScore α ρ
  | .mcp α γ => mcpScore α γ
  | .l05 _ => fun _ _ => 0

/-- Maximal score of an empty problem. -/
def m0Of : Pen → XR
  | .l05 _ => XR.fin 0
  | _ => XR.ninf

/-- The real problem behind a call. -/
noncomputable def prob1 (D : Design n p) (y : Fin n → ℝ) (k : LossKind) (pen : Pen) : RProb ℝ p :=
  probCD D.matrix (k.loss y) (gradOf D.matrix y k) (stepsOf D k) pen.fn (proxOf pen) (scoreOf pen) (m0Of pen)

theorem colSq_nonneg (A : CSCData n p) (j : Fin p) : 0 ≤ colSq A j := by
  unfold colSq
  refine List.sum_nonneg fun x hx => ?_
  rw [List.mem_map] at hx
  obtain ⟨k, -, rfl⟩ := hx
  exact mul_self_nonneg _

theorem stepsOf_nonneg (D : Design n p) (k : LossKind) (j : Fin p) : 0 ≤ stepsOf D k j := by
  cases D <;> cases k
  · exact quadStep_nonneg _ j
  · exact logStep_nonneg _ j
  · exact div_nonneg (colSq_nonneg _ j) (Nat.cast_nonneg n)
  · exact div_nonneg (colSq_nonneg _ j) (by positivity)

/-- What holds for all datafit, penalty and storage types which behave like the problem. -/
theorem call1_elim (hn : 0 < n) (D : Design n p) (y : Fin n → ℝ) (k : LossKind) (pen : Pen) (hv : pen.Valid)
    {α : Type}
    (run : ∀ {DM DF P : Type} [DesignMatrix XR DM] [Datafit XR DM DF] [Penalty XR P], Dataset DM XR → DF → P → α)
    (Q : α → Prop)
    (h : ∀ {DM DF P : Type} [DesignMatrix XR DM] [Datafit XR DM DF] [Penalty XR P] (ds : Dataset DM XR)
      (df df0 : DF) (pn : P), DSem ds df D.matrix (k.loss y) (gradOf D.matrix y k) (stepsOf D k) →
      PSem pn pen.fn (proxOf pen) (scoreOf pen) (m0Of pen) → Q (run ds df0 pn)) :
    Q (call1 D y k pen run) := by
  unfold call1
  have hp : ∀ Q' : α → Prop, ∀ r : ∀ {P : Type} [Penalty XR P], P → α,
      (∀ {P : Type} [Penalty XR P] (pn : P), PSem pn pen.fn (proxOf pen) (scoreOf pen) (m0Of pen) → Q' (r pn)) →
      Q' (callPen pen r) := by
    intro Q' r h
    cases pen with
    | l1 α => exact h _ (l1_sem α)
    | enet α ρ => exact h _ (enet_sem α ρ hv.1 hv.2.2)
    | mcp α γ => exact h _ (mcp_sem α γ hv.1 hv.2)
    | l05 α => exact h _ (l05_sem α hv)
  refine hp _ _ fun pn hpn => ?_
  cases D with
  | dense X =>
    cases k with
    | quadratic => exact h _ _ _ _ (quad_dense X y hn) hpn
    | logistic => exact h _ _ _ _ (log_dense X y hn) hpn
  | csc A =>
    cases k with
    | quadratic => exact h _ _ _ _ (quad_csc_all A y hn) hpn
    | logistic => exact h _ _ _ _ (log_csc_all A y hn) hpn

/-- The single-task API over the reals. -/
theorem solve1_eq {srt : Argsort XR} (hs : ArgsortSpec srt) (hn : 0 < n) (D : Design n p) (y : Fin n → ℝ)
    (k : LossKind) (pen : Pen) (hv : pen.Valid) (cfg : Solver XR) :
    solve1 srt cfg D y k pen = (fun q => vec q.1) <$> (prob1 D y k pen).run srt cfg :=
  call1_elim hn D y k pen hv _ (fun r => r = (fun q => vec q.1) <$> (prob1 D y k pen).run srt cfg)
    fun _ _ df0 _ hd hp => solveCD_eq hd hp (stepsOf_nonneg D k) hs cfg df0

/-- A coordinate update over the reals. -/
theorem update1_eq (hn : 0 < n) (D : Design n p) (y : Fin n → ℝ) (k : LossKind) (pen : Pen) (hv : pen.Valid)
    (w : Fin p → ℝ) (j : Fin p) :
    update1 D y k pen ⟨vec w, vec (fit D.matrix w)⟩ j =
      .ok ⟨vec ((prob1 D y k pen).step w j), vec (fit D.matrix ((prob1 D y k pen).step w j))⟩ :=
  call1_elim hn D y k pen hv _ (fun r => r = _) fun ds df df0 pn hd hp => by
    rw [hd.init]
    exact cdStep_eq hd hp (stepsOf_nonneg D k) w j

/-- An epoch over the reals. -/
theorem epoch1_eq (hn : 0 < n) (D : Design n p) (y : Fin n → ℝ) (k : LossKind) (pen : Pen) (hv : pen.Valid)
    (cfg : Solver XR) (l : List (Fin p)) (hl : l.Nodup) (e : ℕ) (b : ℕ → ℕ → ℝ) (w : Fin p → ℝ) :
    epoch1 cfg D y k pen (l.map Fin.val) e (matN (cfg.K + 1) l.length b) ⟨vec w, vec (fit D.matrix w)⟩ =
      (fun r => (matN (cfg.K + 1) l.length r.1, ⟨vec r.2, vec (fit D.matrix r.2)⟩)) <$>
        (prob1 D y k pen).accel cfg l e b (l.foldl (prob1 D y k pen).step w) :=
  call1_elim hn D y k pen hv _ (fun r => r = _) fun ds df df0 pn hd hp => by
    rw [hd.init]
    dsimp only [bind, Except.bind]
    rw [cdEpoch_eq hd hp (stepsOf_nonneg D k)]
    have := accel_eq hd hp cfg l hl e b (l.foldl (prob1 D y k pen).step w)
    refine Eq.trans ?_ this
    rfl

/-- The whole run over the reals, with the number of iterations. -/
theorem trace1_run {srt : Argsort XR} (hs : ArgsortSpec srt) (hn : 0 < n) (D : Design n p) (y : Fin n → ℝ)
    (k : LossKind) (pen : Pen) (hv : pen.Valid) (cfg : Solver XR) (st : CDState XR) (log : List (Event XR))
    (h : trace1 srt cfg D y k pen = .ok (st, log)) :
    ∃ v m, (prob1 D y k pen).run srt cfg = .ok (v, m) ∧ st = ⟨vec v, vec (fit D.matrix v)⟩ ∧
      (cfg.verbose = true → iterationsPrinted log = m) := by
  revert h
  unfold trace1
  refine call1_elim hn D y k pen hv _ (fun r => r = Except.ok (st, log) → ∃ v m, (prob1 D y k pen).run srt cfg =
    .ok (v, m) ∧ st = ⟨vec v, vec (fit D.matrix v)⟩ ∧ (cfg.verbose = true → iterationsPrinted log = m))
    fun ds df df0 pn hd hp h => ?_
  cases hc : coordinateDescent srt ds df0 pn cfg with
  | error e => rw [hc] at h; cases h
  | ok r =>
    obtain ⟨st', df', log'⟩ := r
    rw [hc] at h
    injection h with h
    injection h with h1 h2
    subst h1 h2
    have h1 := cd_rel srt ds df0 pn cfg
    have h2 := runCD_eq hd hp (stepsOf_nonneg D k) hs cfg df0
    rw [hc, h2] at h1
    change RelM _ _ (_ <$> (prob1 D y k pen).run srt cfg) at h1
    cases hr : (prob1 D y k pen).run srt cfg with
    | error e => rw [hr] at h1; exact h1.elim
    | ok q =>
      rw [hr] at h1
      obtain ⟨h3, h4, -⟩ := h1
      exact ⟨q.1, q.2, rfl, h3, h4⟩

/-- `solve` returns the coefficients of the run. -/
theorem trace1_solve (srt : Argsort XR) (D : Design n p) (y : Fin n → ℝ) (k : LossKind) (pen : Pen)
    (cfg : Solver XR) : solve1 srt cfg D y k pen = (fun r => r.1.w) <$> trace1 srt cfg D y k pen := by
  have key : ∀ {DM DF P : Type} [DesignMatrix XR DM] [Datafit XR DM DF] [Penalty XR P] (ds : Dataset DM XR) (df : DF)
      (pn : P), cfg.solve srt ds df pn = (fun r : CDState XR × List (Event XR) => r.1.w) <$> (do
        let (st, _, log) ← coordinateDescent srt ds df pn cfg
        pure (st, log)) := by
    intro DM DF P _ _ _ ds df pn
    unfold Solver.solve
    cases coordinateDescent srt ds df pn cfg <;> rfl
  unfold solve1 trace1 call1 callPen
  cases pen <;> cases D <;> cases k <;> exact key _ _ _

theorem stepsOf_canonical (D : Design n p) (hD : D.Canonical) (k : LossKind) :
    stepsOf D k = stepsOf (.dense D.matrix) k := by
  cases D with
  | dense X => rfl
  | csc A =>
    cases k
    · exact cscStep_eq A hD
    · exact cscLogStep_eq A hD

/-- Proximal operators. -/
noncomputable def bproxOf : BPen → Euc T → ℝ → Euc T
  | .l21 α => fun v s => blockSoftR v (α * s)
  | .enet α ρ => blockEnetProxR α ρ
  | .mcp α γ => blockMcpProxR α γ

/-- Scores. -/
noncomputable def bscoreOf : BPen → Euc T → Euc T → ℝ
  | .l21 α => l21Score α
  | .enet α ρ => blockEnetScore α ρ
  | .mcp α γ => blockMcpScore α γ

/-- The real problem behind a multi-task call. -/
noncomputable def probMT (D : Design n p) (Y : Fin n → Fin T → ℝ) (pen : BPen) : RProb (Euc T) p :=
  probBCD D.matrix (mtLoss Y) (mtGrad D.matrix Y) (stepsOf D .quadratic) pen.fn (bproxOf pen) (bscoreOf pen)
    XR.ninf

theorem callMT_elim (hn : 0 < n) (D : Design n p) (Y : Fin n → Fin T → ℝ) (pen : BPen) (hv : pen.Valid)
    {α : Type}
    (run : ∀ {DM DF P : Type} [DesignMatrix XR DM] [MTDatafit XR DM DF] [MTPenalty XR P], Dataset DM XR → DF → P → α)
    (Q : α → Prop)
    (h : ∀ {DM DF P : Type} [DesignMatrix XR DM] [MTDatafit XR DM DF] [MTPenalty XR P] (ds : Dataset DM XR)
      (df df0 : DF) (pn : P), MSem ds df D.matrix (mtLoss Y) (mtGrad D.matrix Y) (stepsOf D .quadratic) →
      BSem pn T pen.fn (bproxOf pen) (bscoreOf pen) XR.ninf → Q (run ds df0 pn)) :
    Q (callMT D Y pen run) := by
  cases D with
  | dense X =>
    cases pen with
    | l21 α => exact h _ _ _ _ (mt_dense X Y hn) (l21_sem T α hv)
    | enet α ρ => exact h _ _ _ _ (mt_dense X Y hn) (blockEnet_sem T α ρ hv.1 hv.2.1 hv.2.2)
    | mcp α γ => exact h _ _ _ _ (mt_dense X Y hn) (blockMcp_sem T α γ hv.1 hv.2)
  | csc A =>
    cases pen with
    | l21 α => exact h _ _ _ _ (mt_csc_all A Y hn) (l21_sem T α hv)
    | enet α ρ => exact h _ _ _ _ (mt_csc_all A Y hn) (blockEnet_sem T α ρ hv.1 hv.2.1 hv.2.2)
    | mcp α γ => exact h _ _ _ _ (mt_csc_all A Y hn) (blockMcp_sem T α γ hv.1 hv.2)

/-- The multi-task API over the reals. -/
theorem solveMT_eq {srt : Argsort XR} (hs : ArgsortSpec srt) (hn : 0 < n) (D : Design n p) (Y : Fin n → Fin T → ℝ)
    (pen : BPen) (hv : pen.Valid) (cfg : Solver XR) :
    solveMT srt cfg D Y pen = (fun q => emat q.1) <$> (probMT D Y pen).run srt cfg :=
  callMT_elim hn D Y pen hv _ (fun r => r = _)
    fun _ _ df0 _ hd hp => MT.solveBCD_eq hd hp (stepsOf_nonneg D .quadratic) hs cfg df0

theorem updateMT_eq (hn : 0 < n) (D : Design n p) (Y : Fin n → Fin T → ℝ) (pen : BPen) (hv : pen.Valid)
    (W : Fin p → Euc T) (j : Fin p) :
    updateMT D Y pen ⟨emat W, mat (MT.fitE D.matrix W)⟩ j =
      .ok ⟨emat ((probMT D Y pen).step W j), mat (MT.fitE D.matrix ((probMT D Y pen).step W j))⟩ :=
  callMT_elim hn D Y pen hv _ (fun r => r = _) fun ds df df0 pn hd hp => by
    rw [hd.init]
    exact MT.bcdStep_eq hd hp (stepsOf_nonneg D .quadratic) W j

theorem epochMT_eq (hn : 0 < n) (D : Design n p) (Y : Fin n → Fin T → ℝ) (pen : BPen) (hv : pen.Valid)
    (cfg : Solver XR) (l : List (Fin p)) (hl : l.Nodup) (e : ℕ) (b : ℕ → ℕ → ℝ) (W : Fin p → Euc T) :
    epochMT cfg D Y pen (l.map Fin.val) e (matN (cfg.K + 1) (l.length * T) b) ⟨emat W, mat (MT.fitE D.matrix W)⟩ =
      (fun r => (matN (cfg.K + 1) (l.length * T) r.1, ⟨emat r.2, mat (MT.fitE D.matrix r.2)⟩)) <$>
        (probMT D Y pen).accel cfg l e b (l.foldl (probMT D Y pen).step W) :=
  callMT_elim hn D Y pen hv _ (fun r => r = _) fun ds df df0 pn hd hp => by
    rw [hd.init]
    dsimp only [bind, Except.bind]
    rw [MT.bcdEpoch_eq hd hp (stepsOf_nonneg D .quadratic)]
    have := MT.accel_eq hd hp cfg l hl e b (l.foldl (probMT D Y pen).step W)
    refine Eq.trans ?_ this
    rfl

theorem traceMT_run {srt : Argsort XR} (hs : ArgsortSpec srt) (hn : 0 < n) (D : Design n p) (Y : Fin n → Fin T → ℝ)
    (pen : BPen) (hv : pen.Valid) (cfg : Solver XR) (st : BCDState XR) (log : List (Event XR))
    (h : traceMT srt cfg D Y pen = .ok (st, log)) :
    ∃ V m, (probMT D Y pen).run srt cfg = .ok (V, m) ∧ st = ⟨emat V, mat (MT.fitE D.matrix V)⟩ ∧
      (cfg.verbose = true → iterationsPrinted log = m) := by
  revert h
  unfold traceMT
  refine callMT_elim hn D Y pen hv _ (fun r => r = Except.ok (st, log) → ∃ V m, (probMT D Y pen).run srt cfg =
    .ok (V, m) ∧ st = ⟨emat V, mat (MT.fitE D.matrix V)⟩ ∧ (cfg.verbose = true → iterationsPrinted log = m))
    fun ds df df0 pn hd hp h => ?_
  cases hc : MT.blockCoordinateDescent srt ds df0 pn cfg with
  | error e => rw [hc] at h; cases h
  | ok r =>
    obtain ⟨st', df', log'⟩ := r
    rw [hc] at h
    injection h with h
    injection h with h1 h2
    subst h1 h2
    have h1 := MT.bcd_rel srt ds df0 pn cfg
    have h2 := MT.runBCD_eq hd hp (stepsOf_nonneg D .quadratic) hs cfg df0
    rw [hc, h2] at h1
    change RelM _ _ (_ <$> (probMT D Y pen).run srt cfg) at h1
    cases hr : (probMT D Y pen).run srt cfg with
    | error e => rw [hr] at h1; exact h1.elim
    | ok q =>
      rw [hr] at h1
      obtain ⟨h3, h4, -⟩ := h1
      exact ⟨q.1, q.2, rfl, h3, h4⟩

theorem traceMT_solve (srt : Argsort XR) (D : Design n p) (Y : Fin n → Fin T → ℝ) (pen : BPen)
    (cfg : Solver XR) : solveMT srt cfg D Y pen = (fun r => r.1.W) <$> traceMT srt cfg D Y pen := by
  have key : ∀ {DM DF P : Type} [DesignMatrix XR DM] [MTDatafit XR DM DF] [MTPenalty XR P] (ds : Dataset DM XR)
      (df : DF) (pn : P), cfg.solveMultiTask srt ds df pn = (fun r : BCDState XR × List (Event XR) => r.1.W) <$> (do
        let (st, _, log) ← MT.blockCoordinateDescent srt ds df pn cfg
        pure (st, log)) := by
    intro DM DF P _ _ _ ds df pn
    unfold Solver.solveMultiTask
    cases MT.blockCoordinateDescent srt ds df pn cfg <;> rfl
  unfold solveMT traceMT callMT
  cases pen <;> cases D <;> exact key _ _ _

/-! ## Estimators -/

theorem fitCD_eq {F DM P : Type} [Scalar F] [DesignMatrix F DM] [Datafit F DM (Quadratic F)] [Penalty F P]
    (srt : Argsort F) (cfg : Solver F) (ds : Dataset DM F) (pen : P) :
    (do
      let (st, _, _) ← coordinateDescent srt ds (Quadratic.new : Quadratic F) pen cfg
      pure (.ok st.w) : M (Except (EstimatorError F) (List F))) =
      Except.ok <$> cfg.solve srt ds (Quadratic.new : Quadratic F) pen := by
  unfold Solver.solve
  cases coordinateDescent srt ds (Quadratic.new : Quadratic F) pen cfg <;> rfl

theorem fitBCD_eq {F DM P : Type} [Scalar F] [DesignMatrix F DM] [MTDatafit F DM (QuadraticMT F)] [MTPenalty F P]
    (srt : Argsort F) (cfg : Solver F) (ds : Dataset DM F) (pen : P) :
    (do
      let (st, _, _) ← MT.blockCoordinateDescent srt ds (QuadraticMT.new : QuadraticMT F) pen cfg
      pure (.ok st.W) : M (Except (EstimatorError F) (Mat F))) =
      Except.ok <$> cfg.solveMultiTask srt ds (QuadraticMT.new : QuadraticMT F) pen := by
  unfold Solver.solveMultiTask
  cases MT.blockCoordinateDescent srt ds (QuadraticMT.new : QuadraticMT F) pen cfg <;> rfl

end Sglm
