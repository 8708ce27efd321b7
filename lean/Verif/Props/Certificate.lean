import Verif.Proofs.Cert
import Verif.Props.Sync
import Verif.Props.Datafits
import Verif.Props.Descent

/-!
# C30, C31, C32: what an early exit certifies; the null model

"Early exit" is observable: the verbose run prints fewer than `max_iterations` iterations.
-/

namespace Sglm
open Scalar Spec
variable {n p T : ℕ}

/-! ## C30 -/

/-- The coefficients `v` satisfy the optimality conditions up to `τ`: for every feature the distance from minus the
partial derivative of the loss to the subdifferential of the penalty is at most `τ`. -/
def ApproxStationary (D : Design n p) (y : Fin n → ℝ) (k : LossKind) (S : ℝ → Set ℝ) (v : Fin p → ℝ) (τ : ℝ) : Prop :=
  ∀ j, ∃ g d, IsPartial (fun w => k.loss y (fit D.matrix w)) v j g ∧ IsDist (-g) (S (v j)) d ∧ d ≤ τ

/-- Lasso and elastic net, least squares and logistic loss: an early exit means that the result (of the same call, verbose
or not) is `tol`-stationary, and its objective exceeds that of any other coefficients `w` by at most
`tol * ‖v - w‖₁`. -/
theorem C30_certificate {srt : Argsort XR} (hs : ArgsortSpec srt) (hn : 0 < n) (D : Design n p) (y : Fin n → ℝ)
    (k : LossKind) (pen : Pen) (hv : pen.Valid) (hc : pen.Convex) (cfg : Solver XR) (τ : ℝ)
    (ht : cfg.tolerance = XR.fin τ) (st : CDState XR) (log : List (Event XR))
    (h : trace1 srt (cfg.setVerbose true) D y k pen = .ok (st, log))
    (hit : iterationsPrinted log < cfg.maxIterations) :
    ∃ v : Fin p → ℝ, solve1 srt cfg D y k pen = .ok (vec v) ∧
      ApproxStationary D y k (subdiff pen.fn) v τ ∧
      ∀ w, objective1 D y k pen v - objective1 D y k pen w ≤ τ * ∑ j, |v j - w j| := by
  obtain ⟨v, m, h1, -, h3⟩ := trace1_run hs hn D y k pen hv _ st log h
  have hx := RProb.run_exit _ _ h1 (by rw [← h3 rfl]; exact hit)
  have hsc : ∀ j, scoreOf pen (v j) (gradOf D.matrix y k (fit D.matrix v) j) ≤ τ :=
    fun j => (prob1 D y k pen).viol_le (w := v) (τ := τ) (by rw [← ht]; exact hx) j
  refine ⟨v, ?_, fun j => ⟨_, _, loss_partial hn D.matrix y k v j, scoreOf_dist pen hv hc _ _, hsc j⟩, fun w => ?_⟩
  · rw [solve1_eq hs hn D y k pen hv]
    have : (prob1 D y k pen).run srt cfg = .ok (v, m) := h1
    rw [this]; rfl
  · have := cert_gap (f := fun w => k.loss y (fit D.matrix w)) (G := gradOf D.matrix y k (fit D.matrix v))
      (φ := pen.fn) (w := v) (w' := w) (τ := τ) (by
        refine le_trans (le_of_eq ?_) (loss_convex hn D.matrix y k v w)
        congr 1
        exact Finset.sum_congr rfl fun j _ => mul_comm _ _)
      (fun j => ⟨_, scoreOf_dist pen hv hc _ _, hsc j⟩)
    exact this

/-- With tolerance zero an early exit means that the result is a global minimiser. -/
theorem C30_minimiser {srt : Argsort XR} (hs : ArgsortSpec srt) (hn : 0 < n) (D : Design n p) (y : Fin n → ℝ)
    (k : LossKind) (pen : Pen) (hv : pen.Valid) (hc : pen.Convex) (cfg : Solver XR)
    (ht : cfg.tolerance = XR.fin 0) (st : CDState XR) (log : List (Event XR))
    (h : trace1 srt (cfg.setVerbose true) D y k pen = .ok (st, log))
    (hit : iterationsPrinted log < cfg.maxIterations) :
    ∃ v : Fin p → ℝ, solve1 srt cfg D y k pen = .ok (vec v) ∧
      ∀ w, objective1 D y k pen v ≤ objective1 D y k pen w := by
  obtain ⟨v, h1, -, h2⟩ := C30_certificate hs hn D y k pen hv hc cfg 0 ht st log h hit
  exact ⟨v, h1, fun w => by have := h2 w; rw [zero_mul] at this; linarith⟩

/-- MCP: an early exit means `tol`-stationarity in the sense of Fréchet subdifferentials. -/
theorem C30_mcp {srt : Argsort XR} (hs : ArgsortSpec srt) (hn : 0 < n) (D : Design n p) (y : Fin n → ℝ)
    (k : LossKind) (α γ : ℝ) (hα : 0 ≤ α) (hγ : 0 < γ) (cfg : Solver XR) (τ : ℝ)
    (ht : cfg.tolerance = XR.fin τ) (st : CDState XR) (log : List (Event XR))
    (h : trace1 srt (cfg.setVerbose true) D y k (.mcp α γ) = .ok (st, log))
    (hit : iterationsPrinted log < cfg.maxIterations) :
    ∃ v : Fin p → ℝ, solve1 srt cfg D y k (.mcp α γ) = .ok (vec v) ∧
      ApproxStationary D y k (frechetSubdiff (mcp α γ : ℝ → ℝ)) v τ := by
  obtain ⟨v, m, h1, -, h3⟩ := trace1_run hs hn D y k (.mcp α γ) ⟨hα, hγ⟩ _ st log h
  have hx := RProb.run_exit _ _ h1 (by rw [← h3 rfl]; exact hit)
  refine ⟨v, ?_, fun j => ⟨_, _, loss_partial hn D.matrix y k v j, mcpScore_dist hα hγ _ _,
    (prob1 D y k (.mcp α γ)).viol_le (w := v) (τ := τ) (by rw [← ht]; exact hx) j⟩⟩
  rw [solve1_eq hs hn D y k (.mcp α γ) ⟨hα, hγ⟩]
  have : (prob1 D y k (.mcp α γ)).run srt cfg = .ok (v, m) := h1
  rw [this]; rfl

/-- Multi-task version of `ApproxStationary`. -/
def ApproxStationaryMT (D : Design n p) (Y : Fin n → Fin T → ℝ) (S : Euc T → Set (Euc T)) (V : Fin p → Euc T)
    (τ : ℝ) : Prop :=
  ∀ j, ∃ (g : Euc T) (d : ℝ),
    (∀ t, IsPartialMT (fun W => mtLoss Y (fitMT D.matrix W)) (fun j => (V j).ofLp) j t (g t)) ∧
    IsDist (-g) (S (V j)) d ∧ d ≤ τ

theorem mt_convex_inner (hn : 0 < n) (X : Fin n → Fin p → ℝ) (Y : Fin n → Fin T → ℝ) (V W : Fin p → Euc T) :
    mtLoss Y (fitMT X fun j => (V j).ofLp) +
      ∑ j, inner ℝ (WithLp.toLp 2 (mtGrad X Y (fitMT X fun j => (V j).ofLp) j) : Euc T) (W j - V j) ≤
        mtLoss Y (fitMT X fun j => (W j).ofLp) := by
  refine le_trans (le_of_eq ?_) (mt_convex hn X Y (fun j => (V j).ofLp) (fun j => (W j).ofLp))
  congr 1
  refine Finset.sum_congr rfl fun j _ => ?_
  rw [PiLp.inner_apply]
  exact Finset.sum_congr rfl fun t _ => mul_comm _ _

/-- From scores to certificates, for any block penalty. -/
theorem cert_mt {srt : Argsort XR} (hs : ArgsortSpec srt) (hn : 0 < n) (D : Design n p)
    (Y : Fin n → Fin T → ℝ) (pen : BPen) (hv : pen.Valid) (cfg : Solver XR) (τ τ' : ℝ)
    (hd : ∀ a b : Euc T, bscoreOf pen a b ≤ τ → ∃ d, IsDist (-b) (subdiff pen.fn a) d ∧ d ≤ τ')
    (ht : cfg.tolerance = XR.fin τ) (st : BCDState XR) (log : List (Event XR))
    (h : traceMT srt (cfg.setVerbose true) D Y pen = .ok (st, log))
    (hit : iterationsPrinted log < cfg.maxIterations) :
    ∃ V : Fin p → Euc T, solveMT srt cfg D Y pen = .ok (emat V) ∧
      ApproxStationaryMT D Y (subdiff pen.fn) V τ' ∧
      ∀ W, objectiveMT D Y pen V - objectiveMT D Y pen W ≤ τ' * ∑ j, ‖V j - W j‖ := by
  obtain ⟨V, m, h1, -, h3⟩ := traceMT_run hs hn D Y pen hv _ st log h
  have hx := RProb.run_exit _ _ h1 (by rw [← h3 rfl]; exact hit)
  have hsc := fun j => hd _ _ ((probMT D Y pen).viol_le (w := V) (τ := τ) (by rw [← ht]; exact hx) j)
  refine ⟨V, ?_, fun j => ?_, fun W => ?_⟩
  · rw [solveMT_eq hs hn D Y pen hv]
    have : (probMT D Y pen).run srt cfg = .ok (V, m) := h1
    rw [this]; rfl
  · obtain ⟨d, h4, h5⟩ := hsc j
    exact ⟨_, d, fun t => mt_partial hn D.matrix Y (fun j => (V j).ofLp) j t, h4, h5⟩
  · exact cert_gap (f := fun W : Fin p → Euc T => mtLoss Y (fitMT D.matrix fun j => (W j).ofLp)) (φ := pen.fn)
      (w := V) (w' := W) (τ := τ') (mt_convex_inner hn D.matrix Y V W) hsc

/-- Multi-task Lasso. -/
theorem C30_certificate_mt {srt : Argsort XR} (hs : ArgsortSpec srt) (hn : 0 < n) (D : Design n p)
    (Y : Fin n → Fin T → ℝ) (α : ℝ) (hα : 0 < α) (cfg : Solver XR) (τ : ℝ)
    (ht : cfg.tolerance = XR.fin τ) (st : BCDState XR) (log : List (Event XR))
    (h : traceMT srt (cfg.setVerbose true) D Y (.l21 α) = .ok (st, log))
    (hit : iterationsPrinted log < cfg.maxIterations) :
    ∃ V : Fin p → Euc T, solveMT srt cfg D Y (.l21 α) = .ok (emat V) ∧
      ApproxStationaryMT D Y (subdiff fun z => α * ‖z‖) V τ ∧
      ∀ W, objectiveMT D Y (.l21 α) V - objectiveMT D Y (.l21 α) W ≤ τ * ∑ j, ‖V j - W j‖ :=
  cert_mt hs hn D Y (.l21 α) hα cfg τ τ (fun a b hab => ⟨_, l21Score_dist hα.le a b, hab⟩) ht st log h hit

/-! ## C31 -/

/-- The full statement of C31. -/
def C31_full : Prop :=
  ∀ (srt : Argsort XR), ArgsortSpec srt → ∀ (n p T : ℕ), 0 < n → ∀ (D : Design n p) (Y : Fin n → Fin T → ℝ)
    (α ρ : ℝ), 0 < α → 0 < ρ → ρ ≤ 1 → ∀ (cfg : Solver XR) (τ : ℝ), cfg.tolerance = XR.fin τ →
    ∀ (st : BCDState XR) (log : List (Event XR)),
      traceMT srt (cfg.setVerbose true) D Y (.enet α ρ) = .ok (st, log) →
      iterationsPrinted log < cfg.maxIterations →
      ∃ V : Fin p → Euc T, solveMT srt cfg D Y (.enet α ρ) = .ok (emat V) ∧
        ∀ W, objectiveMT D Y (.enet α ρ) V - objectiveMT D Y (.enet α ρ) W ≤ τ * ∑ j, ‖V j - W j‖

/-- What an early exit of the multi-task elastic net does guarantee: `tol` has to be replaced by
`max tol (√(αρ + tol) - αρ)`, which does not tend to zero with `tol` unless `αρ ≥ 1`. -/
theorem C31_certificate_partial {srt : Argsort XR} (hs : ArgsortSpec srt) (hn : 0 < n) (D : Design n p)
    (Y : Fin n → Fin T → ℝ) (α ρ : ℝ) (hα : 0 < α) (hρ0 : 0 < ρ) (hρ1 : ρ ≤ 1) (cfg : Solver XR) (τ : ℝ)
    (ht : cfg.tolerance = XR.fin τ) (st : BCDState XR) (log : List (Event XR))
    (h : traceMT srt (cfg.setVerbose true) D Y (.enet α ρ) = .ok (st, log))
    (hit : iterationsPrinted log < cfg.maxIterations) :
    ∃ V : Fin p → Euc T, solveMT srt cfg D Y (.enet α ρ) = .ok (emat V) ∧
      ApproxStationaryMT D Y (subdiff fun z => enet α ρ z) V (max τ (Real.sqrt (α * ρ + τ) - α * ρ)) ∧
      ∀ W, objectiveMT D Y (.enet α ρ) V - objectiveMT D Y (.enet α ρ) W ≤
        max τ (Real.sqrt (α * ρ + τ) - α * ρ) * ∑ j, ‖V j - W j‖ :=
  cert_mt hs hn D Y (.enet α ρ) ⟨hα, hρ0, hρ1⟩ cfg τ _
    (fun a b hab => blockEnetScore_bound hα.le hρ0.le hρ1 a b hab) ht st log h hit

/-- One sample `x = 1`, `y = 1/2`. -/
noncomputable def c31D : Design 1 1 := .dense fun _ _ => 1

/-- The bug: with `α = 3/10` and `l1_ratio = 1`, the fit stops at `W = 0` before the first iteration, for every tolerance
`≥ 0` and every other setting... -/
theorem C31_stops_at_zero {srt : Argsort XR} (hs : ArgsortSpec srt) (cfg : Solver XR) (τ : ℝ) (hτ : 0 ≤ τ)
    (ht : cfg.tolerance = XR.fin τ) :
    solveMT srt cfg c31D (fun _ (_ : Fin 1) => 1 / 2) (.enet (3 / 10) 1) = .ok (emat fun _ : Fin 1 => (0 : Euc 1)) ∧
    ∃ st log, traceMT srt (cfg.setVerbose true) c31D (fun _ (_ : Fin 1) => 1 / 2) (.enet (3 / 10) 1) = .ok (st, log) ∧
      iterationsPrinted log = 0 := by
  have hV : BPen.Valid (.enet (3 / 10) 1) := ⟨by norm_num, by norm_num, le_rfl⟩
  have key : ∀ c : Solver XR, c.tolerance = XR.fin τ →
      (probMT c31D (fun _ (_ : Fin 1) => 1 / 2) (.enet (3 / 10) 1)).run srt c = .ok (fun _ => 0, 0) := by
    intro c hc
    refine RProb.run_zero _ c ?_
    rw [hc]
    refine RProb.viol_le_of _ (Or.inl rfl) fun j => ?_
    show blockEnetScore (3 / 10) 1 (0 : Euc 1) (WithLp.toLp 2 _) ≤ τ
    unfold blockEnetScore
    rw [if_pos rfl]
    refine max_le hτ (le_trans ?_ hτ)
    rw [EuclideanSpace.norm_sq_eq]
    simp [mtGrad, fitMT, c31D, Design.matrix]
    norm_num
  constructor
  · rw [solveMT_eq hs one_pos _ _ _ hV, key cfg ht]; rfl
  · have h1 := traceMT_solve srt c31D (fun _ (_ : Fin 1) => 1 / 2) (.enet (3 / 10) 1) (cfg.setVerbose true)
    rw [solveMT_eq hs one_pos _ _ _ hV, key (cfg.setVerbose true) ht] at h1
    cases h2 : traceMT srt (cfg.setVerbose true) c31D (fun _ (_ : Fin 1) => 1 / 2) (.enet (3 / 10) 1) with
    | error e => rw [h2] at h1; cases h1
    | ok r =>
      obtain ⟨st, log⟩ := r
      obtain ⟨V, m, h3, -, h4⟩ := traceMT_run hs one_pos c31D _ _ hV _ st log h2
      rw [key (cfg.setVerbose true) ht] at h3
      injection h3 with h3
      injection h3 with h3 h5
      exact ⟨st, log, rfl, by rw [h4 rfl, ← h5]⟩

/-- ... although `W = 0` is not optimal. -/
theorem C31_zero_not_optimal : ∃ W, objectiveMT c31D (fun _ (_ : Fin 1) => 1 / 2) (.enet (3 / 10) 1) W <
    objectiveMT c31D (fun _ (_ : Fin 1) => 1 / 2) (.enet (3 / 10) 1) (fun _ => 0) := by
  refine ⟨fun _ => EuclideanSpace.single 0 (1 / 5), ?_⟩
  simp [objectiveMT, mtLoss, fitMT, c31D, Design.matrix, BPen.fn, enet]
  norm_num

/-- C31 is false of the code. -/
theorem C31_false : ¬ C31_full := by
  intro h
  obtain ⟨W, hW⟩ := C31_zero_not_optimal
  obtain ⟨h1, st, log, h2, h3⟩ := C31_stops_at_zero argsortIns_spec ⟨10, 50, 1000, XR.fin 0, 5, true, true⟩ 0 le_rfl rfl
  obtain ⟨V, h4, h5⟩ := h argsortIns argsortIns_spec 1 1 1 one_pos c31D (fun _ (_ : Fin 1) => 1 / 2) (3 / 10) 1
    (by norm_num) one_pos le_rfl ⟨10, 50, 1000, XR.fin 0, 5, true, true⟩ 0 rfl st log h2 (by rw [h3]; decide)
  rw [h1] at h4
  injection h4 with h4
  rw [← emat_injective h4] at h5
  have := h5 W
  rw [zero_mul] at this
  linarith

/-! ## C32 -/

theorem checkRef_ok (ps : LassoParams XR) {α τ : ℝ} (ha : ps.alpha = XR.fin α) (hα : 0 ≤ α)
    (ht : ps.tolerance = XR.fin τ) (hτ : 0 ≤ τ) (hK : 0 < ps.K) (hw : 0 < ps.wsStartSize) :
    ps.checkRef = .ok ps := by
  unfold LassoParams.checkRef checkTail
  rw [ha, ht, XR.s_signBit, XR.s_signBit, decide_eq_false (not_lt.mpr hα), decide_eq_false (not_lt.mpr hτ)]
  rw [if_neg (by simp), if_neg (by simp), if_neg (by omega), if_neg (by omega)]

/-- If zero minimises the objective, Lasso runs stop immediately. -/
theorem null_run (srt : Argsort XR) (hn : 0 < n) (D : Design n p) (y : Fin n → ℝ) (α τ : ℝ) (hτ : 0 ≤ τ)
    (h0 : NullOptimal D.matrix y α) (cfg : Solver XR) (ht : cfg.tolerance = XR.fin τ) :
    (prob1 D y .quadratic (.l1 α)).run srt cfg = .ok (fun _ => 0, 0) := by
  refine RProb.run_zero _ cfg ?_
  rw [ht]
  refine RProb.viol_le_of _ (Or.inl rfl) fun j => ?_
  show l1Score α 0 (quadGrad D.matrix y (fit D.matrix fun _ => 0) j) ≤ τ
  unfold l1Score
  rw [if_pos rfl, fit_zero]
  have := (nullOptimal_iff hn D.matrix y α).mp h0 j
  exact max_le hτ (by linarith)

/-- `Lasso::fit` with `alpha ≥ compute_alpha_max(X, y)` returns zeros, whatever the other (valid) settings. -/
theorem C32_lasso {srt : Argsort XR} (hs : ArgsortSpec srt) (hn : 0 < n) (X : Fin n → Fin p → ℝ) (y : Fin n → ℝ)
    (a α τ : ℝ) (ha : computeAlphaMax (mat X) (vec y) = .ok (XR.fin a)) (hα : a ≤ α) (hα0 : 0 ≤ α) (hτ : 0 ≤ τ)
    (ps : LassoParams XR) (hpa : ps.alpha = XR.fin α) (hpt : ps.tolerance = XR.fin τ) (hK : 0 < ps.K)
    (hw : 0 < ps.wsStartSize) :
    Lasso.fit srt ps (denseDs X y) = .ok (.ok (vec fun _ : Fin p => 0)) := by
  obtain ⟨a', h1, h2⟩ := C20_alpha_max hn X y
  rw [ha] at h1
  injection h1 with h1
  injection h1 with h1
  subst h1
  have h3 : solve1 srt ps.solver (.dense X) y .quadratic (.l1 α) = .ok (vec fun _ : Fin p => 0) := by
    rw [solve1_eq hs hn (.dense X) y .quadratic (.l1 α) hα0,
      null_run srt hn (.dense X) y α τ hτ ((h2 α hα0).mpr hα) ps.solver hpt]
    rfl
  unfold Lasso.fit guardedFit
  rw [checkRef_ok ps hpa hα0 hpt hτ hK hw]
  show Lasso.fitValid srt ps (denseDs X y) = _
  unfold Lasso.fitValid
  rw [fitCD_eq, hpa]
  exact congrArg (Except.ok <$> ·) h3

/-- The sparse version. -/
theorem C32_lasso_sparse {srt : Argsort XR} (hs : ArgsortSpec srt) (hn : 0 < n) (A : CSCData n p) (y : Fin n → ℝ)
    (a α τ : ℝ) (ha : computeAlphaMaxSparse A.toCSC (vec y) = .ok (XR.fin a)) (hα : a ≤ α) (hα0 : 0 ≤ α)
    (hτ : 0 ≤ τ) (ps : LassoParams XR) (hpa : ps.alpha = XR.fin α) (hpt : ps.tolerance = XR.fin τ) (hK : 0 < ps.K)
    (hw : 0 < ps.wsStartSize) :
    Lasso.fit srt ps (cscDs A y) = .ok (.ok (vec fun _ : Fin p => 0)) := by
  obtain ⟨a', h1, h2⟩ := C20_alpha_max hn A.dense y
  rw [C20_alpha_max_sparse hn, h1] at ha
  injection ha with ha
  injection ha with ha
  subst ha
  have h3 : solve1 srt ps.solver (.csc A) y .quadratic (.l1 α) = .ok (vec fun _ : Fin p => 0) := by
    rw [solve1_eq hs hn (.csc A) y .quadratic (.l1 α) hα0,
      null_run srt hn (.csc A) y α τ hτ ((h2 α hα0).mpr hα) ps.solver hpt]
    rfl
  unfold Lasso.fit guardedFit
  rw [checkRef_ok ps hpa hα0 hpt hτ hK hw]
  show Lasso.fitValid srt ps (cscDs A y) = _
  unfold Lasso.fitValid
  rw [fitCD_eq, hpa]
  exact congrArg (Except.ok <$> ·) h3

/-- The converse: below `alpha_max`, zero is not returned as converged: zeros are not optimal, and the first stopping
test fails for every tolerance below `alpha_max - alpha`. -/
theorem C32_below {srt : Argsort XR} (hs : ArgsortSpec srt) (hn : 0 < n) (X : Fin n → Fin p → ℝ) (y : Fin n → ℝ)
    (a α τ : ℝ) (ha : computeAlphaMax (mat X) (vec y) = .ok (XR.fin a)) (hα : α < a) (hα0 : 0 ≤ α) (hτ : τ < a - α)
    (cfg : Solver XR) (ht : cfg.tolerance = XR.fin τ) (hi : 0 < cfg.maxIterations) (st : CDState XR)
    (log : List (Event XR))
    (h : trace1 srt (cfg.setVerbose true) (.dense X) y .quadratic (.l1 α) = .ok (st, log)) :
    0 < iterationsPrinted log := by
  obtain ⟨v, m, h1, -, h3⟩ := trace1_run hs hn (.dense X) y .quadratic (.l1 α) hα0 _ st log h
  rw [h3 rfl]
  rcases Nat.eq_zero_or_pos m with rfl | hm
  · exfalso
    have hx := RProb.run_exit _ _ h1 hi
    have hv0 : v = fun _ => 0 := by
      have h1 : ((prob1 (.dense X) y .quadratic (.l1 α)).skel srt (cfg.setVerbose true) _).outer
        cfg.maxIterations (fun _ => 0) = .ok (v, 0) := h1
      exact Skel.outer_zero _ h1
    subst hv0
    rw [alphaMax_eq hn] at ha
    injection ha with ha
    injection ha with ha
    have hn' : (0:ℝ) < n := by exact_mod_cast hn
    have hj : ∀ j, |∑ i, X i j * y i| ≤ (α + max τ 0) * n := by
      intro j
      have hsc := (prob1 (.dense X) y .quadratic (.l1 α)).viol_le (w := fun _ => 0) (τ := τ)
        (by rw [← ht]; exact hx) j
      change l1Score α 0 (quadGrad X y (fit X fun _ => 0) j) ≤ τ at hsc
      unfold l1Score at hsc
      rw [if_pos rfl, fit_zero, quadGrad_zero] at hsc
      have := le_trans (le_max_right _ _) hsc
      rw [sub_le_iff_le_add, div_le_iff₀ hn'] at this
      refine le_trans this (mul_le_mul_of_nonneg_right ?_ hn'.le)
      have := le_max_left τ 0
      linarith
    have := (absMax_le (fun j => ∑ i, X i j * y i) (a := (α + max τ 0) * n) (by positivity)).mpr hj
    rw [← div_le_iff₀ hn', ha] at this
    rcases max_cases τ 0 with ⟨h4, -⟩ | ⟨h4, -⟩ <;> rw [h4] at this <;> linarith
  · exact hm

/-- `MultiTaskLasso::fit` with `alpha ≥ compute_alpha_max_mtl(X, Y)`. -/
theorem C32_multitask {srt : Argsort XR} (hs : ArgsortSpec srt) (hn : 0 < n) (D : Design n p)
    (Y : Fin n → Fin T → ℝ) (a α τ : ℝ) (ha : computeAlphaMaxMtl (mat D.matrix) (mat Y) = .ok (XR.fin a))
    (hα : a ≤ α) (hα0 : 0 < α) (hτ : 0 ≤ τ)
    (ps : LassoParams XR) (hpa : ps.alpha = XR.fin α) (hpt : ps.tolerance = XR.fin τ) (hK : 0 < ps.K)
    (hw : 0 < ps.wsStartSize) :
    match D with
    | .dense X => MultiTaskLasso.fit srt ps (denseDsMT X Y) = .ok (.ok (mat fun (_ : Fin p) (_ : Fin T) => 0))
    | .csc A => MultiTaskLasso.fit srt ps (cscDsMT A Y) = .ok (.ok (mat fun (_ : Fin p) (_ : Fin T) => 0)) := by
  obtain ⟨a', h1, h2⟩ := C20_alpha_max_mtl hn D.matrix Y
  rw [ha] at h1
  injection h1 with h1
  injection h1 with h1
  subst h1
  have h0 := (nullOptimalMT_iff hn D.matrix Y hα0.le).mp ((h2 α hα0.le).mpr hα)
  have h3 : solveMT srt ps.solver D Y (.l21 α) = .ok (mat fun (_ : Fin p) (_ : Fin T) => 0) := by
    have hr : (probMT D Y (.l21 α)).run srt ps.solver = .ok (fun _ => 0, 0) := by
      refine RProb.run_zero _ _ ?_
      rw [show ps.solver.tolerance = XR.fin τ from hpt]
      refine RProb.viol_le_of _ (Or.inl rfl) fun j => ?_
      show l21Score α (0 : Euc T) (WithLp.toLp 2 (mtGrad D.matrix Y (fitMT D.matrix fun _ _ => 0) j)) ≤ τ
      unfold l21Score
      rw [if_pos rfl, fitMT_zero]
      refine max_le hτ (le_trans (sub_nonpos.mpr ?_) hτ)
      refine le_trans (le_of_eq ?_) (h0 j)
      rw [EuclideanSpace.norm_eq]
      unfold nrm
      simp only [Real.norm_eq_abs, sq_abs]
    rw [solveMT_eq hs hn D Y (.l21 α) hα0, hr]
    rfl
  cases D with
  | dense X =>
    show MultiTaskLasso.fit srt ps (denseDsMT X Y) = _
    unfold MultiTaskLasso.fit guardedFit
    rw [checkRef_ok ps hpa hα0.le hpt hτ hK hw]
    show MultiTaskLasso.fitValid srt ps (denseDsMT X Y) = _
    unfold MultiTaskLasso.fitValid
    rw [fitBCD_eq, hpa]
    exact congrArg (Except.ok <$> ·) h3
  | csc A =>
    show MultiTaskLasso.fit srt ps (cscDsMT A Y) = _
    unfold MultiTaskLasso.fit guardedFit
    rw [checkRef_ok ps hpa hα0.le hpt hτ hK hw]
    show MultiTaskLasso.fitValid srt ps (cscDsMT A Y) = _
    unfold MultiTaskLasso.fitValid
    rw [fitBCD_eq, hpa]
    exact congrArg (Except.ok <$> ·) h3

/-! ## Examples

One sample `x = 1` and one feature. -/

section
/-- The design of the examples. -/
noncomputable def oneD : Design 1 1 := .dense fun _ _ => 1

/-- The solver settings of the examples. -/
noncomputable def oneCfg : Solver XR := ⟨10, 50, 1, XR.fin 0, 5, false, true⟩

theorem oneD_step (y : ℝ) (pen : Pen) : (prob1 oneD (fun _ => y) .quadratic pen).step (fun _ => 0) 0 =
    fun _ => proxOf pen y 1 := by
  have hL : (prob1 oneD (fun _ => y) .quadratic pen).L 0 = 1 := by
    show (∑ i : Fin 1, (1 : ℝ) * 1) / ((1 : ℕ) : ℝ) = 1
    simp
  have hG : (prob1 oneD (fun _ => y) .quadratic pen).G (fun _ => 0) 0 = -y := by
    show (∑ i : Fin 1, (1 : ℝ) * (∑ j : Fin 1, (1 : ℝ) * 0) - ∑ i : Fin 1, (1 : ℝ) * y) / ((1 : ℕ) : ℝ) = -y
    simp
  funext j
  rw [Subsingleton.elim j 0]
  unfold RProb.step
  rw [hL, hG, if_neg one_ne_zero, Function.update_self]
  show proxOf pen (0 - (1 / 1 : ℝ) • (-y)) (1 / 1) = _
  simp

theorem oneD_grad (y v : ℝ) (pen : Pen) : (prob1 oneD (fun _ => y) .quadratic pen).G (fun _ => v) 0 = v - y := by
  show (∑ i : Fin 1, (1 : ℝ) * (∑ j : Fin 1, (1 : ℝ) * v) - ∑ i : Fin 1, (1 : ℝ) * y) / ((1 : ℕ) : ℝ) = _
  simp

/-- A run with one iteration. -/
theorem oneD_trace (y v : ℝ) (pen : Pen) (hv : pen.Valid) (hm : m0Of pen = XR.ninf) (hp : proxOf pen y 1 = v)
    (h0 : 0 < scoreOf pen 0 (-y)) (h1 : scoreOf pen v (v - y) ≤ 0) :
    ∃ st log, trace1 argsortIns (oneCfg.setVerbose true) oneD (fun _ => y) .quadratic pen = .ok (st, log) ∧
      iterationsPrinted log = 1 := by
  have hr : (prob1 oneD (fun _ => y) .quadratic pen).run argsortIns (oneCfg.setVerbose true) = .ok (fun _ => v, 1) := by
    rw [RProb.run_one argsortIns_spec _ rfl rfl (by decide) (by decide), oneD_step, hp]
    · refine RProb.viol_gt _ 0 ?_
      rw [oneD_grad, zero_sub]; exact h0
    · rw [oneD_step, hp]
      refine RProb.viol_le_of _ (Or.inl hm) fun j => ?_
      rw [Subsingleton.elim j 0, oneD_grad]
      exact h1
  have h2 := trace1_solve argsortIns oneD (fun _ => y) .quadratic pen (oneCfg.setVerbose true)
  rw [solve1_eq argsortIns_spec one_pos _ _ _ _ hv, hr] at h2
  cases h3 : trace1 argsortIns (oneCfg.setVerbose true) oneD (fun _ => y) .quadratic pen with
  | error e => rw [h3] at h2; cases h2
  | ok r =>
    obtain ⟨V, m, h4, -, h5⟩ := trace1_run argsortIns_spec one_pos oneD _ _ _ hv _ r.1 r.2 h3
    rw [hr] at h4
    injection h4 with h4
    injection h4 with _ h4
    exact ⟨r.1, r.2, rfl, by rw [h5 rfl, ← h4]⟩

-- Lasso, `y = 3`, `α = 1`: the result `2` is certified to be the minimiser
example : ∃ v : Fin 1 → ℝ, solve1 argsortIns oneCfg oneD (fun _ => 3) .quadratic (.l1 1) = .ok (vec v) ∧
    ∀ w, objective1 oneD (fun _ => 3) .quadratic (.l1 1) v ≤ objective1 oneD (fun _ => 3) .quadratic (.l1 1) w := by
  obtain ⟨st, log, h1, h2⟩ := oneD_trace 3 2 (.l1 1) zero_le_one rfl (by norm_num [proxOf, softR])
    (by norm_num [scoreOf, l1Score]) (by norm_num [scoreOf, l1Score])
  exact C30_minimiser argsortIns_spec one_pos oneD _ .quadratic (.l1 1) zero_le_one trivial oneCfg rfl st log h1
    (by rw [h2]; decide)

-- elastic net
example : ∃ v : Fin 1 → ℝ, solve1 argsortIns oneCfg oneD (fun _ => 3) .quadratic (.enet 1 (1 / 2)) = .ok (vec v) ∧
    ApproxStationary oneD (fun _ => 3) .quadratic (subdiff (Pen.enet 1 (1 / 2)).fn) v 0 ∧
    ∀ w, objective1 oneD (fun _ => 3) .quadratic (.enet 1 (1 / 2)) v -
      objective1 oneD (fun _ => 3) .quadratic (.enet 1 (1 / 2)) w ≤ 0 * ∑ j, |v j - w j| := by
  have hv : Pen.Valid (.enet 1 (1 / 2)) := ⟨zero_le_one, by norm_num, by norm_num⟩
  obtain ⟨st, log, h1, h2⟩ := oneD_trace 3 (5 / 3) (.enet 1 (1 / 2)) hv rfl
    (by norm_num [proxOf, softR, enetProxR]) (by norm_num [scoreOf, enetScore]) (by norm_num [scoreOf, enetScore])
  exact C30_certificate argsortIns_spec one_pos oneD _ .quadratic (.enet 1 (1 / 2)) hv trivial oneCfg 0 rfl st log h1
    (by rw [h2]; decide)

-- MCP, `y = 5`, `α = 1`, `γ = 3`: the result is `5`
example : ∃ v : Fin 1 → ℝ, solve1 argsortIns oneCfg oneD (fun _ => 5) .quadratic (.mcp 1 3) = .ok (vec v) ∧
    ApproxStationary oneD (fun _ => 5) .quadratic (frechetSubdiff (mcp 1 3 : ℝ → ℝ)) v 0 := by
  obtain ⟨st, log, h1, h2⟩ := oneD_trace 5 5 (.mcp 1 3) ⟨zero_le_one, three_pos⟩ rfl
    (by norm_num [proxOf, mcpProxR]) (by norm_num [scoreOf, mcpScore]) (by norm_num [scoreOf, mcpScore])
  exact C30_mcp argsortIns_spec one_pos oneD _ .quadratic 1 3 zero_le_one three_pos oneCfg 0 rfl st log h1
    (by rw [h2]; decide)

-- multi-task elastic net with `αρ = 3/10`, stopping at zero: the weaker guarantee
example : ∃ V : Fin 1 → Euc 1, solveMT argsortIns oneCfg c31D (fun _ (_ : Fin 1) => 1 / 2) (.enet (3 / 10) 1) =
      .ok (emat V) ∧
    ApproxStationaryMT c31D (fun _ (_ : Fin 1) => 1 / 2) (subdiff fun z => enet (3 / 10) 1 z) V
      (max 0 (Real.sqrt (3 / 10 * 1 + 0) - 3 / 10 * 1)) := by
  obtain ⟨-, st, log, h1, h2⟩ := C31_stops_at_zero argsortIns_spec oneCfg 0 le_rfl rfl
  obtain ⟨V, h3, h4, -⟩ := C31_certificate_partial argsortIns_spec one_pos c31D (fun _ (_ : Fin 1) => 1 / 2) (3 / 10) 1
    (by norm_num) one_pos le_rfl oneCfg 0 rfl st log h1 (by rw [h2]; decide)
  exact ⟨V, h3, h4⟩

example (ps : LassoParams XR) (h1 : ps.alpha = XR.fin 5) (h2 : ps.tolerance = XR.fin (1 / 100)) (hK : ps.K = 5)
    (hw : ps.wsStartSize = 10) :
    Lasso.fit argsortIns ps (denseDs (fun (_ _ : Fin 1) => 1) fun _ => 3) = .ok (.ok (vec fun _ : Fin 1 => 0)) :=
  C32_lasso argsortIns_spec one_pos _ _ 3 5 (1 / 100) (by
    rw [alphaMax_eq one_pos]
    simp [absMax]) (by norm_num) (by norm_num) (by norm_num) ps h1 h2 (by omega) (by omega)

/-- Two tasks with targets `3` and `4`. -/
noncomputable def oneY : Euc 2 := !₂[3, 4]

theorem oneY_norm : ‖oneY‖ = 5 := by
  rw [EuclideanSpace.norm_eq, Fin.sum_univ_two]
  simp [oneY]
  rw [show (3 : ℝ) ^ 2 + 4 ^ 2 = 5 ^ 2 by norm_num]
  exact Real.sqrt_sq (by norm_num)

theorem oneD_gradMT (V : Euc 2) : (probMT oneD (fun _ => oneY.ofLp) (.l21 1)).G (fun _ => V) 0 = V - oneY := by
  ext t
  show (∑ i : Fin 1, (1 : ℝ) * (∑ j : Fin 1, (1 : ℝ) * V t) - ∑ i : Fin 1, (1 : ℝ) * oneY t) / ((1 : ℕ) : ℝ) = _
  simp

-- multi-task Lasso with `α = 1`: one iteration, the result is `(12/5, 16/5)`
example : ∃ V : Fin 1 → Euc 2, solveMT argsortIns oneCfg oneD (fun _ => oneY.ofLp) (.l21 1) = .ok (emat V) ∧
    ApproxStationaryMT oneD (fun _ => oneY.ofLp) (subdiff fun z => 1 * ‖z‖) V 0 ∧
    ∀ W, objectiveMT oneD (fun _ => oneY.ofLp) (.l21 1) V - objectiveMT oneD (fun _ => oneY.ofLp) (.l21 1) W ≤
      0 * ∑ j, ‖V j - W j‖ := by
  have hstep : (probMT oneD (fun _ => oneY.ofLp) (.l21 1)).step (fun _ => 0) 0 = fun _ => (4 / 5 : ℝ) • oneY := by
    have hL : (probMT oneD (fun _ => oneY.ofLp) (.l21 1)).L 0 = 1 := by
      show (∑ i : Fin 1, (1 : ℝ) * 1) / ((1 : ℕ) : ℝ) = 1
      simp
    funext j
    rw [Subsingleton.elim j 0]
    unfold RProb.step
    rw [hL, oneD_gradMT, if_neg one_ne_zero, Function.update_self]
    show blockSoftR ((0 : Euc 2) - (1 / 1 : ℝ) • (0 - oneY)) (1 * (1 / 1)) = _
    unfold blockSoftR
    have e : (0 : Euc 2) - (1 / 1 : ℝ) • (0 - oneY) = oneY := by simp
    rw [e, oneY_norm]
    norm_num
  have hr : (probMT oneD (fun _ => oneY.ofLp) (.l21 1)).run argsortIns (oneCfg.setVerbose true) =
      .ok (fun _ => (4 / 5 : ℝ) • oneY, 1) := by
    rw [RProb.run_one argsortIns_spec _ rfl rfl (by decide) (by decide), hstep]
    · refine RProb.viol_gt _ 0 ?_
      rw [oneD_gradMT]
      show 0 < l21Score 1 0 (0 - oneY)
      unfold l21Score
      rw [if_pos rfl, zero_sub, norm_neg, oneY_norm]
      norm_num
    · rw [hstep]
      refine RProb.viol_le_of _ (Or.inl rfl) fun j => ?_
      rw [Subsingleton.elim j 0, oneD_gradMT]
      have hn : ‖(4 / 5 : ℝ) • oneY‖ = 4 := by rw [norm_smul, oneY_norm]; norm_num
      show l21Score 1 ((4 / 5 : ℝ) • oneY) ((4 / 5 : ℝ) • oneY - oneY) ≤ 0
      unfold l21Score
      rw [if_neg (fun h => by rw [h, norm_zero] at hn; norm_num at hn), hn]
      have e : (4 / 5 : ℝ) • oneY - oneY + (1 / 4 : ℝ) • (4 / 5 : ℝ) • oneY = 0 := by
        rw [smul_smul]
        have : (4 / 5 : ℝ) • oneY - oneY + (1 / 4 * (4 / 5) : ℝ) • oneY = (4 / 5 - 1 + 1 / 4 * (4 / 5) : ℝ) • oneY := by
          module
        rw [this]; norm_num
      rw [e, norm_zero]
  have h2 := traceMT_solve argsortIns oneD (fun _ => oneY.ofLp) (.l21 1) (oneCfg.setVerbose true)
  rw [solveMT_eq argsortIns_spec one_pos oneD _ (.l21 1) one_pos, hr] at h2
  cases h3 : traceMT argsortIns (oneCfg.setVerbose true) oneD (fun _ => oneY.ofLp) (.l21 1) with
  | error e => rw [h3] at h2; cases h2
  | ok r =>
    obtain ⟨V, m, h4, -, h5⟩ := traceMT_run argsortIns_spec one_pos oneD _ (.l21 1) one_pos _ r.1 r.2 h3
    rw [hr] at h4
    injection h4 with h4
    injection h4 with _ h4
    exact C30_certificate_mt argsortIns_spec one_pos oneD _ 1 one_pos oneCfg 0 rfl r.1 r.2 h3
      (by rw [h5 rfl, ← h4]; decide)

-- `alpha_max = 3` for `x = 1`, `y = 3`
example : ∃ st log, trace1 argsortIns (oneCfg.setVerbose true) oneD (fun _ => 3) .quadratic (.l1 1) = .ok (st, log) ∧
    0 < iterationsPrinted log := by
  obtain ⟨st, log, h1, -⟩ := oneD_trace 3 2 (.l1 1) zero_le_one rfl (by norm_num [proxOf, softR])
    (by norm_num [scoreOf, l1Score]) (by norm_num [scoreOf, l1Score])
  exact ⟨st, log, h1, C32_below argsortIns_spec one_pos _ _ 3 1 0 (by
    rw [alphaMax_eq one_pos]
    simp [absMax]) (by norm_num) zero_le_one (by norm_num) oneCfg rfl (by decide) st log h1⟩

/-- The same design in CSC form. -/
noncomputable def oneCSC : CSCData 1 1 where
  nnz := 1
  data _ := 1
  row _ := 0
  ptr j := j
  ptr_le j := by omega

theorem oneCSC_dense : oneCSC.dense = fun _ _ => 1 := by
  funext i j
  unfold CSCData.dense CSCData.InCol oneCSC
  simp
  exact Subsingleton.elim _ _

example (ps : LassoParams XR) (h1 : ps.alpha = XR.fin 5) (h2 : ps.tolerance = XR.fin (1 / 100)) (hK : ps.K = 5)
    (hw : ps.wsStartSize = 10) :
    Lasso.fit argsortIns ps (cscDs oneCSC fun _ => 3) = .ok (.ok (vec fun _ : Fin 1 => 0)) :=
  C32_lasso_sparse argsortIns_spec one_pos _ _ 3 5 (1 / 100) (by
    rw [C20_alpha_max_sparse one_pos, alphaMax_eq one_pos, oneCSC_dense]
    simp [absMax]) (by norm_num) (by norm_num) (by norm_num) ps h1 h2 (by omega) (by omega)

example : ∃ a, computeAlphaMaxMtl (mat fun (_ _ : Fin 1) => 1) (mat fun (_ : Fin 1) => oneY.ofLp) = .ok (XR.fin a) ∧
    ∀ ps : LassoParams XR, ps.alpha = XR.fin (max a 1) → ps.tolerance = XR.fin 0 → ps.K = 5 → ps.wsStartSize = 10 →
      MultiTaskLasso.fit argsortIns ps (denseDsMT (fun (_ _ : Fin 1) => 1) fun _ => oneY.ofLp) =
        .ok (.ok (mat fun (_ : Fin 1) (_ : Fin 2) => 0)) := by
  obtain ⟨a, ha, -⟩ := C20_alpha_max_mtl one_pos (fun (_ _ : Fin 1) => 1) (fun (_ : Fin 1) => oneY.ofLp)
  refine ⟨a, ha, fun ps h1 h2 h3 h4 => ?_⟩
  exact C32_multitask argsortIns_spec one_pos (.dense fun (_ _ : Fin 1) => 1) _ a (max a 1) 0 ha (le_max_left _ _)
    (lt_of_lt_of_le one_pos (le_max_right _ _)) le_rfl ps h1 h2 (by omega) (by omega)

end
end Sglm
