import Verif.Model.Estimators
import Verif.Model.Python
import Verif.Spec.Api
import Verif.Proofs.XRBasic

/-!
# API properties (C40 - C43, C47)
-/

namespace Sglm
open Scalar Spec

/-! ## C40 -/

section
variable {F : Type} [Scalar F]

/-- The documented constraints shared by all estimators, after the penalty-specific ones. -/
def tailTable (tolerance : F) (K ws : Nat) : List (Bool × EstimatorError F) :=
  [(signBit tolerance, .invalidTolerance tolerance),
   (decide (K < 1), .invalidK K),
   (decide (ws < 1), .invalidWSSize ws)]

/-- Documented domain of `LassoParams` and `MultiTaskLassoParams`. -/
def lassoTable (p : LassoParams F) : List (Bool × EstimatorError F) :=
  (signBit p.alpha, .invalidRegularization p.alpha) :: tailTable p.tolerance p.K p.wsStartSize

/-- Documented domain of `MCParams` and `BlockMCParams`. -/
def mcpTable (p : MCParams F) : List (Bool × EstimatorError F) :=
  (signBit p.alpha, .invalidRegularization p.alpha) :: (p.gamma <. one, .invalidGamma p.gamma) ::
    tailTable p.tolerance p.K p.wsStartSize

/-- Documented domain of `ElasticNetParams` and `MultiTaskElasticNetParams`. -/
def enetTable (p : ElasticNetParams F) : List (Bool × EstimatorError F) :=
  (signBit p.alpha, .invalidRegularization p.alpha) ::
    ((one <. p.l1Ratio) || (p.l1Ratio <. zero), .invalidL1Ratio p.l1Ratio) ::
    tailTable p.tolerance p.K p.wsStartSize

theorem checkTail_eq {α : Type} (tolerance : F) (K ws : Nat) (a : α) :
    checkTail tolerance K ws a = verdict (tailTable tolerance K ws) a := by
  unfold checkTail verdict tailTable
  cases signBit tolerance <;> rcases K with _ | K <;> rcases ws with _ | ws <;> simp [firstViolation]

/-- The full statement of C40: the checks of all six estimators return the first violated constraint of
the documented domain. -/
def C40_full (F : Type) [Scalar F] : Prop :=
  (∀ p : LassoParams F, p.checkRef = verdict (lassoTable p) p) ∧
  (∀ p : MCParams F, p.checkRef = verdict (mcpTable p) p) ∧
  (∀ p : ElasticNetParams F, p.checkRef = verdict (enetTable p) p) ∧
  (∀ p : MCParams F, p.checkRefBlock = verdict (mcpTable p) p)

/-- **C40 (partial).** Validation is exact for five of the six estimators (`LassoParams` also stands for
`MultiTaskLassoParams`, `ElasticNetParams` for `MultiTaskElasticNetParams`), and `BlockMCParams` enforces the
constraints which do not involve `gamma`.  Missing: `BlockMCParams` does not check `gamma`. -/
theorem C40_validation_partial :
    (∀ p : LassoParams F, p.checkRef = verdict (lassoTable p) p) ∧
    (∀ p : MCParams F, p.checkRef = verdict (mcpTable p) p) ∧
    (∀ p : ElasticNetParams F, p.checkRef = verdict (enetTable p) p) ∧
    (∀ p : MCParams F, p.checkRefBlock = verdict ((mcpTable p).eraseIdx 1) p) := by
  refine ⟨fun p => ?_, fun p => ?_, fun p => ?_, fun p => ?_⟩
  · unfold LassoParams.checkRef lassoTable
    rw [checkTail_eq]
    cases signBit p.alpha <;> simp [verdict, firstViolation]
  · unfold MCParams.checkRef mcpTable
    rw [checkTail_eq]
    cases signBit p.alpha <;> cases (p.gamma <. one) <;> simp [verdict, firstViolation]
  · unfold ElasticNetParams.checkRef enetTable
    rw [checkTail_eq]
    cases signBit p.alpha <;> cases ((one <. p.l1Ratio) || (p.l1Ratio <. zero)) <;>
      simp [verdict, firstViolation]
  · unfold MCParams.checkRefBlock mcpTable
    rw [checkTail_eq]
    cases signBit p.alpha <;> simp [verdict, firstViolation]

/-- On exact numbers: a Lasso parameter set is accepted iff `alpha` and `tolerance` are not negative (NaN is
not negative) and `K`, `ws_start_size` are positive. -/
theorem C40_lasso_domain (p : LassoParams XR) :
    (∃ q, p.checkRef = .ok q) ↔
      (∀ a : ℝ, p.alpha = XR.fin a → 0 ≤ a) ∧ p.alpha ≠ XR.ninf ∧
      (∀ a : ℝ, p.tolerance = XR.fin a → 0 ≤ a) ∧ p.tolerance ≠ XR.ninf ∧
      1 ≤ p.K ∧ 1 ≤ p.wsStartSize := by
  have hs : ∀ x : XR, (signBit x = false) ↔ ((∀ a : ℝ, x = XR.fin a → 0 ≤ a) ∧ x ≠ XR.ninf) := by
    intro x
    show XR.signBit x = false ↔ _
    cases x <;> simp [XR.signBit]
  have h1 := hs p.alpha
  have h2 := hs p.tolerance
  rw [(C40_validation_partial (F := XR)).1 p]
  unfold verdict lassoTable tailTable
  have h1' : (signBit p.alpha = true) ↔ ¬ ((∀ a : ℝ, p.alpha = XR.fin a → 0 ≤ a) ∧ p.alpha ≠ XR.ninf) := by
    rw [← h1]; simp
  cases ha : signBit p.alpha
  · have h1 := h1.mp ha
    cases ht : signBit p.tolerance
    · have h2 := h2.mp ht
      by_cases hK : p.K < 1 <;> by_cases hw : p.wsStartSize < 1 <;>
        simp [firstViolation, hK, hw]
      all_goals first
        | omega
        | exact ⟨h1.1, h1.2, h2.1, h2.2, by omega, by omega⟩
    · have h2 := fun h => Bool.false_ne_true ((h2.mpr h).symm.trans ht)
      simp only [firstViolation]
      simp
      intro _ _ h3 h4
      exact absurd ⟨h3, h4⟩ h2
  · have h1 := fun h => Bool.false_ne_true ((h1.mpr h).symm.trans ha)
    simp only [firstViolation]
    simp
    intro h3 h4
    exact absurd ⟨h3, h4⟩ h1

example : (∃ q, (LassoParams.new : LassoParams XR).checkRef = .ok q) := by
  rw [C40_lasso_domain]
  refine ⟨?_, ?_, ?_, ?_, by decide, by decide⟩
  · intro a ha; rw [show (LassoParams.new : LassoParams XR).alpha = XR.fin 1 from rfl] at ha
    injection ha with ha; rw [← ha]; norm_num
  · rw [show (LassoParams.new : LassoParams XR).alpha = XR.fin 1 from rfl]; simp
  · intro a ha
    rw [show (LassoParams.new : LassoParams XR).tolerance = XR.fin (((1 : Int) : ℝ) / ((1000000 : Nat) : ℝ)) from rfl] at ha
    injection ha with ha; rw [← ha]; norm_num
  · rw [show (LassoParams.new : LassoParams XR).tolerance = XR.fin (((1 : Int) : ℝ) / ((1000000 : Nat) : ℝ)) from rfl]; simp

/-- NaN regularization passes the validation. -/
example : ∃ q, ((LassoParams.new : LassoParams XR).setAlpha XR.nan).checkRef = .ok q := by
  refine ⟨(LassoParams.new : LassoParams XR).setAlpha XR.nan, ?_⟩
  rw [(C40_validation_partial (F := XR)).1]
  have h1 : signBit (XR.nan) = false := rfl
  have h2 : signBit ((LassoParams.new : LassoParams XR).tolerance) = false := by
    show decide (((1 : Int) : ℝ) / ((1000000 : Nat) : ℝ) < 0) = false
    rw [decide_eq_false_iff_not]; norm_num
  simp [verdict, lassoTable, tailTable, firstViolation, LassoParams.setAlpha, h1, h2]
  simp [LassoParams.new, firstViolation]

/-- **C40 is false of the code**: `BlockMCParams` accepts `gamma = 0`. -/
theorem C40_false : ¬ C40_full XR := by
  intro h
  have h4 := h.2.2.2 (⟨XR.fin 1, XR.fin 0, 50, 1000, 10, XR.fin 0, 5, true, true⟩)
  have e1 : signBit (XR.fin 1) = false := by
    show decide ((1:ℝ) < 0) = false
    rw [decide_eq_false_iff_not]; norm_num
  have e0 : signBit (XR.fin 0) = false := by
    show decide ((0:ℝ) < 0) = false
    rw [decide_eq_false_iff_not]; norm_num
  simp [MCParams.checkRefBlock, checkTail, verdict, mcpTable, firstViolation, e1, e0] at h4

/-! ## C41 -/

variable {DM : Type} [DesignMatrix F DM]

/-- **C41.** For each of the six estimators: `check` and `check_ref` agree; fitting invalid parameters
returns the validation error, whatever the dataset; fitting valid parameters is fitting the checked
parameters, which are the parameters themselves. -/
theorem C41_guarded [Datafit F DM (Quadratic F)] [MTDatafit F DM (QuadraticMT F)] (srt : Argsort F)
    (ds : Dataset DM F) :
    (∀ p : LassoParams F, p.check = p.checkRef ∧
      (∀ e, p.check = .error e → Lasso.fit srt p ds = .ok (.error e) ∧
        MultiTaskLasso.fit srt p ds = .ok (.error e)) ∧
      (∀ q, p.check = .ok q → q = p ∧ Lasso.fit srt p ds = Lasso.fitValid srt p ds ∧
        MultiTaskLasso.fit srt p ds = MultiTaskLasso.fitValid srt p ds)) ∧
    (∀ p : ElasticNetParams F, p.check = p.checkRef ∧
      (∀ e, p.check = .error e → ElasticNet.fit srt p ds = .ok (.error e) ∧
        MultiTaskElasticNet.fit srt p ds = .ok (.error e)) ∧
      (∀ q, p.check = .ok q → q = p ∧ ElasticNet.fit srt p ds = ElasticNet.fitValid srt p ds ∧
        MultiTaskElasticNet.fit srt p ds = MultiTaskElasticNet.fitValid srt p ds)) ∧
    (∀ p : MCParams F, p.check = p.checkRef ∧
      (∀ e, p.check = .error e → MCPEstimator.fit srt p ds = .ok (.error e)) ∧
      (∀ q, p.check = .ok q → q = p ∧ MCPEstimator.fit srt p ds = MCPEstimator.fitValid srt p ds)) ∧
    (∀ p : MCParams F, p.checkBlock = p.checkRefBlock ∧
      (∀ e, p.checkBlock = .error e → BlockMCPEstimator.fit srt p ds = .ok (.error e)) ∧
      (∀ q, p.checkBlock = .ok q →
        q = p ∧ BlockMCPEstimator.fit srt p ds = BlockMCPEstimator.fitValid srt p ds)) := by
  -- a checked parameter set is the parameter set itself
  have tail : ∀ {α : Type} (t : F) (K ws : Nat) (a b : α), checkTail t K ws a = .ok b → b = a := by
    intro α t K ws a b h
    unfold checkTail at h
    split_ifs at h
    injection h with h; exact h.symm
  have hl : ∀ (p q : LassoParams F), p.checkRef = .ok q → q = p := by
    intro p q h; unfold LassoParams.checkRef at h; split_ifs at h; exact tail _ _ _ _ _ h
  have he : ∀ (p q : ElasticNetParams F), p.checkRef = .ok q → q = p := by
    intro p q h; unfold ElasticNetParams.checkRef at h; split_ifs at h; exact tail _ _ _ _ _ h
  have hm : ∀ (p q : MCParams F), p.checkRef = .ok q → q = p := by
    intro p q h; unfold MCParams.checkRef at h; split_ifs at h; exact tail _ _ _ _ _ h
  have hb : ∀ (p q : MCParams F), p.checkRefBlock = .ok q → q = p := by
    intro p q h; unfold MCParams.checkRefBlock at h; split_ifs at h; exact tail _ _ _ _ _ h
  have key : ∀ {P : Type} (c : P → Except (EstimatorError F) P) (p : P), (∀ q, c p = .ok q → q = p) →
      (do let _ ← c p; pure p : Except (EstimatorError F) P) = c p := by
    intro P c p h
    cases hc : c p with
    | error e => rfl
    | ok q => rw [h q hc]; rfl
  refine ⟨fun p => ?_, fun p => ?_, fun p => ?_, fun p => ?_⟩
  · have hk : p.check = p.checkRef := key LassoParams.checkRef p (hl p)
    refine ⟨hk, fun e h => ?_, fun q h => ?_⟩
    · rw [hk] at h
      simp only [Lasso.fit, MultiTaskLasso.fit, guardedFit, h]
      exact ⟨rfl, rfl⟩
    · rw [hk] at h
      have := hl p q h
      subst this
      simp only [Lasso.fit, MultiTaskLasso.fit, guardedFit, h]
      exact ⟨trivial, trivial, trivial⟩
  · have hk : p.check = p.checkRef := key ElasticNetParams.checkRef p (he p)
    refine ⟨hk, fun e h => ?_, fun q h => ?_⟩
    · rw [hk] at h
      simp only [ElasticNet.fit, MultiTaskElasticNet.fit, guardedFit, h]
      exact ⟨rfl, rfl⟩
    · rw [hk] at h
      have := he p q h
      subst this
      simp only [ElasticNet.fit, MultiTaskElasticNet.fit, guardedFit, h]
      exact ⟨trivial, trivial, trivial⟩
  · have hk : p.check = p.checkRef := key MCParams.checkRef p (hm p)
    refine ⟨hk, fun e h => ?_, fun q h => ?_⟩
    · rw [hk] at h
      simp only [MCPEstimator.fit, guardedFit, h]
      rfl
    · rw [hk] at h
      have := hm p q h
      subst this
      simp only [MCPEstimator.fit, guardedFit, h]
      exact ⟨trivial, trivial⟩
  · have hk : p.checkBlock = p.checkRefBlock := key MCParams.checkRefBlock p (hb p)
    refine ⟨hk, fun e h => ?_, fun q h => ?_⟩
    · rw [hk] at h
      simp only [BlockMCPEstimator.fit, guardedFit, h]
      rfl
    · rw [hk] at h
      have := hb p q h
      subst this
      simp only [BlockMCPEstimator.fit, guardedFit, h]
      exact ⟨trivial, trivial⟩

/-- Invalid parameters (`K = 0`) on an ill-shaped dataset: an error value, no panic. -/
example (srt : Argsort XR) :
    Lasso.fit srt ⟨XR.fin 1, 50, 1000, 10, XR.fin 0, 0, true, true⟩
      (⟨⟨2, [[XR.fin 1, XR.fin 1]]⟩, Targets.one [XR.fin 1, XR.fin 2, XR.fin 3]⟩ : Dataset (Mat XR) XR) =
      .ok (.error (.invalidK 0)) := by
  refine (((C41_guarded srt _).1 _).2.1 _ ?_).1
  rw [((C41_guarded srt (⟨⟨0, []⟩, Targets.one []⟩ : Dataset (Mat XR) XR)).1 _).1]
  have e1 : signBit (XR.fin 1) = false := by
    show decide ((1:ℝ) < 0) = false
    rw [decide_eq_false_iff_not]; norm_num
  have e0 : signBit (XR.fin 0) = false := by
    show decide ((0:ℝ) < 0) = false
    rw [decide_eq_false_iff_not]; norm_num
  simp [LassoParams.checkRef, checkTail, e0, e1]

/-! ## C42 -/

/-- If every call changes the field `proj` exactly as `sel` says, then after any sequence of calls the field
holds the last value set, or its initial value. -/
theorem proj_foldl {S Op A : Type} (app : S → Op → S) (proj : S → A) (sel : Op → Option A)
    (h : ∀ s op, proj (app s op) = (sel op).getD (proj s)) (calls : List Op) (s : S) :
    proj (calls.foldl app s) = lastSet sel (proj s) calls := by
  induction calls generalizing s with
  | nil => rfl
  | cons op t ih =>
    rw [List.foldl_cons, ih, h]
    unfold lastSet
    cases hs : sel op with
    | none => rw [List.filterMap_cons_none hs]; rfl
    | some a =>
      rw [List.filterMap_cons_some hs, List.getLast?_cons]
      rfl

/-- A call of a `Solver` setter. -/
inductive SolverCall (F : Type) where
  | wsStartSize (v : Nat) | maxIterations (v : Nat) | maxEpochs (v : Nat) | tolerance (v : F) | K (v : Nat)
  | useAcceleration (v : Bool) | verbose (v : Bool)

/-- Performing the call. -/
def SolverCall.run (s : Solver F) : SolverCall F → Solver F
  | .wsStartSize v => s.setWsStartSize v
  | .maxIterations v => s.setMaxIterations v
  | .maxEpochs v => s.setMaxEpochs v
  | .tolerance v => s.setTolerance v
  | .K v => s.setK v
  | .useAcceleration v => s.setUseAcceleration v
  | .verbose v => s.setVerbose v

/-- A call of a setter of one of the `…Params` builders; `extra` is `gamma` (MCP) or `l1_ratio` (elastic
net). -/
inductive ParamCall (F : Type) where
  | alpha (v : F) | extra (v : F) | maxIterations (v : Nat) | maxEpochs (v : Nat) | wsStartSize (v : Nat)
  | tolerance (v : F) | K (v : Nat) | useAcceleration (v : Bool) | verbose (v : Bool)

/-- Performing the call on `LassoParams` / `MultiTaskLassoParams` (which have no extra field). -/
def ParamCall.runLasso (s : LassoParams F) : ParamCall F → LassoParams F
  | .alpha v => s.setAlpha v
  | .extra _ => s
  | .maxIterations v => s.setMaxIterations v
  | .maxEpochs v => s.setMaxEpochs v
  | .wsStartSize v => s.setWsStartSize v
  | .tolerance v => s.setTolerance v
  | .K v => s.setK v
  | .useAcceleration v => s.setUseAcceleration v
  | .verbose v => s.setVerbose v

/-- Performing the call on `MCParams` / `BlockMCParams`. -/
def ParamCall.runMCP (s : MCParams F) : ParamCall F → MCParams F
  | .alpha v => s.setAlpha v
  | .extra v => s.setGamma v
  | .maxIterations v => s.setMaxIterations v
  | .maxEpochs v => s.setMaxEpochs v
  | .wsStartSize v => s.setWsStartSize v
  | .tolerance v => s.setTolerance v
  | .K v => s.setK v
  | .useAcceleration v => s.setUseAcceleration v
  | .verbose v => s.setVerbose v

/-- Performing the call on `ElasticNetParams` / `MultiTaskElasticNetParams`. -/
def ParamCall.runENet (s : ElasticNetParams F) : ParamCall F → ElasticNetParams F
  | .alpha v => s.setAlpha v
  | .extra v => s.setL1Ratio v
  | .maxIterations v => s.setMaxIterations v
  | .maxEpochs v => s.setMaxEpochs v
  | .wsStartSize v => s.setWsStartSize v
  | .tolerance v => s.setTolerance v
  | .K v => s.setK v
  | .useAcceleration v => s.setUseAcceleration v
  | .verbose v => s.setVerbose v

/-! The values set by the calls for each field. -/
def selAlpha : ParamCall F → Option F | .alpha v => some v | _ => none
def selExtra : ParamCall F → Option F | .extra v => some v | _ => none
def selMaxIter : ParamCall F → Option Nat | .maxIterations v => some v | _ => none
def selMaxEpochs : ParamCall F → Option Nat | .maxEpochs v => some v | _ => none
def selWs : ParamCall F → Option Nat | .wsStartSize v => some v | _ => none
def selTol : ParamCall F → Option F | .tolerance v => some v | _ => none
def selK : ParamCall F → Option Nat | .K v => some v | _ => none
def selAcc : ParamCall F → Option Bool | .useAcceleration v => some v | _ => none
def selVerb : ParamCall F → Option Bool | .verbose v => some v | _ => none

/-- **C42 (solver).** Any sequence of setter calls on `Solver::new()` yields for each field the last value set or
the documented default. -/
theorem C42_solver_setters (calls : List (SolverCall F)) :
    calls.foldl SolverCall.run (Solver.new : Solver F) =
      { wsStartSize := lastSet (fun | .wsStartSize v => some v | _ => none) 10 calls
        maxIterations := lastSet (fun | .maxIterations v => some v | _ => none) 50 calls
        maxEpochs := lastSet (fun | .maxEpochs v => some v | _ => none) 1000 calls
        tolerance := lastSet (fun | .tolerance v => some v | _ => none) (lit 1 100000000) calls
        K := lastSet (fun | .K v => some v | _ => none) 5 calls
        useAcceleration := lastSet (fun | .useAcceleration v => some v | _ => none) true calls
        verbose := lastSet (fun | .verbose v => some v | _ => none) true calls } := by
  have ext : ∀ a b : Solver F, a.wsStartSize = b.wsStartSize → a.maxIterations = b.maxIterations →
      a.maxEpochs = b.maxEpochs → a.tolerance = b.tolerance → a.K = b.K →
      a.useAcceleration = b.useAcceleration → a.verbose = b.verbose → a = b := by
    intro a b; cases a; cases b; simp only [Solver.mk.injEq]; tauto
  apply ext
  · exact proj_foldl _ Solver.wsStartSize _ (fun s op => by cases op <;> rfl) calls _
  · exact proj_foldl _ Solver.maxIterations _ (fun s op => by cases op <;> rfl) calls _
  · exact proj_foldl _ Solver.maxEpochs _ (fun s op => by cases op <;> rfl) calls _
  · exact proj_foldl _ Solver.tolerance _ (fun s op => by cases op <;> rfl) calls _
  · exact proj_foldl _ Solver.K _ (fun s op => by cases op <;> rfl) calls _
  · exact proj_foldl _ Solver.useAcceleration _ (fun s op => by cases op <;> rfl) calls _
  · exact proj_foldl _ Solver.verbose _ (fun s op => by cases op <;> rfl) calls _

/-- **C42 (Lasso builders).** -/
theorem C42_lasso_setters (calls : List (ParamCall F)) :
    calls.foldl ParamCall.runLasso (LassoParams.new : LassoParams F) =
      { alpha := lastSet selAlpha one calls
        maxIterations := lastSet selMaxIter 50 calls
        maxEpochs := lastSet selMaxEpochs 1000 calls
        wsStartSize := lastSet selWs 10 calls
        tolerance := lastSet selTol (lit 1 1000000) calls
        K := lastSet selK 5 calls
        useAcceleration := lastSet selAcc true calls
        verbose := lastSet selVerb true calls } := by
  have ext : ∀ a b : LassoParams F, a.alpha = b.alpha → a.maxIterations = b.maxIterations →
      a.maxEpochs = b.maxEpochs → a.wsStartSize = b.wsStartSize → a.tolerance = b.tolerance → a.K = b.K →
      a.useAcceleration = b.useAcceleration → a.verbose = b.verbose → a = b := by
    intro a b; cases a; cases b; simp only [LassoParams.mk.injEq]; tauto
  apply ext
  · exact proj_foldl _ LassoParams.alpha _ (fun s op => by cases op <;> rfl) calls _
  · exact proj_foldl _ LassoParams.maxIterations _ (fun s op => by cases op <;> rfl) calls _
  · exact proj_foldl _ LassoParams.maxEpochs _ (fun s op => by cases op <;> rfl) calls _
  · exact proj_foldl _ LassoParams.wsStartSize _ (fun s op => by cases op <;> rfl) calls _
  · exact proj_foldl _ LassoParams.tolerance _ (fun s op => by cases op <;> rfl) calls _
  · exact proj_foldl _ LassoParams.K _ (fun s op => by cases op <;> rfl) calls _
  · exact proj_foldl _ LassoParams.useAcceleration _ (fun s op => by cases op <;> rfl) calls _
  · exact proj_foldl _ LassoParams.verbose _ (fun s op => by cases op <;> rfl) calls _

/-- **C42 (MCP builders).** -/
theorem C42_mcp_setters (calls : List (ParamCall F)) :
    calls.foldl ParamCall.runMCP (MCParams.new : MCParams F) =
      { alpha := lastSet selAlpha one calls
        gamma := lastSet selExtra (lit 3 1) calls
        maxIterations := lastSet selMaxIter 50 calls
        maxEpochs := lastSet selMaxEpochs 1000 calls
        wsStartSize := lastSet selWs 10 calls
        tolerance := lastSet selTol (lit 1 1000000) calls
        K := lastSet selK 5 calls
        useAcceleration := lastSet selAcc true calls
        verbose := lastSet selVerb true calls } := by
  have ext : ∀ a b : MCParams F, a.alpha = b.alpha → a.gamma = b.gamma →
      a.maxIterations = b.maxIterations →
      a.maxEpochs = b.maxEpochs → a.wsStartSize = b.wsStartSize → a.tolerance = b.tolerance → a.K = b.K →
      a.useAcceleration = b.useAcceleration → a.verbose = b.verbose → a = b := by
    intro a b; cases a; cases b; simp only [MCParams.mk.injEq]; tauto
  apply ext
  · exact proj_foldl _ MCParams.alpha _ (fun s op => by cases op <;> rfl) calls _
  · exact proj_foldl _ MCParams.gamma _ (fun s op => by cases op <;> rfl) calls _
  · exact proj_foldl _ MCParams.maxIterations _ (fun s op => by cases op <;> rfl) calls _
  · exact proj_foldl _ MCParams.maxEpochs _ (fun s op => by cases op <;> rfl) calls _
  · exact proj_foldl _ MCParams.wsStartSize _ (fun s op => by cases op <;> rfl) calls _
  · exact proj_foldl _ MCParams.tolerance _ (fun s op => by cases op <;> rfl) calls _
  · exact proj_foldl _ MCParams.K _ (fun s op => by cases op <;> rfl) calls _
  · exact proj_foldl _ MCParams.useAcceleration _ (fun s op => by cases op <;> rfl) calls _
  · exact proj_foldl _ MCParams.verbose _ (fun s op => by cases op <;> rfl) calls _

/-- **C42 (elastic-net builders).** -/
theorem C42_enet_setters (calls : List (ParamCall F)) :
    calls.foldl ParamCall.runENet (ElasticNetParams.new : ElasticNetParams F) =
      { alpha := lastSet selAlpha one calls
        l1Ratio := lastSet selExtra (lit 1 2) calls
        maxIterations := lastSet selMaxIter 50 calls
        maxEpochs := lastSet selMaxEpochs 1000 calls
        wsStartSize := lastSet selWs 10 calls
        tolerance := lastSet selTol (lit 1 1000000) calls
        K := lastSet selK 5 calls
        useAcceleration := lastSet selAcc true calls
        verbose := lastSet selVerb true calls } := by
  have ext : ∀ a b : ElasticNetParams F, a.alpha = b.alpha → a.l1Ratio = b.l1Ratio →
      a.maxIterations = b.maxIterations →
      a.maxEpochs = b.maxEpochs → a.wsStartSize = b.wsStartSize → a.tolerance = b.tolerance → a.K = b.K →
      a.useAcceleration = b.useAcceleration → a.verbose = b.verbose → a = b := by
    intro a b; cases a; cases b; simp only [ElasticNetParams.mk.injEq]; tauto
  apply ext
  · exact proj_foldl _ ElasticNetParams.alpha _ (fun s op => by cases op <;> rfl) calls _
  · exact proj_foldl _ ElasticNetParams.l1Ratio _ (fun s op => by cases op <;> rfl) calls _
  · exact proj_foldl _ ElasticNetParams.maxIterations _ (fun s op => by cases op <;> rfl) calls _
  · exact proj_foldl _ ElasticNetParams.maxEpochs _ (fun s op => by cases op <;> rfl) calls _
  · exact proj_foldl _ ElasticNetParams.wsStartSize _ (fun s op => by cases op <;> rfl) calls _
  · exact proj_foldl _ ElasticNetParams.tolerance _ (fun s op => by cases op <;> rfl) calls _
  · exact proj_foldl _ ElasticNetParams.K _ (fun s op => by cases op <;> rfl) calls _
  · exact proj_foldl _ ElasticNetParams.useAcceleration _ (fun s op => by cases op <;> rfl) calls _
  · exact proj_foldl _ ElasticNetParams.verbose _ (fun s op => by cases op <;> rfl) calls _

/-- A sequence which sets a field twice. -/
example : ([.K 3, .verbose false, .K 7].foldl SolverCall.run (Solver.new : Solver F)) =
    ⟨10, 50, 1000, lit 1 100000000, 7, true, false⟩ := by
  rw [C42_solver_setters]; rfl

/-! ## C43 -/

/-- The solver a user would build with the builder API from estimator settings. -/
def builtSolver (ws iters epochs : Nat) (tol : F) (K : Nat) (acc verb : Bool) : Solver F :=
  ((((((((Solver.new : Solver F).setWsStartSize ws).setMaxIterations iters).setMaxEpochs epochs).setTolerance
    tol).setK K).setUseAcceleration acc).setVerbose verb)

/-- **C43.** Fitting an estimator with valid parameters is `Solver::solve` / `Solver::solve_multi_task` on a fresh
datafit with the penalty of the estimator and the same settings (same coefficients, same panics). -/
theorem C43_estimator_is_solver [Datafit F DM (Quadratic F)] [MTDatafit F DM (QuadraticMT F)]
    (srt : Argsort F) (ds : Dataset DM F) :
    (∀ p : LassoParams F, (∃ q, p.check = .ok q) →
      (Lasso.fit srt p ds = Except.ok <$> Solver.solve srt (builtSolver p.wsStartSize p.maxIterations
        p.maxEpochs p.tolerance p.K p.useAcceleration p.verbose) ds (Quadratic.new : Quadratic F)
        (L1.mk p.alpha)) ∧
      (MultiTaskLasso.fit srt p ds = Except.ok <$> Solver.solveMultiTask srt (builtSolver p.wsStartSize
        p.maxIterations p.maxEpochs p.tolerance p.K p.useAcceleration p.verbose) ds
        (QuadraticMT.new : QuadraticMT F) (L21.mk p.alpha))) ∧
    (∀ p : ElasticNetParams F, (∃ q, p.check = .ok q) →
      (ElasticNet.fit srt p ds = Except.ok <$> Solver.solve srt (builtSolver p.wsStartSize p.maxIterations
        p.maxEpochs p.tolerance p.K p.useAcceleration p.verbose) ds (Quadratic.new : Quadratic F)
        (L1PlusL2.mk p.alpha p.l1Ratio)) ∧
      (MultiTaskElasticNet.fit srt p ds = Except.ok <$> Solver.solveMultiTask srt (builtSolver p.wsStartSize
        p.maxIterations p.maxEpochs p.tolerance p.K p.useAcceleration p.verbose) ds
        (QuadraticMT.new : QuadraticMT F) (BlockL1PlusL2.mk p.alpha p.l1Ratio))) ∧
    (∀ p : MCParams F, (∃ q, p.check = .ok q) →
      MCPEstimator.fit srt p ds = Except.ok <$> Solver.solve srt (builtSolver p.wsStartSize p.maxIterations
        p.maxEpochs p.tolerance p.K p.useAcceleration p.verbose) ds (Quadratic.new : Quadratic F)
        (MCP.mk p.alpha p.gamma)) ∧
    (∀ p : MCParams F, (∃ q, p.checkBlock = .ok q) →
      BlockMCPEstimator.fit srt p ds = Except.ok <$> Solver.solveMultiTask srt (builtSolver p.wsStartSize
        p.maxIterations p.maxEpochs p.tolerance p.K p.useAcceleration p.verbose) ds
        (QuadraticMT.new : QuadraticMT F) (BlockMCP.mk p.alpha p.gamma)) := by
  have h := C41_guarded srt ds
  have fin : ∀ {A B C D E : Type} (m : M (A × B × C)) (f : A → D),
      (do let (st, _, _) ← m; pure (Except.ok (f st)) : M (Except E D)) =
        (Except.ok : D → Except E D) <$> (do let (st, _, _) ← m; pure (f st) : M D) := by
    intro A B C D E m f
    cases m <;> rfl
  refine ⟨fun p ⟨q, hq⟩ => ?_, fun p ⟨q, hq⟩ => ?_, fun p ⟨q, hq⟩ => ?_, fun p ⟨q, hq⟩ => ?_⟩
  · obtain ⟨-, h1, h2⟩ := (h.1 p).2.2 q hq
    exact ⟨h1.trans (fin _ _), h2.trans (fin _ _)⟩
  · obtain ⟨-, h1, h2⟩ := (h.2.1 p).2.2 q hq
    exact ⟨h1.trans (fin _ _), h2.trans (fin _ _)⟩
  · obtain ⟨-, h1⟩ := (h.2.2.1 p).2.2 q hq
    exact h1.trans (fin _ _)
  · obtain ⟨-, h1⟩ := (h.2.2.2 p).2.2 q hq
    exact h1.trans (fin _ _)

example : ∃ q, (⟨XR.fin 1, 50, 1000, 10, XR.fin 0, 5, true, true⟩ : LassoParams XR).check = .ok q := by
  have e1 : signBit (XR.fin 1) = false := by
    show decide ((1:ℝ) < 0) = false
    rw [decide_eq_false_iff_not]; norm_num
  have e0 : signBit (XR.fin 0) = false := by
    show decide ((0:ℝ) < 0) = false
    rw [decide_eq_false_iff_not]; norm_num
  exact ⟨⟨XR.fin 1, 50, 1000, 10, XR.fin 0, 5, true, true⟩, by
    simp [LassoParams.check, LassoParams.checkRef, checkTail, e0, e1]⟩

/-! ## C47 -/

omit [Scalar F] [DesignMatrix F DM] in
/-- **C47.** A 1-d target has as many samples as entries and one task, its matrix form has the target as only column,
and casting it back returns it unchanged; a target presenting more than one column is rejected; a 2-d
target with exactly one column is cast to that column. -/
theorem C47_target_casting :
    (∀ y : List F, (Targets.one y).nSamples = y.length ∧ (Targets.one y).nTasks = 1 ∧
      (Targets.one y).asMulti.ncols = 1 ∧ (∀ i, (Targets.one y).asMulti.get2 i 0 = getM y i) ∧
      (Targets.one y).asMulti.nrows = y.length ∧ (Targets.one y).trySingle = .ok (.ok y)) ∧
    (∀ T : Targets F, 1 < T.asMulti.ncols → T.trySingle = .ok (.error .nonCastableSingleTargets)) ∧
    (∀ (Y : Mat F) (y : List F), Y.ncols = 1 → Y.rows = y.map (fun v => [v]) →
      (Targets.two Y).trySingle = .ok (.ok y)) := by
  have col : ∀ y : List F, (y.map (fun v => [v])).mapM (fun r => getM r 0) = (.ok y : M (List F)) := by
    intro y
    induction y with
    | nil => rfl
    | cons a t ih => rw [List.map_cons, List.mapM_cons, ih]; rfl
  refine ⟨fun y => ⟨rfl, rfl, rfl, fun i => ?_, ?_, ?_⟩, fun T h => ?_, fun Y y h1 h2 => ?_⟩
  · unfold Mat.get2 Targets.one getM
    simp only [List.getElem?_map]
    cases y[i]? <;> rfl
  · simp [Targets.one, Mat.nrows]
  · unfold Targets.trySingle Targets.one Mat.colM
    rw [if_neg (by simp), if_pos (by simp), col]; rfl
  · unfold Targets.trySingle; rw [if_pos h]
  · unfold Targets.trySingle Targets.two Mat.colM
    rw [if_neg (by simp [h1]), if_pos (by simp [h1]), h2, col]; rfl

example : (1:ℕ) < (Targets.two (⟨2, [[1, 2], [3, 4]]⟩ : Mat ℕ)).asMulti.ncols := by decide

end

end Sglm
