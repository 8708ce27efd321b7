import Verif.Proofs.SkelCD

/-!
# `blockCoordinateDescent` is an instance of the skeleton
-/

namespace Sglm
namespace MT
open Scalar Spec

section
variable {F DM DF P : Type} [Scalar F] [DesignMatrix F DM] [MTDatafit F DM DF] [MTPenalty F P]

/-- The acceleration step without its printed lines. -/
def accelBCD (ds : Dataset DM F) (df : DF) (pen : P) (cfg : Solver F) (ws : List Nat) (e : Nat)
    (b : Mat F) (s : BCDState F) : M (Mat F × BCDState F) :=
  if cfg.useAcceleration then
    (fun r => (r.1, r.2.1)) <$> andersonAccel ds df pen b s ws e cfg.K false []
  else pure (b, s)

omit [DesignMatrix F DM] in
/-- The periodic stopping test without its printed lines. -/
def stopBCD (ds : Dataset DM F) (df : DF) (pen : P) (tol : F) (nf : Nat) (ws : List Nat) (sz : Nat)
    (km : F) (e : Nat) (s : BCDState F) : M Bool :=
  if e > 0 ∧ e % 10 = 0 then do
    let _ ← objective ds df pen s.W s.XW
    let (_, m) ← optCondViolation ds s.W s.XW ws df pen
    if sz = nf then pure (m <=. tol) else pure (m <. lit 3 10 *. km)
  else pure false

/-- The multi-task solver as a skeleton. -/
def skelBCD (srt : Argsort F) (ds : Dataset DM F) (df : DF) (pen : P) (cfg : Solver F) (nf ws0 : Nat) :
    Skel F (BCDState F) (Mat F) where
  viol s := optCondViolation ds s.W s.XW (List.range nf) df pen
  done km := km <=. cfg.tolerance
  mkWs kkt s := constructWs srt kkt s.W ws0
  buf0 sz := Mat.zeros (cfg.K + 1) (sz * ds.targets.nTasks)
  epoch ws s := bcdEpoch ds df pen ws s
  accel := accelBCD ds df pen cfg
  stop := stopBCD ds df pen cfg.tolerance nf
  maxEpochs := cfg.maxEpochs

theorem accel_rel (ds : Dataset DM F) (df : DF) (pen : P) (b : Mat F) (s : BCDState F) (ws : List Nat)
    (e K : Nat) (v : Bool) (log : List (Event F)) :
    RelM (fun p q => (p.1, p.2.1) = (q.1, q.2.1) ∧ LogInner v log p.2.2)
      (andersonAccel ds df pen b s ws e K v log) (andersonAccel ds df pen b s ws e K false []) := by
  unfold andersonAccel
  refine RelM.bind (RelM.refl_eq _) fun nf _ h => ?_
  subst h
  refine RelM.bind (RelM.refl_eq _) fun b1 _ h => ?_
  subst h
  split
  · refine RelM.bind (RelM.refl_eq _) fun U _ h => ?_
    subst h
    refine RelM.bind (RelM.refl_eq _) fun C _ h => ?_
    subst h
    refine RelM.bind (RelM.refl_eq _) fun z _ h => ?_
    subst h
    cases z with
    | none => exact ⟨rfl, count_say _ _ _ rfl, fun h => by subst h; rfl⟩
    | some z =>
      refine RelM.bind (RelM.refl_eq _) fun pt _ h => ?_
      subst h
      refine RelM.bind (RelM.refl_eq _) fun wa _ h => ?_
      subst h
      refine RelM.bind (RelM.refl_eq _) fun Xwa _ h => ?_
      subst h
      refine RelM.bind (RelM.refl_eq _) fun po _ h => ?_
      subst h
      refine RelM.bind (RelM.refl_eq _) fun poa _ h => ?_
      subst h
      split
      · exact ⟨rfl, count_say _ _ _ rfl, fun h => by subst h; rfl⟩
      · exact ⟨rfl, rfl, fun _ => rfl⟩
  · exact ⟨rfl, rfl, fun _ => rfl⟩

omit [DesignMatrix F DM] in
theorem check_rel (ds : Dataset DM F) (df : DF) (pen : P) (cfg : Solver F) (nf : Nat) (ws : List Nat)
    (sz : Nat) (km : F) (e : Nat) (s : BCDState F) (log : List (Event F)) :
    RelM (fun p q => p.1 = q ∧ LogInner cfg.verbose log p.2)
      (innerCheck ds df pen cfg nf ws sz km e s log) (stopBCD ds df pen cfg.tolerance nf ws sz km e s) := by
  unfold innerCheck stopBCD
  split
  · refine RelM.bind (RelM.refl_eq _) fun po _ h => ?_
    subst h
    refine RelM.bind (RelM.refl_eq _) fun q _ h => ?_
    subst h
    have h1 : LogInner cfg.verbose log (say cfg.verbose (.epoch e po q.2) log) :=
      ⟨count_say _ _ _ rfl, fun h => by rw [h]; rfl⟩
    dsimp only
    split
    · exact ⟨rfl, h1⟩
    · split
      · rename_i hl
        exact ⟨hl.symm, (count_say _ _ _ rfl).trans h1.1, fun h => by rw [h]; rfl⟩
      · rename_i hl
        exact ⟨by simpa using hl, h1⟩
  · exact ⟨rfl, rfl, fun _ => rfl⟩

theorem inner_rel (srt : Argsort F) (ds : Dataset DM F) (df : DF) (pen : P) (cfg : Solver F) (nf ws0 : Nat)
    (ws : List Nat) (sz : Nat) (km : F) : ∀ (r e : Nat) (b : Mat F) (s : BCDState F) (log : List (Event F)),
    RelM (fun p q => p.1 = q ∧ LogInner cfg.verbose log p.2)
      (innerLoop ds df pen cfg nf ws sz km r e b s log)
      ((skelBCD srt ds df pen cfg nf ws0).inner ws sz km r e b s)
  | 0, _, _, _, _ => ⟨rfl, rfl, fun _ => rfl⟩
  | r + 1, e, b, s, log => by
    unfold innerLoop Skel.inner
    refine RelM.bind (RelM.refl_eq _) fun s1 _ h => ?_
    subst h
    have ha : RelM (fun p q => (p.1, p.2.1) = q ∧ LogInner cfg.verbose log p.2.2)
        (if cfg.useAcceleration then andersonAccel ds df pen b s1 ws e cfg.K cfg.verbose log
          else pure (b, s1, log)) ((skelBCD srt ds df pen cfg nf ws0).accel ws e b s1) := by
      show RelM _ _ (accelBCD ds df pen cfg ws e b s1)
      unfold accelBCD
      split
      · have h := accel_rel ds df pen b s1 ws e cfg.K cfg.verbose log
        revert h
        cases andersonAccel ds df pen b s1 ws e cfg.K cfg.verbose log <;>
          cases andersonAccel ds df pen b s1 ws e cfg.K false [] <;> exact id
      · exact ⟨rfl, rfl, fun _ => rfl⟩
    dsimp only
    rw [← ite_bind]
    refine RelM.bind ha fun p q ⟨h1, h2⟩ => ?_
    subst h1
    obtain ⟨b2, s2, log2⟩ := p
    refine RelM.bind (check_rel ds df pen cfg nf ws sz km e s2 log2) fun p q ⟨h3, h4⟩ => ?_
    subst h3
    obtain ⟨st, log3⟩ := p
    have h5 : LogInner cfg.verbose log log3 :=
      ⟨h4.1.trans h2.1, fun h => (h4.2 h).trans (h2.2 h)⟩
    dsimp only
    split
    · exact ⟨rfl, h5⟩
    · refine RelM.mono (inner_rel srt ds df pen cfg nf ws0 ws sz km r (e + 1) b2 s2 log3) ?_
      exact fun p q ⟨h6, h7⟩ => ⟨h6, h7.1.trans h5.1, fun h => (h7.2 h).trans (h5.2 h)⟩

theorem outer_rel (srt : Argsort F) (ds : Dataset DM F) (df : DF) (pen : P) (cfg : Solver F) (nf ws0 : Nat) :
    ∀ (r t : Nat) (s : BCDState F) (log : List (Event F)),
    RelM (fun p q => p.1 = q.1 ∧
        (cfg.verbose = true → iterationsPrinted p.2 = iterationsPrinted log + q.2) ∧
        (cfg.verbose = false → p.2 = log))
      (outerLoop srt ds df pen cfg nf ws0 r t s log)
      ((skelBCD srt ds df pen cfg nf ws0).outer r s)
  | 0, _, _, _ => ⟨rfl, fun _ => rfl, fun _ => rfl⟩
  | r + 1, t, s, log => by
    unfold outerLoop Skel.outer
    refine RelM.bind (RelM.refl_eq _) fun q _ h => ?_
    subst h
    obtain ⟨kkt, km⟩ := q
    show RelM _ (if (km <=. cfg.tolerance) = true then _ else _)
      (if (km <=. cfg.tolerance) = true then _ else _)
    split
    · refine ⟨rfl, fun _ => count_say _ _ _ rfl, fun h => ?_⟩
      dsimp only
      rw [h]; rfl
    · refine RelM.bind (RelM.refl_eq _) fun q _ h => ?_
      subst h
      obtain ⟨ws, sz⟩ := q
      dsimp only
      refine RelM.bind (inner_rel srt ds df pen cfg nf ws0 ws sz km cfg.maxEpochs 0 _ s _)
        fun p q ⟨h1, h2⟩ => ?_
      subst h1
      obtain ⟨s1, log1⟩ := p
      have key := outer_rel srt ds df pen cfg nf ws0 r (t + 1) s1 log1
      revert key
      cases outerLoop srt ds df pen cfg nf ws0 r (t + 1) s1 log1 with
      | error e =>
        cases (skelBCD srt ds df pen cfg nf ws0).outer r s1 with
        | error e' => exact id
        | ok q => exact id
      | ok p =>
        cases (skelBCD srt ds df pen cfg nf ws0).outer r s1 with
        | error e' => exact id
        | ok q =>
          intro ⟨h3, h4, h5⟩
          refine ⟨h3, fun hv => ?_, fun hv => ?_⟩
          · have e1 := h4 hv
            have e2 := h2.1
            show iterationsPrinted p.2 = iterationsPrinted log + (q.2 + 1)
            rw [e1, e2, hv]
            have e3 : iterationsPrinted (say true (.iteration (t + 1) sz) (say true (.kkt km) log)) =
                iterationsPrinted log + 1 := by
              unfold say iterationsPrinted
              simp [isIteration]
            rw [e3]; omega
          · have e1 := h2.2 hv
            dsimp only at e1
            rw [h5 hv, e1, hv]; rfl

/-- The initial state of the solver. -/
def initBCD (n nf nt : Nat) : BCDState F := ⟨Mat.zeros nf nt, Mat.zeros n nt⟩

/-- A run of the solver on the skeleton: final state and number of iterations. -/
def runBCD (srt : Argsort F) (ds : Dataset DM F) (df : DF) (pen : P) (cfg : Solver F) :
    M (BCDState F × Nat) := do
  let nf ← DesignMatrix.nFeatures ds.designMatrix
  let df ← MTDatafit.init df ds
  (skelBCD srt ds df pen cfg nf (ws0CD cfg nf)).outer cfg.maxIterations (initBCD ds.targets.nSamples nf ds.targets.nTasks)

theorem bcd_rel (srt : Argsort F) (ds : Dataset DM F) (df : DF) (pen : P) (cfg : Solver F) :
    RelM (fun p q => p.1 = q.1 ∧
        (cfg.verbose = true → iterationsPrinted p.2.2 = q.2) ∧ (cfg.verbose = false → p.2.2 = []))
      (blockCoordinateDescent srt ds df pen cfg) (runBCD srt ds df pen cfg) := by
  unfold blockCoordinateDescent runBCD
  refine RelM.bind (RelM.refl_eq _) fun nf _ h => ?_
  subst h
  refine RelM.bind (RelM.refl_eq _) fun df1 _ h => ?_
  subst h
  have e : (if cfg.wsStartSize > nf then nf else cfg.wsStartSize) = ws0CD cfg nf := by
    unfold ws0CD; split <;> omega
  dsimp only
  rw [e]
  have key := outer_rel srt ds df1 pen cfg nf (ws0CD cfg nf) cfg.maxIterations 0
    (initBCD ds.targets.nSamples nf ds.targets.nTasks) []
  unfold initBCD at key ⊢
  revert key
  generalize outerLoop srt ds df1 pen cfg nf (ws0CD cfg nf) cfg.maxIterations 0 _ [] = a
  generalize (skelBCD srt ds df1 pen cfg nf (ws0CD cfg nf)).outer cfg.maxIterations _ = b
  cases a <;> cases b <;> try exact id
  intro ⟨h1, h2, h3⟩
  exact ⟨h1, fun h => by simpa [iterationsPrinted] using h2 h, h3⟩

/-- The coefficients returned by `solve`. -/
theorem solve_eq (srt : Argsort F) (ds : Dataset DM F) (df : DF) (pen : P) (cfg : Solver F) :
    Solver.solveMultiTask srt cfg ds df pen = (fun q => q.1.W) <$> runBCD srt ds df pen cfg := by
  have h := bcd_rel srt ds df pen cfg
  unfold Solver.solveMultiTask
  revert h
  cases blockCoordinateDescent srt ds df pen cfg <;> cases runBCD srt ds df pen cfg
  · intro h; exact congrArg Except.error h
  · intro h; exact h.elim
  · intro h; exact h.elim
  · intro h; exact congrArg (fun s => Except.ok (BCDState.W s)) h.1

end
end MT
end Sglm
