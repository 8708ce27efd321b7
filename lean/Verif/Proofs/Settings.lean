import Verif.Proofs.SafeMT
import Verif.Spec.Settings

/-!
# Settings without effect
-/

set_option linter.unusedSectionVars false

namespace Sglm
open Scalar Spec

/-! ## Equal runs -/

section
variable {F DM DF P : Type} [Scalar F] [DesignMatrix F DM] [Datafit F DM DF] [Penalty F P]

theorem innerCheck_same (ds : Dataset DM F) (df : DF) (pen : P) {p : ℕ} {c c' : Solver F} (h : SameEffect p c c') (nf : ℕ) (ws : List ℕ)
    (sz : ℕ) (km : F) (e : ℕ) (st : CDState F) (log : List (Event F)) :
    innerCheck ds df pen c nf ws sz km e st log = innerCheck ds df pen c' nf ws sz km e st log := by
  unfold innerCheck
  rw [h.tolerance, h.verbose]

theorem innerLoop_same (ds : Dataset DM F) (df : DF) (pen : P) {p : ℕ} {c c' : Solver F} (h : SameEffect p c c') (nf : ℕ) (ws : List ℕ)
    (sz : ℕ) (km : F) : ∀ (r e : ℕ) (b b' : Mat F) (st : CDState F) (log : List (Event F)), (c.useAcceleration = true → b = b') →
    innerLoop ds df pen c nf ws sz km r e b st log = innerLoop ds df pen c' nf ws sz km r e b' st log
  | 0, _, _, _, _, _, _ => rfl
  | r + 1, e, b, b', st, log, hb => by
    unfold innerLoop
    refine congrArg (fun f => cdEpoch ds df pen ws st >>= f) (funext fun st1 => ?_)
    cases hu : c.useAcceleration with
    | true =>
      rw [← h.acceleration, hu, hb hu, ← h.K hu, h.verbose]
      simp only [if_true]
      refine congrArg (fun f => andersonAccel ds df pen b' st1 ws e c.K c'.verbose log >>= f) (funext fun q => ?_)
      obtain ⟨b2, st2, log2⟩ := q
      dsimp only
      rw [innerCheck_same ds df pen h]
      refine congrArg (fun f => innerCheck ds df pen c' nf ws sz km e st2 log2 >>= f) (funext fun q => ?_)
      obtain ⟨stop, log3⟩ := q
      dsimp only
      split
      · rfl
      · exact innerLoop_same ds df pen h nf ws sz km r (e + 1) b2 b2 st2 log3 fun _ => rfl
    | false =>
      rw [← h.acceleration, hu]
      simp only [Bool.false_eq_true, if_false, pure_bind]
      rw [innerCheck_same ds df pen h]
      refine congrArg (fun f => innerCheck ds df pen c' nf ws sz km e st1 log >>= f) (funext fun q => ?_)
      obtain ⟨stop, log3⟩ := q
      dsimp only
      split
      · rfl
      · exact innerLoop_same ds df pen h nf ws sz km r (e + 1) b b' st1 log3 fun h => by rw [hu] at h; cases h

theorem outerLoop_same (srt : Argsort F) (ds : Dataset DM F) (df : DF) (pen : P) {p : ℕ} {c c' : Solver F} (h : SameEffect p c c')
    (nf ws0 : ℕ) : ∀ (r t : ℕ) (st : CDState F) (log : List (Event F)),
    outerLoop srt ds df pen c nf ws0 r t st log = outerLoop srt ds df pen c' nf ws0 r t st log
  | 0, _, _, _ => rfl
  | r + 1, t, st, log => by
    unfold outerLoop
    refine congrArg (fun f => optCondViolation ds st.w st.Xw (List.range nf) df pen >>= f) (funext fun q => ?_)
    obtain ⟨kkt, km⟩ := q
    dsimp only
    rw [h.tolerance, h.verbose, h.epochs]
    split
    · rfl
    · refine congrArg (fun f => constructWs srt kkt st.w ws0 >>= f) (funext fun q => ?_)
      obtain ⟨ws, sz⟩ := q
      dsimp only
      rw [innerLoop_same ds df pen h nf ws sz km c'.maxEpochs 0 (Mat.zeros (c.K + 1) sz) (Mat.zeros (c'.K + 1) sz) st _
        fun hu => by rw [h.K hu]]
      exact congrArg (fun f => innerLoop ds df pen c' nf ws sz km c'.maxEpochs 0 _ st _ >>= f)
        (funext fun q => outerLoop_same srt ds df pen h nf ws0 r (t + 1) q.1 q.2)

theorem cd_same (srt : Argsort F) (ds : Dataset DM F) (df : DF) (pen : P) {nf : ℕ}
    (hnf : DesignMatrix.nFeatures (F := F) ds.designMatrix = .ok nf) {c c' : Solver F} (h : SameEffect nf c c') :
    coordinateDescent srt ds df pen c = coordinateDescent srt ds df pen c' := by
  unfold coordinateDescent
  rw [hnf]
  have e : (if c.wsStartSize > nf then nf else c.wsStartSize) = (if c'.wsStartSize > nf then nf else c'.wsStartSize) := by
    have := h.workingSet
    split <;> split <;> omega
  show (Datafit.init df ds >>= _) = (Datafit.init df ds >>= _)
  refine congrArg (fun f => Datafit.init df ds >>= f) (funext fun df1 => ?_)
  dsimp only
  rw [e, h.iterations, outerLoop_same srt ds df1 pen h]

end

namespace MT
section
variable {F DM DF P : Type} [Scalar F] [DesignMatrix F DM] [MTDatafit F DM DF] [MTPenalty F P]

theorem innerCheck_same (ds : Dataset DM F) (df : DF) (pen : P) {p : ℕ} {c c' : Solver F} (h : SameEffect p c c') (nf : ℕ) (ws : List ℕ)
    (sz : ℕ) (km : F) (e : ℕ) (st : BCDState F) (log : List (Event F)) :
    innerCheck ds df pen c nf ws sz km e st log = innerCheck ds df pen c' nf ws sz km e st log := by
  unfold innerCheck
  rw [h.tolerance, h.verbose]

theorem innerLoop_same (ds : Dataset DM F) (df : DF) (pen : P) {p : ℕ} {c c' : Solver F} (h : SameEffect p c c') (nf : ℕ) (ws : List ℕ)
    (sz : ℕ) (km : F) : ∀ (r e : ℕ) (b b' : Mat F) (st : BCDState F) (log : List (Event F)), (c.useAcceleration = true → b = b') →
    innerLoop ds df pen c nf ws sz km r e b st log = innerLoop ds df pen c' nf ws sz km r e b' st log
  | 0, _, _, _, _, _, _ => rfl
  | r + 1, e, b, b', st, log, hb => by
    unfold innerLoop
    refine congrArg (fun f => bcdEpoch ds df pen ws st >>= f) (funext fun st1 => ?_)
    cases hu : c.useAcceleration with
    | true =>
      rw [← h.acceleration, hu, hb hu, ← h.K hu, h.verbose]
      simp only [if_true]
      refine congrArg (fun f => andersonAccel ds df pen b' st1 ws e c.K c'.verbose log >>= f) (funext fun q => ?_)
      obtain ⟨b2, st2, log2⟩ := q
      dsimp only
      rw [innerCheck_same ds df pen h]
      refine congrArg (fun f => innerCheck ds df pen c' nf ws sz km e st2 log2 >>= f) (funext fun q => ?_)
      obtain ⟨stop, log3⟩ := q
      dsimp only
      split
      · rfl
      · exact innerLoop_same ds df pen h nf ws sz km r (e + 1) b2 b2 st2 log3 fun _ => rfl
    | false =>
      rw [← h.acceleration, hu]
      simp only [Bool.false_eq_true, if_false, pure_bind]
      rw [innerCheck_same ds df pen h]
      refine congrArg (fun f => innerCheck ds df pen c' nf ws sz km e st1 log >>= f) (funext fun q => ?_)
      obtain ⟨stop, log3⟩ := q
      dsimp only
      split
      · rfl
      · exact innerLoop_same ds df pen h nf ws sz km r (e + 1) b b' st1 log3 fun h => by rw [hu] at h; cases h

theorem outerLoop_same (srt : Argsort F) (ds : Dataset DM F) (df : DF) (pen : P) {p : ℕ} {c c' : Solver F} (h : SameEffect p c c')
    (nf ws0 : ℕ) : ∀ (r t : ℕ) (st : BCDState F) (log : List (Event F)),
    outerLoop srt ds df pen c nf ws0 r t st log = outerLoop srt ds df pen c' nf ws0 r t st log
  | 0, _, _, _ => rfl
  | r + 1, t, st, log => by
    unfold outerLoop
    refine congrArg (fun f => optCondViolation ds st.W st.XW (List.range nf) df pen >>= f) (funext fun q => ?_)
    obtain ⟨kkt, km⟩ := q
    dsimp only
    rw [h.tolerance, h.verbose, h.epochs]
    split
    · rfl
    · refine congrArg (fun f => constructWs srt kkt st.W ws0 >>= f) (funext fun q => ?_)
      obtain ⟨ws, sz⟩ := q
      dsimp only
      rw [innerLoop_same ds df pen h nf ws sz km c'.maxEpochs 0 (Mat.zeros (c.K + 1) (sz * ds.targets.nTasks))
        (Mat.zeros (c'.K + 1) (sz * ds.targets.nTasks)) st _ fun hu => by rw [h.K hu]]
      exact congrArg (fun f => innerLoop ds df pen c' nf ws sz km c'.maxEpochs 0 _ st _ >>= f)
        (funext fun q => outerLoop_same srt ds df pen h nf ws0 r (t + 1) q.1 q.2)

theorem bcd_same (srt : Argsort F) (ds : Dataset DM F) (df : DF) (pen : P) {nf : ℕ}
    (hnf : DesignMatrix.nFeatures (F := F) ds.designMatrix = .ok nf) {c c' : Solver F} (h : SameEffect nf c c') :
    blockCoordinateDescent srt ds df pen c = blockCoordinateDescent srt ds df pen c' := by
  unfold blockCoordinateDescent
  rw [hnf]
  have e : (if c.wsStartSize > nf then nf else c.wsStartSize) = (if c'.wsStartSize > nf then nf else c'.wsStartSize) := by
    have := h.workingSet
    split <;> split <;> omega
  show (MTDatafit.init df ds >>= _) = (MTDatafit.init df ds >>= _)
  refine congrArg (fun f => MTDatafit.init df ds >>= f) (funext fun df1 => ?_)
  dsimp only
  rw [e, h.iterations, outerLoop_same srt ds df1 pen h]

end
end MT

/-! ## Runs which never extrapolate, and runs which never update -/

namespace Skel
variable {F S B : Type}

/-- Two loops which differ only in the extrapolation, which in both cases does nothing. -/
theorem inner_idle {sk sk' : Skel F S B} {E : Panic → Prop} {Inv : S → Prop} {WsOK : List Nat → Nat → Prop}
    {BInv : List Nat → Nat → B → Prop} (he : sk.epoch = sk'.epoch) (hst : sk.stop = sk'.stop)
    (H : Hoare sk' E Inv WsOK fun _ _ _ => True) (hid : ∀ ws e b s, sk'.accel ws e b s = pure (b, s)) (N : ℕ)
    (hacc : ∀ ws sz e b s, e < N → Inv s → WsOK ws sz → BInv ws sz b → ∃ b', sk.accel ws e b s = .ok (b', s) ∧ BInv ws sz b')
    (ws : List ℕ) (sz : ℕ) (km : F) (hws : WsOK ws sz) : ∀ (r e : ℕ) (b b' : B) (s : S), e + r ≤ N → BInv ws sz b → Inv s →
    sk.inner ws sz km r e b s = sk'.inner ws sz km r e b' s
  | 0, _, _, _, _, _, _, _ => rfl
  | r + 1, e, b, b', s, hr, hb, hs => by
    unfold Skel.inner
    rw [he, hst]
    cases h1 : sk'.epoch ws s with
    | error x => rfl
    | ok s1 =>
      have hs1 : Inv s1 := Tri.elim_ok (H.epoch ws sz s hs hws) h1
      obtain ⟨b2, h2, h3⟩ := hacc ws sz e b s1 (by omega) hs1 hws hb
      show (sk.accel ws e b s1 >>= _) = (sk'.accel ws e b' s1 >>= _)
      rw [h2, hid]
      show (sk'.stop ws sz km e s1 >>= _) = (sk'.stop ws sz km e s1 >>= _)
      refine congrArg (fun f => sk'.stop ws sz km e s1 >>= f) (funext fun st => ?_)
      split
      · rfl
      · exact inner_idle he hst H hid N hacc ws sz km hws r (e + 1) b2 b' s1 (by omega) h3 hs1

theorem outer_idle {sk sk' : Skel F S B} {E : Panic → Prop} {Inv : S → Prop} {WsOK : List Nat → Nat → Prop}
    {BInv : List Nat → Nat → B → Prop} (hv : sk.viol = sk'.viol) (hd : sk.done = sk'.done) (hm : sk.mkWs = sk'.mkWs)
    (he : sk.epoch = sk'.epoch) (hst : sk.stop = sk'.stop) (hE : sk.maxEpochs = sk'.maxEpochs)
    (H : Hoare sk' E Inv WsOK fun _ _ _ => True) (hid : ∀ ws e b s, sk'.accel ws e b s = pure (b, s))
    (hb0 : ∀ ws sz, WsOK ws sz → BInv ws sz (sk.buf0 sz))
    (hacc : ∀ ws sz e b s, e < sk.maxEpochs → Inv s → WsOK ws sz → BInv ws sz b →
      ∃ b', sk.accel ws e b s = .ok (b', s) ∧ BInv ws sz b') : ∀ (r : ℕ) (s : S), Inv s → sk.outer r s = sk'.outer r s
  | 0, _, _ => rfl
  | r + 1, s, hs => by
    unfold Skel.outer
    rw [hv, hd, hm, ← hE]
    cases h1 : sk'.viol s with
    | error x => rfl
    | ok q =>
      obtain ⟨kkt, km⟩ := q
      show (if sk'.done km = true then _ else _) = (if sk'.done km = true then _ else _)
      split
      · rfl
      · rename_i hdn
        cases h2 : sk'.mkWs kkt s with
        | error x => rfl
        | ok q =>
          obtain ⟨ws, sz⟩ := q
          have hws : WsOK ws sz := Tri.elim_ok (Q := fun r : List ℕ × ℕ => WsOK r.1 r.2)
            (H.mkWs s kkt km hs h1 (by simpa using hdn)) h2
          show (sk.inner ws sz km sk.maxEpochs 0 (sk.buf0 sz) s >>= _) = (sk'.inner ws sz km sk.maxEpochs 0 (sk'.buf0 sz) s >>= _)
          rw [inner_idle he hst H hid sk.maxEpochs hacc ws sz km hws sk.maxEpochs 0 (sk.buf0 sz) (sk'.buf0 sz) s (by omega)
            (hb0 ws sz hws) hs]
          cases h3 : sk'.inner ws sz km sk.maxEpochs 0 (sk'.buf0 sz) s with
          | error x => rfl
          | ok s1 =>
            have hs1 : Inv s1 := Tri.elim_ok (H.inner ws sz km hws sk.maxEpochs 0 _ s trivial hs) h3
            show (sk.outer r s1 >>= _) = (sk'.outer r s1 >>= _)
            rw [outer_idle hv hd hm he hst hE H hid hb0 hacc r s1 hs1]

/-- Without iterations or without epochs the initial state is returned. -/
theorem outer_still (sk : Skel F S B) (r : ℕ) (h : r = 0 ∨ sk.maxEpochs = 0) (s s' : S) (k : ℕ) (hr : sk.outer r s = .ok (s', k)) :
    s' = s := by
  rcases h with h | h
  · subst h
    cases hr
    rfl
  · induction r generalizing k with
    | zero => cases hr; rfl
    | succ r ih =>
      unfold Skel.outer at hr
      rw [h] at hr
      cases h1 : sk.viol s with
      | error x => rw [h1] at hr; cases hr
      | ok q =>
        rw [h1] at hr
        obtain ⟨kkt, km⟩ := q
        change (if sk.done km = true then _ else _) = _ at hr
        split at hr
        · cases hr; rfl
        · cases h2 : sk.mkWs kkt s with
          | error x => rw [h2] at hr; cases hr
          | ok q =>
            rw [h2] at hr
            change (sk.outer r s >>= _) = _ at hr
            cases h3 : sk.outer r s with
            | error x => rw [h3] at hr; cases hr
            | ok q =>
              rw [h3] at hr
              obtain ⟨s1, k1⟩ := q
              cases hr
              exact ih k1 h3

end Skel

section
variable {F DM DF P : Type} [Scalar F] [DesignMatrix F DM] [Datafit F DM DF] [Penalty F P]
variable {ds : Dataset DM F} {df : DF} {pen : P} {n nf : ℕ}

theorem accelCD_idle (hnf : DesignMatrix.nFeatures (F := F) ds.designMatrix = .ok nf) (cfg : Solver F) {st : CDState F} {ws : List ℕ}
    {b : Mat F} {e : ℕ} (he : e < cfg.K) (hw : st.w.length = nf) (hws : ∀ j ∈ ws, j < nf) (hb : Shaped b (cfg.K + 1) ws.length) :
    ∃ b', accelCD ds df pen cfg ws e b st = .ok (b', st) ∧ Shaped b' (cfg.K + 1) ws.length := by
  unfold accelCD
  split
  · obtain ⟨b', h1, h2⟩ := Tri.exists_ok (storeIterate_safe hb (fun j hj => by rw [hw]; exact hws j hj)
      (Nat.mod_lt e (Nat.succ_pos cfg.K)))
    refine ⟨b', ?_, h2⟩
    unfold andersonAccel
    rw [hnf]
    show (fun r : Mat F × CDState F × List (Event F) => (r.1, r.2.1)) <$> (storeIterate b st.w ws (e % (cfg.K + 1)) >>= _) = _
    rw [h1]
    show (fun r : Mat F × CDState F × List (Event F) => (r.1, r.2.1)) <$> (if e % (cfg.K + 1) = cfg.K then _ else _) = _
    rw [if_neg]
    · rfl
    · rw [Nat.mod_eq_of_lt (by omega)]; omega
  · exact ⟨b, rfl, hb⟩

theorem run_idle {srt : Argsort F} (hs : ArgsortSpec srt) (cfg : Solver F) (hn : ds.targets.nSamples = n)
    (hnf : DesignMatrix.nFeatures (F := F) ds.designMatrix = .ok nf) (hf : SafeFit ds df n nf) (hp : SafePen pen) {ws0 : ℕ} (h0 : ws0 ≤ nf)
    (hK : cfg.maxEpochs ≤ cfg.K) (r : ℕ) (s : CDState F) (hw : s.w.length = nf) (hX : s.Xw.length = n) :
    (skelCD srt ds df pen cfg nf ws0).outer r s = (skelCD srt ds df pen (cfg.setUseAcceleration false) nf ws0).outer r s := by
  have H := hoare_safe (srt := srt) hs (cfg.setUseAcceleration false) hn hnf hf hp h0 (fun h => by cases h)
  refine Skel.outer_idle (sk := skelCD srt ds df pen cfg nf ws0)
    (sk' := skelCD srt ds df pen (cfg.setUseAcceleration false) nf ws0) (WsOK := fun ws sz => (∀ j ∈ ws, j < nf) ∧ sz = ws.length ∧ ws0 ≤ ws.length)
    (BInv := fun ws sz b => sz = ws.length ∧ Shaped b (cfg.K + 1) sz) rfl rfl rfl rfl rfl rfl
    ⟨H.viol, H.mkWs, fun _ _ _ => trivial, H.epoch, fun ws sz e b s h1 _ _ => ⟨trivial, h1⟩, H.stop⟩ (fun _ _ _ _ => rfl)
    (fun ws sz h => ⟨h.2.1, Shaped.zeros⟩) (fun ws sz e b s he h1 h2 h3 => ?_) r s ⟨hw, hX⟩
  obtain ⟨b', h4, h5⟩ := accelCD_idle (df := df) (pen := pen) hnf cfg (st := s) (ws := ws) (b := b) (e := e) (Nat.lt_of_lt_of_le he hK) h1.1
    h2.1 (by rw [← h3.1]; exact h3.2)
  exact ⟨b', h4, h3.1, by rw [h3.1]; exact h5⟩

theorem solve_idle {srt : Argsort F} (hs : ArgsortSpec srt) (cfg : Solver F) (df0 : DF) (hn : ds.targets.nSamples = n)
    (hnf : DesignMatrix.nFeatures (F := F) ds.designMatrix = .ok nf) (hi : Ok (Datafit.init df0 ds) (fun df => SafeFit ds df n nf))
    (hp : SafePen pen) (hK : cfg.maxEpochs ≤ cfg.K) :
    cfg.solve srt ds df0 pen = (cfg.setUseAcceleration false).solve srt ds df0 pen := by
  rw [solve_eq, solve_eq]
  refine congrArg (fun z => (fun q : CDState F × ℕ => q.1.w) <$> z) ?_
  unfold runCD
  rw [hnf]
  obtain ⟨df, h1, hf⟩ := Tri.exists_ok hi
  rw [h1]
  exact run_idle hs cfg hn hnf hf hp (Nat.min_le_right _ _) hK _ _ (by simp [initCD]) (by simp [initCD, hn])

theorem solve_still (srt : Argsort F) (cfg : Solver F) (df0 : DF) (h : NeverUpdates cfg) (w : List F)
    (hr : cfg.solve srt ds df0 pen = .ok w) : w = List.replicate w.length zero := by
  rw [solve_eq] at hr
  cases h1 : runCD srt ds df0 pen cfg with
  | error x => rw [h1] at hr; cases hr
  | ok q =>
    rw [h1] at hr
    injection hr with hr
    subst hr
    unfold runCD at h1
    cases h2 : DesignMatrix.nFeatures (F := F) ds.designMatrix with
    | error x => rw [h2] at h1; cases h1
    | ok nf =>
      rw [h2] at h1
      cases h3 : Datafit.init df0 ds with
      | error x =>
        change (Datafit.init df0 ds >>= _) = _ at h1
        rw [h3] at h1; cases h1
      | ok df =>
        change (Datafit.init df0 ds >>= _) = _ at h1
        rw [h3] at h1
        have := Skel.outer_still (skelCD srt ds df pen cfg nf (ws0CD cfg nf)) cfg.maxIterations h _ q.1 q.2 h1
        dsimp only
        rw [this]
        simp [initCD]

end

namespace MT
section
variable {F DM DF P : Type} [Scalar F] [DesignMatrix F DM] [MTDatafit F DM DF] [MTPenalty F P]
variable {ds : Dataset DM F} {df : DF} {pen : P} {n nf t : ℕ}

theorem accelBCD_idle (hnf : DesignMatrix.nFeatures (F := F) ds.designMatrix = .ok nf) (cfg : Solver F) {st : BCDState F} {ws : List ℕ}
    {b : Mat F} {e : ℕ} (he : e < cfg.K) (hw : Shaped st.W nf t) (hws : ∀ j ∈ ws, j < nf)
    (hb : Shaped b (cfg.K + 1) (ws.length * t)) :
    ∃ b', accelBCD ds df pen cfg ws e b st = .ok (b', st) ∧ Shaped b' (cfg.K + 1) (ws.length * t) := by
  unfold accelBCD
  split
  · obtain ⟨b', h1, h2⟩ := Tri.exists_ok (storeIterate_safe hb hw hws (Nat.mod_lt e (Nat.succ_pos cfg.K)))
    refine ⟨b', ?_, h2⟩
    unfold andersonAccel
    rw [hnf]
    show (fun r : Mat F × BCDState F × List (Event F) => (r.1, r.2.1)) <$> (storeIterate b st.W ws (e % (cfg.K + 1)) >>= _) = _
    rw [h1]
    show (fun r : Mat F × BCDState F × List (Event F) => (r.1, r.2.1)) <$> (if e % (cfg.K + 1) = cfg.K then _ else _) = _
    rw [if_neg]
    · rfl
    · rw [Nat.mod_eq_of_lt (by omega)]; omega
  · exact ⟨b, rfl, hb⟩

theorem run_idle {srt : Argsort F} (hs : ArgsortSpec srt) (cfg : Solver F) (hn : ds.targets.nSamples = n) (ht : ds.targets.nTasks = t)
    (hnf : DesignMatrix.nFeatures (F := F) ds.designMatrix = .ok nf) (hf : SafeFit ds df n nf t) (hp : SafePen pen) {ws0 : ℕ}
    (h0 : ws0 ≤ nf) (hK : cfg.maxEpochs ≤ cfg.K) (r : ℕ) (s : BCDState F) (hw : Shaped s.W nf t) (hX : Shaped s.XW n t) :
    (skelBCD srt ds df pen cfg nf ws0).outer r s = (skelBCD srt ds df pen (cfg.setUseAcceleration false) nf ws0).outer r s := by
  have H := hoare_safe (srt := srt) hs (cfg.setUseAcceleration false) hn ht hnf hf hp h0 (fun h => by cases h)
  refine Skel.outer_idle (sk := skelBCD srt ds df pen cfg nf ws0)
    (sk' := skelBCD srt ds df pen (cfg.setUseAcceleration false) nf ws0) (WsOK := fun ws sz => (∀ j ∈ ws, j < nf) ∧ sz = ws.length ∧ ws0 ≤ ws.length)
    (BInv := fun ws sz b => sz = ws.length ∧ Shaped b (cfg.K + 1) (sz * t)) rfl rfl rfl rfl rfl rfl
    ⟨H.viol, H.mkWs, fun _ _ _ => trivial, H.epoch, fun ws sz e b s h1 _ _ => ⟨trivial, h1⟩, H.stop⟩ (fun _ _ _ _ => rfl)
    (fun ws sz h => ⟨h.2.1, ?_⟩) (fun ws sz e b s he h1 h2 h3 => ?_) r s ⟨hw, hX⟩
  · show Shaped (Mat.zeros (cfg.K + 1) (sz * ds.targets.nTasks)) _ _
    rw [ht]; exact Shaped.zeros
  · obtain ⟨b', h4, h5⟩ := accelBCD_idle (df := df) (pen := pen) hnf cfg (st := s) (ws := ws) (b := b) (e := e) (Nat.lt_of_lt_of_le he hK) h1.1
      h2.1 (by rw [← h3.1]; exact h3.2)
    exact ⟨b', h4, h3.1, by rw [h3.1]; exact h5⟩

theorem solve_idle {srt : Argsort F} (hs : ArgsortSpec srt) (cfg : Solver F) (df0 : DF) (hn : ds.targets.nSamples = n)
    (ht : ds.targets.nTasks = t) (hnf : DesignMatrix.nFeatures (F := F) ds.designMatrix = .ok nf)
    (hi : Ok (MTDatafit.init df0 ds) (fun df => SafeFit ds df n nf t)) (hp : SafePen pen) (hK : cfg.maxEpochs ≤ cfg.K) :
    cfg.solveMultiTask srt ds df0 pen = (cfg.setUseAcceleration false).solveMultiTask srt ds df0 pen := by
  rw [solve_eq, solve_eq]
  refine congrArg (fun z => (fun q : BCDState F × ℕ => q.1.W) <$> z) ?_
  unfold runBCD
  rw [hnf]
  obtain ⟨df, h1, hf⟩ := Tri.exists_ok hi
  rw [h1]
  exact run_idle hs cfg hn ht hnf hf hp (Nat.min_le_right _ _) hK _ _ (by rw [ht]; exact Shaped.zeros)
    (by rw [hn, ht]; exact Shaped.zeros)

theorem solve_still (srt : Argsort F) (cfg : Solver F) (df0 : DF) (h : NeverUpdates cfg) (W : Mat F)
    (hr : cfg.solveMultiTask srt ds df0 pen = .ok W) : W = Mat.zeros W.nrows ds.targets.nTasks := by
  rw [solve_eq] at hr
  cases h1 : runBCD srt ds df0 pen cfg with
  | error x => rw [h1] at hr; cases hr
  | ok q =>
    rw [h1] at hr
    injection hr with hr
    subst hr
    unfold runBCD at h1
    cases h2 : DesignMatrix.nFeatures (F := F) ds.designMatrix with
    | error x => rw [h2] at h1; cases h1
    | ok nf =>
      rw [h2] at h1
      cases h3 : MTDatafit.init df0 ds with
      | error x =>
        change (MTDatafit.init df0 ds >>= _) = _ at h1
        rw [h3] at h1; cases h1
      | ok df =>
        change (MTDatafit.init df0 ds >>= _) = _ at h1
        rw [h3] at h1
        have := Skel.outer_still (skelBCD srt ds df pen cfg nf (ws0CD cfg nf)) cfg.maxIterations h _ q.1 q.2 h1
        dsimp only
        rw [this]
        simp [initBCD, Mat.zeros, Mat.nrows]

end
end MT
end Sglm
