import Verif.Proofs.Triple
import Verif.Model.SolverBCD

/-!
# The common loop structure of the two solvers

`Skel` abstracts what happens in an iteration; `Skel.outer` is the two nested loops.  `cd_eq_skel` and `bcd_eq_skel`
show that the solvers of the model are instances; the other results are about `Skel`.
-/

namespace Sglm
open Scalar

structure Skel (F S B : Type) where
  viol : S → M (List F × F)
  done : F → Bool
  mkWs : List F → S → M (List Nat × Nat)
  buf0 : Nat → B
  epoch : List Nat → S → M S
  accel : List Nat → Nat → B → S → M (B × S)
  stop : List Nat → Nat → F → Nat → S → M Bool
  maxEpochs : Nat

namespace Skel
variable {F S B : Type}

def inner (sk : Skel F S B) (ws : List Nat) (sz : Nat) (km : F) : Nat → Nat → B → S → M S
  | 0, _, _, s => pure s
  | r + 1, e, b, s => do
    let s ← sk.epoch ws s
    let (b, s) ← sk.accel ws e b s
    let stop ← sk.stop ws sz km e s
    if stop then pure s else inner sk ws sz km r (e + 1) b s

/-- Also returns the number of iterations in which a subproblem was solved. -/
def outer (sk : Skel F S B) : Nat → S → M (S × Nat)
  | 0, s => pure (s, 0)
  | r + 1, s => do
    let (kkt, km) ← sk.viol s
    if sk.done km then pure (s, 0)
    else do
      let (ws, sz) ← sk.mkWs kkt s
      let s ← sk.inner ws sz km sk.maxEpochs 0 (sk.buf0 sz) s
      let (s, k) ← outer sk r s
      pure (s, k + 1)

/-- Hypotheses of the invariant rule. -/
structure Hoare (sk : Skel F S B) (E : Panic → Prop) (Inv : S → Prop)
    (WsOK : List Nat → Nat → Prop) (BInv : List Nat → Nat → B → Prop) : Prop where
  viol : ∀ s, Inv s → Tri E (sk.viol s) (fun _ => True)
  mkWs : ∀ s kkt km, Inv s → sk.viol s = .ok (kkt, km) → sk.done km = false →
    Tri E (sk.mkWs kkt s) (fun r => WsOK r.1 r.2)
  buf0 : ∀ ws sz, WsOK ws sz → BInv ws sz (sk.buf0 sz)
  epoch : ∀ ws sz s, Inv s → WsOK ws sz → Tri E (sk.epoch ws s) Inv
  accel : ∀ ws sz e b s, Inv s → WsOK ws sz → BInv ws sz b →
    Tri E (sk.accel ws e b s) (fun r => BInv ws sz r.1 ∧ Inv r.2)
  stop : ∀ ws sz km e s, Inv s → WsOK ws sz → Tri E (sk.stop ws sz km e s) (fun _ => True)

variable {sk : Skel F S B} {E : Panic → Prop} {Inv : S → Prop} {WsOK : List Nat → Nat → Prop}
  {BInv : List Nat → Nat → B → Prop}

theorem Hoare.inner (h : Hoare sk E Inv WsOK BInv) (ws : List Nat) (sz : Nat) (km : F)
    (hws : WsOK ws sz) : ∀ (r e : Nat) (b : B) (s : S), BInv ws sz b → Inv s →
    Tri E (sk.inner ws sz km r e b s) Inv
  | 0, _, _, _, _, hs => hs
  | r + 1, e, b, s, hb, hs => by
    unfold Skel.inner
    refine Tri.bind (h.epoch ws sz s hs hws) fun s1 hs1 => ?_
    refine Tri.bind (h.accel ws sz e b s1 hs1 hws hb) fun ⟨b2, s2⟩ ⟨hb2, hs2⟩ => ?_
    refine Tri.bind (h.stop ws sz km e s2 hs2 hws) fun stop _ => ?_
    split
    · exact hs2
    · exact Hoare.inner h ws sz km hws r (e + 1) b2 s2 hb2 hs2

theorem Hoare.outer (h : Hoare sk E Inv WsOK BInv) : ∀ (r : Nat) (s : S), Inv s →
    Tri E (sk.outer r s) (fun q => Inv q.1 ∧ q.2 ≤ r ∧
      (q.2 < r → ∃ kkt km, sk.viol q.1 = .ok (kkt, km) ∧ sk.done km = true))
  | 0, s, hs => ⟨hs, Nat.le_refl _, fun h => absurd h (Nat.lt_irrefl _)⟩
  | r + 1, s, hs => by
    unfold Skel.outer
    refine Tri.bind_eq (h.viol s hs) fun ⟨kkt, km⟩ hk _ => ?_
    dsimp only
    split
    · rename_i hd
      exact ⟨hs, Nat.zero_le _, fun _ => ⟨kkt, km, hk, hd⟩⟩
    · rename_i hd
      have hd : sk.done km = false := by simpa using hd
      refine Tri.bind (h.mkWs s kkt km hs hk hd) fun ⟨ws, sz⟩ hws => ?_
      refine Tri.bind (h.inner ws sz km hws sk.maxEpochs 0 _ s (h.buf0 ws sz hws) hs) fun s1 hs1 => ?_
      refine Tri.bind (Hoare.outer h r s1 hs1) fun ⟨s2, k⟩ ⟨h1, h2, h3⟩ => ?_
      exact ⟨h1, Nat.succ_le_succ h2, fun hlt => h3 (Nat.lt_of_succ_lt_succ hlt)⟩

/-- Without any hypothesis: if the loop ends after fewer than `r` iterations, the stopping criterion holds
at the result. -/
theorem outer_exit (sk : Skel F S B) (r : Nat) (s s' : S) (k : Nat) (h : sk.outer r s = .ok (s', k)) :
    k ≤ r ∧ (k < r → ∃ kkt km, sk.viol s' = .ok (kkt, km) ∧ sk.done km = true) := by
  have H : Hoare sk (fun _ => True) (fun _ => True) (fun _ _ => True) (fun _ _ _ => True) := by
    constructor <;> intros <;> first | exact Tri.triv | exact trivial | skip
    exact Tri.mono Tri.triv fun _ _ => ⟨trivial, trivial⟩
  exact (Tri.elim_ok (H.outer r s trivial) h).2

/-- Running `m + n` iterations is running `m` and, if not stopped, `n` more. -/
theorem outer_add (sk : Skel F S B) : ∀ (m n : Nat) (s : S),
    sk.outer (m + n) s = (do
      let (s1, k) ← sk.outer m s
      let (s2, k') ← sk.outer n s1
      pure (s2, k + k'))
  | 0, n, s => by
    rw [Nat.zero_add, Skel.outer.eq_1]
    simp only [pure_bind, Nat.zero_add]
    cases sk.outer n s <;> rfl
  | m + 1, n, s => by
    rw [Nat.add_right_comm]
    rw [Skel.outer, Skel.outer]
    cases hv : sk.viol s with
    | error e => rfl
    | ok kk =>
      obtain ⟨kkt, km⟩ := kk
      simp only [bind, Except.bind, pure, Except.pure]
      by_cases hd : sk.done km = true
      · simp only [hd, if_true]
        cases n with
        | zero => rfl
        | succ n =>
          rw [Skel.outer, hv]
          simp [bind, Except.bind, pure, Except.pure, hd]
      · simp only [hd]
        simp only [Bool.false_eq_true, if_false]
        cases hw : sk.mkWs kkt s with
        | error e => rfl
        | ok w =>
          obtain ⟨ws, sz⟩ := w
          dsimp only
          cases hi : sk.inner ws sz km sk.maxEpochs 0 (sk.buf0 sz) s with
          | error e => rfl
          | ok s1 =>
            dsimp only
            rw [outer_add sk m n s1]
            cases h1 : sk.outer m s1 with
            | error e => rfl
            | ok q =>
              obtain ⟨s2, k⟩ := q
              simp only [bind, Except.bind, pure, Except.pure]
              cases h2 : sk.outer n s2 with
              | error e => rfl
              | ok q2 =>
                obtain ⟨s3, k'⟩ := q2
                simp only
                congr 2
                omega

/-- At a point where the stopping criterion holds nothing happens. -/
theorem outer_done (sk : Skel F S B) (r : Nat) (s : S) (kkt : List F) (km : F)
    (hv : sk.viol s = .ok (kkt, km)) (hd : sk.done km = true) : sk.outer r s = .ok (s, 0) := by
  cases r with
  | zero => rfl
  | succ r =>
    rw [Skel.outer, hv]
    simp [bind, Except.bind, pure, Except.pure, hd]

/-- No iterations, no change. -/
theorem outer_zero (sk : Skel F S B) {r : Nat} {s s' : S} (h : sk.outer r s = .ok (s', 0)) : s' = s := by
  cases r with
  | zero => injection h with h; injection h with h _; exact h.symm
  | succ r =>
    rw [Skel.outer] at h
    cases hv : sk.viol s with
    | error e => rw [hv] at h; cases h
    | ok q =>
      rw [hv] at h
      dsimp only [bind, Except.bind] at h
      split at h
      · injection h with h; injection h with h _; exact h.symm
      · exfalso
        cases hw : sk.mkWs q.1 s with
        | error e => rw [hw] at h; cases h
        | ok u =>
          rw [hw] at h
          dsimp only at h
          cases hi : sk.inner u.1 u.2 q.2 sk.maxEpochs 0 (sk.buf0 u.2) s with
          | error e => rw [hi] at h; cases h
          | ok t =>
            rw [hi] at h
            dsimp only at h
            cases ho : sk.outer r t with
            | error e => rw [ho] at h; cases h
            | ok z =>
              rw [ho] at h
              injection h with h
              injection h with _ h
              exact absurd h (Nat.succ_ne_zero _)

/-! ## Relations between two runs -/

variable {S' B' : Type}

/-- Hypotheses of the simulation rule. -/
structure Sim (sk : Skel F S B) (sk' : Skel F S' B') (R : S → S' → Prop)
    (WsOK : List Nat → Nat → Prop) (RB : List Nat → Nat → B → B' → Prop) : Prop where
  viol : ∀ s s', R s s' → sk.viol s = sk'.viol s'
  done : ∀ km, sk.done km = sk'.done km
  mkWs : ∀ s s' kkt km, R s s' → sk.viol s = .ok (kkt, km) → sk.mkWs kkt s = sk'.mkWs kkt s'
  ws : ∀ s s' kkt km ws sz, R s s' → sk.viol s = .ok (kkt, km) → sk.done km = false →
    sk.mkWs kkt s = .ok (ws, sz) → WsOK ws sz
  buf0 : ∀ ws sz, WsOK ws sz → RB ws sz (sk.buf0 sz) (sk'.buf0 sz)
  epoch : ∀ ws sz s s', R s s' → WsOK ws sz → RelM R (sk.epoch ws s) (sk'.epoch ws s')
  accel : ∀ ws sz e b b' s s', R s s' → WsOK ws sz → RB ws sz b b' →
    RelM (fun p q => RB ws sz p.1 q.1 ∧ R p.2 q.2) (sk.accel ws e b s) (sk'.accel ws e b' s')
  stop : ∀ ws sz km e s s', R s s' → WsOK ws sz → sk.stop ws sz km e s = sk'.stop ws sz km e s'
  maxEpochs : sk.maxEpochs = sk'.maxEpochs

variable {sk' : Skel F S' B'} {R : S → S' → Prop} {RB : List Nat → Nat → B → B' → Prop}

theorem Sim.inner (h : Sim sk sk' R WsOK RB) (ws : List Nat) (sz : Nat) (km : F) (hws : WsOK ws sz) :
    ∀ (r e : Nat) (b : B) (b' : B') (s : S) (s' : S'), RB ws sz b b' → R s s' →
    RelM R (sk.inner ws sz km r e b s) (sk'.inner ws sz km r e b' s')
  | 0, _, _, _, _, _, _, hs => hs
  | r + 1, e, b, b', s, s', hb, hs => by
    unfold Skel.inner
    refine RelM.bind (h.epoch ws sz s s' hs hws) fun s1 s1' hs1 => ?_
    refine RelM.bind (h.accel ws sz e b b' s1 s1' hs1 hws hb) fun ⟨b2, s2⟩ ⟨b2', s2'⟩ ⟨hb2, hs2⟩ => ?_
    dsimp only
    refine RelM.bind (RelM.of_eq (h.stop ws sz km e s2 s2' hs2 hws)) fun st st' hst => ?_
    subst hst
    split
    · exact hs2
    · exact Sim.inner h ws sz km hws r (e + 1) b2 b2' s2 s2' hb2 hs2

theorem Sim.outer (h : Sim sk sk' R WsOK RB) : ∀ (r : Nat) (s : S) (s' : S'), R s s' →
    RelM (fun p q => R p.1 q.1 ∧ p.2 = q.2) (sk.outer r s) (sk'.outer r s')
  | 0, _, _, hs => ⟨hs, rfl⟩
  | r + 1, s, s', hs => by
    unfold Skel.outer
    rw [← h.viol s s' hs]
    cases hv : sk.viol s with
    | error e => rfl
    | ok q =>
      obtain ⟨kkt, km⟩ := q
      show RelM _ (if sk.done km = true then _ else _) (if sk'.done km = true then _ else _)
      rw [← h.done km]
      split
      · exact ⟨hs, rfl⟩
      · rename_i hd
        have hd : sk.done km = false := by simpa using hd
        rw [← h.mkWs s s' kkt km hs hv]
        cases hw : sk.mkWs kkt s with
        | error e => rfl
        | ok q =>
          obtain ⟨ws, sz⟩ := q
          have hws := h.ws s s' kkt km ws sz hs hv hd hw
          show RelM _ (sk.inner ws sz km sk.maxEpochs 0 (sk.buf0 sz) s >>= _)
            (sk'.inner ws sz km sk'.maxEpochs 0 (sk'.buf0 sz) s' >>= _)
          rw [← h.maxEpochs]
          refine RelM.bind (h.inner ws sz km hws sk.maxEpochs 0 _ _ s s' (h.buf0 ws sz hws) hs)
            fun s1 s1' hs1 => ?_
          refine RelM.bind (Sim.outer h r s1 s1' hs1) fun ⟨s2, k⟩ ⟨s2', k'⟩ ⟨h1, h2⟩ => ?_
          exact ⟨h1, congrArg (· + 1) h2⟩

end Skel
end Sglm
