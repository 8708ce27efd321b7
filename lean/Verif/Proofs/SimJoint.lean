import Verif.Proofs.Descent

/-!
# Simulations with an invariant on iterates and buffers, and acceleration with `K = 1`
-/

namespace Sglm
open Scalar Spec

namespace Skel
variable {F S B S' B' : Type}

/-- Hypotheses of the simulation rule with a joint invariant `J` at the start of every epoch. -/
structure SimJ (sk : Skel F S B) (sk' : Skel F S' B') (R : S → S' → Prop)
    (J : List Nat → Nat → Nat → B → B' → S → S' → Prop) : Prop where
  viol : ∀ s s', R s s' → sk.viol s = sk'.viol s'
  done : ∀ km, sk.done km = sk'.done km
  mkWs : ∀ s s' kkt km, R s s' → sk.viol s = .ok (kkt, km) → sk.mkWs kkt s = sk'.mkWs kkt s'
  start : ∀ s s' kkt km ws sz, R s s' → sk.viol s = .ok (kkt, km) → sk.done km = false →
    sk.mkWs kkt s = .ok (ws, sz) → J ws sz 0 (sk.buf0 sz) (sk'.buf0 sz) s s'
  iter : ∀ ws sz e b b' s s', J ws sz e b b' s s' →
    RelM (fun q q' => J ws sz (e + 1) q.1 q'.1 q.2 q'.2) (sk.epoch ws s >>= sk.accel ws e b)
      (sk'.epoch ws s' >>= sk'.accel ws e b')
  rel : ∀ ws sz e b b' s s', J ws sz e b b' s s' → R s s'
  stop : ∀ ws sz km e s s', R s s' → sk.stop ws sz km e s = sk'.stop ws sz km e s'
  maxEpochs : sk.maxEpochs = sk'.maxEpochs

variable {sk : Skel F S B} {sk' : Skel F S' B'} {R : S → S' → Prop}
  {J : List Nat → Nat → Nat → B → B' → S → S' → Prop}

theorem inner_succ (sk : Skel F S B) (ws : List Nat) (sz : Nat) (km : F) (r e : Nat) (b : B) (s : S) :
    sk.inner ws sz km (r + 1) e b s = ((sk.epoch ws s >>= sk.accel ws e b) >>= fun q => do
      let stop ← sk.stop ws sz km e q.2
      if stop then pure q.2 else sk.inner ws sz km r (e + 1) q.1 q.2) := by
  rw [Skel.inner, bind_assoc]

theorem SimJ.inner (h : SimJ sk sk' R J) (ws : List Nat) (sz : Nat) (km : F) :
    ∀ (r e : Nat) (b : B) (b' : B') (s : S) (s' : S'), J ws sz e b b' s s' →
    RelM R (sk.inner ws sz km r e b s) (sk'.inner ws sz km r e b' s')
  | 0, _, _, _, _, _, hj => h.rel _ _ _ _ _ _ _ hj
  | r + 1, e, b, b', s, s', hj => by
    rw [inner_succ, inner_succ]
    refine RelM.bind (h.iter ws sz e b b' s s' hj) fun ⟨b2, s2⟩ ⟨b2', s2'⟩ hj2 => ?_
    have hs2 := h.rel _ _ _ _ _ _ _ hj2
    dsimp only
    refine RelM.bind (RelM.of_eq (h.stop ws sz km e s2 s2' hs2)) fun st st' hst => ?_
    subst hst
    split
    · exact hs2
    · exact SimJ.inner h ws sz km r (e + 1) b2 b2' s2 s2' hj2

theorem SimJ.outer (h : SimJ sk sk' R J) : ∀ (r : Nat) (s : S) (s' : S'), R s s' →
    RelM (fun p q => R p.1 q.1 ∧ p.2 = q.2) (sk.outer r s) (sk'.outer r s')
  | 0, _, _, hs => ⟨hs, rfl⟩
  | r + 1, s, s', hs => by
    unfold Skel.outer
    rw [← h.viol s s' hs]
    cases hv : sk.viol s with
    | error e => rfl
    | ok q =>
      obtain ⟨kkt, km⟩ := q
      show RelM _ (if sk.done km = true then _ else _) (if sk'.done km = true then _ else _)
      rw [← h.done km]
      split
      · exact ⟨hs, rfl⟩
      · rename_i hd
        have hd : sk.done km = false := by simpa using hd
        rw [← h.mkWs s s' kkt km hs hv]
        cases hw : sk.mkWs kkt s with
        | error e => rfl
        | ok q =>
          obtain ⟨ws, sz⟩ := q
          have hj := h.start s s' kkt km ws sz hs hv hd hw
          show RelM _ (sk.inner ws sz km sk.maxEpochs 0 (sk.buf0 sz) s >>= _)
            (sk'.inner ws sz km sk'.maxEpochs 0 (sk'.buf0 sz) s' >>= _)
          rw [← h.maxEpochs]
          refine RelM.bind (h.inner ws sz km sk.maxEpochs 0 _ _ s s' hj) fun s1 s1' hs1 => ?_
          refine RelM.bind (SimJ.outer h r s1 s1' hs1) fun ⟨s2, k⟩ ⟨s2', k'⟩ ⟨h1, h2⟩ => ?_
          exact ⟨h1, congrArg (· + 1) h2⟩

end Skel

namespace RProb
open Coord
variable {E : Type} [NormedAddCommGroup E] [InnerProductSpace ℝ E] [Coord E] {p : ℕ}

/-- Coefficients which vanish outside a working set are recovered from their values on it. -/
theorem scat_flat {l : List (Fin p)} {w : Fin p → E} (hw : ∀ j, j ∉ l → w j = 0) {pt : ℕ → ℝ}
    (hpt : ∀ c < l.length * dim E, pt c = flat l w c) : scat l pt = w := by
  funext j
  unfold scat
  split
  · rename_i hj
    rw [← ofCo_co (w j)]
    refine ofCo_congr _ _ fun t ht => ?_
    have hi : l.idxOf j < l.length := List.idxOf_lt_length_iff.mpr hj
    have hlt : l.idxOf j * dim E + t < l.length * dim E :=
      lt_of_lt_of_le (Nat.add_lt_add_left ht _) (by rw [← Nat.succ_mul]; exact Nat.mul_le_mul_right _ hi)
    have hd : 0 < dim E := lt_of_le_of_lt (Nat.zero_le _) ht
    rw [hpt _ hlt]
    unfold flat
    rw [Nat.mul_comm, Nat.mul_add_div hd, Nat.div_eq_of_lt ht, Nat.add_zero, Nat.mul_add_mod, Nat.mod_eq_of_lt ht,
      List.getElem?_eq_getElem hi, List.getElem_idxOf]
  · rename_i hj
    exact (hw j hj).symm

omit [Coord E] in
theorem foldl_step_outside (R : RProb E p) {l : List (Fin p)} {j : Fin p} (hj : j ∉ l) (w : Fin p → E) :
    l.foldl R.step w j = w j := by
  induction l generalizing w with
  | nil => rfl
  | cons i l ih =>
    rw [List.foldl_cons, ih (fun h => hj (List.mem_cons_of_mem _ h))]
    unfold step
    split
    · rfl
    · exact Function.update_of_ne (fun h => hj (by rw [h]; exact List.mem_cons_self)) _ _

/-- With `K = 1` the extrapolated point is the previous iterate. -/
theorem accel_one (R : RProb E p) (cfg : Solver XR) (hK : cfg.K = 1) (hu : cfg.useAcceleration = true)
    (l : List (Fin p)) (hl : 0 < l.length * dim E)
    (e : ℕ) (b : ℕ → ℕ → ℝ) (w w1 : Fin p → E) (hw : ∀ j, j ∉ l → w j = 0) (hF : R.F w1 ≤ R.F w)
    (hb : e % 2 = 1 → ∀ c, b 0 c = flat l w c) :
    ∃ b', R.accel cfg l e b w1 = .ok (b', w1) ∧ (e % 2 = 0 → ∀ c, b' 0 c = flat l w1 c) := by
  unfold accel
  rw [if_pos hu]
  dsimp only
  rw [hK]
  by_cases he : e % (1 + 1) = 1
  · rw [if_pos he, he]
    rcases solve_gram 1 (l.length * dim E) (Function.update b 1 (flat l w1)) with ⟨e', h1, h2⟩ | h1 | ⟨z, h1, h2⟩
    · exact absurd ⟨one_pos, hl⟩ h2
    · rw [h1]
      exact ⟨_, rfl, fun h => absurd h one_ne_zero⟩
    · rw [h1]
      have hsc : scat l (comb 1 (Function.update b 1 (flat l w1)) (realsOf (vecN 1 z))) = w := by
        refine scat_flat hw fun c _ => ?_
        unfold comb
        rw [Finset.sum_range_one, Finset.sum_range_one, realsOf_vecN z one_pos,
          Function.update_of_ne (by decide), hb he c, div_self, mul_one]
        rw [Finset.sum_range_one] at h2
        exact h2.ne'
      refine ⟨Function.update b 1 (flat l w1), ?_, fun h => absurd h one_ne_zero⟩
      dsimp only [bind, Except.bind]
      rw [hsc, if_neg (not_lt.mpr hF)]
  · rw [if_neg he]
    refine ⟨_, rfl, fun h c => ?_⟩
    rw [show e % (1 + 1) = 0 from h, Function.update_self]

/-- Acceleration with `K = 1` changes nothing. -/
theorem MM.run_one {R : RProb E p} {f : (Fin p → E) → ℝ} {φ : E → ℝ} (h : R.MM f φ) {srt : Argsort XR}
    (hs : ArgsortSpec srt) (cfg : Solver XR) (hK : cfg.K = 1) (hu : cfg.useAcceleration = true)
    (hws : 0 < cfg.wsStartSize) (hp : 0 < p) (hd : 0 < dim E) :
    R.run srt cfg = R.run srt (cfg.setUseAcceleration false) := by
  have hmin : ws0CD cfg p ≤ p := Nat.min_le_right _ _
  have hpos : 0 < ws0CD cfg p := lt_min hws hp
  have hsim : Skel.SimJ (R.skel srt cfg (ws0CD cfg p)) (R.skel srt (cfg.setUseAcceleration false) (ws0CD cfg p))
      (fun w w' => w = w') (fun ws _ e b _ w w' => w = w' ∧ ∃ l : List (Fin p), ws = l.map Fin.val ∧ 0 < l.length ∧
        (∀ j, j ∉ l → w j = 0) ∧ (e % 2 = 1 → ∀ c, b 0 c = flat l w c)) := by
    constructor
    · rintro w _ rfl; rfl
    · intro; rfl
    · rintro w _ kkt km rfl _; rfl
    · rintro w _ kkt km ws sz rfl hv - hw
      refine ⟨rfl, ?_⟩
      have : R.scores w (List.finRange p) = kkt := by
        injection hv with hv; exact congrArg Prod.fst hv
      subst this
      obtain ⟨ws', h1, ⟨l, h2, h3, h4, h5⟩, h6⟩ := R.pick_ok hs hmin w
      have h7 := hw.symm.trans h1
      injection h7 with h7
      injection h7 with h7 h8
      subst h7
      refine ⟨l, h2, by omega, ?_, fun h => by omega⟩
      intro j hj
      by_contra hne
      apply hj
      have h9 := h6.support j j.isLt (by
        unfold nz
        rw [dif_pos j.isLt]
        exact (nzB_iff _).mpr hne)
      rw [h2, List.mem_map] at h9
      obtain ⟨i, hi, hij⟩ := h9
      rwa [← Fin.ext hij]
    · rintro ws sz e b b' w _ ⟨rfl, l, rfl, h1, h2, h3⟩
      show RelM _ (R.accel cfg (finws p (l.map Fin.val)) e b ((finws p (l.map Fin.val)).foldl R.step w))
        (R.accel (cfg.setUseAcceleration false) (finws p (l.map Fin.val)) e b'
          ((finws p (l.map Fin.val)).foldl R.step w))
      rw [finws_map]
      obtain ⟨b1, h4, h5⟩ := R.accel_one cfg hK hu l (Nat.mul_pos h1 hd) e b w (l.foldl R.step w) h2 (h.epoch_le w l) h3
      rw [h4]
      refine ⟨rfl, l, rfl, h1, fun j hj => ?_, fun he => h5 (by omega)⟩
      exact (R.foldl_step_outside hj w).trans (h2 j hj)
    · rintro ws sz e b b' w w' ⟨hw, -⟩; exact hw
    · rintro ws sz km e w _ rfl; rfl
    · rfl
  have h0 := hsim.outer cfg.maxIterations (fun _ => 0) (fun _ => 0) rfl
  show (R.skel srt cfg (ws0CD cfg p)).outer cfg.maxIterations (fun _ => 0) =
    (R.skel srt (cfg.setUseAcceleration false) (ws0CD cfg p)).outer cfg.maxIterations (fun _ => 0)
  revert h0
  cases (R.skel srt cfg (ws0CD cfg p)).outer cfg.maxIterations (fun _ => 0) with
  | error e =>
    cases (R.skel srt (cfg.setUseAcceleration false) (ws0CD cfg p)).outer cfg.maxIterations (fun _ => 0) with
    | error e' => intro h0; exact congrArg _ h0
    | ok q => intro h0; exact h0.elim
  | ok q =>
    cases (R.skel srt (cfg.setUseAcceleration false) (ws0CD cfg p)).outer cfg.maxIterations (fun _ => 0) with
    | error e' => intro h0; exact h0.elim
    | ok q' =>
      intro h0
      exact congrArg Except.ok (Prod.ext h0.1 h0.2)

end RProb
end Sglm
