import Verif.Proofs.SmallRun

/-!
# Runs in which only one feature moves

All other features have a zero step constant.  Acceleration may be on.
-/

namespace Sglm
open Scalar Spec

namespace Skel
variable {F S B : Type} {sk : Skel F S B} {E : Panic → Prop} {Inv : S → Prop} {WsOK : List Nat → Nat → Prop}
  {BInv : List Nat → Nat → B → Prop}

/-- A run whose first epoch establishes an invariant which the rest keeps. -/
theorem Hoare.first (h : Hoare sk E Inv WsOK BInv) {s : S} {kkt : List F} {km : F} {ws : List Nat} {sz : Nat} {s1 : S}
    (hv : sk.viol s = .ok (kkt, km)) (hd : sk.done km = false) (hw : sk.mkWs kkt s = .ok (ws, sz)) (hws : WsOK ws sz)
    (he : sk.epoch ws s = .ok s1) (hs1 : Inv s1) (hm : 0 < sk.maxEpochs) (r : Nat) :
    Tri E (sk.outer (r + 1) s) (fun q => Inv q.1) := by
  unfold Skel.outer
  rw [hv]
  show Tri E (if sk.done km = true then _ else _) _
  rw [if_neg (by rw [hd]; exact Bool.false_ne_true), hw]
  have hi : Tri E (sk.inner ws sz km sk.maxEpochs 0 (sk.buf0 sz) s) Inv := by
    obtain ⟨m, hm'⟩ : ∃ m, sk.maxEpochs = m + 1 := ⟨sk.maxEpochs - 1, by omega⟩
    rw [hm']
    unfold Skel.inner
    refine Tri.bind (show Tri E (sk.epoch ws s) Inv by rw [he]; exact hs1) fun s1 hs1 => ?_
    refine Tri.bind (h.accel ws sz 0 _ s1 hs1 hws (h.buf0 ws sz hws)) fun ⟨b2, s2⟩ ⟨hb2, hs2⟩ => ?_
    refine Tri.bind (h.stop ws sz km 0 s2 hs2 hws) fun stop _ => ?_
    split
    · exact hs2
    · exact Hoare.inner h ws sz km hws m 1 b2 s2 hb2 hs2
  show Tri E (sk.inner ws sz km sk.maxEpochs 0 (sk.buf0 sz) s >>= _) _
  refine Tri.bind hi fun s2 hs2 => ?_
  refine Tri.bind (Hoare.outer h r s2 hs2) fun ⟨s3, k⟩ ⟨h1, _, _⟩ => ?_
  exact h1

end Skel

/-- The system of the extrapolation is singular when a stored coordinate never changes. -/
theorem solve_gram_flat {K m : ℕ} (b : ℕ → ℕ → ℝ) (hm : K ≤ m) {c0 : ℕ} (hc : c0 < K) (h : ∀ k < K, b (k + 1) c0 = b k c0) :
    solveLinSys (matN m m (gram K b)) (List.replicate K one) = .ok none := by
  rw [replicate_one_vecN]
  rcases Lin.psd_unique (N := m) (m := m) (gram K b) (fun _ => 1) (by omega) hm hm (gram_psd K K b) with
    ⟨z, -, -, h3⟩ | ⟨h1, -⟩
  · exfalso
    have h4 := h3 (fun c => if c = c0 then 1 else 0) (fun r _ => by
      rw [Finset.sum_eq_zero]
      intro c _
      by_cases hcc : c = c0
      · subst hcc
        unfold gram
        rw [Finset.sum_eq_zero, zero_mul]
        intro k hk
        rw [h k (Finset.mem_range.mp hk), sub_self, mul_zero]
      · rw [if_neg hcc, mul_zero]) c0 hc
    simp at h4
  · exact h1

namespace RProb
open Coord
variable {E : Type} [AddCommGroup E] [Module ℝ E] [Coord E] {p : ℕ} (R : RProb E p)

/-- The feature with the largest score at zero is selected. -/
theorem pick_max {srt : Argsort XR} (hs : ArgsortSpec srt) {ws0 : ℕ} (h0 : ws0 ≤ p) (hw : 0 < ws0) (j0 : Fin p)
    (hmax : ∀ j, j ≠ j0 → R.sc 0 (R.G (fun _ => 0) j) < R.sc 0 (R.G (fun _ => 0) j0)) :
    ∃ ws, pickWs srt (R.scores (fun _ => 0) (List.finRange p)) p (nz fun _ : Fin p => (0 : E)) ws0 = .ok (ws, ws.length) ∧
      WsOK p ws0 ws ws.length ∧ j0 ∈ finws p ws := by
  obtain ⟨ws, h2, ⟨l, h3, h4, h5, h6⟩, h7⟩ := R.pick_ok hs h0 (fun _ => 0)
  refine ⟨ws, h2, ⟨l, h3, h4, h5, h6⟩, ?_⟩
  have hz : ∀ j, nz (fun _ : Fin p => (0 : E)) j = false := by
    intro j
    unfold nz
    split
    · rw [← Bool.not_eq_true]; exact fun h => (nzB_iff (0 : E)).mp h rfl
    · rfl
  have hg : ∀ j : Fin p, (R.scores (fun _ => 0) (List.finRange p)).getD j zero = XR.fin (R.sc 0 (R.G (fun _ => 0) j)) := by
    intro j
    unfold scores
    rw [List.getD_eq_getElem?_getD, List.getElem?_map, List.getElem?_eq_getElem (by simp)]
    simp
  rw [h3, finws_map]
  by_contra hm
  obtain ⟨a, ha⟩ : ∃ a, a ∈ l := by
    cases l with
    | nil => rw [h3] at h6; simp at h6; omega
    | cons a l => exact ⟨a, List.mem_cons_self⟩
  have hne : a ≠ j0 := fun h => hm (h ▸ ha)
  have hb := h7.best a (by rw [h3]; exact List.mem_map_of_mem ha) (hz _) j0 j0.isLt (by
    rw [h3]
    intro h
    obtain ⟨b, hb, e⟩ := List.mem_map.mp h
    exact hm ((Fin.ext e : b = j0) ▸ hb))
  rw [hg, hg, XR.s_lt] at hb
  exact absurd (hmax a hne) (of_decide_eq_false hb)

omit [Coord E] in
/-- Updates of a list of features of which only `j0` can move. -/
theorem foldl_one (j0 : Fin p) (hL : ∀ j, j ≠ j0 → R.L j = 0) :
    ∀ (l : List (Fin p)), l.Nodup → ∀ w, l.foldl R.step w = if j0 ∈ l then R.step w j0 else w := by
  have hid : ∀ j, j ≠ j0 → ∀ w, R.step w j = w := fun j hj w => by unfold step; rw [if_pos (hL j hj)]
  intro l
  induction l with
  | nil => intro _ w; simp
  | cons a l ih =>
    intro hn w
    rw [List.nodup_cons] at hn
    rw [List.foldl_cons, ih hn.2]
    by_cases ha : a = j0
    · subst ha
      rw [if_neg hn.1, if_pos List.mem_cons_self]
    · rw [hid a ha]
      congr 1
      rw [List.mem_cons, eq_iff_iff]
      exact ⟨Or.inr, fun h => h.resolve_left (Ne.symm ha)⟩

/-- One moving feature: what its first update establishes and later ones keep, holds at the end. -/
theorem run_solo {R : RProb E p} {srt : Argsort XR} (hs : ArgsortSpec srt) (cfg : Solver XR) (he : 0 < cfg.maxEpochs)
    (hw : 0 < cfg.wsStartSize) (hit : 0 < cfg.maxIterations) (j0 : Fin p) (hL : ∀ j, j ≠ j0 → R.L j = 0)
    (hmax : ∀ j, j ≠ j0 → R.sc 0 (R.G (fun _ => 0) j) < R.sc 0 (R.G (fun _ => 0) j0)) (Inv : (Fin p → E) → Prop)
    (h1 : Inv (R.step (fun _ => 0) j0)) (h2 : ∀ w, Inv w → Inv (R.step w j0))
    (BInv : List (Fin p) → (ℕ → ℕ → ℝ) → Prop) (hb0 : ∀ l, BInv l fun _ _ => 0)
    (hacc : ∀ l e b w, l.Nodup → ws0CD cfg p ≤ l.length → Inv w → BInv l b →
      Tri (fun _ => False) (R.accel cfg l e b w) fun q => BInv l q.1 ∧ Inv q.2)
    (h0 : ((R.viol (fun _ => 0) (List.finRange p)).2 <=. cfg.tolerance) = false) :
    ∃ q, R.run srt cfg = .ok q ∧ Inv q.1 := by
  have H : (R.skel srt cfg (ws0CD cfg p)).Hoare (fun _ => False) Inv (WsOK p (ws0CD cfg p)) (fun ws _ b => BInv (finws p ws) b) := by
    refine ⟨fun w _ => trivial, fun w kkt km hI hv _ => ?_, fun ws _ _ => hb0 _, fun ws sz w hI hws => ?_,
      fun ws sz e b w hI hws hb => ?_, fun ws sz km e w _ _ => trivial⟩
    · obtain ⟨ws, a, b, -⟩ := R.pick_ok hs (Nat.min_le_right cfg.wsStartSize p) w
      injection hv with hv
      have : kkt = R.scores w (List.finRange p) := (congrArg Prod.fst hv).symm
      subst this
      show Tri _ (pickWs srt _ p (nz w) (ws0CD cfg p)) _
      rw [show ws0CD cfg p = min cfg.wsStartSize p from rfl, a]
      exact b
    · obtain ⟨l, rfl, hn, -, -⟩ := hws
      show Inv ((finws p _).foldl R.step w)
      rw [finws_map, R.foldl_one j0 hL l hn]
      split
      · exact h2 w hI
      · exact hI
    · obtain ⟨l, rfl, hn, rfl, hl⟩ := hws
      show Tri _ (R.accel cfg (finws p _) e b w) _
      rw [finws_map] at hb ⊢
      exact hacc l e b w hn hl hI hb
  obtain ⟨ws, a, hws, c⟩ := R.pick_max hs (Nat.min_le_right cfg.wsStartSize p)
    (lt_min hw (Nat.lt_of_le_of_lt (Nat.zero_le _) j0.isLt)) j0 hmax
  obtain ⟨m, hm⟩ : ∃ m, cfg.maxIterations = m + 1 := ⟨cfg.maxIterations - 1, by omega⟩
  have hstep : (finws p ws).foldl R.step (fun _ => 0) = R.step (fun _ => 0) j0 := by
    obtain ⟨l, rfl, hn, -, -⟩ := hws
    rw [finws_map] at c ⊢
    rw [R.foldl_one j0 hL l hn, if_pos c]
  have := Skel.Hoare.first H (s := fun _ => 0) (ws := ws) (sz := ws.length) (s1 := R.step (fun _ => 0) j0) rfl h0 a hws
    (congrArg Except.ok hstep) h1 he m
  unfold run
  rw [hm]
  cases hq : (R.skel srt cfg (ws0CD cfg p)).outer (m + 1) (fun _ => 0) with
  | error e => rw [hq] at this; exact this.elim
  | ok q => rw [hq] at this; exact ⟨q, rfl, this⟩

/-- Extrapolation keeps a minimiser. -/
theorem accel_min (cfg : Solver XR) (l : List (Fin p)) (e : ℕ) (b : ℕ → ℕ → ℝ) (w : Fin p → E)
    (hK : 0 < cfg.K) (hl : cfg.K ≤ l.length * dim E) (hmin : ∀ w', R.F w ≤ R.F w') :
    Tri (fun _ => False) (R.accel cfg l e b w) fun q => q.2 = w := by
  unfold accel
  split
  · dsimp only
    split
    · rcases solve_gram cfg.K (l.length * dim E) (Function.update b (e % (cfg.K + 1)) (flat l w)) with
        ⟨e', -, h⟩ | h | ⟨z, h, -⟩
      · exact absurd ⟨hK, hl⟩ h
      · rw [h]; rfl
      · rw [h]
        show (if R.F _ < R.F w then _ else w) = w
        rw [if_neg (not_lt.mpr (hmin _))]
    · rfl
  · rfl

/-- One moving feature whose first update reaches a minimiser. -/
theorem run_min {R : RProb E p} {srt : Argsort XR} (hs : ArgsortSpec srt) (cfg : Solver XR) (he : 0 < cfg.maxEpochs)
    (hw : 0 < cfg.wsStartSize) (hit : 0 < cfg.maxIterations) (hK : 0 < cfg.K) (hKw : cfg.K ≤ cfg.wsStartSize * dim E)
    (hKp : cfg.K ≤ p * dim E) (j0 : Fin p) (hL : ∀ j, j ≠ j0 → R.L j = 0)
    (hmax : ∀ j, j ≠ j0 → R.sc 0 (R.G (fun _ => 0) j) < R.sc 0 (R.G (fun _ => 0) j0)) {v : Fin p → E}
    (h1 : R.step (fun _ => 0) j0 = v) (h2 : R.step v j0 = v) (hmin : ∀ w', R.F v ≤ R.F w')
    (h0 : ((R.viol (fun _ => 0) (List.finRange p)).2 <=. cfg.tolerance) = false) :
    ∃ m, R.run srt cfg = .ok (v, m) := by
  obtain ⟨q, hq, hv⟩ := run_solo hs cfg he hw hit j0 hL hmax (fun w => w = v) h1 (fun w h => by rw [h, h2])
    (fun _ _ => True) (fun _ => trivial) (fun l e b w _ hl hI _ => by
      subst hI
      refine Tri.mono (R.accel_min cfg l e b w hK ?_ hmin) fun q h => ⟨trivial, h⟩
      refine le_trans ?_ (Nat.mul_le_mul_right _ hl)
      unfold ws0CD
      rcases le_total cfg.wsStartSize p with h | h
      · rwa [min_eq_left h]
      · rwa [min_eq_right h]) h0
  exact ⟨q.2, by rw [hq, ← hv]⟩

/-- Extrapolation is idle while at most one coefficient moves (and `K > 1`). -/
theorem accel_idle {R : RProb ℝ p} (cfg : Solver XR) (l : List (Fin p)) (e : ℕ) (b : ℕ → ℕ → ℝ) (w : Fin p → ℝ)
    (hK : 1 < cfg.K) (hl : cfg.K ≤ l.length) (hn : l.Nodup) (j0 : Fin p) (hw : ∀ j, j ≠ j0 → w j = 0)
    (hb : ∀ k q, l[q]? ≠ some j0 → b k q = 0) :
    Tri (fun _ => False) (R.accel cfg l e b w) fun q => (∀ k i, l[i]? ≠ some j0 → q.1 k i = 0) ∧ q.2 = w := by
  unfold accel
  have hd : dim ℝ = 1 := rfl
  have hb1 : ∀ k q, l[q]? ≠ some j0 → Function.update b (e % (cfg.K + 1)) (flat l w) k q = 0 := by
    intro k q hq
    by_cases hk : k = e % (cfg.K + 1)
    · subst hk
      rw [Function.update_self]
      unfold flat
      rw [hd, Nat.div_one]
      cases hj : l[q]? with
      | none => rfl
      | some j =>
        have : w j = 0 := hw j fun h => hq (by rw [hj, h])
        show co (w j) (q % dim ℝ) = 0
        rw [this]
        rfl
    · rw [Function.update_of_ne hk]
      exact hb k q hq
  split
  · dsimp only
    split
    · obtain ⟨c0, hc, hc0⟩ : ∃ c0, c0 < cfg.K ∧ l[c0]? ≠ some j0 := by
        by_cases h : l[0]? = some j0
        · refine ⟨1, hK, fun h' => ?_⟩
          have := (List.getElem?_inj (i := 0) (j := 1) (by omega) hn).mp (h.trans h'.symm)
          omega
        · exact ⟨0, by omega, h⟩
      rw [solve_gram_flat (c0 := c0) _ (by rw [hd, mul_one]; exact hl) hc (fun k _ => by rw [hb1 _ _ hc0, hb1 _ _ hc0])]
      exact ⟨hb1, rfl⟩
    · exact ⟨hb1, rfl⟩
  · exact ⟨hb, rfl⟩

end RProb
end Sglm
