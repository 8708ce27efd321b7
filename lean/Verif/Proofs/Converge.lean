import Verif.Proofs.Cyclic
import Verif.Proofs.ZeroCol
import Verif.Proofs.RunPanic

/-!
# Convergence of the solvers
-/

set_option linter.unusedSectionVars false

namespace Sglm
open Scalar Spec

theorem Tri.forall' {α ι : Type} {E : Panic → Prop} {m : M α} {Q : ι → α → Prop} (h : ∀ i, Tri E m (Q i)) :
    Tri (fun _ => True) m (fun a => ∀ i, Q i a) := by
  cases m with
  | ok a => exact h
  | error e => exact trivial

namespace Skel
variable {F S B : Type}

/-- One iteration of the outer loop, from `s` to `t`. -/
def Iter (sk : Skel F S B) (s t : S) : Prop :=
  ∃ kkt km ws sz, sk.viol s = .ok (kkt, km) ∧ sk.done km = false ∧ sk.mkWs kkt s = .ok (ws, sz) ∧
    sk.inner ws sz km sk.maxEpochs 0 (sk.buf0 sz) s = .ok t

/-- Counting iterations by the decrease of a quantity, until a target is reached. -/
theorem outer_count (sk : Skel F S B) (Inv T : S → Prop) (Φ : S → ℝ) (δ : ℝ)
    (hiter : ∀ s t, Inv s → sk.Iter s t → Inv t ∧ (T t ∨ Φ t ≤ Φ s - δ))
    (hT : ∀ s t, Inv s → T s → sk.Iter s t → T t) :
    ∀ (m : ℕ) (s v : S) (k : ℕ), Inv s → sk.outer m s = .ok (v, k) →
      Inv v ∧ (T s → T v) ∧ (T v ∨ k * δ ≤ Φ s - Φ v)
  | 0, s, v, k, hs, h => by
    injection h with h; injection h with h1 h2
    subst h1 h2
    exact ⟨hs, id, Or.inr (by simp)⟩
  | m + 1, s, v, k, hs, h => by
    rw [Skel.outer] at h
    cases hv : sk.viol s with
    | error e => rw [hv] at h; cases h
    | ok q =>
      obtain ⟨kkt, km⟩ := q
      rw [hv] at h
      dsimp only [bind, Except.bind] at h
      split at h
      · injection h with h; injection h with h1 h2
        subst h1 h2
        exact ⟨hs, id, Or.inr (by simp)⟩
      · rename_i hd
        have hd : sk.done km = false := by simpa using hd
        cases hw : sk.mkWs kkt s with
        | error e => rw [hw] at h; cases h
        | ok u =>
          obtain ⟨ws, sz⟩ := u
          rw [hw] at h
          dsimp only at h
          cases hi : sk.inner ws sz km sk.maxEpochs 0 (sk.buf0 sz) s with
          | error e => rw [hi] at h; cases h
          | ok t =>
            rw [hi] at h
            dsimp only at h
            have hit : sk.Iter s t := ⟨kkt, km, ws, sz, hv, hd, hw, hi⟩
            cases ho : sk.outer m t with
            | error e => rw [ho] at h; cases h
            | ok z =>
              obtain ⟨v', k'⟩ := z
              rw [ho] at h
              injection h with h; injection h with h1 h2
              subst h1 h2
              obtain ⟨a1, a2⟩ := hiter s t hs hit
              obtain ⟨b1, b2, b3⟩ := outer_count sk Inv T Φ δ hiter hT m t v' k' a1 ho
              refine ⟨b1, fun h => b2 (hT s t hs h hit), ?_⟩
              rcases a2 with a2 | a2
              · exact Or.inl (b2 a2)
              · rcases b3 with b3 | b3
                · exact Or.inl b3
                · refine Or.inr ?_
                  push_cast
                  linarith

end Skel

section
variable {E : Type} [NormedAddCommGroup E] [InnerProductSpace ℝ E] [Coord E] {p : ℕ}

/-- No extrapolation in the epochs which may be the last one of an iteration, for epochs `e, …, e + r - 1`. -/
def PlainEnd (cfg : Solver XR) (r e : ℕ) : Prop :=
  ∀ i, e ≤ i → i < e + r → (i + 1 = e + r ∨ (0 < i ∧ i % 10 = 0)) →
    cfg.useAcceleration = false ∨ i % (cfg.K + 1) ≠ cfg.K

theorem RProb.accel_plain (R : RProb E p) (cfg : Solver XR) (l : List (Fin p)) (e : ℕ) (b : ℕ → ℕ → ℝ)
    (w : Fin p → E) (h : cfg.useAcceleration = false ∨ e % (cfg.K + 1) ≠ cfg.K) :
    ∃ b', R.accel cfg l e b w = .ok (b', w) := by
  unfold RProb.accel
  by_cases hu : cfg.useAcceleration = true
  · rw [if_pos hu]
    dsimp only
    rw [if_neg (h.resolve_left (by rw [hu]; exact fun h => by cases h))]
    exact ⟨_, rfl⟩
  · rw [if_neg hu]
    exact ⟨_, rfl⟩

namespace RProb.Cvx
open RProb
variable {R : RProb E p} {f : (Fin p → E) → ℝ} {a b : ℝ} (H : R.Cvx f a b)

/-- Coefficients of features without step constant are zero. -/
def ZeroOK (R : RProb E p) (w : Fin p → E) : Prop := ∀ j, R.L j = 0 → w j = 0

omit [Coord E] in
include H in
theorem epoch_le (l : List (Fin p)) (hl : l.Nodup) (w : Fin p → E) : R.F (l.foldl R.step w) ≤ R.F w := by
  obtain ⟨κ, h1, h2⟩ := H.decrease
  have := h2 l hl w
  have h3 : 0 ≤ κ * (∑ i, ‖l.foldl R.step w i - w i‖) ^ 2 := by positivity
  linarith

omit [Coord E] in
theorem epoch_zeroOK (l : List (Fin p)) (w : Fin p → E) (hw : ZeroOK R w) : ZeroOK R (l.foldl R.step w) := by
  induction l generalizing w with
  | nil => exact hw
  | cons i l ih =>
    refine ih _ fun j hj => ?_
    by_cases hij : j = i
    · subst hij; rw [step_eq_zero w hj]; exact hw j hj
    · rw [step_eq_of_ne w hij]; exact hw j hj

theorem accel_all {srt : Argsort XR} (cfg : Solver XR) (l : List (Fin p)) (e : ℕ) (bf : ℕ → ℕ → ℝ) (w : Fin p → E)
    (hw : ZeroOK R w) (hb : ∀ j, R.L j = 0 → BufZero E j (l.map Fin.val) bf) (hoff : ∀ j ∉ l, w j = 0) :
    Tri (fun _ => True) (R.accel cfg l e bf w) (fun r => (∀ j, R.L j = 0 → BufZero E j (l.map Fin.val) r.1) ∧
      ZeroOK R r.2 ∧ (∀ j ∉ l, r.2 j = 0) ∧ R.F r.2 ≤ R.F w) := by
  have h1 := Tri.monoE (R.accel_spec cfg l e bf w) (E' := fun _ => True) fun _ _ => trivial
  have h2 : Tri (fun _ => True) (R.accel cfg l e bf w) (fun r => ∀ j : {j // R.L j = 0},
      BufZero E j.1 (l.map Fin.val) r.1 ∧ r.2 j.1 = 0) := by
    refine Tri.forall' (E := fun _ => True) fun j => ?_
    have := (R.hoare_zero (srt := srt) cfg 0 j.1 (fun w hw => by rw [step_eq_zero w j.2]; exact hw)).accel
      (l.map Fin.val) 0 e bf w (hw j.1 j.2) trivial (hb j.1 j.2)
    have e1 : (R.skel srt cfg 0).accel (l.map Fin.val) e bf w = R.accel cfg l e bf w := by
      show R.accel cfg (finws p (l.map Fin.val)) e bf w = _
      rw [finws_map]
    rw [e1] at this
    exact this
  refine Tri.mono (Tri.and h1 h2) fun r ⟨hr1, hr2⟩ => ⟨fun j hj => (hr2 ⟨j, hj⟩).1, fun j hj => (hr2 ⟨j, hj⟩).2, ?_⟩
  rcases hr1 with h | ⟨pt, h, hlt⟩
  · rw [h]; exact ⟨hoff, le_rfl⟩
  · rw [h]
    exact ⟨fun j hj => if_neg hj, hlt.le⟩

/-- What an inner loop achieves, if epochs do not increase the objective. -/
theorem inner_spec_of (hE : ∀ l : List (Fin p), l.Nodup → ∀ w : Fin p → E, R.F (l.foldl R.step w) ≤ R.F w)
    {srt : Argsort XR} (cfg : Solver XR) (ws0 : ℕ) (l : List (Fin p)) (hl : l.Nodup) (sz : ℕ) (km : XR) :
    ∀ (r e : ℕ) (bf : ℕ → ℕ → ℝ) (s : Fin p → E), ZeroOK R s →
      (∀ j, R.L j = 0 → BufZero E j (l.map Fin.val) bf) → (∀ j ∉ l, s j = 0) →
      Tri (fun _ => True) ((R.skel srt cfg ws0).inner (l.map Fin.val) sz km r e bf s) (fun t =>
        ZeroOK R t ∧ (∀ j ∉ l, t j = 0) ∧ R.F t ≤ R.F s ∧ (0 < r → R.F t ≤ R.F (l.foldl R.step s)) ∧
        (0 < r → PlainEnd cfg r e → ∃ s', ZeroOK R s' ∧ R.F s' ≤ R.F s ∧ t = l.foldl R.step s') ∧
        (r = 0 → t = s))
  | 0, e, bf, s, hs, _, hoff =>
    ⟨hs, hoff, le_rfl, fun h => absurd h (lt_irrefl _), fun h => absurd h (lt_irrefl _), fun _ => rfl⟩
  | r + 1, e, bf, s, hs, hb, hoff => by
    unfold Skel.inner
    have e1 : (R.skel srt cfg ws0).epoch (l.map Fin.val) s = .ok (l.foldl R.step s) := by
      show Except.ok ((finws p (l.map Fin.val)).foldl R.step s) = _
      rw [finws_map]
    rw [e1]
    show Tri _ ((R.skel srt cfg ws0).accel (l.map Fin.val) e bf (l.foldl R.step s) >>= _) _
    have e2 : (R.skel srt cfg ws0).accel (l.map Fin.val) e bf (l.foldl R.step s) =
        R.accel cfg l e bf (l.foldl R.step s) := by
      show R.accel cfg (finws p (l.map Fin.val)) e bf _ = _
      rw [finws_map]
    rw [e2]
    have hs1 := epoch_zeroOK (R := R) l s hs
    have hoff1 : ∀ j ∉ l, l.foldl R.step s j = 0 := fun j hj => by rw [epoch_off l s hj, hoff j hj]
    have hle := hE l hl s
    refine Tri.bind_eq (accel_all (srt := srt) cfg l e bf _ hs1 hb hoff1) fun ⟨b2, s2⟩ heq ⟨h1, h2, h3, h4⟩ => ?_
    dsimp only at h1 h2 h3 h4
    have plain : cfg.useAcceleration = false ∨ e % (cfg.K + 1) ≠ cfg.K → s2 = l.foldl R.step s := fun h => by
      obtain ⟨b', h5⟩ := R.accel_plain cfg l e bf (l.foldl R.step s) h
      rw [h5] at heq
      injection heq with heq
      exact (congrArg Prod.snd heq).symm
    show Tri _ (if (decide (e > 0 ∧ e % 10 = 0) && (if sz = p then _ else _)) = true then _ else _) _
    generalize (if sz = p then ((R.viol s2 (finws p (l.map Fin.val))).2 <=. cfg.tolerance)
      else ((R.viol s2 (finws p (l.map Fin.val))).2 <. lit 3 10 *. km)) = c
    split
    · rename_i hst
      rw [Bool.and_eq_true, decide_eq_true_iff] at hst
      exact ⟨h2, h3, h4.trans hle, fun _ => h4, fun _ hp =>
        ⟨s, hs, le_rfl, plain (hp e le_rfl (by omega) (Or.inr hst.1))⟩, fun h => absurd h (Nat.succ_ne_zero r)⟩
    · refine Tri.mono (inner_spec_of hE cfg ws0 l hl sz km r (e + 1) b2 s2 h2 h1 h3) fun t ⟨g1, g2, g3, g4, g5, g6⟩ =>
        ⟨g1, g2, g3.trans (h4.trans hle), fun _ => g3.trans h4, fun _ hp => ?_, fun h => absurd h (Nat.succ_ne_zero r)⟩
      rcases Nat.eq_zero_or_pos r with hr | hr
      · refine ⟨s, hs, le_rfl, ?_⟩
        rw [g6 hr]
        exact plain (hp e le_rfl (by omega) (Or.inl (by omega)))
      · obtain ⟨s', k1, k2, k3⟩ := g5 hr fun i hi hi2 hi3 => hp i (by omega) (by omega) (by
          rcases hi3 with h | h
          · exact Or.inl (by omega)
          · exact Or.inr h)
        exact ⟨s', k1, k2.trans (h4.trans hle), k3⟩

omit [Coord E] in
theorem nz_eq_false [Coord E] {w : Fin p → E} {j : Fin p} : nz w j = false ↔ w j = 0 := by
  unfold nz
  rw [dif_pos j.isLt]
  have := Coord.nzB_iff (w j)
  cases h : Coord.nzB (w j)
  · rw [h] at this
    simpa using this
  · rw [h] at this
    simpa using this

/-- Working sets contain a zero feature with maximal score, unless they contain all features. -/
theorem ws_best {ws0 : ℕ} (h0 : 0 < ws0) {w : Fin p → E} {l : List (Fin p)}
    (hW : WorkingSet p ws0 (nz w) (fun j => (R.scores w (List.finRange p)).getD j zero) (l.map Fin.val)) :
    (∀ j ∉ l, w j = 0) ∧
    ∀ j ∉ l, ∃ i ∈ l, w i = 0 ∧ R.sc (w j) (R.G w j) ≤ R.sc (w i) (R.G w i) := by
  have mem : ∀ j : Fin p, j ∈ l ↔ (j : ℕ) ∈ l.map Fin.val := fun j => by
    rw [List.mem_map]
    exact ⟨fun h => ⟨j, h, rfl⟩, fun ⟨i, hi, e⟩ => Fin.ext e ▸ hi⟩
  have sup : ∀ j ∉ l, w j = 0 := fun j hj => by
    by_contra hc
    refine hj ((mem j).mpr (hW.support j j.isLt ?_))
    by_contra hn
    exact hc (nz_eq_false.mp (by simpa using hn))
  refine ⟨sup, fun j hj => ?_⟩
  have hex : ∃ i ∈ l, w i = 0 := by
    by_contra hc
    push Not at hc
    have hnz : ∀ i ∈ l.map Fin.val, nz w i = true := fun i hi => by
      obtain ⟨i', hi', rfl⟩ := List.mem_map.mp hi
      by_contra hn
      exact hc i' hi' (nz_eq_false.mp (by simpa using hn))
    have hcard : (l.map Fin.val).length ≤ (List.range p).countP (nz w) := by
      rw [List.countP_eq_length_filter]
      refine (hW.nodup.subperm fun i hi => ?_).length_le
      exact List.mem_filter.mpr ⟨List.mem_range.mpr (hW.lt i hi), hnz i hi⟩
    have hsz := hW.size
    have hle : p ≤ (List.range p).countP (nz w) := by omega
    have hall := List.countP_eq_length.mp (le_antisymm List.countP_le_length (by rw [List.length_range]; exact hle))
    exact hj ((mem j).mpr (hW.support j j.isLt (hall j (List.mem_range.mpr j.isLt))))
  obtain ⟨i, hi, hwi⟩ := hex
  refine ⟨i, hi, hwi, ?_⟩
  have hb := hW.best i ((mem i).mp hi) (nz_eq_false.mpr hwi) j j.isLt (fun h => hj ((mem j).mpr h))
  have get : ∀ j : Fin p, (R.scores w (List.finRange p)).getD j zero = XR.fin (R.sc (w j) (R.G w j)) := fun j => by
    rw [List.getD_eq_getElem?_getD]
    unfold scores
    rw [List.getElem?_map, List.getElem?_eq_getElem (by rw [List.length_finRange]; exact j.isLt)]
    simp
  rw [get, get, XR.s_lt] at hb
  simpa using hb

/-- Data which are kept during a run. -/
def Good (R : RProb E p) (c : ℝ) (w : Fin p → E) : Prop := ZeroOK R w ∧ R.F w ≤ c

/-- What one iteration achieves, if epochs do not increase the objective. -/
theorem iter_spec_of (hE : ∀ l : List (Fin p), l.Nodup → ∀ w : Fin p → E, R.F (l.foldl R.step w) ≤ R.F w)
    {srt : Argsort XR} (hs : ArgsortSpec srt) (cfg : Solver XR) (hw0 : 0 < cfg.wsStartSize)
    (hme : 0 < cfg.maxEpochs) {s t : Fin p → E} (hz : ZeroOK R s)
    (hit : (R.skel srt cfg (ws0CD cfg p)).Iter s t) :
    ∃ l : List (Fin p), l.Nodup ∧ (∀ j ∉ l, s j = 0) ∧
      (∀ j ∉ l, ∃ i ∈ l, s i = 0 ∧ R.sc (s j) (R.G s j) ≤ R.sc (s i) (R.G s i)) ∧
      ZeroOK R t ∧ (∀ j ∉ l, t j = 0) ∧ R.F t ≤ R.F (l.foldl R.step s) ∧ R.F t ≤ R.F s ∧
      (PlainEnd cfg cfg.maxEpochs 0 → ∃ s', ZeroOK R s' ∧ R.F s' ≤ R.F s ∧ t = l.foldl R.step s') := by
  obtain ⟨kkt, km, ws, sz, h1, -, h3, h4⟩ := hit
  have : R.scores s (List.finRange p) = kkt := by
    injection h1 with h1; exact congrArg Prod.fst h1
  subst this
  obtain ⟨ws', h5, ⟨l, h6, h7, -, -⟩, h8⟩ := R.pick_ok hs (Nat.min_le_right cfg.wsStartSize p) s
  have h3 : pickWs srt (R.scores s (List.finRange p)) p (nz s) (min cfg.wsStartSize p) = .ok (ws, sz) := h3
  rw [h5] at h3
  injection h3 with h3
  injection h3 with h9 h10
  subst h9
  subst h6
  have best : (∀ j ∉ l, s j = 0) ∧
      ∀ j ∉ l, ∃ i ∈ l, s i = 0 ∧ R.sc (s j) (R.G s j) ≤ R.sc (s i) (R.G s i) := by
    rcases Nat.eq_zero_or_pos p with hp | hp
    · subst hp
      exact ⟨fun j => j.elim0, fun j => j.elim0⟩
    · exact ws_best (by omega) h8
  have key := Tri.elim_ok (inner_spec_of hE (srt := srt) cfg (ws0CD cfg p) l h7 sz km cfg.maxEpochs 0
    ((R.skel srt cfg (ws0CD cfg p)).buf0 sz) s hz (fun _ _ _ _ _ _ => rfl) best.1) h4
  obtain ⟨k1, k2, k3, k4, k5, -⟩ := key
  exact ⟨l, h7, best.1, best.2, k1, k2, k4 hme, k3, k5 hme⟩

include H in
/-- What one iteration achieves. -/
theorem iter_spec {srt : Argsort XR} (hs : ArgsortSpec srt) (cfg : Solver XR) (hw0 : 0 < cfg.wsStartSize)
    (hme : 0 < cfg.maxEpochs) {s t : Fin p → E} (hz : ZeroOK R s)
    (hit : (R.skel srt cfg (ws0CD cfg p)).Iter s t) :
    ∃ l : List (Fin p), l.Nodup ∧ (∀ j ∉ l, s j = 0) ∧
      (∀ j ∉ l, ∃ i ∈ l, s i = 0 ∧ R.sc (s j) (R.G s j) ≤ R.sc (s i) (R.G s i)) ∧
      ZeroOK R t ∧ (∀ j ∉ l, t j = 0) ∧ R.F t ≤ R.F (l.foldl R.step s) ∧ R.F t ≤ R.F s ∧
      (PlainEnd cfg cfg.maxEpochs 0 → ∃ s', ZeroOK R s' ∧ R.F s' ≤ R.F s ∧ t = l.foldl R.step s') :=
  iter_spec_of H.epoch_le hs cfg hw0 hme hz hit

include H in
/-- Distances within a level set. -/
theorem dist_le {c B : ℝ} (hB : ∀ w, R.F w ≤ c → ∑ j, ‖w j‖ ≤ B) {u v : Fin p → E} (hu : R.F u ≤ c) (hv : R.F v ≤ c) :
    ∑ j, ‖u j - v j‖ ≤ 2 * B := by
  have h1 : ∑ j, ‖u j - v j‖ ≤ ∑ j, (‖u j‖ + ‖v j‖) := Finset.sum_le_sum fun j _ => norm_sub_le _ _
  rw [Finset.sum_add_distrib] at h1
  linarith [hB u hu, hB v hv]

include H in
/-- A small decrease in one iteration means that all scores were small after its first epoch. -/
theorem small_scores (σ : ℝ) (hσ : 0 < σ) : ∃ δ, 0 < δ ∧ ∀ (l : List (Fin p)), l.Nodup → ∀ s : Fin p → E, ZeroOK R s →
    R.F s - R.F (l.foldl R.step s) < δ →
    (∀ j ∈ l, R.sc (l.foldl R.step s j) (R.G (l.foldl R.step s) j) ≤ σ) ∧
    ((∀ j ∉ l, s j = 0) →
      (∀ j ∉ l, ∃ i ∈ l, s i = 0 ∧ R.sc (s j) (R.G s j) ≤ R.sc (s i) (R.G s i)) →
      ∀ j, R.sc (l.foldl R.step s j) (R.G (l.foldl R.step s) j) ≤ σ) := by
  obtain ⟨κ, hκ, hdec⟩ := H.decrease
  have hL : 0 ≤ ∑ i, R.L i := Finset.sum_nonneg fun i _ => H.nonneg i
  have hb := H.hb
  set C := 3 * (∑ i, R.L i) + b + 1 with hC
  have hCpos : 0 < C := by positivity
  refine ⟨κ * (σ / C) ^ 2, by positivity, fun l hl s hz hlt => ?_⟩
  have h1 := hdec l hl s
  have hS : 0 ≤ ∑ i, ‖l.foldl R.step s i - s i‖ := Finset.sum_nonneg fun i _ => norm_nonneg _
  have h2 : ∑ i, ‖l.foldl R.step s i - s i‖ ≤ σ / C := by
    have h3 : κ * (∑ i, ‖l.foldl R.step s i - s i‖) ^ 2 < κ * (σ / C) ^ 2 := lt_of_le_of_lt h1 hlt
    have h4 := lt_of_mul_lt_mul_left h3 hκ.le
    exact (lt_of_pow_lt_pow_left₀ 2 (by positivity) h4).le
  have h5 : C * ∑ i, ‖l.foldl R.step s i - s i‖ ≤ σ := by
    rw [le_div_iff₀ hCpos] at h2; linarith
  refine ⟨fun j hj => ?_, fun hsupp hbest j => ?_⟩
  · refine ((H.score_after l hl s hz hj).trans (mul_le_mul_of_nonneg_right ?_ hS)).trans h5
    rw [hC]; linarith
  · refine ((H.score_all l hl s hz hsupp hbest j).trans (mul_le_mul_of_nonneg_right ?_ hS)).trans h5
    rw [hC]; linarith

include H in
/-- **Convergence of the objective**: with a small tolerance and enough iterations the result is almost optimal. -/
theorem run_objective (ε : ℝ) (hε : 0 < ε) : ∃ τ₀ : ℝ, 0 < τ₀ ∧ ∃ N : ℕ, ∀ {srt : Argsort XR}, ArgsortSpec srt →
    ∀ (cfg : Solver XR) (τ : ℝ), cfg.tolerance = XR.fin τ → τ ≤ τ₀ → 0 < cfg.wsStartSize → 0 < cfg.maxEpochs →
    N ≤ cfg.maxIterations → ∀ v k, R.run srt cfg = .ok (v, k) → ∀ u, R.F v ≤ R.F u + ε := by
  obtain ⟨B, hB0, hB⟩ := H.level (R.F fun _ => 0)
  have hσ : 0 < ε / (2 * B + 1) := by positivity
  obtain ⟨δ, hδ, hsmall⟩ := H.small_scores _ hσ
  obtain ⟨N, hN⟩ := exists_nat_gt ((R.F fun _ => 0) / δ)
  -- small scores at a point of the level set
  have opt : ∀ v, R.F v ≤ R.F (fun _ => 0) → (∀ j, R.sc (v j) (R.G v j) ≤ ε / (2 * B + 1)) → ∀ u, R.F v ≤ R.F u + ε := by
    intro v hv hsc u
    rcases le_total (R.F u) (R.F fun _ => 0) with hu | hu
    · have h1 := H.gap' hsc u
      have h2 := H.dist_le hB hv hu
      have h3 := mul_le_mul_of_nonneg_left h2 hσ.le
      have h4 : ε / (2 * B + 1) * (2 * B) ≤ ε := by
        rw [div_mul_eq_mul_div, div_le_iff₀ (by positivity)]; nlinarith
      linarith
    · linarith
  refine ⟨_, hσ, N, fun {srt} hs cfg τ hτ hτ0 hw hme hmi v k hrun => ?_⟩
  have count := Skel.outer_count (R.skel srt cfg (ws0CD cfg p)) (Good R (R.F fun _ => 0))
    (fun v => ∀ u, R.F v ≤ R.F u + ε) R.F δ ?_ ?_ cfg.maxIterations (fun _ => 0) v k
    ⟨fun _ _ => rfl, le_rfl⟩ hrun
  · rcases lt_or_ge k cfg.maxIterations with hk | hk
    · have h1 := R.run_exit cfg hrun hk
      rw [hτ] at h1
      exact opt v count.1.2 fun j => (R.viol_le h1 j).trans hτ0
    · rcases count.2.2 with h | h
      · exact h
      · exfalso
        rw [div_lt_iff₀ hδ] at hN
        have h2 : (N : ℝ) ≤ k := by exact_mod_cast hmi.trans hk
        have h3 := mul_le_mul_of_nonneg_right h2 hδ.le
        linarith [H.F_nonneg v]
  · rintro s t ⟨hz, hF⟩ hit
    obtain ⟨l, hl, h1, h2, h3, -, h5, h6, -⟩ := H.iter_spec hs cfg hw hme hz hit
    refine ⟨⟨h3, h6.trans hF⟩, ?_⟩
    by_cases hd : R.F s - R.F (l.foldl R.step s) < δ
    · refine Or.inl fun u => h5.trans ?_
      exact opt _ ((H.epoch_le l hl s).trans hF) ((hsmall l hl s hz hd).2 h1 h2) u
    · exact Or.inr (by linarith)
  · rintro s t ⟨hz, hF⟩ hT hit u
    obtain ⟨l, hl, h1, h2, h3, -, h5, h6, -⟩ := H.iter_spec hs cfg hw hme hz hit
    exact h6.trans (hT u)

include H in
/-- **Termination**: the number of iterations is bounded, and with a larger limit the stopping test holds at the end. -/
theorem run_terminates (hm0 : R.m0 = XR.ninf ∨ R.m0 = XR.fin 0) (τ : ℝ) (hτ : 0 < τ) : ∃ N : ℕ,
    ∀ {srt : Argsort XR}, ArgsortSpec srt → ∀ (cfg : Solver XR), cfg.tolerance = XR.fin τ → 0 < cfg.wsStartSize →
    0 < cfg.maxEpochs → PlainEnd cfg cfg.maxEpochs 0 → ∀ v k, R.run srt cfg = .ok (v, k) →
    k ≤ N ∧ (N ≤ cfg.maxIterations → ∀ j, R.sc (v j) (R.G v j) ≤ τ) := by
  obtain ⟨B, hB0, hB⟩ := H.level (R.F fun _ => 0)
  have hL : 0 ≤ ∑ i, R.L i := Finset.sum_nonneg fun i _ => H.nonneg i
  set Λ := ∑ i, R.L i with hΛ
  -- the accuracy needed after the first and the last epoch
  obtain ⟨σ, hσ, hσ1, hσ2⟩ : ∃ σ, 0 < σ ∧ σ ≤ τ / 2 ∧ 2 * Λ * (σ * (2 * B)) ≤ (τ / 2) ^ 2 := by
    refine ⟨min (τ / 2) ((τ / 2) ^ 2 / (4 * Λ * B + 1)), by positivity, min_le_left _ _, ?_⟩
    have h1 : min (τ / 2) ((τ / 2) ^ 2 / (4 * Λ * B + 1)) * (4 * Λ * B) ≤ (τ / 2) ^ 2 / (4 * Λ * B + 1) * (4 * Λ * B) :=
      mul_le_mul_of_nonneg_right (min_le_right _ _) (by positivity)
    have h2 : (τ / 2) ^ 2 / (4 * Λ * B + 1) * (4 * Λ * B) ≤ (τ / 2) ^ 2 := by
      rw [div_mul_eq_mul_div, div_le_iff₀ (by positivity)]
      nlinarith [sq_nonneg (τ / 2)]
    linarith
  obtain ⟨δ, hδ, hsmall⟩ := H.small_scores σ hσ
  obtain ⟨N, hN⟩ := exists_nat_gt ((R.F fun _ => 0) / δ)
  refine ⟨N, fun {srt} hs cfg htol hw hme hpl v k hrun => ?_⟩
  -- one iteration
  have iter : ∀ s t, Good R (R.F fun _ => 0) s → (R.skel srt cfg (ws0CD cfg p)).Iter s t →
      Good R (R.F fun _ => 0) t ∧ ((∀ j, R.sc (t j) (R.G t j) ≤ τ) ∨ R.F t ≤ R.F s - δ) := by
    rintro s t ⟨hz, hF⟩ hit
    obtain ⟨l, hl, h1, h2, h3, h4, h5, h6, h7⟩ := H.iter_spec hs cfg hw hme hz hit
    refine ⟨⟨h3, h6.trans hF⟩, ?_⟩
    by_cases hd : R.F s - R.F t < δ
    · refine Or.inl fun j => ?_
      have hs1 := (hsmall l hl s hz (by linarith)).2 h1 h2
      obtain ⟨s', k1, k2, k3⟩ := h7 hpl
      by_cases hj : j ∈ l
      · have := (hsmall l hl s' k1 (by rw [← k3]; linarith)).1 j hj
        rw [← k3] at this
        linarith
      · have e1 : l.foldl R.step s j = 0 := by rw [epoch_off l s hj, h1 j hj]
        have a1 := hs1 j
        rw [e1] at a1
        have a2 := H.sc_lips 0 (R.G t j) (R.G (l.foldl R.step s) j)
        have a3 : ‖R.G t j - R.G (l.foldl R.step s) j‖ ≤ τ / 2 := by
          by_cases h0 : R.L j = 0
          · rw [H.grad_zero _ j h0, H.grad_zero _ j h0, sub_self, norm_zero]; positivity
          · have hLj : 0 < R.L j := lt_of_le_of_ne (H.nonneg j) (Ne.symm h0)
            have b1 := H.gap hs1 t j
            have b2 := H.dist_le hB ((H.epoch_le l hl s).trans hF) (h6.trans hF)
            have b3 := mul_le_mul_of_nonneg_left b2 hσ.le
            have b4 : ‖R.G t j - R.G (l.foldl R.step s) j‖ ^ 2 / (2 * R.L j) ≤ σ * (2 * B) := by linarith
            rw [div_le_iff₀ (by positivity)] at b4
            have b5 : σ * (2 * B) * (2 * R.L j) ≤ σ * (2 * B) * (2 * Λ) :=
              mul_le_mul_of_nonneg_left (by linarith [H.L_le j]) (by positivity)
            exact le_of_sq_le_sq (by linarith) (by positivity)
        rw [h4 j hj]
        linarith
    · exact Or.inr (by linarith)
  -- the test holds at points with small scores
  have done : ∀ v : Fin p → E, (∀ j, R.sc (v j) (R.G v j) ≤ τ) →
      ((R.viol v (List.finRange p)).2 <=. cfg.tolerance) = true := fun v hv => by
    rw [htol]
    exact R.viol_le_of (hm0.imp_right fun h => ⟨h, hτ.le⟩) hv
  have noiter : ∀ s t, (∀ j, R.sc (s j) (R.G s j) ≤ τ) → ¬ (R.skel srt cfg (ws0CD cfg p)).Iter s t := by
    rintro s t hsc ⟨kkt, km, ws, sz, h1, h2, -⟩
    injection h1 with h1
    have := done s hsc
    rw [h1] at this
    exact Bool.false_ne_true (h2.symm.trans this)
  have count := fun m v k => Skel.outer_count (R.skel srt cfg (ws0CD cfg p)) (Good R (R.F fun _ => 0))
    (fun v => ∀ j, R.sc (v j) (R.G v j) ≤ τ) R.F δ iter (fun s t _ hT hit => absurd hit (noiter s t hT))
    m (fun _ => 0) v k ⟨fun _ _ => rfl, le_rfl⟩
  -- after at most `N` iterations the scores are small
  have reach : ∀ m v k, (R.skel srt cfg (ws0CD cfg p)).outer m (fun _ => 0) = .ok (v, k) → N ≤ m → k ≤ N →
      ∀ j, R.sc (v j) (R.G v j) ≤ τ := by
    intro m v k h hm hk
    rcases (count m v k h).2.2 with h1 | h1
    · exact h1
    · rcases lt_or_ge k m with hkm | hkm
      · obtain ⟨kkt, km, h2, h3⟩ := (Skel.outer_exit _ _ _ _ _ h).2 hkm
        injection h2 with h2
        have h3 : (km <=. cfg.tolerance) = true := h3
        have h4 : (R.viol v (List.finRange p)).2 = km := by rw [h2]
        rw [← h4, htol] at h3
        exact R.viol_le h3
      · exfalso
        rw [div_lt_iff₀ hδ] at hN
        have h2 : (N : ℝ) ≤ k := by exact_mod_cast hm.trans hkm
        have h3 := mul_le_mul_of_nonneg_right h2 hδ.le
        linarith [H.F_nonneg v]
  have hkN : k ≤ N := by
    rcases Nat.le_total cfg.maxIterations N with h | h
    · exact (Skel.outer_exit _ _ _ _ _ hrun).1.trans h
    · obtain ⟨d, hd⟩ := Nat.exists_eq_add_of_le h
      have hrun' : (R.skel srt cfg (ws0CD cfg p)).outer (N + d) (fun _ => 0) = .ok (v, k) := by
        rw [← hd]; exact hrun
      rw [Skel.outer_add] at hrun'
      cases h1 : (R.skel srt cfg (ws0CD cfg p)).outer N (fun _ => 0) with
      | error e => rw [h1] at hrun'; cases hrun'
      | ok q =>
        obtain ⟨v1, k1⟩ := q
        have hk1 : k1 ≤ N := (Skel.outer_exit _ _ _ _ _ h1).1
        have h2 := done v1 (reach N v1 k1 h1 le_rfl hk1)
        rw [h1] at hrun'
        dsimp only [bind, Except.bind] at hrun'
        rw [Skel.outer_done _ d v1 _ _ rfl h2] at hrun'
        injection hrun' with hrun'
        injection hrun' with _ h3
        omega
  exact ⟨hkN, fun hN => reach _ v k hrun hN hkN⟩

omit [Coord E] in
/-- The test on a list of features. -/
theorem viol_list {l : List (Fin p)} (hne : l ≠ []) (w : Fin p → E) (τ : ℝ) :
    ((R.viol w l).2 <=. XR.fin τ) = true ↔ ∀ j ∈ l, R.sc (w j) (R.G w j) ≤ τ := by
  show ((if l = [] then R.m0 else maxDist (R.scores w l)) <=. XR.fin τ) = true ↔ _
  rw [if_neg hne]
  have e : R.scores w l = (l.map fun j => R.sc (w j) (R.G w j)).map XR.fin := by
    unfold scores; rw [List.map_map]; rfl
  obtain ⟨m, h1, h2, h3⟩ := maxDist_fin (l.map fun j => R.sc (w j) (R.G w j))
    (fun h => hne (List.map_eq_nil_iff.mp h))
  rw [e, h3, XR.s_le, decide_eq_true_iff]
  constructor
  · exact fun h j hj => (h2 _ (List.mem_map.mpr ⟨j, hj, rfl⟩)).trans h
  · intro h
    obtain ⟨j, hj, rfl⟩ := List.mem_map.mp h1
    exact h j hj

include H in
/-- An inner loop on all features: either it stops by its test or the objective has decreased by `δ` for every test. -/
theorem inner_full {srt : Argsort XR} (cfg : Solver XR) (ws0 : ℕ) (l : List (Fin p)) (hl : l.Nodup)
    (hall : ∀ j, j ∈ l) (hne : l ≠ []) (km : XR) {τ δ : ℝ} (htol : cfg.tolerance = XR.fin τ) (hδ : 0 < δ)
    (hsmall : ∀ s : Fin p → E, ZeroOK R s → R.F s - R.F (l.foldl R.step s) < δ →
      ∀ j ∈ l, R.sc (l.foldl R.step s j) (R.G (l.foldl R.step s) j) ≤ τ) (n : ℕ)
    (hpl : ∀ i < n, 0 < i ∧ i % 10 = 0 → cfg.useAcceleration = false ∨ i % (cfg.K + 1) ≠ cfg.K) :
    ∀ (r e : ℕ) (bf : ℕ → ℕ → ℝ) (s : Fin p → E), e + r ≤ n → ZeroOK R s →
      (∀ j, R.L j = 0 → BufZero E j (l.map Fin.val) bf) →
      Tri (fun _ => True) ((R.skel srt cfg ws0).inner (l.map Fin.val) p km r e bf s) (fun t =>
        (∀ j, R.sc (t j) (R.G t j) ≤ τ) ∨
          ((max 1 ((e + r + 9) / 10) - max 1 ((e + 9) / 10) : ℕ) : ℝ) * δ ≤ R.F s - R.F t)
  | 0, e, bf, s, hen, hs, _ => by
    refine Or.inr ?_
    simp
  | r + 1, e, bf, s, hen, hs, hb => by
    unfold Skel.inner
    have e1 : (R.skel srt cfg ws0).epoch (l.map Fin.val) s = .ok (l.foldl R.step s) := by
      show Except.ok ((finws p (l.map Fin.val)).foldl R.step s) = _
      rw [finws_map]
    rw [e1]
    show Tri _ ((R.skel srt cfg ws0).accel (l.map Fin.val) e bf (l.foldl R.step s) >>= _) _
    have e2 : (R.skel srt cfg ws0).accel (l.map Fin.val) e bf (l.foldl R.step s) =
        R.accel cfg l e bf (l.foldl R.step s) := by
      show R.accel cfg (finws p (l.map Fin.val)) e bf _ = _
      rw [finws_map]
    rw [e2]
    have hs1 := epoch_zeroOK (R := R) l s hs
    have hle := H.epoch_le l hl s
    refine Tri.bind_eq (accel_all (srt := srt) cfg l e bf _ hs1 hb (fun j hj => absurd (hall j) hj))
      fun ⟨b2, s2⟩ heq ⟨h1, h2, _, h4⟩ => ?_
    dsimp only at h1 h2 h4
    have plain : cfg.useAcceleration = false ∨ e % (cfg.K + 1) ≠ cfg.K → s2 = l.foldl R.step s := fun h => by
      obtain ⟨b', h5⟩ := R.accel_plain cfg l e bf (l.foldl R.step s) h
      rw [h5] at heq
      injection heq with heq
      exact (congrArg Prod.snd heq).symm
    show Tri _ (if (decide (e > 0 ∧ e % 10 = 0) && (if p = p then ((R.viol s2 (finws p (l.map Fin.val))).2 <=. cfg.tolerance)
      else _)) = true then _ else _) _
    rw [if_pos rfl, finws_map, htol]
    split
    · rename_i hst
      rw [Bool.and_eq_true, viol_list hne] at hst
      exact Or.inl fun j => hst.2 j (hall j)
    · rename_i hst
      rw [Bool.and_eq_true, viol_list hne, decide_eq_true_iff] at hst
      refine Tri.mono (inner_full cfg ws0 l hl hall hne km htol hδ hsmall n hpl r (e + 1) b2 s2 (by omega) h2 h1)
        fun t ht => ht.imp_right fun hd => ?_
      by_cases hc : 0 < e ∧ e % 10 = 0
      · have h5 := plain (hpl e (by omega) hc)
        have h6 : ¬ R.F s - R.F (l.foldl R.step s) < δ := fun h => hst ⟨hc, by rw [h5]; exact hsmall s hs h⟩
        have h7 : max 1 ((e + (r + 1) + 9) / 10) - max 1 ((e + 9) / 10) ≤
            (max 1 ((e + 1 + r + 9) / 10) - max 1 ((e + 1 + 9) / 10)) + 1 := by omega
        have h8 : ((max 1 ((e + (r + 1) + 9) / 10) - max 1 ((e + 9) / 10) : ℕ) : ℝ) ≤
            ((max 1 ((e + 1 + r + 9) / 10) - max 1 ((e + 1 + 9) / 10) : ℕ) : ℝ) + 1 := by exact_mod_cast h7
        have h9 := mul_le_mul_of_nonneg_right h8 hδ.le
        linarith
      · have h7 : max 1 ((e + (r + 1) + 9) / 10) - max 1 ((e + 9) / 10) =
            max 1 ((e + 1 + r + 9) / 10) - max 1 ((e + 1 + 9) / 10) := by
          have : max 1 ((e + 1 + 9) / 10) = max 1 ((e + 9) / 10) := by omega
          rw [this]
          congr 2
          omega
        rw [h7]
        linarith

include H in
/-- **All features in the working set**: with enough epochs one iteration suffices. -/
theorem run_full (hm0 : R.m0 = XR.ninf ∨ R.m0 = XR.fin 0) (τ : ℝ) (hτ : 0 < τ) : ∃ N : ℕ,
    ∀ {srt : Argsort XR}, ArgsortSpec srt → ∀ (cfg : Solver XR), cfg.tolerance = XR.fin τ → p ≤ cfg.wsStartSize →
    N ≤ cfg.maxEpochs → 0 < cfg.maxIterations →
    (∀ i < cfg.maxEpochs, 0 < i ∧ i % 10 = 0 → cfg.useAcceleration = false ∨ i % (cfg.K + 1) ≠ cfg.K) →
    ∀ v k, R.run srt cfg = .ok (v, k) → k ≤ 1 ∧ ∀ j, R.sc (v j) (R.G v j) ≤ τ := by
  obtain ⟨δ, hδ, hsmall⟩ := H.small_scores τ hτ
  obtain ⟨N, hN⟩ := exists_nat_gt ((R.F fun _ => 0) / δ)
  refine ⟨10 * (N + 2), fun {srt} hs cfg htol hw hme hmi hpl v k hrun => ?_⟩
  have done : ∀ v : Fin p → E, (∀ j, R.sc (v j) (R.G v j) ≤ τ) →
      ((R.viol v (List.finRange p)).2 <=. cfg.tolerance) = true := fun v hv => by
    rw [htol]
    exact R.viol_le_of (hm0.imp_right fun h => ⟨h, hτ.le⟩) hv
  have iter : ∀ t, (R.skel srt cfg (ws0CD cfg p)).Iter (fun _ => 0) t → ∀ j, R.sc (t j) (R.G t j) ≤ τ := by
    rintro t ⟨kkt, km, ws, sz, h1, -, h3, h4⟩ j
    have : R.scores (fun _ => 0) (List.finRange p) = kkt := by
      injection h1 with h1; exact congrArg Prod.fst h1
    subst this
    obtain ⟨ws', h5, ⟨l, h6, h7, -, -⟩, h8⟩ := R.pick_ok hs (Nat.min_le_right cfg.wsStartSize p) (fun _ => 0)
    have h3 : pickWs srt (R.scores (fun _ => 0) (List.finRange p)) p (nz fun _ : Fin p => (0 : E))
      (min cfg.wsStartSize p) = .ok (ws, sz) := h3
    rw [h5] at h3
    injection h3 with h3
    injection h3 with h9 h10
    subst h9 h6
    have hlen : l.length = p := by
      have a1 := List.Nodup.length_le_card h7
      rw [Fintype.card_fin] at a1
      have a2 := h8.size
      rw [List.length_map, Nat.min_eq_right hw] at a2
      omega
    have hsz : sz = p := by rw [← h10, List.length_map, hlen]
    rw [hsz] at h4
    have hall : ∀ j, j ∈ l := by
      intro j
      have a1 : l.toFinset.card = Fintype.card (Fin p) := by
        rw [List.toFinset_card_of_nodup h7, hlen, Fintype.card_fin]
      have a2 := Finset.eq_univ_of_card _ a1
      exact List.mem_toFinset.mp (a2 ▸ Finset.mem_univ j)
    have key := Tri.elim_ok (H.inner_full (srt := srt) cfg (ws0CD cfg p) l h7 hall (List.ne_nil_of_mem (hall j)) km
      htol hδ (fun s hz hd => (hsmall l h7 s hz hd).1) cfg.maxEpochs hpl cfg.maxEpochs 0
      ((R.skel srt cfg (ws0CD cfg p)).buf0 p) (fun _ => 0) (by omega) (fun _ _ => rfl) (fun _ _ _ _ _ _ => rfl)) h4
    rcases key with key | key
    · exact key j
    · exfalso
      have a1 : N ≤ max 1 ((0 + cfg.maxEpochs + 9) / 10) - max 1 ((0 + 9) / 10) := by omega
      have a2 : (N : ℝ) ≤ ((max 1 ((0 + cfg.maxEpochs + 9) / 10) - max 1 ((0 + 9) / 10) : ℕ) : ℝ) := by exact_mod_cast a1
      have a3 := mul_le_mul_of_nonneg_right a2 hδ.le
      rw [div_lt_iff₀ hδ] at hN
      linarith [H.F_nonneg t]
  obtain ⟨m, hm⟩ : ∃ m, cfg.maxIterations = m + 1 := ⟨cfg.maxIterations - 1, by omega⟩
  have hrun : (R.skel srt cfg (ws0CD cfg p)).outer (m + 1) (fun _ => 0) = .ok (v, k) := by rw [← hm]; exact hrun
  rw [Skel.outer] at hrun
  cases hv : (R.skel srt cfg (ws0CD cfg p)).viol (fun _ => 0) with
  | error e => rw [hv] at hrun; cases hrun
  | ok q =>
    obtain ⟨kkt, km⟩ := q
    rw [hv] at hrun
    dsimp only [bind, Except.bind] at hrun
    split at hrun
    · rename_i hd
      injection hrun with hrun; injection hrun with h1 h2
      subst h1 h2
      injection hv with hv
      have hd : (km <=. cfg.tolerance) = true := hd
      have h4 : (R.viol (fun _ => 0) (List.finRange p)).2 = km := by rw [hv]
      rw [← h4, htol] at hd
      exact ⟨Nat.zero_le _, R.viol_le hd⟩
    · rename_i hd
      have hd : (R.skel srt cfg (ws0CD cfg p)).done km = false := by simpa using hd
      cases hw : (R.skel srt cfg (ws0CD cfg p)).mkWs kkt (fun _ => 0) with
      | error e => rw [hw] at hrun; cases hrun
      | ok u =>
        obtain ⟨ws, sz⟩ := u
        rw [hw] at hrun
        dsimp only at hrun
        cases hi : (R.skel srt cfg (ws0CD cfg p)).inner ws sz km (R.skel srt cfg (ws0CD cfg p)).maxEpochs 0
          ((R.skel srt cfg (ws0CD cfg p)).buf0 sz) (fun _ => 0) with
        | error e => rw [hi] at hrun; cases hrun
        | ok t =>
          rw [hi] at hrun
          dsimp only at hrun
          have hsc := iter t ⟨kkt, km, ws, sz, hv, hd, hw, hi⟩
          rw [Skel.outer_done _ m t _ _ rfl (done t hsc)] at hrun
          injection hrun with hrun; injection hrun with h1 h2
          subst h1 h2
          exact ⟨le_rfl, hsc⟩

end RProb.Cvx
end

/-! ## The concrete problems -/

variable {n p T : ℕ}

theorem quadLoss_nonneg (y u : Fin n → ℝ) : 0 ≤ quadLoss y u := by
  unfold quadLoss
  exact div_nonneg (Finset.sum_nonneg fun i _ => by positivity) (by positivity)

theorem logLoss_nonneg (y u : Fin n → ℝ) : 0 ≤ logLoss y u := by
  unfold logLoss
  refine div_nonneg (Finset.sum_nonneg fun i _ => Real.log_nonneg ?_) (by positivity)
  linarith [Real.exp_pos (-(y i * u i))]

theorem mtLoss_nonneg (Y U : Fin n → Fin T → ℝ) : 0 ≤ mtLoss Y U := by
  unfold mtLoss
  exact div_nonneg (Finset.sum_nonneg fun i _ => Finset.sum_nonneg fun t _ => by positivity) (by positivity)

/-- The two coefficients of a convex penalty. -/
theorem pen_fn_eq (pen : Pen) (hv : pen.Valid) (hc : pen.Convex) (hα : 0 < pen.fn 1) :
    ∃ a b, 0 ≤ a ∧ 0 ≤ b ∧ 0 < a + b ∧ pen.fn = pen2 a b := by
  cases pen with
  | l1 α =>
    refine ⟨α, 0, hv, le_rfl, ?_, ?_⟩
    · have : 0 < α * |(1 : ℝ)| := hα
      simpa using this
    · funext z; show α * |z| = α * ‖z‖ + 0 * ‖z‖ ^ 2 / 2; rw [Real.norm_eq_abs]; ring
  | enet α ρ =>
    obtain ⟨h1, h2, h3⟩ := hv
    refine ⟨α * ρ, α * (1 - ρ), mul_nonneg h1 h2, mul_nonneg h1 (by linarith), ?_, ?_⟩
    · have : 0 < enet α ρ (1 : ℝ) := hα
      unfold enet at this
      simp at this
      nlinarith
    · funext z; show enet α ρ z = _; unfold enet pen2; ring
  | mcp α γ => exact hc.elim
  | l05 α => exact hc.elim

theorem prob1_cvx_of (hn : 0 < n) (D : Design n p) (hD : D.Canonical) (y : Fin n → ℝ) (k : LossKind)
    (hy : k.LabelsOK y) (pen : Pen) (hv : pen.Valid) (hc : pen.Convex) {a b : ℝ} (ha : 0 ≤ a) (hb : 0 ≤ b)
    (hab : 0 < a + b) (hp : pen.fn = pen2 a b) :
    (prob1 D y k pen).Cvx (fun w => k.loss y (fit D.matrix w)) a b := by
  have hst : pen.StepOK D k := by cases pen <;> trivial
  have M := prob1_mm hn D hD y k hy pen hv hst
  refine ⟨?_, ha, hb, hab, M.nonneg, M.major, ?_, ?_, ?_, ?_⟩
  · intro w
    rw [← hp]
    exact M.obj w
  · intro w w'
    refine le_trans (le_of_eq ?_) (loss_convex hn D.matrix y k w w')
    congr 1
    exact Finset.sum_congr rfl fun j _ => mul_comm _ _
  · intro w
    cases k with
    | quadratic => exact quadLoss_nonneg y (fit D.matrix w)
    | logistic => exact logLoss_nonneg y (fit D.matrix w)
  · intro j v h0
    have hL : 0 < stepsOf D k j := lt_of_le_of_ne (stepsOf_nonneg D k j) (Ne.symm h0)
    rw [← hp]
    exact proxOf_subdiff pen hv hc v (one_div_pos.mpr hL)
  · intro x g
    rw [← hp]
    exact scoreOf_dist pen hv hc x g

theorem prob1_cvx (hn : 0 < n) (D : Design n p) (hD : D.Canonical) (y : Fin n → ℝ) (k : LossKind)
    (hy : k.LabelsOK y) (pen : Pen) (hv : pen.Valid) (hc : pen.Convex) (hα : 0 < pen.fn 1) :
    ∃ a b, (prob1 D y k pen).Cvx (fun w => k.loss y (fit D.matrix w)) a b := by
  obtain ⟨a, b, ha, hb, hab, hp⟩ := pen_fn_eq pen hv hc hα
  exact ⟨a, b, prob1_cvx_of hn D hD y k hy pen hv hc ha hb hab hp⟩

theorem probMT_cvx (hn : 0 < n) (D : Design n p) (hD : D.Canonical) (Y : Fin n → Fin T → ℝ) (α : ℝ) (hα : 0 < α) :
    (probMT D Y (.l21 α)).Cvx (fun W => mtLoss Y (fitMT D.matrix (fun j => (W j).ofLp))) α 0 := by
  have hp : (BPen.l21 α).fn = pen2 (E := Euc T) α 0 := by
    funext z; show α * ‖z‖ = α * ‖z‖ + 0 * ‖z‖ ^ 2 / 2; ring
  have M := probMT_mm hn D hD Y (.l21 α) hα trivial
  refine ⟨?_, hα.le, le_rfl, by linarith, M.nonneg, M.major, ?_, ?_, ?_, ?_⟩
  · intro w
    rw [← hp]
    exact M.obj w
  · intro V W
    refine le_trans (le_of_eq ?_) (mt_convex hn D.matrix Y (fun j => (V j).ofLp) (fun j => (W j).ofLp))
    congr 1
    refine Finset.sum_congr rfl fun j _ => ?_
    rw [PiLp.inner_apply]
    exact Finset.sum_congr rfl fun t _ => mul_comm _ _
  · exact fun W => mtLoss_nonneg Y _
  · intro j v h0
    have hL : 0 < stepsOf D .quadratic j := lt_of_le_of_ne (stepsOf_nonneg D _ j) (Ne.symm h0)
    rw [← hp]
    exact bproxOf_subdiff (.l21 α) hα trivial v (one_div_pos.mpr hL)
  · intro x g
    rw [← hp]
    exact l21Score_dist hα.le x g

end Sglm
