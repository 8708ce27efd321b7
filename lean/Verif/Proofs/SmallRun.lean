import Verif.Proofs.RunPanic

/-!
# Runs without acceleration on small problems

Two features and one epoch per iteration; runs which reach a fixed point of the coordinate updates.
-/

namespace Sglm
open Scalar Spec
namespace RProb
open Coord
variable {E : Type} [AddCommGroup E] [Module ℝ E] [Coord E] {p : ℕ} (R : RProb E p)

theorem accel_off (cfg : Solver XR) (hu : cfg.useAcceleration = false) (l : List (Fin p)) (e : ℕ) (b : ℕ → ℕ → ℝ)
    (w : Fin p → E) : R.accel cfg l e b w = .ok (b, w) := by
  unfold accel
  rw [if_neg (by rw [hu]; exact Bool.false_ne_true)]

/-- One epoch. -/
theorem inner_one {srt : Argsort XR} (cfg : Solver XR) (hu : cfg.useAcceleration = false) (ws0 : ℕ) (ws : List ℕ) (sz : ℕ)
    (km : XR) (e : ℕ) (b : ℕ → ℕ → ℝ) (w : Fin p → E) :
    (R.skel srt cfg ws0).inner ws sz km 1 e b w = .ok ((finws p ws).foldl R.step w) := by
  rw [Skel.inner]
  show (do
    let s ← Except.ok ((finws p ws).foldl R.step w)
    let (b, s) ← R.accel cfg (finws p ws) e b s
    let stop ← (R.skel srt cfg ws0).stop ws sz km e s
    if stop then pure s else Skel.inner _ ws sz km 0 (e + 1) b s : M _) = _
  dsimp only [bind, Except.bind]
  rw [R.accel_off cfg hu]
  dsimp only
  show (if (decide (e > 0 ∧ e % 10 = 0) && _) = true then _ else _) = _
  split <;> split <;> rfl

/-- Epochs which lead to a fixed point. -/
theorem inner_to {srt : Argsort XR} (cfg : Solver XR) (hu : cfg.useAcceleration = false) (ws0 : ℕ) (ws : List ℕ) (sz : ℕ)
    (km : XR) {v : Fin p → E} (hv : (finws p ws).foldl R.step v = v) :
    ∀ (r e : ℕ) (b : ℕ → ℕ → ℝ) (w : Fin p → E), (finws p ws).foldl R.step w = v →
      (R.skel srt cfg ws0).inner ws sz km (r + 1) e b w = .ok v := by
  intro r
  induction r with
  | zero => intro e b w hw; rw [R.inner_one cfg hu, hw]
  | succ r ih =>
    intro e b w hw
    rw [Skel.inner]
    show (do
      let s ← Except.ok ((finws p ws).foldl R.step w)
      let (b, s) ← R.accel cfg (finws p ws) e b s
      let stop ← (R.skel srt cfg ws0).stop ws sz km e s
      if stop then pure s else Skel.inner (R.skel srt cfg ws0) ws sz km (r + 1) (e + 1) b s : M _) = _
    dsimp only [bind, Except.bind]
    rw [R.accel_off cfg hu]
    dsimp only
    rw [hw]
    have key : ∀ c : Bool, (if c = true then pure v else (R.skel srt cfg ws0).inner ws sz km (r + 1) (e + 1) b v) =
        .ok v := by
      intro c
      cases c
      · exact ih _ _ _ hv
      · rfl
    exact key _

/-- The loop at a fixed point which fails the stopping test. -/
theorem outer_stuck {srt : Argsort XR} (hs : ArgsortSpec srt) (cfg : Solver XR) (hu : cfg.useAcceleration = false)
    {ws0 : ℕ} (h0 : ws0 ≤ p) {v : Fin p → E} (hv : ∀ j, R.step v j = v)
    (hd : ((R.viol v (List.finRange p)).2 <=. cfg.tolerance) = false) (m : ℕ) :
    (R.skel srt cfg ws0).outer m v = .ok (v, m) := by
  have hf : ∀ l : List (Fin p), l.foldl R.step v = v := by
    intro l
    induction l with
    | nil => rfl
    | cons j l ih => rw [List.foldl_cons, hv, ih]
  induction m with
  | zero => rfl
  | succ m ih =>
    unfold Skel.outer
    show (if (_ <=. cfg.tolerance) = true then _ else _) = _
    rw [if_neg]
    swap
    · exact fun h => Bool.false_ne_true (hd.symm.trans h)
    obtain ⟨ws, h2, -⟩ := R.pick_ok hs h0 v
    have h2' : (R.skel srt cfg ws0).mkWs (R.scores v (List.finRange p)) v = .ok (ws, ws.length) := h2
    rw [h2']
    have hi : ∀ r km b, (R.skel srt cfg ws0).inner ws ws.length km r 0 b v = .ok v := by
      intro r km b
      cases r with
      | zero => rfl
      | succ r => exact R.inner_to cfg hu ws0 ws _ km (hf _) r 0 b v (hf _)
    show ((R.skel srt cfg ws0).inner ws ws.length _ cfg.maxEpochs 0 _ v >>= _) = _
    rw [hi]
    show ((R.skel srt cfg ws0).outer m v >>= _) = _
    rw [ih]
    rfl

/-- One feature: a run which reaches a fixed point in its first epoch and never passes the stopping test. -/
theorem run_stuck {R : RProb E 1} {srt : Argsort XR} (hs : ArgsortSpec srt) (cfg : Solver XR)
    (hu : cfg.useAcceleration = false) (he : 0 < cfg.maxEpochs) (hw : 0 < cfg.wsStartSize)
    (hit : 0 < cfg.maxIterations) {v : Fin 1 → E} (hv : R.step (fun _ => 0) 0 = v) (hv' : R.step v 0 = v)
    (h0 : ((R.viol (fun _ => 0) (List.finRange 1)).2 <=. cfg.tolerance) = false)
    (h1 : ((R.viol v (List.finRange 1)).2 <=. cfg.tolerance) = false) :
    R.run srt cfg = .ok (v, cfg.maxIterations) := by
  unfold run
  obtain ⟨m, hm⟩ : ∃ m, cfg.maxIterations = m + 1 := ⟨cfg.maxIterations - 1, by omega⟩
  obtain ⟨r, hr⟩ : ∃ r, cfg.maxEpochs = r + 1 := ⟨cfg.maxEpochs - 1, by omega⟩
  rw [hm]
  unfold Skel.outer
  show (if (_ <=. cfg.tolerance) = true then _ else _) = _
  rw [if_neg]
  swap
  · exact fun h => Bool.false_ne_true (h0.symm.trans h)
  obtain ⟨ws, h2, ⟨l, h3, h4, h5, h6⟩, -⟩ := R.pick_ok hs (Nat.min_le_right cfg.wsStartSize 1) (fun _ => 0)
  have h2' : (R.skel srt cfg (ws0CD cfg 1)).mkWs (R.scores (fun _ => 0) (List.finRange 1)) (fun _ => 0) =
      .ok (ws, ws.length) := h2
  rw [h2']
  have hl : l = [0] := by
    have h7 : l.length = 1 := by
      have a := List.Nodup.length_le_card h4
      rw [Fintype.card_fin] at a
      omega
    obtain ⟨x, rfl⟩ := List.length_eq_one_iff.mp h7
    rw [Subsingleton.elim x 0]
  have hfw : finws 1 ws = [0] := by rw [h3, hl, finws_map]
  show ((R.skel srt cfg (ws0CD cfg 1)).inner ws ws.length _ cfg.maxEpochs 0 _ _ >>= _) = _
  rw [hr, R.inner_to cfg hu (ws0CD cfg 1) ws _ _ (v := v) (by rw [hfw]; exact hv') r 0 _ _ (by rw [hfw]; exact hv)]
  show ((R.skel srt cfg (ws0CD cfg 1)).outer m v >>= _) = _
  rw [R.outer_stuck (ws0 := ws0CD cfg 1) hs cfg hu (Nat.min_le_right cfg.wsStartSize 1) (fun j => by rw [Subsingleton.elim j 0]; exact hv') h1]
  rfl

/-- Two features, one epoch per iteration: a run which stops after the first iteration.  The feature with the larger
score at zero is updated first. -/
theorem run_pair {R : RProb E 2} {srt : Argsort XR} (hs : ArgsortSpec srt) (cfg : Solver XR)
    (hu : cfg.useAcceleration = false) (he : cfg.maxEpochs = 1) (hw : 2 ≤ cfg.wsStartSize)
    (hit : 0 < cfg.maxIterations)
    (hlt : R.sc 0 (R.G (fun _ => 0) 1) < R.sc 0 (R.G (fun _ => 0) 0))
    (h0 : ((R.viol (fun _ => 0) (List.finRange 2)).2 <=. cfg.tolerance) = false)
    (h1 : ((R.viol (R.step (R.step (fun _ => 0) 0) 1) (List.finRange 2)).2 <=. cfg.tolerance) = true) :
    R.run srt cfg = .ok (R.step (R.step (fun _ => 0) 0) 1, 1) := by
  unfold run
  obtain ⟨m, hm⟩ : ∃ m, cfg.maxIterations = m + 1 := ⟨cfg.maxIterations - 1, by omega⟩
  rw [hm]
  unfold Skel.outer
  show (if (_ <=. cfg.tolerance) = true then _ else _) = _
  rw [if_neg]
  swap
  · exact fun h => Bool.false_ne_true (h0.symm.trans h)
  obtain ⟨ws, h2, ⟨l, h3, h4, h5, h6⟩, h7⟩ := R.pick_ok hs (Nat.min_le_right cfg.wsStartSize 2) (fun _ => 0)
  have h2' : (R.skel srt cfg (ws0CD cfg 2)).mkWs (R.scores (fun _ => 0) (List.finRange 2)) (fun _ => 0) =
      .ok (ws, ws.length) := h2
  rw [h2']
  have hl : l = [0, 1] := by
    have h8 : l.length = 2 := by
      have a := List.Nodup.length_le_card h4
      rw [Fintype.card_fin] at a
      omega
    obtain ⟨x, y, rfl⟩ := List.length_eq_two.mp h8
    have hxy : x ≠ y := by simpa using h4
    have hz : ∀ j, nz (fun _ : Fin 2 => (0 : E)) j = false := by
      intro j
      unfold nz
      split
      · rw [← Bool.not_eq_true]; exact fun h => (nzB_iff (0 : E)).mp h rfl
      · rfl
    have h9 := h7.order
    rw [h3] at h9
    simp only [List.map_cons, List.map_nil, List.pairwise_cons, List.mem_singleton, forall_eq] at h9
    have h10 := h9.1.2 (hz _) (hz _)
    fin_cases x <;> fin_cases y
    · exact absurd rfl hxy
    · rfl
    · exfalso
      have : (XR.fin (R.sc 0 (R.G (fun _ => 0) 1)) <. XR.fin (R.sc 0 (R.G (fun _ => 0) 0))) = false := h10
      rw [XR.s_lt] at this
      exact absurd hlt (of_decide_eq_false this)
    · exact absurd rfl hxy
  show ((R.skel srt cfg (ws0CD cfg 2)).inner ws ws.length _ cfg.maxEpochs 0 _ _ >>= _) = _
  rw [he, R.inner_one cfg hu, h3, hl, finws_map]
  show ((R.skel srt cfg (ws0CD cfg 2)).outer m (R.step (R.step (fun _ => 0) 0) 1) >>= _) = _
  rw [Skel.outer_done _ _ _ _ _ rfl h1]
  rfl

/-- A run whose first update is of feature `j0`, after which nothing changes, and which then passes the stopping test. -/
theorem run_first {R : RProb E p} {srt : Argsort XR} (hs : ArgsortSpec srt) (cfg : Solver XR)
    (hu : cfg.useAcceleration = false) (he : 0 < cfg.maxEpochs) (hw : 0 < cfg.wsStartSize)
    (hit : 0 < cfg.maxIterations) (j0 : Fin p)
    (hmax : ∀ j, j ≠ j0 → R.sc 0 (R.G (fun _ => 0) j) < R.sc 0 (R.G (fun _ => 0) j0)) {v : Fin p → E}
    (hv : R.step (fun _ => 0) j0 = v) (hfix : ∀ j, R.step v j = v)
    (h0 : ((R.viol (fun _ => 0) (List.finRange p)).2 <=. cfg.tolerance) = false)
    (h1 : ((R.viol v (List.finRange p)).2 <=. cfg.tolerance) = true) :
    R.run srt cfg = .ok (v, 1) := by
  have hf : ∀ l : List (Fin p), l.foldl R.step v = v := by
    intro l
    induction l with
    | nil => rfl
    | cons j l ih => rw [List.foldl_cons, hfix, ih]
  unfold run
  obtain ⟨m, hm⟩ : ∃ m, cfg.maxIterations = m + 1 := ⟨cfg.maxIterations - 1, by omega⟩
  obtain ⟨r, hr⟩ : ∃ r, cfg.maxEpochs = r + 1 := ⟨cfg.maxEpochs - 1, by omega⟩
  rw [hm]
  unfold Skel.outer
  show (if (_ <=. cfg.tolerance) = true then _ else _) = _
  rw [if_neg]
  swap
  · exact fun h => Bool.false_ne_true (h0.symm.trans h)
  obtain ⟨ws, h2, ⟨l, h3, h4, h5, h6⟩, h7⟩ := R.pick_ok hs (Nat.min_le_right cfg.wsStartSize p) (fun _ => 0)
  have h2' : (R.skel srt cfg (ws0CD cfg p)).mkWs (R.scores (fun _ => 0) (List.finRange p)) (fun _ => 0) =
      .ok (ws, ws.length) := h2
  rw [h2']
  have hz : ∀ j, nz (fun _ : Fin p => (0 : E)) j = false := by
    intro j
    unfold nz
    split
    · rw [← Bool.not_eq_true]; exact fun h => (nzB_iff (0 : E)).mp h rfl
    · rfl
  have hg : ∀ j : Fin p, (R.scores (fun _ => 0) (List.finRange p)).getD j zero = XR.fin (R.sc 0 (R.G (fun _ => 0) j)) := by
    intro j
    unfold scores
    rw [List.getD_eq_getElem?_getD, List.getElem?_map, List.getElem?_eq_getElem (by simp)]
    simp
  have hbad : ∀ j, j ≠ j0 → ((R.scores (fun _ => 0) (List.finRange p)).getD j zero <.
      (R.scores (fun _ => 0) (List.finRange p)).getD j0 zero) = false → False := by
    intro j hj h
    rw [hg, hg, XR.s_lt] at h
    exact absurd (hmax j hj) (of_decide_eq_false h)
  obtain ⟨a, l', hl⟩ : ∃ a l', l = a :: l' := by
    cases l with
    | nil =>
      rw [h3] at h6
      have := j0.isLt
      simp at h6
      omega
    | cons a l' => exact ⟨a, l', rfl⟩
  have ha : a = j0 := by
    by_contra hne
    by_cases hm : j0 ∈ l'
    · have h9 := h7.order
      rw [h3, hl, List.map_cons, List.pairwise_cons] at h9
      exact hbad a hne ((h9.1 j0 (List.mem_map_of_mem hm)).2 (hz _) (hz _))
    · have hnot : (j0 : ℕ) ∉ ws := by
        rw [h3, hl]
        intro h
        obtain ⟨b, hb, e⟩ := List.mem_map.mp h
        have : b = j0 := Fin.ext e
        subst this
        rcases List.mem_cons.mp hb with h | h
        · exact hne h.symm
        · exact hm h
      exact hbad a hne (h7.best a (by rw [h3, hl]; simp) (hz _) j0 j0.isLt hnot)
  have hfw : finws p ws = j0 :: l' := by rw [h3, hl, finws_map, ha]
  show ((R.skel srt cfg (ws0CD cfg p)).inner ws ws.length _ cfg.maxEpochs 0 _ _ >>= _) = _
  rw [hr, R.inner_to cfg hu (ws0CD cfg p) ws _ _ (v := v) (hf _) r 0 _ _ (by rw [hfw, List.foldl_cons, hv, hf])]
  show ((R.skel srt cfg (ws0CD cfg p)).outer m v >>= _) = _
  rw [Skel.outer_done _ _ _ _ _ rfl h1]
  rfl

end RProb
end Sglm
