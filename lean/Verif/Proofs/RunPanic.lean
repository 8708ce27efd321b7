import Verif.Proofs.Problem
import Verif.Proofs.AccelPanic

/-!
# Runs over the reals: when they end normally and when they panic
-/

set_option linter.unusedSectionVars false

namespace Sglm
open Scalar Spec

namespace RProb
variable {E : Type} [AddCommGroup E] [Module ℝ E] [Coord E] {p : ℕ} (R : RProb E p)
open Coord

/-- With enough room to extrapolate, runs end normally. -/
theorem outer_ok {srt : Argsort XR} (hs : ArgsortSpec srt) (cfg : Solver XR) {ws0 : ℕ} (h0 : ws0 ≤ p)
    (hr : Room E cfg ws0) (m : ℕ) (w : Fin p → E) : ∃ v k, (R.skel srt cfg ws0).outer m w = .ok (v, k) := by
  have := (R.hoare hs cfg h0 (fun _ => True) (fun _ _ _ => trivial) (fun _ _ _ _ _ _ => trivial)).outer m w trivial
  cases h : (R.skel srt cfg ws0).outer m w with
  | error e => rw [h] at this; exact absurd hr this
  | ok q => exact ⟨q.1, q.2, rfl⟩

theorem run_ok {srt : Argsort XR} (hs : ArgsortSpec srt) (cfg : Solver XR)
    (hr : cfg.useAcceleration = true → 0 < cfg.K ∧ cfg.K ≤ cfg.wsStartSize * dim E ∧ cfg.K ≤ p * dim E) :
    ∃ v k, R.run srt cfg = .ok (v, k) := by
  refine R.outer_ok hs cfg (Nat.min_le_right _ _) (fun hu => ?_) _ _
  obtain ⟨h1, h2, h3⟩ := hr hu
  refine ⟨h1, ?_⟩
  rcases Nat.le_total cfg.wsStartSize p with h | h
  · rw [Nat.min_eq_left h]; exact h2
  · rw [Nat.min_eq_right h]; exact h3

/-- Too few features: the extrapolation panics. -/
theorem run_panics {srt : Argsort XR} (hs : ArgsortSpec srt) (cfg : Solver XR)
    (hu : cfg.useAcceleration = true) (hK : p * dim E < cfg.K) (hK10 : cfg.K ≤ 10)
    (he : cfg.K < cfg.maxEpochs) (hit : 0 < cfg.maxIterations)
    (hkm : ((R.viol (fun _ => 0) (List.finRange p)).2 <=. cfg.tolerance) = false) :
    R.run srt cfg = .error .index := by
  rw [← Tri.false_iff]
  unfold run
  obtain ⟨m, hm⟩ : ∃ m, cfg.maxIterations = m + 1 := ⟨cfg.maxIterations - 1, by omega⟩
  rw [hm]
  unfold Skel.outer
  show Tri _ (if (_ <=. cfg.tolerance) = true then _ else _) _
  rw [if_neg]
  swap
  · exact fun h => Bool.false_ne_true (hkm.symm.trans h)
  obtain ⟨ws, h1, ⟨l, h2, h3, h4, -⟩, -⟩ := R.pick_ok hs (Nat.min_le_right cfg.wsStartSize p) (fun _ => 0)
  have h1' : (R.skel srt cfg (ws0CD cfg p)).mkWs (R.scores (fun _ => 0) (List.finRange p)) (fun _ => 0) =
      .ok (ws, ws.length) := h1
  rw [h1']
  show Tri _ ((R.skel srt cfg (ws0CD cfg p)).inner ws ws.length _ cfg.maxEpochs 0 _ _ >>= _) _
  refine Tri.false_bind (Skel.inner_panics (K := cfg.K) (Inv := fun _ => True) (BInv := fun _ => True) ?_ ?_ ?_ ?_
    _ _ _ _ (Nat.zero_le _) (by rw [Nat.zero_add]; exact he) trivial trivial)
  · exact fun _ _ => trivial
  · intro e b s hlt _ _
    show Tri _ (R.accel cfg (finws p ws) e b s) _
    unfold accel
    rw [if_pos hu]
    dsimp only
    rw [if_neg (by rw [Nat.mod_eq_of_lt (by omega)]; omega)]
    exact ⟨trivial, trivial⟩
  · intro e s hlt _
    show (decide _ && _) = false
    rw [decide_eq_false (by omega), Bool.false_and]
  · intro b s _ _
    show Tri _ (R.accel cfg (finws p ws) cfg.K b s) _
    unfold accel
    rw [if_pos hu]
    dsimp only
    rw [if_pos (Nat.mod_eq_of_lt (by omega)), h2, finws_map]
    have hlen : l.length ≤ p := by
      have := List.Nodup.length_le_card h3
      rwa [Fintype.card_fin] at this
    rw [solveLinSys_panics (r := l.length * dim E) (c := l.length * dim E)
      ⟨by simp [matN], rfl, fun x hx => by
        rw [matN_rows, List.mem_map] at hx
        obtain ⟨i, -, rfl⟩ := hx
        simp⟩
      (by rw [List.length_replicate]; exact lt_of_le_of_lt (Nat.mul_le_mul_right _ hlen) hK)]
    rfl

/-- The maximal score exceeds the tolerance as soon as one score does. -/
theorem viol_gt {w : Fin p → E} {τ : ℝ} (j : Fin p) (hj : τ < R.sc (w j) (R.G w j)) :
    ((R.viol w (List.finRange p)).2 <=. XR.fin τ) = false := by
  have hne : List.finRange p ≠ [] := List.ne_nil_of_mem (List.mem_finRange j)
  show ((if List.finRange p = [] then R.m0 else maxDist (R.scores w (List.finRange p))) <=. XR.fin τ) = false
  rw [if_neg hne]
  have e : R.scores w (List.finRange p) =
      ((List.finRange p).map fun j => R.sc (w j) (R.G w j)).map XR.fin := by
    unfold scores; rw [List.map_map]; rfl
  obtain ⟨m, h1, h2, h3⟩ := maxDist_fin ((List.finRange p).map fun j => R.sc (w j) (R.G w j))
    (fun h => hne (List.map_eq_nil_iff.mp h))
  rw [e, h3, XR.s_le]
  have := h2 _ (List.mem_map.mpr ⟨j, List.mem_finRange j, rfl⟩)
  simp only [decide_eq_false_iff_not, not_le]
  linarith

/-- The stopping test bounds all scores. -/
theorem viol_le {w : Fin p → E} {τ : ℝ} (h : ((R.viol w (List.finRange p)).2 <=. XR.fin τ) = true) (j : Fin p) :
    R.sc (w j) (R.G w j) ≤ τ := by
  by_contra hc
  rw [R.viol_gt j (not_le.mp hc)] at h
  cases h

/-- The stopping test holds if all scores are small. -/
theorem viol_le_of {w : Fin p → E} {τ : ℝ} (h0 : R.m0 = XR.ninf ∨ (R.m0 = XR.fin 0 ∧ 0 ≤ τ))
    (h : ∀ j, R.sc (w j) (R.G w j) ≤ τ) : ((R.viol w (List.finRange p)).2 <=. XR.fin τ) = true := by
  show ((if List.finRange p = [] then R.m0 else maxDist (R.scores w (List.finRange p))) <=. XR.fin τ) = true
  split
  · rcases h0 with h0 | ⟨h0, h1⟩
    · rw [h0]; rfl
    · rw [h0, XR.s_le]; exact decide_eq_true h1
  · rename_i hne
    have e : R.scores w (List.finRange p) =
        ((List.finRange p).map fun j => R.sc (w j) (R.G w j)).map XR.fin := by
      unfold scores; rw [List.map_map]; rfl
    obtain ⟨m, h1, h2, h3⟩ := maxDist_fin ((List.finRange p).map fun j => R.sc (w j) (R.G w j))
      (fun h => hne (List.map_eq_nil_iff.mp h))
    rw [e, h3, XR.s_le]
    obtain ⟨j, -, rfl⟩ := List.mem_map.mp h1
    exact decide_eq_true (h j)

/-- Nothing happens at a point which passes the stopping test. -/
theorem run_zero {srt : Argsort XR} (cfg : Solver XR)
    (h : ((R.viol (fun _ => 0) (List.finRange p)).2 <=. cfg.tolerance) = true) :
    R.run srt cfg = .ok (fun _ => 0, 0) :=
  Skel.outer_done _ _ _ _ _ rfl h

/-- Stopping early means that the stopping test holds. -/
theorem run_exit {srt : Argsort XR} (cfg : Solver XR) {v : Fin p → E} {k : ℕ}
    (h : R.run srt cfg = .ok (v, k)) (hk : k < cfg.maxIterations) :
    ((R.viol v (List.finRange p)).2 <=. cfg.tolerance) = true := by
  obtain ⟨kkt, km, h1, h2⟩ := (Skel.outer_exit _ _ _ _ _ h).2 hk
  injection h1 with h1
  rw [h1]
  exact h2

/-- One feature, one epoch per iteration: a run which converges in one iteration. -/
theorem run_one {R : RProb E 1} {srt : Argsort XR} (hs : ArgsortSpec srt) (cfg : Solver XR)
    (hu : cfg.useAcceleration = false) (he : cfg.maxEpochs = 1) (hw : 0 < cfg.wsStartSize)
    (hit : 0 < cfg.maxIterations)
    (h0 : ((R.viol (fun _ => 0) (List.finRange 1)).2 <=. cfg.tolerance) = false)
    (h1 : ((R.viol (R.step (fun _ => 0) 0) (List.finRange 1)).2 <=. cfg.tolerance) = true) :
    R.run srt cfg = .ok (R.step (fun _ => 0) 0, 1) := by
  unfold run
  obtain ⟨m, hm⟩ : ∃ m, cfg.maxIterations = m + 1 := ⟨cfg.maxIterations - 1, by omega⟩
  rw [hm]
  unfold Skel.outer
  show (if (_ <=. cfg.tolerance) = true then _ else _) = _
  rw [if_neg]
  swap
  · exact fun h => Bool.false_ne_true (h0.symm.trans h)
  obtain ⟨ws, h2, ⟨l, h3, h4, h5, h6⟩, -⟩ := R.pick_ok hs (Nat.min_le_right cfg.wsStartSize 1) (fun _ => 0)
  have h2' : (R.skel srt cfg (ws0CD cfg 1)).mkWs (R.scores (fun _ => 0) (List.finRange 1)) (fun _ => 0) =
      .ok (ws, ws.length) := h2
  rw [h2']
  have hl : l = [0] := by
    have h7 : l.length = 1 := by
      have a := List.Nodup.length_le_card h4
      rw [Fintype.card_fin] at a
      omega
    obtain ⟨x, rfl⟩ := List.length_eq_one_iff.mp h7
    rw [Subsingleton.elim x 0]
  have hin : ∀ km, (R.skel srt cfg (ws0CD cfg 1)).inner ws ws.length km 1 0
      ((R.skel srt cfg (ws0CD cfg 1)).buf0 ws.length) (fun _ => 0) = .ok (R.step (fun _ => 0) 0) := by
    intro km
    have ha : (R.skel srt cfg (ws0CD cfg 1)).accel ws 0 ((R.skel srt cfg (ws0CD cfg 1)).buf0 ws.length)
        (R.step (fun _ => 0) 0) = .ok (fun _ _ => 0, R.step (fun _ => 0) 0) := by
      show R.accel cfg _ _ _ _ = _
      unfold accel
      rw [if_neg (by rw [hu]; exact Bool.false_ne_true)]
      rfl
    have he : (R.skel srt cfg (ws0CD cfg 1)).epoch ws (fun _ => 0) = .ok (R.step (fun _ => 0) 0) := by
      show Except.ok ((finws 1 ws).foldl R.step _) = _
      rw [h3, hl, finws_map]
      rfl
    unfold Skel.inner
    rw [he]
    dsimp only [bind, Except.bind]
    rw [ha]
    dsimp only
    show (if (decide (0 > 0 ∧ 0 % 10 = 0) && _) = true then _ else _) = _
    split <;> rfl
  show ((R.skel srt cfg (ws0CD cfg 1)).inner ws ws.length _ cfg.maxEpochs 0 _ _ >>= _) = _
  rw [he, hin]
  show ((R.skel srt cfg (ws0CD cfg 1)).outer m (R.step (fun _ => 0) 0) >>= _) = _
  rw [Skel.outer_done _ _ _ _ _ rfl h1]
  rfl

end RProb
end Sglm
