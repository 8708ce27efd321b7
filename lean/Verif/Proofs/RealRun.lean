import Verif.Proofs.Accel
import Verif.Proofs.WorkingSet
import Mathlib.Analysis.InnerProductSpace.PiL2

/-!
# Runs on real data as runs over the reals

`skelR` is the loop of the solvers with exact real arithmetic and the model fit eliminated.  Rows of the coefficient
array are elements of a space `E` (`ℝ` for single-task, Euclidean space for multi-task problems).
-/

namespace Sglm
open Scalar Spec

/-! ## Working sets depend on the support only -/

section
variable {F : Type} [Scalar F]

/-- The working set as a function of the scores and the support. -/
def pickWs (srt : Argsort F) (kkt : List F) (p : ℕ) (nz : ℕ → Bool) (start : ℕ) : M (List ℕ × ℕ) := do
  let sorted ← srt ((List.range kkt.length).map (fun j => if nz j = true then inf else kkt.getD j zero))
  if (sorted.take (max start (min (2 * (List.range p).countP nz) p))).length =
      max start (min (2 * (List.range p).countP nz) p) then
    pure (sorted.take (max start (min (2 * (List.range p).countP nz) p)),
      max start (min (2 * (List.range p).countP nz) p))
  else throw .shape

theorem marked_eq (kkt k' : List F) (nz : ℕ → Bool) {p : ℕ} (hp : kkt.length = p) (h2 : k'.length = kkt.length)
    (h3 : ∀ j, k'[j]? = if j < p ∧ nz j = true then some inf else kkt[j]?) :
    k' = (List.range kkt.length).map (fun j => if nz j = true then inf else kkt.getD j zero) := by
  apply List.ext_getElem?
  intro j
  rw [h3]
  by_cases hj : j < kkt.length
  · rw [List.getElem?_map, List.getElem?_range hj, List.getElem?_eq_getElem hj]
    rw [Option.map_some, List.getD_eq_getElem?_getD, List.getElem?_eq_getElem hj]
    by_cases hn : nz j = true
    · rw [if_pos ⟨by omega, hn⟩, if_pos hn]
    · rw [if_neg (fun h => hn h.2), if_neg hn]; rfl
  · rw [if_neg (by omega), List.getElem?_eq_none (by omega), List.getElem?_eq_none (by simp; omega)]

theorem pickWs_congr (srt : Argsort F) (kkt : List F) {p : ℕ} (hp : kkt.length ≤ p) {nz nz' : ℕ → Bool}
    (h : ∀ j < p, nz j = nz' j) (start : ℕ) : pickWs srt kkt p nz start = pickWs srt kkt p nz' start := by
  unfold pickWs
  have h1 : (List.range kkt.length).map (fun j => if nz j = true then inf else kkt.getD j zero) =
      (List.range kkt.length).map (fun j => if nz' j = true then inf else kkt.getD j zero) := by
    apply List.map_congr_left
    intro j hj
    rw [h j (by rw [List.mem_range] at hj; omega)]
  have h2 : (List.range p).countP nz = (List.range p).countP nz' := by
    apply List.countP_congr
    intro j hj
    rw [h j (List.mem_range.mp hj)]
  rw [h1, h2]

theorem constructWs_eq (srt : Argsort F) (kkt w : List F) (start : ℕ) (hlen : kkt.length = w.length) :
    constructWs srt kkt w start = pickWs srt kkt w.length (fun j => !(w.getD j zero ==. zero)) start := by
  obtain ⟨k', h1, h2, h3⟩ := mark_fold (fun j => !(w.getD j zero ==. zero))
    (fun (acc : List F × Nat) j => do
      let wj ← getM w j
      if !(wj ==. zero) then do
        let kkt' ← setM acc.1 j inf
        pure (kkt', acc.2 + 1)
      else pure acc) kkt w.length (by
        intro acc j hj
        have : getM w j = .ok (w.getD j zero) := by
          unfold getM
          rw [List.getD_eq_getElem?_getD, List.getElem?_eq_getElem hj]; rfl
        rw [this]; rfl) (le_of_eq hlen.symm)
  unfold constructWs markSupport pickWs
  rw [h1, ← marked_eq kkt k' _ hlen h2 h3]
  rfl

theorem MT.constructWs_eq (srt : Argsort F) (kkt : List F) (W : Mat F) (start : ℕ)
    (hlen : kkt.length = W.nrows) :
    MT.constructWs srt kkt W start = pickWs srt kkt W.nrows (fun j => anyNonzero (W.rows.getD j [])) start := by
  obtain ⟨k', h1, h2, h3⟩ := mark_fold (fun j => anyNonzero (W.rows.getD j []))
    (fun (acc : List F × Nat) j => do
      let Wj ← W.rowM j
      if anyNonzero Wj then do
        let kkt' ← setM acc.1 j inf
        pure (kkt', acc.2 + 1)
      else pure acc) kkt W.nrows (by
        intro acc j hj
        have : W.rowM j = .ok (W.rows.getD j []) := by
          unfold Mat.rowM getM
          rw [List.getD_eq_getElem?_getD, List.getElem?_eq_getElem hj]; rfl
        rw [this]; rfl) (le_of_eq hlen.symm)
  unfold MT.constructWs MT.markSupport pickWs
  rw [h1, ← marked_eq kkt k' _ hlen h2 h3]
  rfl

end

/-- Indices of features, dropping those out of range. -/
def finws (p : ℕ) (ws : List ℕ) : List (Fin p) := ws.filterMap (fun j => if h : j < p then some ⟨j, h⟩ else none)

theorem finws_map {p : ℕ} (l : List (Fin p)) : finws p (l.map Fin.val) = l := by
  unfold finws
  rw [List.filterMap_map]
  refine (List.filterMap_congr fun j _ => ?_).trans List.filterMap_some
  simp

/-! ## Coordinates of rows -/

/-- A space of rows with `dim` coordinates. -/
class Coord (E : Type) [AddCommGroup E] [Module ℝ E] where
  dim : ℕ
  co : E → ℕ → ℝ
  ofCo : (ℕ → ℝ) → E
  nzB : E → Bool
  nzB_iff : ∀ x, nzB x = true ↔ x ≠ 0
  co_ofCo : ∀ f, ∀ t < dim, co (ofCo f) t = f t
  ofCo_congr : ∀ f g, (∀ t < dim, f t = g t) → ofCo f = ofCo g
  ofCo_co : ∀ x, ofCo (co x) = x
  ofCo_smul : ∀ (c : ℝ) f, ofCo (fun t => c * f t) = c • ofCo f
  ofCo_add : ∀ f g, ofCo (fun t => f t + g t) = ofCo f + ofCo g

noncomputable instance : Coord ℝ where
  dim := 1
  co x _ := x
  ofCo f := f 0
  nzB x := decide (x ≠ 0)
  nzB_iff x := by simp
  co_ofCo f t ht := by rw [show t = 0 by omega]
  ofCo_congr f g h := h 0 one_pos
  ofCo_co _ := rfl
  ofCo_smul _ _ := rfl
  ofCo_add _ _ := rfl

noncomputable instance (T : ℕ) : Coord (Euc T) where
  dim := T
  co x t := extV x.ofLp t
  ofCo f := WithLp.toLp 2 (fun t => f t)
  nzB x := decide (∃ t, x.ofLp t ≠ 0)
  nzB_iff x := by
    rw [decide_eq_true_iff]
    constructor
    · rintro ⟨t, ht⟩ rfl; exact ht rfl
    · intro h
      by_contra hc
      push Not at hc
      exact h (by ext t; exact hc t)
  co_ofCo f t ht := extV_fin (fun t : Fin T => f t) ⟨t, ht⟩
  ofCo_congr f g h := by
    ext t; exact h t t.isLt
  ofCo_co x := by
    ext t; exact extV_fin _ t
  ofCo_smul c f := by ext t; rfl
  ofCo_add f g := by ext t; rfl

/-! ## The problem over the reals -/

/-- Objective, gradient of the smooth part, step constants, proximal operator and scores. -/
structure RProb (E : Type) (p : ℕ) where
  F : (Fin p → E) → ℝ
  G : (Fin p → E) → Fin p → E
  L : Fin p → ℝ
  px : E → ℝ → E
  sc : E → E → ℝ
  m0 : XR

namespace RProb
variable {E : Type} [AddCommGroup E] [Module ℝ E] [Coord E] {p : ℕ} (R : RProb E p)
open Coord

/-- One coordinate update. -/
noncomputable def step (w : Fin p → E) (j : Fin p) : Fin p → E :=
  if R.L j = 0 then w else Function.update w j (R.px (w j - (1 / R.L j) • R.G w j) (1 / R.L j))

/-- Scores of the features in `l`. -/
noncomputable def scores (w : Fin p → E) (l : List (Fin p)) : List XR :=
  l.map (fun j => XR.fin (R.sc (w j) (R.G w j)))

/-- Scores and their maximum. -/
noncomputable def viol (w : Fin p → E) (l : List (Fin p)) : List XR × XR :=
  (R.scores w l, if l = [] then R.m0 else maxDist (R.scores w l))

/-- The coefficients on a working set, flattened. -/
noncomputable def flat (l : List (Fin p)) (w : Fin p → E) (c : ℕ) : ℝ :=
  match l[c / dim E]? with
  | some j => co (w j) (c % dim E)
  | none => 0

/-- Coefficients which vanish outside a working set, from their flattened values. -/
noncomputable def scat (l : List (Fin p)) (pt : ℕ → ℝ) (j : Fin p) : E :=
  if j ∈ l then ofCo (fun t => pt (l.idxOf j * dim E + t)) else 0

/-- The acceleration step. -/
noncomputable def accel (cfg : Solver XR) (l : List (Fin p)) (e : ℕ) (b : ℕ → ℕ → ℝ) (w : Fin p → E) :
    M ((ℕ → ℕ → ℝ) × (Fin p → E)) :=
  if cfg.useAcceleration then
    let b1 := Function.update b (e % (cfg.K + 1)) (flat l w)
    if e % (cfg.K + 1) = cfg.K then do
      match ← solveLinSys (matN (l.length * dim E) (l.length * dim E) (gram cfg.K b1))
        (List.replicate cfg.K one) with
      | some z =>
        let wa := scat l (comb cfg.K b1 (realsOf z))
        .ok (b1, if R.F wa < R.F w then wa else w)
      | none => .ok (b1, w)
    else .ok (b1, w)
  else .ok (b, w)

/-- The support. -/
def nz (w : Fin p → E) (j : ℕ) : Bool := if h : j < p then nzB (w ⟨j, h⟩) else false

/-- The solver over the reals. -/
noncomputable def skel (srt : Argsort XR) (cfg : Solver XR) (ws0 : ℕ) :
    Skel XR (Fin p → E) (ℕ → ℕ → ℝ) where
  viol w := .ok (R.viol w (List.finRange p))
  done km := km <=. cfg.tolerance
  mkWs kkt w := pickWs srt kkt p (nz w) ws0
  buf0 _ := fun _ _ => 0
  epoch ws w := .ok ((finws p ws).foldl R.step w)
  accel ws e b w := R.accel cfg (finws p ws) e b w
  stop ws sz km e w := .ok (decide (e > 0 ∧ e % 10 = 0) &&
    if sz = p then ((R.viol w (finws p ws)).2 <=. cfg.tolerance)
    else ((R.viol w (finws p ws)).2 <. lit 3 10 *. km))
  maxEpochs := cfg.maxEpochs

/-- A run over the reals. -/
noncomputable def run (srt : Argsort XR) (cfg : Solver XR) : M ((Fin p → E) × ℕ) :=
  (R.skel srt cfg (ws0CD cfg p)).outer cfg.maxIterations (fun _ => 0)

/-- Working sets met in a run. -/
def WsOK (p ws0 : ℕ) (ws : List ℕ) (sz : ℕ) : Prop :=
  ∃ l : List (Fin p), ws = l.map Fin.val ∧ l.Nodup ∧ sz = l.length ∧ ws0 ≤ sz

omit [AddCommGroup E] [Module ℝ E] [Coord E] in
theorem scores_length (w : Fin p → E) (l : List (Fin p)) : (R.scores w l).length = l.length := by
  simp [scores]

/-- The working set of a run. -/
theorem pick_ok {srt : Argsort XR} (hs : ArgsortSpec srt) {ws0 : ℕ} (h0 : ws0 ≤ p) (w : Fin p → E) :
    ∃ ws, pickWs srt (R.scores w (List.finRange p)) p (nz w) ws0 = .ok (ws, ws.length) ∧
      WsOK p ws0 ws ws.length ∧
      WorkingSet p ws0 (nz w) (fun j => (R.scores w (List.finRange p)).getD j zero) ws := by
  have hlen : (R.scores w (List.finRange p)).length = p := by simp [scores]
  obtain ⟨π, h1, h2, h3⟩ := pick_ws hs p ws0 (nz w) (R.scores w (List.finRange p))
    ((List.range (R.scores w (List.finRange p)).length).map
      (fun j => if nz w j = true then inf else (R.scores w (List.finRange p)).getD j zero)) hlen h0
    (fun x hx => by
      unfold scores at hx
      rw [List.mem_map] at hx
      obtain ⟨j, -, rfl⟩ := hx
      exact ⟨_, rfl, EReal.coe_ne_top _⟩)
    (by simp)
    (fun j => by
      by_cases hj : j < p
      · rw [List.getElem?_map, List.getElem?_range (by omega), Option.map_some]
        rw [List.getD_eq_getElem?_getD, List.getElem?_eq_getElem (by omega)]
        by_cases hn : nz w j = true
        · rw [if_pos hn, if_pos ⟨hj, hn⟩]
        · rw [if_neg hn, if_neg (fun h => hn h.2)]; rfl
      · rw [List.getElem?_eq_none (by simp; omega), if_neg (by omega), List.getElem?_eq_none (by omega)])
  refine ⟨_, ?_, ?_, h3⟩
  · unfold pickWs
    rw [h1]
    show (if _ then _ else _) = _
    rw [if_pos h2, h2]
    rfl
  · refine ⟨finws p (π.take (max ws0 (min (2 * (List.range p).countP (nz w)) p))), ?_, ?_, ?_, ?_⟩
    · unfold finws
      rw [List.map_filterMap]
      refine ((List.filterMap_congr fun j hj => ?_).trans List.filterMap_some).symm
      rw [dif_pos (h3.lt j hj)]; rfl
    · unfold finws
      refine List.Nodup.filterMap ?_ h3.nodup
      intro a a' b hb hb'
      split at hb
      · split at hb'
        · simp only [Option.mem_def, Option.some.injEq] at hb hb'
          rw [← hb'] at hb
          exact congrArg Fin.val hb
        · cases hb'
      · cases hb
    · have : (finws p (π.take (max ws0 (min (2 * (List.range p).countP (nz w)) p)))).map Fin.val =
          π.take (max ws0 (min (2 * (List.range p).countP (nz w)) p)) := by
        unfold finws
        rw [List.map_filterMap]
        refine (List.filterMap_congr fun j hj => ?_).trans List.filterMap_some
        rw [dif_pos (h3.lt j hj)]; rfl
      rw [← congrArg List.length this, List.length_map]
    · rw [h2]; exact le_max_left _ _

/-- Outcomes of the acceleration step. -/
theorem accel_spec (cfg : Solver XR) (l : List (Fin p)) (e : ℕ) (b : ℕ → ℕ → ℝ) (w : Fin p → E) :
    Tri (fun _ => cfg.useAcceleration = true ∧ ¬ (0 < cfg.K ∧ cfg.K ≤ l.length * dim E))
      (R.accel cfg l e b w)
      (fun r => r.2 = w ∨ ∃ pt, r.2 = scat l pt ∧ R.F (scat l pt) < R.F w) := by
  unfold accel
  split
  · rename_i hu
    dsimp only
    split
    · rcases solve_gram cfg.K (l.length * dim E)
        (Function.update b (e % (cfg.K + 1)) (flat l w)) with ⟨e', h1, h2⟩ | h1 | ⟨z, h1, h2⟩
      · rw [h1]; exact ⟨hu, h2⟩
      · rw [h1]; exact Or.inl rfl
      · rw [h1]
        show _ ∨ _
        dsimp only
        split
        · rename_i hlt
          exact Or.inr ⟨_, rfl, hlt⟩
        · exact Or.inl rfl
    · exact Or.inl rfl
  · exact Or.inl rfl

/-- Enough coordinates to extrapolate, or no acceleration. -/
def Room (E : Type) [AddCommGroup E] [Module ℝ E] [Coord E] (cfg : Solver XR) (ws0 : ℕ) : Prop :=
  cfg.useAcceleration = true → 0 < cfg.K ∧ cfg.K ≤ ws0 * dim E

/-- Invariants of a run: preserved by coordinate updates and accepted extrapolations. -/
theorem hoare {srt : Argsort XR} (hs : ArgsortSpec srt) (cfg : Solver XR) {ws0 : ℕ} (h0 : ws0 ≤ p)
    (Inv : (Fin p → E) → Prop) (hstep : ∀ w j, Inv w → Inv (R.step w j))
    (hacc : ∀ w l pt, Inv w → l.Nodup → R.F (scat l pt) < R.F w → Inv (scat l pt)) :
    Skel.Hoare (R.skel srt cfg ws0) (fun _ => ¬ Room E cfg ws0) Inv (WsOK p ws0) (fun _ _ _ => True) where
  viol _ _ := trivial
  mkWs w kkt km hw hv _ := by
    have : R.scores w (List.finRange p) = kkt := by
      injection hv with hv; exact congrArg Prod.fst hv
    subst this
    obtain ⟨ws, h1, h2, -⟩ := R.pick_ok hs h0 w
    show Tri _ (pickWs srt _ p (nz w) ws0) _
    rw [h1]; exact h2
  buf0 _ _ _ := trivial
  epoch ws sz w hw hws := by
    obtain ⟨l, rfl, -⟩ := hws
    show Inv ((finws p (l.map Fin.val)).foldl R.step w)
    rw [finws_map]
    induction l generalizing w with
    | nil => exact hw
    | cons j l ih => exact ih _ (hstep w j hw)
  accel ws sz e b w hw hws _ := by
    obtain ⟨l, rfl, hl, rfl, hle⟩ := hws
    show Tri _ (R.accel cfg (finws p (l.map Fin.val)) e b w) _
    rw [finws_map]
    refine Tri.monoE (Tri.mono (R.accel_spec cfg l e b w) fun r hr => ⟨trivial, ?_⟩) fun _ h hr => ?_
    · rcases hr with h | ⟨pt, h1, h2⟩
      · rw [h]; exact hw
      · rw [h1]; exact hacc w l pt hw hl h2
    · have := hr h.1
      exact h.2 ⟨this.1, le_trans this.2 (Nat.mul_le_mul_right _ hle)⟩
  stop _ _ _ _ _ _ _ := trivial

end RProb
end Sglm
