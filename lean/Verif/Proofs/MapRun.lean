import Verif.Proofs.Sign
import Verif.Spec.Symmetry

/-!
# Runs of two problems which correspond up to maps of the features and a factor of the scores
-/

namespace Sglm
open Scalar Spec

/-! ## Scaled values -/

namespace XR
variable {β : ℝ}

theorem scale_fin (a : ℝ) : XR.fin β *. XR.fin a = XR.fin (β * a) := rfl

theorem scale_pinf (h : 0 < β) : XR.fin β *. XR.pinf = XR.pinf := by
  show infTimes β = _
  unfold infTimes
  rw [if_pos h]

theorem scale_ninf (h : 0 < β) : XR.fin β *. XR.ninf = XR.ninf := by
  show infTimes (-β) = _
  unfold infTimes
  rw [if_neg (by linarith), if_pos (by linarith)]

theorem scale_nan : XR.fin β *. XR.nan = XR.nan := rfl

theorem scale_lt (h : 0 < β) (a b : XR) : (XR.fin β *. a <. XR.fin β *. b) = (a <. b) := by
  cases a <;> cases b <;> simp only [scale_fin, scale_pinf h, scale_ninf h, scale_nan] <;> first | rfl | skip
  rw [XR.s_lt, XR.s_lt]
  exact decide_eq_decide.mpr (mul_lt_mul_iff_right₀ h)

theorem scale_beq (h : 0 < β) (a b : XR) : (XR.fin β *. a ==. XR.fin β *. b) = (a ==. b) := by
  cases a <;> cases b <;> simp only [scale_fin, scale_pinf h, scale_ninf h, scale_nan] <;> first | rfl | skip
  rw [XR.s_beq, XR.s_beq]
  exact decide_eq_decide.mpr (mul_right_inj' h.ne')

theorem scale_le (h : 0 < β) (a b : XR) : (XR.fin β *. a <=. XR.fin β *. b) = (a <=. b) := by
  rw [le_def, le_def]
  exact congrArg₂ _ (scale_lt h a b) (scale_beq h a b)

theorem scale_isNaN (h : 0 < β) (a : XR) : isNaN (XR.fin β *. a) = isNaN a := by
  unfold isNaN
  rw [scale_beq h]

theorem scale_fmax (h : 0 < β) (a b : XR) :
    Scalar.fmax (XR.fin β *. a) (XR.fin β *. b) = XR.fin β *. Scalar.fmax a b := by
  have key : ∀ c d : XR, (if XR.lt (XR.fin β *. c) (XR.fin β *. d) then XR.fin β *. d else XR.fin β *. c) =
      XR.fin β *. (if XR.lt c d then d else c) := by
    intro c d
    have := scale_lt h c d
    rw [lt_def, lt_def] at this
    rw [this]
    split <;> rfl
  cases a with
  | nan => rfl
  | fin a =>
    cases b with
    | nan => rfl
    | fin b => exact key _ _
    | pinf => have := key (.fin a) .pinf; rw [scale_pinf h] at *; exact this
    | ninf => have := key (.fin a) .ninf; rw [scale_ninf h] at *; exact this
  | pinf =>
    cases b with
    | nan => rw [scale_pinf h, scale_nan]; exact (scale_pinf h).symm
    | fin b => have := key .pinf (.fin b); rw [scale_pinf h] at *; exact this
    | pinf => have := key .pinf .pinf; rw [scale_pinf h] at *; exact this
    | ninf => have := key .pinf .ninf; rw [scale_ninf h, scale_pinf h] at *; exact this
  | ninf =>
    cases b with
    | nan => rw [scale_ninf h, scale_nan]; exact (scale_ninf h).symm
    | fin b => have := key .ninf (.fin b); rw [scale_ninf h] at *; exact this
    | pinf => have := key .ninf .pinf; rw [scale_ninf h, scale_pinf h] at *; exact this
    | ninf => have := key .ninf .ninf; rw [scale_ninf h] at *; exact this

theorem scale_comm (h : 0 < β) {γ : ℝ} (hγ : 0 < γ) (a : XR) :
    XR.fin γ *. (XR.fin β *. a) = XR.fin β *. (XR.fin γ *. a) := by
  cases a <;> simp only [scale_fin, scale_pinf h, scale_ninf h, scale_nan, scale_pinf hγ, scale_ninf hγ]
  rw [mul_left_comm]

theorem scale_maxDist (h : 0 < β) (l : List XR) : maxDist (l.map fun x => XR.fin β *. x) = XR.fin β *. maxDist l := by
  unfold maxDist
  rw [List.foldl_map]
  have : ∀ (l : List XR) (c : XR), l.foldl (fun a x => Scalar.fmax a (XR.fin β *. x)) (XR.fin β *. c) =
      XR.fin β *. l.foldl Scalar.fmax c := by
    intro l
    induction l with
    | nil => intro c; rfl
    | cons x l ih =>
      intro c
      rw [List.foldl_cons, List.foldl_cons, scale_fmax h, ih]
  rw [← this, s_negInf, scale_ninf h]

end XR

/-! ## Sorting by comparisons -/

theorem argsortIns_comparison : SortsByComparison (argsortIns (F := XR)) := by
  intro l l' hlen h
  have hnan : l.any isNaN = l'.any isNaN := by
    rw [Bool.eq_iff_iff, List.any_eq_true, List.any_eq_true]
    constructor
    · rintro ⟨x, hx, hn⟩
      obtain ⟨i, hi, rfl⟩ := List.mem_iff_getElem.mp hx
      refine ⟨l'[i], List.getElem_mem _, ?_⟩
      rw [← (h i i l[i] l[i] l'[i] l'[i] (List.getElem?_eq_getElem hi) (List.getElem?_eq_getElem hi)
        (List.getElem?_eq_getElem (hlen ▸ hi)) (List.getElem?_eq_getElem (hlen ▸ hi))).2]
      exact hn
    · rintro ⟨x, hx, hn⟩
      obtain ⟨i, hi, rfl⟩ := List.mem_iff_getElem.mp hx
      refine ⟨l[i], List.getElem_mem _, ?_⟩
      rw [(h i i l[i] l[i] l'[i] l'[i] (List.getElem?_eq_getElem (hlen ▸ hi)) (List.getElem?_eq_getElem (hlen ▸ hi))
        (List.getElem?_eq_getElem hi) (List.getElem?_eq_getElem hi)).2]
      exact hn
  unfold argsortIns
  rw [hlen, hnan]
  have hlt : ∀ i ∈ List.range l'.length, ∀ j ∈ List.range l'.length,
      ((l.getD i zero <. l.getD j zero) = false ↔ (l'.getD i zero <. l'.getD j zero) = false) := by
    intro i hi j hj
    rw [List.mem_range] at hi hj
    have hi' : i < l.length := hlen ▸ hi
    have hj' : j < l.length := hlen ▸ hj
    simp only [List.getD_eq_getElem?_getD, List.getElem?_eq_getElem, hi, hj, hi', hj', Option.getD_some]
    rw [(h i j _ _ _ _ (List.getElem?_eq_getElem hi') (List.getElem?_eq_getElem hj')
      (List.getElem?_eq_getElem hi) (List.getElem?_eq_getElem hj)).1]
  have := List.map_insertionSort (r := fun i j => (l.getD i zero <. l.getD j zero) = false)
    (s := fun i j => (l'.getD i zero <. l'.getD j zero) = false) id (List.range l'.length) hlt
  rw [List.map_id, List.map_id] at this
  rw [this]

/-! ## Simulation with mapped scores -/

namespace Skel
variable {F S B S' B' : Type}

/-- Hypotheses of the simulation rule where scores are mapped by `φ`. -/
structure SimS (sk : Skel F S B) (sk' : Skel F S' B') (φ : F → F) (R : S → S' → Prop)
    (RB : B → B' → Prop) : Prop where
  viol : ∀ s s', R s s' → sk'.viol s' = (fun q => (q.1.map φ, φ q.2)) <$> sk.viol s
  done : ∀ km, sk'.done (φ km) = sk.done km
  mkWs : ∀ s s' kkt km, R s s' → sk.viol s = .ok (kkt, km) → sk'.mkWs (kkt.map φ) s' = sk.mkWs kkt s
  buf0 : ∀ sz, RB (sk.buf0 sz) (sk'.buf0 sz)
  epoch : ∀ ws s s', R s s' → RelM R (sk.epoch ws s) (sk'.epoch ws s')
  accel : ∀ ws e b b' s s', R s s' → RB b b' →
    RelM (fun p q => RB p.1 q.1 ∧ R p.2 q.2) (sk.accel ws e b s) (sk'.accel ws e b' s')
  stop : ∀ ws sz km e s s', R s s' → sk'.stop ws sz (φ km) e s' = sk.stop ws sz km e s
  maxEpochs : sk'.maxEpochs = sk.maxEpochs

variable {sk : Skel F S B} {sk' : Skel F S' B'} {φ : F → F} {R : S → S' → Prop} {RB : B → B' → Prop}

theorem SimS.inner (h : SimS sk sk' φ R RB) (ws : List Nat) (sz : Nat) (km : F) :
    ∀ (r e : Nat) (b : B) (b' : B') (s : S) (s' : S'), RB b b' → R s s' →
    RelM R (sk.inner ws sz km r e b s) (sk'.inner ws sz (φ km) r e b' s')
  | 0, _, _, _, _, _, _, hs => hs
  | r + 1, e, b, b', s, s', hb, hs => by
    unfold Skel.inner
    refine RelM.bind (h.epoch ws s s' hs) fun s1 s1' hs1 => ?_
    refine RelM.bind (h.accel ws e b b' s1 s1' hs1 hb) fun ⟨b2, s2⟩ ⟨b2', s2'⟩ ⟨hb2, hs2⟩ => ?_
    dsimp only
    refine RelM.bind (RelM.of_eq (h.stop ws sz km e s2 s2' hs2).symm) fun st st' hst => ?_
    subst hst
    split
    · exact hs2
    · exact SimS.inner h ws sz km r (e + 1) b2 b2' s2 s2' hb2 hs2

theorem SimS.outer (h : SimS sk sk' φ R RB) : ∀ (r : Nat) (s : S) (s' : S'), R s s' →
    RelM (fun p q => R p.1 q.1 ∧ p.2 = q.2) (sk.outer r s) (sk'.outer r s')
  | 0, _, _, hs => ⟨hs, rfl⟩
  | r + 1, s, s', hs => by
    unfold Skel.outer
    rw [h.viol s s' hs]
    cases hv : sk.viol s with
    | error e => rfl
    | ok q =>
      obtain ⟨kkt, km⟩ := q
      show RelM _ (if sk.done km = true then _ else _) (if sk'.done (φ km) = true then _ else _)
      rw [h.done km]
      split
      · exact ⟨hs, rfl⟩
      · show RelM _ (sk.mkWs kkt s >>= _) (sk'.mkWs (kkt.map φ) s' >>= _)
        rw [h.mkWs s s' kkt km hs hv]
        cases hw : sk.mkWs kkt s with
        | error e => rfl
        | ok q =>
          obtain ⟨ws, sz⟩ := q
          show RelM _ (sk.inner ws sz km sk.maxEpochs 0 (sk.buf0 sz) s >>= _)
            (sk'.inner ws sz (φ km) sk'.maxEpochs 0 (sk'.buf0 sz) s' >>= _)
          rw [h.maxEpochs]
          refine RelM.bind (h.inner ws sz km sk.maxEpochs 0 _ _ s s' (h.buf0 sz) hs) fun s1 s1' hs1 => ?_
          refine RelM.bind (SimS.outer h r s1 s1' hs1) fun ⟨s2, k⟩ ⟨s2', k'⟩ ⟨h1, h2⟩ => ?_
          exact ⟨h1, congrArg (· + 1) h2⟩

end Skel

namespace RProb
open Coord
variable {E E' : Type} [AddCommGroup E] [Module ℝ E] [Coord E] [AddCommGroup E'] [Module ℝ E'] [Coord E'] {p : ℕ}

/-- `e j` maps the `j`-th row of one problem to that of the other; scores are multiplied by `β`. -/
structure EMap (R : RProb E p) (R' : RProb E' p) (e : Fin p → E → E') (β : ℝ) : Prop where
  pos : 0 < β
  zero : ∀ j x, e j x = 0 ↔ x = 0
  step : ∀ w j, R'.step (fun i => e i (w i)) j = fun i => e i (R.step w j i)
  sc : ∀ w j, R'.sc (e j (w j)) (R'.G (fun i => e i (w i)) j) = β * R.sc (w j) (R.G w j)
  m0 : R'.m0 = XR.fin β *. R.m0

variable {R : RProb E p} {R' : RProb E' p} {e : Fin p → E → E'} {β : ℝ}

omit [Coord E] [Coord E'] in
theorem EMap.scores (h : EMap R R' e β) (w : Fin p → E) (l : List (Fin p)) :
    R'.scores (fun j => e j (w j)) l = (R.scores w l).map fun x => XR.fin β *. x := by
  unfold RProb.scores
  rw [List.map_map]
  exact List.map_congr_left fun j _ => by rw [h.sc]; rfl

omit [Coord E] [Coord E'] in
theorem EMap.viol (h : EMap R R' e β) (w : Fin p → E) (l : List (Fin p)) :
    R'.viol (fun j => e j (w j)) l = ((R.viol w l).1.map fun x => XR.fin β *. x, XR.fin β *. (R.viol w l).2) := by
  unfold RProb.viol
  rw [h.scores, h.m0, XR.scale_maxDist h.pos]
  split <;> rfl

theorem EMap.nz (h : EMap R R' e β) (w : Fin p → E) : RProb.nz (fun j => e j (w j)) = RProb.nz w := by
  funext j
  unfold RProb.nz
  split
  · rw [Bool.eq_iff_iff, nzB_iff, nzB_iff]
    exact not_congr (h.zero _ _)
  · rfl

omit [Coord E] [Coord E'] in
theorem EMap.epoch (h : EMap R R' e β) : ∀ (l : List (Fin p)) (w : Fin p → E),
    l.foldl R'.step (fun j => e j (w j)) = fun j => e j (l.foldl R.step w j)
  | [], _ => rfl
  | j :: l, w => by
    rw [List.foldl_cons, List.foldl_cons, h.step]
    exact EMap.epoch h l (R.step w j)

/-- The sort cannot tell the scores of the two problems apart. -/
def SortOK (srt : Argsort XR) (β : ℝ) : Prop := β = 1 ∨ SortsByComparison srt

theorem pickWs_scale {srt : Argsort XR} (hβ : 0 < β) (hs : SortOK srt β) (kkt : List XR) (p : ℕ) (nz : ℕ → Bool)
    (ws0 : ℕ) : pickWs srt (kkt.map fun x => XR.fin β *. x) p nz ws0 = pickWs srt kkt p nz ws0 := by
  have key : (List.range (kkt.map fun x => XR.fin β *. x).length).map (fun j => if nz j = true then inf else
      (kkt.map fun x => XR.fin β *. x).getD j zero) =
      ((List.range kkt.length).map (fun j => if nz j = true then inf else kkt.getD j zero)).map
        fun x => XR.fin β *. x := by
    rw [List.length_map, List.map_map]
    refine List.map_congr_left fun j hj => ?_
    have hj : j < kkt.length := List.mem_range.mp hj
    show _ = XR.fin β *. (if nz j = true then inf else kkt.getD j zero)
    split
    · exact (XR.scale_pinf hβ).symm
    · rw [List.getD_eq_getElem?_getD, List.getD_eq_getElem?_getD, List.getElem?_map, List.getElem?_eq_getElem hj]
      rfl
  have hsort : ∀ l : List XR, srt (l.map fun x => XR.fin β *. x) = srt l := by
    intro l
    rcases hs with rfl | hs
    · congr 1
      refine (List.map_congr_left fun x _ => ?_).trans (List.map_id l)
      cases x with
      | fin a => show XR.fin (1 * a) = _; rw [one_mul]; rfl
      | pinf => exact XR.scale_pinf one_pos
      | ninf => exact XR.scale_ninf one_pos
      | nan => rfl
    · refine hs _ _ (List.length_map _) fun i j a b a' b' ha hb ha' hb' => ?_
      rw [List.getElem?_map, ha'] at ha
      rw [List.getElem?_map, hb'] at hb
      injection ha with ha
      injection hb with hb
      rw [← ha, ← hb, XR.scale_lt hβ, XR.scale_isNaN hβ]
      exact ⟨rfl, rfl⟩
  unfold pickWs
  rw [key, hsort]

theorem EMap.sim (h : EMap R R' e β) {srt : Argsort XR} (hs : SortOK srt β) (cfg : Solver XR) (ws0 : ℕ)
    (RB : (ℕ → ℕ → ℝ) → (ℕ → ℕ → ℝ) → Prop) (hb : RB (fun _ _ => 0) (fun _ _ => 0))
    (hacc : ∀ l ep b b' w, RB b b' → RelM (fun q q' => RB q.1 q'.1 ∧ q'.2 = fun j => e j (q.2 j))
      (R.accel cfg l ep b w) (R'.accel (scaleTolerance cfg β) l ep b' (fun j => e j (w j)))) :
    Skel.SimS (R.skel srt cfg ws0) (R'.skel srt (scaleTolerance cfg β) ws0) (fun x => XR.fin β *. x)
      (fun w w' => w' = fun j => e j (w j)) RB where
  viol w w' hw := by subst hw; exact congrArg Except.ok (h.viol w _)
  done km := XR.scale_le h.pos km cfg.tolerance
  mkWs w w' kkt km hw hv := by
    subst hw
    show pickWs srt _ p (RProb.nz fun j => e j (w j)) ws0 = pickWs srt kkt p (RProb.nz w) ws0
    rw [h.nz, pickWs_scale h.pos hs]
  buf0 _ := hb
  epoch ws w w' hw := by subst hw; exact h.epoch _ w
  accel ws ep b b' w w' hw hb := by subst hw; exact hacc _ ep b b' w hb
  stop ws sz km ep w w' hw := by
    subst hw
    show Except.ok (_ && if sz = p then ((R'.viol (fun j => e j (w j)) (finws p ws)).2 <=. XR.fin β *. cfg.tolerance)
        else ((R'.viol (fun j => e j (w j)) (finws p ws)).2 <. lit 3 10 *. (XR.fin β *. km))) =
      Except.ok (_ && if sz = p then ((R.viol w (finws p ws)).2 <=. cfg.tolerance)
        else ((R.viol w (finws p ws)).2 <. lit 3 10 *. km))
    rw [h.viol, XR.s_lit, XR.scale_comm h.pos (by norm_num), XR.scale_le h.pos, XR.scale_lt h.pos]
  maxEpochs := rfl

/-- The runs correspond. -/
theorem EMap.run (h : EMap R R' e β) {srt : Argsort XR} (hs : SortOK srt β) (cfg : Solver XR)
    (RB : (ℕ → ℕ → ℝ) → (ℕ → ℕ → ℝ) → Prop) (hb : RB (fun _ _ => 0) (fun _ _ => 0))
    (hacc : ∀ l ep b b' w, RB b b' → RelM (fun q q' => RB q.1 q'.1 ∧ q'.2 = fun j => e j (q.2 j))
      (R.accel cfg l ep b w) (R'.accel (scaleTolerance cfg β) l ep b' (fun j => e j (w j)))) :
    R'.run srt (scaleTolerance cfg β) = (fun q => ((fun j => e j (q.1 j)), q.2)) <$> R.run srt cfg := by
  have h0 := (h.sim hs cfg (ws0CD cfg p) RB hb hacc).outer cfg.maxIterations (fun _ => 0) (fun _ => 0)
    (funext fun _ => ((h.zero _ 0).mpr rfl).symm)
  show (R'.skel srt (scaleTolerance cfg β) (ws0CD cfg p)).outer cfg.maxIterations (fun _ => 0) = _
  unfold RProb.run
  revert h0
  cases (R.skel srt cfg (ws0CD cfg p)).outer cfg.maxIterations (fun _ => 0) with
  | error e =>
    cases (R'.skel srt (scaleTolerance cfg β) (ws0CD cfg p)).outer cfg.maxIterations (fun _ => 0) with
    | error e' => intro h0; exact congrArg _ (Eq.symm h0)
    | ok q => intro h0; exact h0.elim
  | ok q =>
    cases (R'.skel srt (scaleTolerance cfg β) (ws0CD cfg p)).outer cfg.maxIterations (fun _ => 0) with
    | error e' => intro h0; exact h0.elim
    | ok q' =>
      intro h0
      obtain ⟨h1, h2⟩ := h0
      exact congrArg Except.ok (Prod.ext h1 h2.symm)

/-- Without acceleration any correspondence will do. -/
theorem EMap.run_plain (h : EMap R R' e β) {srt : Argsort XR} (hs : SortOK srt β) (cfg : Solver XR)
    (hu : cfg.useAcceleration = false) :
    R'.run srt (scaleTolerance cfg β) = (fun q => ((fun j => e j (q.1 j)), q.2)) <$> R.run srt cfg := by
  refine h.run hs cfg (fun _ _ => True) trivial fun l ep b b' w _ => ?_
  unfold RProb.accel
  rw [if_neg (by simp [hu]), if_neg (by simp [scaleTolerance, hu])]
  exact ⟨trivial, rfl⟩

/-! ## Acceleration -/

theorem gram_factor (σ : ℝ) (K : ℕ) (b b' : ℕ → ℕ → ℝ) (h : ∀ k c, b' k c = σ * b k c) (a c : ℕ) :
    gram K b' a c = σ ^ 2 * gram K b a c := by
  unfold gram
  rw [Finset.mul_sum]
  refine Finset.sum_congr rfl fun k _ => ?_
  rw [h, h, h, h]
  ring

theorem solve_gram_error {K m : ℕ} (h : ¬ (0 < K ∧ K ≤ m)) (b : ℕ → ℕ → ℝ) :
    solveLinSys (matN m m (gram K b)) (List.replicate K one) = .error (if K = 0 then .underflow else .index) := by
  by_cases hK : 0 < K
  · rw [if_neg hK.ne']
    unfold solveLinSys
    have : Shaped (matN m m (gram K b)) m m := by
      refine ⟨by simp [matN], rfl, fun x hx => ?_⟩
      rw [matN_rows, List.mem_map] at hx
      obtain ⟨i, -, rfl⟩ := hx
      simp
    rw [augment_panics this (by simp; omega)]
    rfl
  · have : K = 0 := by omega
    subst this
    rfl

/-- Weights of an extrapolation from scaled iterates. -/
theorem solve_factor {σ : ℝ} (hσ : σ ≠ 0) (K m : ℕ) (b b' : ℕ → ℕ → ℝ) (h : ∀ k c, b' k c = σ * b k c) :
    RelM (fun z z' => (z = none ∧ z' = none) ∨ ∃ x : ℕ → ℝ, z = some (vecN K x) ∧
        z' = some (vecN K fun c => σ⁻¹ ^ 2 * x c))
      (solveLinSys (matN m m (gram K b)) (List.replicate K one))
      (solveLinSys (matN m m (gram K b')) (List.replicate K one)) := by
  by_cases hK : 0 < K ∧ K ≤ m
  · obtain ⟨hK, hm⟩ := hK
    have hf := gram_factor σ K b b' h
    have hσ2 : σ ^ 2 ≠ 0 := pow_ne_zero 2 hσ
    have hinj : Lin.LeadInj (gram K b') K ↔ Lin.LeadInj (gram K b) K := by
      unfold Lin.LeadInj
      refine forall_congr' fun y => imp_congr_left (forall₂_congr fun r _ => ?_)
      rw [Finset.sum_congr rfl (g := fun c => σ ^ 2 * (gram K b r c * y c)) fun c _ => by rw [hf, mul_assoc],
        ← Finset.mul_sum, mul_eq_zero, or_iff_right hσ2]
    rw [replicate_one_vecN]
    rcases Lin.psd_unique (N := m) (m := m) (gram K b) (fun _ => 1) hK hm hm (gram_psd K K b) with
      ⟨z, h1, h2, h3⟩ | ⟨h1, h3⟩
    · rcases Lin.psd_unique (N := m) (m := m) (gram K b') (fun _ => 1) hK hm hm (gram_psd K K b') with
        ⟨z', h4, h5, h6⟩ | ⟨h4, h6⟩
      · rw [h1, h4]
        refine Or.inr ⟨z, rfl, ?_⟩
        have := h6 (fun c => z' c - σ⁻¹ ^ 2 * z c) fun r hr => by
          have h7 : ∑ c ∈ Finset.range K, gram K b' r c * (σ⁻¹ ^ 2 * z c) = 1 := by
            rw [← h2 r hr]
            refine Finset.sum_congr rfl fun c _ => ?_
            rw [hf]
            field_simp
          simp only [mul_sub, Finset.sum_sub_distrib]
          rw [h5 r hr, h7, sub_self]
        exact congrArg some (vecN_congr fun c hc => sub_eq_zero.mp (this c hc))
      · exact absurd (hinj.mpr h3) h6
    · rcases Lin.psd_unique (N := m) (m := m) (gram K b') (fun _ => 1) hK hm hm (gram_psd K K b') with
        ⟨z', h4, h5, h6⟩ | ⟨h4, h6⟩
      · exact absurd (hinj.mp h6) h3
      · rw [h1, h4]
        exact Or.inl ⟨rfl, rfl⟩
  · rw [solve_gram_error hK, solve_gram_error hK]
    rfl

/-- Uniform scaling of the rows by `σ`, of the objective by `κ` (and a constant is added to it). -/
structure Scaling (R R' : RProb E p) (σ κ β : ℝ) : Prop extends EMap R R' (fun _ x => σ • x) β where
  sig : σ ≠ 0
  kap : 0 < κ
  co : ∀ (x : E) c, Coord.co (σ • x) (c % Coord.dim E) = σ * Coord.co x (c % Coord.dim E)
  F : ∃ c, ∀ w, R'.F (fun j => σ • w j) = κ * R.F w + c

variable {R R' : RProb E p} {σ κ : ℝ}

theorem Scaling.flat (h : Scaling R R' σ κ β) (w : Fin p → E) (l : List (Fin p)) (c : ℕ) :
    RProb.flat l (fun j => σ • w j) c = σ * RProb.flat l w c := by
  unfold RProb.flat
  split
  · exact h.co _ _
  · rw [mul_zero]

theorem scat_factor (σ : ℝ) (l : List (Fin p)) (pt : ℕ → ℝ) :
    (scat l (fun c => σ * pt c) : Fin p → E) = fun j => σ • scat l pt j := by
  funext j
  unfold RProb.scat
  split
  · exact ofCo_smul _ _
  · rw [smul_zero]

theorem Scaling.accel (h : Scaling R R' σ κ β) (cfg : Solver XR) (l : List (Fin p)) (ep : ℕ) (b b' : ℕ → ℕ → ℝ)
    (w : Fin p → E) (hb : ∀ k c, b' k c = σ * b k c) :
    RelM (fun q q' => (∀ k c, q'.1 k c = σ * q.1 k c) ∧ q'.2 = fun j => σ • q.2 j)
      (R.accel cfg l ep b w) (R'.accel (scaleTolerance cfg β) l ep b' (fun j => σ • w j)) := by
  unfold RProb.accel
  show RelM _ _ (if cfg.useAcceleration = true then _ else _)
  split
  · dsimp only
    have hb1 : ∀ k c, Function.update b' (ep % (cfg.K + 1)) (RProb.flat l fun j => σ • w j) k c =
        σ * Function.update b (ep % (cfg.K + 1)) (RProb.flat l w) k c := by
      intro k c
      by_cases hk : k = ep % (cfg.K + 1)
      · subst hk; rw [Function.update_self, Function.update_self, h.flat]
      · rw [Function.update_of_ne hk, Function.update_of_ne hk, hb]
    show RelM _ _ (if ep % (cfg.K + 1) = cfg.K then _ else _)
    split
    · refine RelM.bind (solve_factor h.sig cfg.K (l.length * Coord.dim E) _ _ hb1) ?_
      rintro z z' (⟨rfl, rfl⟩ | ⟨x, rfl, rfl⟩)
      · exact ⟨hb1, rfl⟩
      · refine ⟨hb1, ?_⟩
        dsimp only
        have hc : comb cfg.K (Function.update b' (ep % (cfg.K + 1)) (RProb.flat l fun j => σ • w j))
            (realsOf (vecN cfg.K fun c => σ⁻¹ ^ 2 * x c)) =
            fun c => σ * comb cfg.K (Function.update b (ep % (cfg.K + 1)) (RProb.flat l w)) (realsOf (vecN cfg.K x)) c := by
          rw [comb_scale _ _ _ hb1]
          funext c
          congr 1
          unfold comb
          have h2 : σ⁻¹ ^ 2 ≠ 0 := pow_ne_zero 2 (inv_ne_zero h.sig)
          have hs : ∑ l ∈ Finset.range cfg.K, realsOf (vecN cfg.K fun c => σ⁻¹ ^ 2 * x c) l =
              σ⁻¹ ^ 2 * ∑ l ∈ Finset.range cfg.K, realsOf (vecN cfg.K x) l := by
            rw [Finset.mul_sum]
            refine Finset.sum_congr rfl fun k hk => ?_
            rw [realsOf_vecN _ (Finset.mem_range.mp hk), realsOf_vecN _ (Finset.mem_range.mp hk)]
          refine Finset.sum_congr rfl fun k hk => ?_
          rw [hs, realsOf_vecN _ (Finset.mem_range.mp hk), realsOf_vecN _ (Finset.mem_range.mp hk),
            mul_div_mul_left _ _ h2]
        show (if R'.F (scat l (comb cfg.K (Function.update b' (ep % (cfg.K + 1)) _) _)) < _ then
          scat l (comb cfg.K (Function.update b' (ep % (cfg.K + 1)) _) _) else _) = _
        obtain ⟨c0, hF⟩ := h.F
        rw [hc, scat_factor, hF, hF]
        simp only [add_lt_add_iff_right, mul_lt_mul_iff_right₀ h.kap]
        split <;> rfl
    · exact ⟨hb1, rfl⟩
  · exact ⟨hb, rfl⟩

/-- Runs of scaled problems, with or without acceleration. -/
theorem Scaling.run (h : Scaling R R' σ κ β) {srt : Argsort XR} (hs : SortOK srt β) (cfg : Solver XR) :
    R'.run srt (scaleTolerance cfg β) = (fun q => ((fun j => σ • q.1 j), q.2)) <$> R.run srt cfg :=
  h.toEMap.run hs cfg (fun b b' => ∀ k c, b' k c = σ * b k c) (fun _ _ => (mul_zero σ).symm)
    (fun l ep b b' w hb => h.accel cfg l ep b b' w hb)

end RProb
end Sglm
