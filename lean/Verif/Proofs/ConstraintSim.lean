import Verif.Spec.Constraint
import Verif.Proofs.Custom

/-!
# Constrained problems as runs over the reals

Points which violate the constraint have an infinite objective.  Over the reals their objective is any value above the one of zero
coefficients: extrapolations to such points are rejected in both.
-/

namespace Sglm
open Scalar Spec
variable {n p : ℕ}

/-- The prox of a penalty object, with trivial values and scores. -/
noncomputable abbrev proxOnly {P : Type} [Penalty XR P] : Penalty XR P where
  value := fun _ _ => .ok (XR.fin 0)
  prox := Penalty.prox
  subdiffDistance := fun _ => sepDistances fun _ _ => XR.fin 0

open Classical in
/-- The constrained problem over the reals. -/
noncomputable def probOn (X : Fin n → Fin p → ℝ) (f : (Fin n → ℝ) → ℝ) (g : (Fin n → ℝ) → Fin p → ℝ) (L : Fin p → ℝ) (φ : ℝ → ℝ)
    (D : Set ℝ) (px : ℝ → ℝ → ℝ) (m0 : XR) : RProb ℝ p :=
  { probCD X f g L (fun _ => 0) px (fun x g => Metric.infDist (-g) (subdiffOn φ D x)) m0 with
    F := fun w => if Feasible D w then customObjective f X φ w else customObjective f X φ 0 + 1 }

/-- Feasible and not worse than zero coefficients. -/
def RProb.Inv (R : RProb ℝ p) (D : Set ℝ) (w : Fin p → ℝ) : Prop := Feasible D w ∧ R.F w ≤ R.F (fun _ => 0)

section Sim
variable {DM DF P : Type} [DesignMatrix XR DM] [Datafit XR DM DF] [Penalty XR P] {ds : Dataset DM XR} {df : DF}
  {pen : P} {X : Fin n → Fin p → ℝ} {f : (Fin n → ℝ) → ℝ} {g : (Fin n → ℝ) → Fin p → ℝ} {L : Fin p → ℝ}
  {φ : ℝ → ℝ} {D : Set ℝ} {px : ℝ → ℝ → ℝ} {m0 : XR}

open Classical in
/-- What the simulation needs of the penalty object. -/
structure OnSem (pen : P) (φ : ℝ → ℝ) (D : Set ℝ) (px : ℝ → ℝ → ℝ) (m0 : XR) : Prop where
  zero : (0 : ℝ) ∈ D
  value : ∀ {q : ℕ} (w : Fin q → ℝ), Penalty.value pen (vec w) =
    .ok (if Feasible D w then XR.fin (∑ j, φ (w j)) else inf)
  prox : ∀ v s, 0 < s → Penalty.prox pen (XR.fin v) (XR.fin s) = .ok (XR.fin (px v s))
  dist : ∀ {q : ℕ} (w g : Fin q → ℝ) (l : List (Fin q)), Feasible D w →
    Penalty.subdiffDistance pen (vec w) (l.map (fun j => XR.fin (g j))) (l.map Fin.val) =
      .ok (l.map (fun j => XR.fin (Metric.infDist (-g j) (subdiffOn φ D (w j)))),
        if l = [] then m0 else maxDist (l.map (fun j => XR.fin (Metric.infDist (-g j) (subdiffOn φ D (w j))))))

omit [DesignMatrix XR DM] [Datafit XR DM DF] in
theorem OnSem.psem (h : OnSem pen φ D px m0) : @PSem P proxOnly pen (fun _ => 0) px (fun _ _ => 0) XR.ninf :=
  @PSem.mk P proxOnly pen _ px _ _ (fun w => by
    rw [Finset.sum_const_zero]; rfl) h.prox fun w g l =>
    sepDistances_list (fun _ _ => XR.fin 0) (fun _ _ => 0) (fun _ _ => rfl) w g l

theorem probOn_feasible (h0 : (0 : ℝ) ∈ D) {w : Fin p → ℝ} :
    (¬ Feasible D w → (probOn X f g L φ D px m0).F (fun _ => 0) + 1 ≤ (probOn X f g L φ D px m0).F w) ∧
    (Feasible D w → (probOn X f g L φ D px m0).F w = customObjective f X φ w) := by
  have hz : Feasible D (fun _ : Fin p => (0 : ℝ)) := fun _ => h0
  refine ⟨fun h => ?_, fun h => if_pos h⟩
  unfold probOn
  dsimp only
  rw [if_neg h, if_pos hz]
  exact le_rfl

theorem viol_on (hd : DSem ds df X f g L) (hp : OnSem pen φ D px m0) (w : Fin p → ℝ) (hw : Feasible D w) (l : List (Fin p)) :
    optCondViolation ds (vec w) (vec (fit X w)) (l.map Fin.val) df pen =
      .ok ((probOn X f g L φ D px m0).viol w l) := by
  unfold optCondViolation constructGrad
  rw [List.mapM_map, mapM_ok' (g := fun j => XR.fin (g (fit X w) j))]
  · exact hp.dist w (g (fit X w)) l hw
  · intro j _
    exact hd.grad _ j

open Classical in
theorem objective_on (hd : DSem ds df X f g L) (hp : OnSem pen φ D px m0) (w : Fin p → ℝ) :
    objective ds df pen (vec w) (vec (fit X w)) =
      .ok (if Feasible D w then XR.fin ((probOn X f g L φ D px m0).F w) else XR.pinf) := by
  unfold objective
  rw [hd.value, hp.value]
  by_cases h : Feasible D w
  · rw [if_pos h, if_pos h, (probOn_feasible hp.zero).2 h]
    rfl
  · rw [if_neg h, if_neg h]
    rfl

theorem epoch_on (hd : DSem ds df X f g L) (hp : OnSem pen φ D px m0) (hL : ∀ j, 0 ≤ L j) (w : Fin p → ℝ) (l : List (Fin p)) :
    cdEpoch ds df pen (l.map Fin.val) ⟨vec w, vec (fit X w)⟩ =
      .ok ⟨vec (l.foldl (probOn X f g L φ D px m0).step w), vec (fit X (l.foldl (probOn X f g L φ D px m0).step w))⟩ :=
  @cdEpoch_eq (hd := hd) (hp := hp.psem) (hL := hL) (w := w) (l := l)

theorem accel_on (hd : DSem ds df X f g L) (hp : OnSem pen φ D px m0) (cfg : Solver XR) (l : List (Fin p))
    (hl : l.Nodup) (e : ℕ) (b : ℕ → ℕ → ℝ) (w : Fin p → ℝ) (hw : (probOn X f g L φ D px m0).Inv D w) :
    accelCD ds df pen cfg (l.map Fin.val) e (matN (cfg.K + 1) l.length b) ⟨vec w, vec (fit X w)⟩ =
      (fun r => (matN (cfg.K + 1) l.length r.1, ⟨vec r.2, vec (fit X r.2)⟩)) <$>
        (probOn X f g L φ D px m0).accel cfg l e b w := by
  classical
  unfold accelCD RProb.accel
  split
  · have hk : e % (cfg.K + 1) < cfg.K + 1 := Nat.mod_lt _ (Nat.succ_pos _)
    unfold andersonAccel
    rw [hd.nFeatures]
    dsimp only [bind, Except.bind]
    rw [store_eq _ _ hk]
    dsimp only
    split
    · rw [List.length_map, diffMatrix_eq]
      dsimp only
      rw [tMulMat_matN]
      dsimp only
      have hdim : l.length * Coord.dim ℝ = l.length := Nat.mul_one _
      rw [hdim]
      set b1 := Function.update b (e % (cfg.K + 1)) (RProb.flat l w)
      have hg : (fun a c => ∑ k ∈ Finset.range cfg.K, (b1 (k + 1) a - b1 k a) * (b1 (k + 1) c - b1 k c)) =
        gram cfg.K b1 := rfl
      rw [hg]
      rcases solve_gram cfg.K l.length b1 with ⟨e', h1, h2⟩ | h1 | ⟨z, h1, h2⟩
      · rw [h1]; rfl
      · rw [h1]; rfl
      · rw [h1]
        dsimp only
        rw [extrapolate_eq _ _ _ _ h2.ne', comb_congr (z := realsOf (vecN cfg.K z)) cfg.K b1
          fun k hk => realsOf_vecN z hk]
        dsimp only
        rw [scatter_eq _ _ hl]
        dsimp only
        rw [hd.nSamples, hd.extra]
        set wa : Fin p → ℝ := RProb.scat l (comb cfg.K b1 z) with hwa
        have hf : (fun i => (l.map (fun j => X i j * wa j)).sum) = fit X wa := by
          funext i
          exact sum_list_eq l hl _ fun j hj => by rw [hwa, scat_zero _ _ _ hj, mul_zero]
        rw [hf]
        dsimp only
        rw [objective_on hd hp, objective_on hd hp]
        dsimp only
        rw [if_pos hw.1]
        by_cases hfe : Feasible D wa
        · rw [if_pos hfe, XR.s_lt]
          by_cases hlt : (probOn X f g L φ D px m0).F wa < (probOn X f g L φ D px m0).F w
          · rw [if_pos (by simpa using hlt), if_pos hlt]; rfl
          · rw [if_neg (by simpa using hlt), if_neg hlt]; rfl
        · have hlt : ¬ (probOn X f g L φ D px m0).F wa < (probOn X f g L φ D px m0).F w := by
            have h1 := (probOn_feasible (X := X) (f := f) (g := g) (L := L) (φ := φ) (px := px) (m0 := m0) hp.zero).1 hfe
            have h2 := hw.2
            linarith
          rw [if_neg hfe, if_neg hlt]
          rfl
    · rfl
  · rfl

theorem stop_on (hd : DSem ds df X f g L) (hp : OnSem pen φ D px m0) (tol km : XR) (l : List (Fin p)) (sz e : ℕ)
    (w : Fin p → ℝ) (hw : Feasible D w) :
    stopCD ds df pen tol p (l.map Fin.val) sz km e ⟨vec w, vec (fit X w)⟩ =
      .ok (decide (e > 0 ∧ e % 10 = 0) &&
        if sz = p then (((probOn X f g L φ D px m0).viol w l).2 <=. tol)
        else (((probOn X f g L φ D px m0).viol w l).2 <. lit 3 10 *. km)) := by
  unfold stopCD
  by_cases h : e > 0 ∧ e % 10 = 0
  · rw [if_pos h, decide_eq_true h]
    dsimp only
    rw [objective_on hd hp, viol_on hd hp w hw]
    dsimp only [bind, Except.bind]
    rw [Bool.true_and]
    split <;> rfl
  · rw [if_neg h, decide_eq_false h]
    rfl

/-- The solver simulates the solver over the reals, if updates keep the constraint and do not increase the objective. -/
theorem sim_on (hd : DSem ds df X f g L) (hp : OnSem pen φ D px m0) (hL : ∀ j, 0 ≤ L j)
    (hstep : ∀ w j, (probOn X f g L φ D px m0).Inv D w → (probOn X f g L φ D px m0).Inv D ((probOn X f g L φ D px m0).step w j))
    {srt : Argsort XR} (hs : ArgsortSpec srt) (cfg : Solver XR) {ws0 : ℕ} (h0 : ws0 ≤ p) :
    Skel.Sim (skelCD srt ds df pen cfg p ws0) ((probOn X f g L φ D px m0).skel srt cfg ws0)
      (fun s w => s = ⟨vec w, vec (fit X w)⟩ ∧ (probOn X f g L φ D px m0).Inv D w) (RProb.WsOK p ws0)
      (fun _ sz b b' => b = matN (cfg.K + 1) sz b') := by
  have hv : ∀ w : Fin p → ℝ, Feasible D w → (skelCD srt ds df pen cfg p ws0).viol ⟨vec w, vec (fit X w)⟩ =
      .ok ((probOn X f g L φ D px m0).viol w (List.finRange p)) := by
    intro w hw
    have := viol_on hd hp w hw (List.finRange p)
    rwa [finRange_val] at this
  have hm : ∀ (w : Fin p → ℝ) kkt km, Feasible D w →
      (skelCD srt ds df pen cfg p ws0).viol ⟨vec w, vec (fit X w)⟩ = .ok (kkt, km) →
      constructWs srt kkt (vec w) ws0 = pickWs srt kkt p (RProb.nz w) ws0 ∧
        kkt = (probOn X f g L φ D px m0).scores w (List.finRange p) := by
    intro w kkt km hw h
    rw [hv w hw] at h
    have hk : kkt = (probOn X f g L φ D px m0).scores w (List.finRange p) := by
      injection h with h; exact (congrArg Prod.fst h).symm
    have hlen : kkt.length = p := by rw [hk, RProb.scores_length]; simp
    refine ⟨?_, hk⟩
    rw [constructWs_eq srt kkt (vec w) ws0 (by rw [hlen, vec_length]), vec_length]
    exact pickWs_congr srt kkt hlen.le (nz_getD w) ws0
  have hfold : ∀ (l : List (Fin p)) w, (probOn X f g L φ D px m0).Inv D w →
      (probOn X f g L φ D px m0).Inv D (l.foldl (probOn X f g L φ D px m0).step w) := by
    intro l
    induction l with
    | nil => exact fun w hw => hw
    | cons j l ih => exact fun w hw => ih _ (hstep w j hw)
  refine ⟨?_, fun _ => rfl, ?_, ?_, ?_, ?_, ?_, ?_, rfl⟩
  · rintro _ w ⟨rfl, hw⟩
    exact hv w hw.1
  · rintro _ w kkt km ⟨rfl, hw⟩ h
    exact (hm w kkt km hw.1 h).1
  · rintro _ w kkt km ws sz ⟨rfl, hw⟩ h1 _ h3
    obtain ⟨h4, rfl⟩ := hm w kkt km hw.1 h1
    obtain ⟨ws', h5, h6, -⟩ := (probOn X f g L φ D px m0).pick_ok hs h0 w
    have h3' : constructWs srt _ (vec w) ws0 = .ok (ws, sz) := h3
    rw [h4, h5] at h3'
    injection h3' with h3'
    injection h3' with ha hb
    rw [← ha, ← hb]
    exact h6
  · intro ws sz _
    show Mat.zeros _ _ = _
    rw [zeros_eq_mat, matN_eq_mat]
    rfl
  · rintro ws sz _ w ⟨rfl, hw⟩ ⟨l, rfl, -⟩
    show RelM _ (cdEpoch ds df pen (l.map Fin.val) _) (.ok ((finws p (l.map Fin.val)).foldl _ w))
    rw [epoch_on hd hp hL, finws_map]
    exact ⟨rfl, hfold l w hw⟩
  · rintro ws sz e _ b _ w ⟨rfl, hw⟩ ⟨l, rfl, hl, rfl, -⟩ rfl
    show RelM _ (accelCD ds df pen cfg (l.map Fin.val) e _ _)
      ((probOn X f g L φ D px m0).accel cfg (finws p (l.map Fin.val)) e b w)
    rw [finws_map, accel_on hd hp cfg l hl e b w hw]
    have hsp := (probOn X f g L φ D px m0).accel_spec cfg l e b w
    cases hr : (probOn X f g L φ D px m0).accel cfg l e b w with
    | error e => rfl
    | ok r =>
      refine ⟨rfl, rfl, ?_⟩
      rcases Tri.elim_ok hsp hr with h | ⟨pt, h, hlt⟩
      · rw [h]; exact hw
      · rw [h]
        refine ⟨?_, hlt.le.trans hw.2⟩
        by_contra hc
        have := (probOn_feasible (X := X) (f := f) (g := g) (L := L) (φ := φ) (px := px) (m0 := m0) hp.zero).1 hc
        linarith [hw.2]
  · rintro ws sz km e _ w ⟨rfl, hw⟩ ⟨l, rfl, -⟩
    show stopCD ds df pen cfg.tolerance p (l.map Fin.val) sz km e _ = _
    rw [stop_on hd hp _ _ _ _ _ _ hw.1]
    show _ = Except.ok (_ && if sz = p then ((RProb.viol _ w (finws p (l.map Fin.val))).2 <=. _) else _)
    rw [finws_map]

theorem run_on (hd : DSem ds df X f g L) (hp : OnSem pen φ D px m0) (hL : ∀ j, 0 ≤ L j)
    (hstep : ∀ w j, (probOn X f g L φ D px m0).Inv D w → (probOn X f g L φ D px m0).Inv D ((probOn X f g L φ D px m0).step w j))
    {srt : Argsort XR} (hs : ArgsortSpec srt) (cfg : Solver XR) (df0 : DF) :
    runCD srt ds df0 pen cfg =
      (fun q => (⟨vec q.1, vec (fit X q.1)⟩, q.2)) <$> (probOn X f g L φ D px m0).run srt cfg := by
  unfold runCD RProb.run
  rw [hd.nFeatures]
  dsimp only [bind, Except.bind]
  rw [hd.init]
  dsimp only
  have h0 : initCD ds.targets.nSamples p = (⟨vec (fun _ : Fin p => (0 : ℝ)),
      vec (fit X (fun _ : Fin p => (0 : ℝ)))⟩ : CDState XR) := by
    unfold initCD
    rw [replicate_zero_vec, hd.nSamples, replicate_zero_vec]
    congr 2
    funext i
    unfold fit
    simp
  rw [h0]
  have := (sim_on hd hp hL hstep hs cfg (Nat.min_le_right cfg.wsStartSize p)).outer cfg.maxIterations
    ⟨vec (fun _ : Fin p => (0 : ℝ)), vec (fit X (fun _ : Fin p => (0 : ℝ)))⟩ (fun _ => 0) ⟨rfl, fun _ => hp.zero, le_rfl⟩
  exact RelM.eq_map _ this fun x y h => by rw [← h.1.1, ← h.2]

theorem run_on_init {df0 : DF} (hi : Datafit.init df0 ds = .ok df) (hd : @DSem DM DF _ (fixInit DM df) ds df n p X f g L)
    (hp : OnSem pen φ D px m0) (hL : ∀ j, 0 ≤ L j)
    (hstep : ∀ w j, (probOn X f g L φ D px m0).Inv D w → (probOn X f g L φ D px m0).Inv D ((probOn X f g L φ D px m0).step w j))
    {srt : Argsort XR} (hs : ArgsortSpec srt) (cfg : Solver XR) :
    runCD srt ds df0 pen cfg =
      (fun q => (⟨vec q.1, vec (fit X q.1)⟩, q.2)) <$> (probOn X f g L φ D px m0).run srt cfg := by
  have h1 := @run_on (hd := hd) (hp := hp) (hL := hL) (hstep := hstep) (srt := srt) (hs := hs) (cfg := cfg) (df0 := df0)
  rw [← h1]
  unfold runCD
  rw [hi]
  rfl

end Sim
end Sglm
