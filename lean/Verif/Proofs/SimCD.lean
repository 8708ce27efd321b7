import Verif.Proofs.RealRun
import Verif.Proofs.PSem
import Verif.Proofs.Runs

/-!
# The single-task solver on real data is the solver over the reals
-/

namespace Sglm
open Scalar Spec

/-- The problem solved by the single-task solver. -/
noncomputable def probCD {n p : ℕ} (X : Fin n → Fin p → ℝ) (f : (Fin n → ℝ) → ℝ)
    (g : (Fin n → ℝ) → Fin p → ℝ) (L : Fin p → ℝ) (φ : ℝ → ℝ) (px : ℝ → ℝ → ℝ) (sc : ℝ → ℝ → ℝ) (m0 : XR) :
    RProb ℝ p where
  F w := f (fit X w) + ∑ j, φ (w j)
  G w := g (fit X w)
  L := L
  px := px
  sc := sc
  m0 := m0

section
variable {n p : ℕ}

theorem fit_set (X : Fin n → Fin p → ℝ) (w : Fin p → ℝ) (j : Fin p) (a : ℝ) (i : Fin n) :
    fit X (Function.update w j a) i = fit X w i + (a - w j) * X i j := by
  unfold fit
  rw [← Finset.add_sum_erase _ _ (Finset.mem_univ j), ← Finset.add_sum_erase (a := j) _ (fun k => X i k * w k)
    (Finset.mem_univ j), Function.update_self]
  have : ∑ k ∈ Finset.univ.erase j, X i k * Function.update w j a k = ∑ k ∈ Finset.univ.erase j, X i k * w k :=
    Finset.sum_congr rfl fun k hk => by rw [Function.update_of_ne (Finset.ne_of_mem_erase hk)]
  rw [this]
  ring

theorem sum_list_eq (l : List (Fin p)) (hl : l.Nodup) (f : Fin p → ℝ) (hf : ∀ j, j ∉ l → f j = 0) :
    (l.map f).sum = ∑ j, f j := by
  rw [← List.sum_toFinset f hl]
  refine Finset.sum_subset (Finset.subset_univ _) fun j _ hj => hf j ?_
  simpa using hj

theorem store_fold (N m k : ℕ) (hk : k < N) (w : Fin p → ℝ) (l : List (Fin p)) (o : ℕ) (f : ℕ → ℕ → ℝ)
    (h : o + l.length ≤ m) :
    ((l.map Fin.val).zipIdx o).foldlM (fun A (ji : ℕ × ℕ) => do
      let wj ← getM (vec w) ji.1
      A.set2 k ji.2 wj) (matN N m f) =
    .ok (matN N m (fun a c => if a = k ∧ o ≤ c ∧ c < o + l.length then
      (match l[c - o]? with | some j => w j | none => 0) else f a c)) := by
  induction l generalizing o f with
  | nil =>
    show Except.ok _ = _
    congr 2
    funext a c
    rw [if_neg]
    rintro ⟨-, h1, h2⟩
    simp at h2
    omega
  | cons j l ih =>
    rw [List.map_cons, List.zipIdx_cons, List.foldlM_cons]
    dsimp only
    rw [getM_vec]
    show (Mat.set2 _ k o _ >>= _) = _
    rw [List.length_cons] at h
    rw [set2_matN _ _ hk (by omega)]
    show ((l.map Fin.val).zipIdx (o + 1)).foldlM _ _ = _
    rw [ih (o + 1) _ (by omega)]
    congr 2
    funext a c
    rw [List.length_cons]
    by_cases ha : a = k
    · subst ha
      simp only [true_and]
      by_cases hc : c = o
      · subst hc
        rw [if_neg (by omega), if_pos rfl, if_pos ⟨le_rfl, by omega⟩, Nat.sub_self]
        rfl
      · rw [if_neg hc]
        by_cases h2 : o + 1 ≤ c ∧ c < o + 1 + l.length
        · rw [if_pos h2, if_pos ⟨by omega, by omega⟩]
          have : c - o = (c - (o + 1)) + 1 := by omega
          rw [this, List.getElem?_cons_succ]
        · rw [if_neg h2, if_neg (by omega)]
    · simp only [ha, false_and, if_false]

theorem store_eq (N k : ℕ) (hk : k < N) (w : Fin p → ℝ) (l : List (Fin p)) (b : ℕ → ℕ → ℝ) :
    storeIterate (matN N l.length b) (vec w) (l.map Fin.val) k =
      .ok (matN N l.length (Function.update b k (RProb.flat l w))) := by
  have := store_fold N l.length k hk w l 0 b (by omega)
  unfold storeIterate
  refine this.trans ?_
  congr 1
  apply matN_congr
  intro a _ c hc
  by_cases ha : a = k
  · subst ha
    rw [if_pos ⟨rfl, by omega, by omega⟩, Function.update_self]
    unfold RProb.flat
    show _ = match l[c / 1]? with | some j => w j | none => 0
    rw [Nat.div_one, Nat.sub_zero]
  · rw [if_neg (fun h => ha h.1), Function.update_of_ne ha]

theorem scatter_fold (pt : ℕ → ℝ) (l : List (Fin p)) (hl : l.Nodup) (o : ℕ) (u : Fin p → ℝ) :
    (((List.range' o l.length).map (fun i => XR.fin (pt i))).zip (l.map Fin.val)).foldlM
      (fun acc (vj : XR × ℕ) => setM acc vj.2 vj.1) (vec u) =
    .ok (vec (fun j => if j ∈ l then pt (o + l.idxOf j) else u j)) := by
  induction l generalizing o u with
  | nil => simp [pure, Except.pure]
  | cons j l ih =>
    rw [List.length_cons, List.range'_succ, List.map_cons, List.map_cons, List.zip_cons_cons, List.foldlM_cons]
    dsimp only
    rw [setM_vec]
    show (List.foldlM _ _ _) = _
    rw [ih (List.nodup_cons.mp hl).2]
    congr 2
    funext k
    by_cases hk : k = j
    · subst hk
      rw [if_neg (List.nodup_cons.mp hl).1, if_pos List.mem_cons_self, Function.update_self,
        List.idxOf_cons_self, Nat.add_zero]
    · by_cases hm : k ∈ l
      · rw [if_pos hm, if_pos (List.mem_cons_of_mem _ hm), List.idxOf_cons_ne _ (Ne.symm hk)]
        congr 1; omega
      · rw [if_neg hm, if_neg (by simp [hk, hm]), Function.update_of_ne hk]

theorem scatter_eq (pt : ℕ → ℝ) (l : List (Fin p)) (hl : l.Nodup) :
    scatter p (vecN l.length pt) (l.map Fin.val) = .ok (vec (RProb.scat l pt)) := by
  unfold scatter vecN
  rw [replicate_zero_vec, List.range_eq_range']
  refine (scatter_fold pt l hl 0 _).trans (congrArg Except.ok (congrArg vec (funext fun j => ?_)))
  unfold RProb.scat
  split
  · show _ = pt (l.idxOf j * 1 + 0)
    rw [Nat.zero_add, Nat.mul_one, Nat.add_zero]
  · rfl

theorem RelM.eq_map {α β : Type} {R : α → β → Prop} {a : M α} {b : M β} (F : β → α) (h : RelM R a b)
    (hR : ∀ x y, R x y → x = F y) : a = F <$> b := by
  cases a with
  | error e => cases b with
    | error e' => rw [show e = e' from h]; rfl
    | ok q => exact h.elim
  | ok q => cases b with
    | error e => exact h.elim
    | ok q' => rw [hR q q' h]; rfl

theorem scat_zero {E : Type} [AddCommGroup E] [Module ℝ E] [Coord E] (pt : ℕ → ℝ) (l : List (Fin p))
    (j : Fin p) (hj : j ∉ l) : (RProb.scat l pt j : E) = 0 := by
  unfold RProb.scat; rw [if_neg hj]

theorem comb_congr (K : ℕ) (b : ℕ → ℕ → ℝ) {z z' : ℕ → ℝ} (h : ∀ k < K, z k = z' k) : comb K b z = comb K b z' := by
  funext i
  unfold comb
  have : ∑ l ∈ Finset.range K, z l = ∑ l ∈ Finset.range K, z' l :=
    Finset.sum_congr rfl fun k hk => h k (Finset.mem_range.mp hk)
  rw [this]
  exact Finset.sum_congr rfl fun k hk => by rw [h k (Finset.mem_range.mp hk)]

variable {DM DF P : Type} [DesignMatrix XR DM] [Datafit XR DM DF] [Penalty XR P] {ds : Dataset DM XR} {df : DF}
  {pen : P} {X : Fin n → Fin p → ℝ} {f : (Fin n → ℝ) → ℝ} {g : (Fin n → ℝ) → Fin p → ℝ} {L : Fin p → ℝ}
  {φ : ℝ → ℝ} {px : ℝ → ℝ → ℝ} {sc : ℝ → ℝ → ℝ} {m0 : XR}

theorem viol_eq (hd : DSem ds df X f g L) (hp : PSem pen φ px sc m0) (w : Fin p → ℝ) (l : List (Fin p)) :
    optCondViolation ds (vec w) (vec (fit X w)) (l.map Fin.val) df pen =
      .ok ((probCD X f g L φ px sc m0).viol w l) := by
  unfold optCondViolation constructGrad
  rw [List.mapM_map, mapM_ok' (g := fun j => XR.fin (g (fit X w) j))]
  · exact hp.dist w (g (fit X w)) l
  · intro j _
    exact hd.grad _ j

theorem objective_eq (hd : DSem ds df X f g L) (hp : PSem pen φ px sc m0) (w : Fin p → ℝ) :
    objective ds df pen (vec w) (vec (fit X w)) = .ok (XR.fin ((probCD X f g L φ px sc m0).F w)) := by
  unfold objective
  rw [hd.value, hp.value]
  rfl

theorem cdStep_eq (hd : DSem ds df X f g L) (hp : PSem pen φ px sc m0) (hL : ∀ j, 0 ≤ L j) (w : Fin p → ℝ)
    (j : Fin p) :
    cdStep ds df pen ⟨vec w, vec (fit X w)⟩ j =
      .ok ⟨vec ((probCD X f g L φ px sc m0).step w j), vec (fit X ((probCD X f g L φ px sc m0).step w j))⟩ := by
  unfold cdStep RProb.step
  rw [hd.step, getM_vec]
  show (if (XR.fin (L j) ==. zero) = true then _ else _) = _
  rw [XR.s_zero, XR.s_beq]
  by_cases h0 : L j = 0
  · have h0' : (probCD X f g L φ px sc m0).L j = 0 := h0
    rw [if_pos (by simpa using h0), if_pos h0']
    rfl
  · have h0' : ¬ (probCD X f g L φ px sc m0).L j = 0 := h0
    rw [if_neg (by simpa using h0), if_neg h0']
    dsimp only
    rw [getM_vec, hd.grad]
    have hs : 0 < 1 / L j := one_div_pos.mpr (lt_of_le_of_ne (hL j) (Ne.symm h0))
    show (Penalty.prox pen _ _ >>= _) = _
    rw [XR.s_one, XR.s_div _ _ h0, XR.s_div _ _ h0, XR.s_sub, hp.prox _ _ hs]
    have e : w j - g (fit X w) j / L j = w j - (1 / (probCD X f g L φ px sc m0).L j) •
        (probCD X f g L φ px sc m0).G w j := by
      show _ = w j - (1 / L j) * g (fit X w) j
      ring
    rw [e]
    show (setM (vec w) j _ >>= _) = _
    rw [setM_vec]
    show (if _ then _ else _) = _
    rw [XR.s_sub, XR.s_beq]
    set v := px (w j - (1 / (probCD X f g L φ px sc m0).L j) • (probCD X f g L φ px sc m0).G w j) (1 / L j)
    have hfit : fit X (Function.update w j v) = fun i => fit X w i + (v - w j) * X i j :=
      funext fun i => fit_set X w j v i
    show _ = Except.ok (CDState.mk (vec (Function.update w j v)) (vec (fit X (Function.update w j v))))
    by_cases hv : v - w j = 0
    · rw [if_neg (by simp [hv]), hfit, hv]
      simp [pure, Except.pure]
    · rw [if_pos (by simp [hv]), hfit, hd.upd]
      rfl

theorem cdEpoch_eq (hd : DSem ds df X f g L) (hp : PSem pen φ px sc m0) (hL : ∀ j, 0 ≤ L j) (w : Fin p → ℝ)
    (l : List (Fin p)) :
    cdEpoch ds df pen (l.map Fin.val) ⟨vec w, vec (fit X w)⟩ =
      .ok ⟨vec (l.foldl (probCD X f g L φ px sc m0).step w),
        vec (fit X (l.foldl (probCD X f g L φ px sc m0).step w))⟩ := by
  unfold cdEpoch
  rw [List.foldlM_map]
  exact (foldlM_ok (fun w : Fin p → ℝ => (⟨vec w, vec (fit X w)⟩ : CDState XR)) _
    (probCD X f g L φ px sc m0).step l (fun _ => True)
    (fun w _ j _ => ⟨cdStep_eq hd hp hL w j, trivial⟩) w trivial).1

theorem accel_eq (hd : DSem ds df X f g L) (hp : PSem pen φ px sc m0) (cfg : Solver XR) (l : List (Fin p))
    (hl : l.Nodup) (e : ℕ) (b : ℕ → ℕ → ℝ) (w : Fin p → ℝ) :
    accelCD ds df pen cfg (l.map Fin.val) e (matN (cfg.K + 1) l.length b) ⟨vec w, vec (fit X w)⟩ =
      (fun r => (matN (cfg.K + 1) l.length r.1, ⟨vec r.2, vec (fit X r.2)⟩)) <$>
        (probCD X f g L φ px sc m0).accel cfg l e b w := by
  unfold accelCD RProb.accel
  split
  · have hk : e % (cfg.K + 1) < cfg.K + 1 := Nat.mod_lt _ (Nat.succ_pos _)
    unfold andersonAccel
    rw [hd.nFeatures]
    dsimp only [bind, Except.bind]
    rw [store_eq _ _ hk]
    dsimp only
    split
    · rw [List.length_map, diffMatrix_eq]
      dsimp only
      rw [tMulMat_matN]
      dsimp only
      have hdim : l.length * Coord.dim ℝ = l.length := Nat.mul_one _
      rw [hdim]
      set b1 := Function.update b (e % (cfg.K + 1)) (RProb.flat l w)
      have hg : (fun a c => ∑ k ∈ Finset.range cfg.K, (b1 (k + 1) a - b1 k a) * (b1 (k + 1) c - b1 k c)) =
        gram cfg.K b1 := rfl
      rw [hg]
      rcases solve_gram cfg.K l.length b1 with ⟨e', h1, h2⟩ | h1 | ⟨z, h1, h2⟩
      · rw [h1]; rfl
      · rw [h1]; rfl
      · rw [h1]
        dsimp only
        rw [extrapolate_eq _ _ _ _ h2.ne', comb_congr (z := realsOf (vecN cfg.K z)) cfg.K b1
          fun k hk => realsOf_vecN z hk]
        dsimp only
        rw [scatter_eq _ _ hl]
        dsimp only
        rw [hd.nSamples, hd.extra]
        set wa : Fin p → ℝ := RProb.scat l (comb cfg.K b1 z) with hwa
        have hf : (fun i => (l.map (fun j => X i j * wa j)).sum) = fit X wa := by
          funext i
          exact sum_list_eq l hl _ fun j hj => by rw [hwa, scat_zero _ _ _ hj, mul_zero]
        rw [hf]
        dsimp only
        rw [objective_eq hd hp, objective_eq hd hp]
        dsimp only
        rw [XR.s_lt]
        by_cases hlt : (probCD X f g L φ px sc m0).F wa < (probCD X f g L φ px sc m0).F w
        · rw [if_pos (by simpa using hlt), if_pos hlt]; rfl
        · rw [if_neg (by simpa using hlt), if_neg hlt]; rfl
    · rfl
  · rfl

theorem stop_eq (hd : DSem ds df X f g L) (hp : PSem pen φ px sc m0) (tol km : XR) (l : List (Fin p)) (sz e : ℕ)
    (w : Fin p → ℝ) :
    stopCD ds df pen tol p (l.map Fin.val) sz km e ⟨vec w, vec (fit X w)⟩ =
      .ok (decide (e > 0 ∧ e % 10 = 0) &&
        if sz = p then (((probCD X f g L φ px sc m0).viol w l).2 <=. tol)
        else (((probCD X f g L φ px sc m0).viol w l).2 <. lit 3 10 *. km)) := by
  unfold stopCD
  by_cases h : e > 0 ∧ e % 10 = 0
  · rw [if_pos h, decide_eq_true h]
    dsimp only
    rw [objective_eq hd hp, viol_eq hd hp]
    dsimp only [bind, Except.bind]
    rw [Bool.true_and]
    split <;> rfl
  · rw [if_neg h, decide_eq_false h]
    rfl

theorem finRange_val (p : ℕ) : (List.finRange p).map Fin.val = List.range p := by simp

theorem nz_getD (w : Fin p → ℝ) : ∀ j < p, (!((vec w).getD j (zero : XR) ==. zero)) = RProb.nz w j := by
  intro j hj
  rw [List.getD_eq_getElem?_getD, vec_getElem? w ⟨j, hj⟩]
  unfold RProb.nz
  rw [dif_pos hj]
  show (!(XR.fin _ ==. XR.fin 0)) = decide _
  rw [XR.s_beq]
  by_cases h : w ⟨j, hj⟩ = 0 <;> simp [h]

/-- The single-task solver simulates the solver over the reals. -/
theorem simCD (hd : DSem ds df X f g L) (hp : PSem pen φ px sc m0) (hL : ∀ j, 0 ≤ L j) {srt : Argsort XR}
    (hs : ArgsortSpec srt) (cfg : Solver XR) {ws0 : ℕ} (h0 : ws0 ≤ p) :
    Skel.Sim (skelCD srt ds df pen cfg p ws0) ((probCD X f g L φ px sc m0).skel srt cfg ws0)
      (fun s w => s = ⟨vec w, vec (fit X w)⟩) (RProb.WsOK p ws0)
      (fun _ sz b b' => b = matN (cfg.K + 1) sz b') := by
  have hv : ∀ w : Fin p → ℝ, (skelCD srt ds df pen cfg p ws0).viol ⟨vec w, vec (fit X w)⟩ =
      .ok ((probCD X f g L φ px sc m0).viol w (List.finRange p)) := by
    intro w
    have := viol_eq hd hp w (List.finRange p)
    rwa [finRange_val] at this
  have hm : ∀ (w : Fin p → ℝ) kkt km, (skelCD srt ds df pen cfg p ws0).viol ⟨vec w, vec (fit X w)⟩ = .ok (kkt, km) →
      constructWs srt kkt (vec w) ws0 = pickWs srt kkt p (RProb.nz w) ws0 ∧
        kkt = (probCD X f g L φ px sc m0).scores w (List.finRange p) := by
    intro w kkt km h
    rw [hv] at h
    have hk : kkt = (probCD X f g L φ px sc m0).scores w (List.finRange p) := by
      injection h with h; exact (congrArg Prod.fst h).symm
    have hlen : kkt.length = p := by rw [hk, RProb.scores_length]; simp
    refine ⟨?_, hk⟩
    rw [constructWs_eq srt kkt (vec w) ws0 (by rw [hlen, vec_length]), vec_length]
    exact pickWs_congr srt kkt hlen.le (nz_getD w) ws0
  refine ⟨?_, fun _ => rfl, ?_, ?_, ?_, ?_, ?_, ?_, rfl⟩
  · rintro _ w rfl
    exact hv w
  · rintro _ w kkt km rfl h
    exact (hm w kkt km h).1
  · rintro _ w kkt km ws sz rfl h1 _ h3
    obtain ⟨h4, rfl⟩ := hm w kkt km h1
    obtain ⟨ws', h5, h6, -⟩ := (probCD X f g L φ px sc m0).pick_ok hs h0 w
    have h3' : constructWs srt _ (vec w) ws0 = .ok (ws, sz) := h3
    rw [h4, h5] at h3'
    injection h3' with h3'
    injection h3' with ha hb
    rw [← ha, ← hb]
    exact h6
  · intro ws sz _
    show Mat.zeros _ _ = _
    rw [zeros_eq_mat, matN_eq_mat]
    rfl
  · rintro ws sz _ w rfl ⟨l, rfl, -⟩
    show RelM _ (cdEpoch ds df pen (l.map Fin.val) _) (.ok ((finws p (l.map Fin.val)).foldl _ w))
    rw [cdEpoch_eq hd hp hL, finws_map]
    rfl
  · rintro ws sz e _ b _ w rfl ⟨l, rfl, hl, rfl, -⟩ rfl
    show RelM _ (accelCD ds df pen cfg (l.map Fin.val) e _ _)
      ((probCD X f g L φ px sc m0).accel cfg (finws p (l.map Fin.val)) e b w)
    rw [finws_map, accel_eq hd hp cfg l hl]
    cases (probCD X f g L φ px sc m0).accel cfg l e b w with
    | error e => rfl
    | ok r => exact ⟨rfl, rfl⟩
  · rintro ws sz km e _ w rfl ⟨l, rfl, -⟩
    show stopCD ds df pen cfg.tolerance p (l.map Fin.val) sz km e _ = _
    rw [stop_eq hd hp]
    show _ = Except.ok (_ && if sz = p then ((RProb.viol _ w (finws p (l.map Fin.val))).2 <=. _) else _)
    rw [finws_map]

/-- Runs of the single-task solver on real data. -/
theorem runCD_eq (hd : DSem ds df X f g L) (hp : PSem pen φ px sc m0) (hL : ∀ j, 0 ≤ L j) {srt : Argsort XR}
    (hs : ArgsortSpec srt) (cfg : Solver XR) (df0 : DF) :
    runCD srt ds df0 pen cfg =
      (fun q => (⟨vec q.1, vec (fit X q.1)⟩, q.2)) <$> (probCD X f g L φ px sc m0).run srt cfg := by
  unfold runCD RProb.run
  rw [hd.nFeatures]
  dsimp only [bind, Except.bind]
  rw [hd.init]
  dsimp only
  have h0 : initCD ds.targets.nSamples p = (⟨vec (fun _ : Fin p => (0 : ℝ)),
      vec (fit X (fun _ : Fin p => (0 : ℝ)))⟩ : CDState XR) := by
    unfold initCD
    rw [replicate_zero_vec, hd.nSamples, replicate_zero_vec]
    congr 2
    funext i
    unfold fit
    simp
  rw [h0]
  have := (simCD hd hp hL hs cfg (Nat.min_le_right cfg.wsStartSize p)).outer cfg.maxIterations
    ⟨vec (fun _ : Fin p => (0 : ℝ)), vec (fit X (fun _ : Fin p => (0 : ℝ)))⟩ (fun _ => 0) rfl
  exact RelM.eq_map _ this fun x y h => by rw [← h.1, ← h.2]

/-- `solve` on real data. -/
theorem solveCD_eq (hd : DSem ds df X f g L) (hp : PSem pen φ px sc m0) (hL : ∀ j, 0 ≤ L j) {srt : Argsort XR}
    (hs : ArgsortSpec srt) (cfg : Solver XR) (df0 : DF) :
    cfg.solve srt ds df0 pen = (fun q => vec q.1) <$> (probCD X f g L φ px sc m0).run srt cfg := by
  rw [solve_eq, runCD_eq hd hp hL hs]
  cases (probCD X f g L φ px sc m0).run srt cfg <;> rfl

end
end Sglm
