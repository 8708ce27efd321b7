import Verif.Proofs.SafeMT

/-!
# Extrapolation with a working set smaller than the number of stored iterates
-/

set_option linter.unusedSectionVars false

namespace Sglm
open Scalar Spec

section
variable {F : Type}

theorem Tri.mapM_false {α β : Type} {E : Panic → Prop} (f : α → M β) (l : List α)
    (h : ∀ a ∈ l, Tri E (f a) (fun _ => True)) (hx : ∃ a ∈ l, Tri E (f a) (fun _ => False)) :
    Tri E (l.mapM f) (fun _ => False) := by
  refine Tri.mono (Q := fun r => List.Forall₂ (fun a _ => Tri E (f a) (fun _ => False) → False) l r)
    (Tri.mapM _ f l fun a ha => ?_) fun r hr => ?_
  · have h1 := h a ha
    cases hfa : f a with
    | error e => rw [hfa] at h1; exact h1
    | ok b => intro h2; exact h2
  · obtain ⟨a, ha, hf⟩ := hx
    obtain ⟨i, hi, rfl⟩ := List.getElem_of_mem ha
    have := List.forall₂_iff_get.mp hr
    exact this.2 i hi (by rw [← this.1]; exact hi) hf

theorem Tri.false_bind {α β : Type} {E : Panic → Prop} {m : M α} {f : α → M β} {Q : β → Prop}
    (h : Tri E m (fun _ => False)) : Tri E (m >>= f) Q :=
  Tri.bind h fun _ hf => hf.elim

theorem Tri.false_iff {α : Type} {e : Panic} {m : M α} : Tri (· = e) m (fun _ => False) ↔ m = .error e := by
  cases m with
  | ok a => simp
  | error e' => simp

theorem getM_idx {α : Type} (l : List α) (i : ℕ) :
    Tri (· = .index) (getM l i) (fun a => l[i]? = some a) := by
  by_cases h : i < l.length
  · exact Tri.getM h
  · unfold getM
    rw [List.getElem?_eq_none (by omega)]
    rfl

variable [Scalar F]

theorem augment_panics {A : Mat F} {r c : ℕ} (hA : Shaped A r c) {b : List F} (hb : c < b.length) :
    augment A b = .error .index := by
  rw [← Tri.false_iff]
  unfold augment
  have hget : ∀ i j, Tri (· = .index) (A.get2 i j) (fun _ => j < c) := by
    intro i j
    unfold Mat.get2
    refine Tri.bind (getM_idx _ _) fun x hx => ?_
    refine Tri.mono (getM_idx _ _) fun a ha => ?_
    rw [← hA.2.2 x (List.mem_of_getElem? hx)]
    exact (List.getElem?_eq_some_iff.mp ha).1
  have hrow : ∀ i, Tri (· = .index) ((List.range (b.length + 1)).mapM
      (fun j => if j = b.length then getM b i else A.get2 i j)) (fun _ => False) := by
    intro i
    refine Tri.mapM_false _ _ (fun j _ => ?_) ⟨c, List.mem_range.mpr (by omega), ?_⟩
    · split
      · exact Tri.mono (getM_idx _ _) fun _ _ => trivial
      · exact Tri.mono (hget i j) fun _ _ => trivial
    · rw [if_neg (by omega)]
      exact Tri.mono (hget i c) fun _ h => absurd h (Nat.lt_irrefl _)
  refine Tri.false_bind (Tri.mapM_false _ _ (fun i _ => ?_)
    ⟨0, List.mem_range.mpr (Nat.lt_of_le_of_lt (Nat.zero_le _) hb), hrow 0⟩)
  exact Tri.mono (hrow i) fun _ h => h.elim

theorem solveLinSys_panics {A : Mat F} {r c : ℕ} (hA : Shaped A r c) {b : List F} (hb : c < b.length) :
    solveLinSys A b = .error .index := by
  unfold solveLinSys
  rw [augment_panics hA hb]
  rfl

end

/-- Loops of the skeleton that panic at epoch `K`. -/
theorem Skel.inner_panics {F S B : Type} {sk : Skel F S B} {E : Panic → Prop} {Inv : S → Prop}
    {BInv : B → Prop} {ws : List ℕ} {sz K : ℕ} {km : F}
    (epoch : ∀ s, Inv s → Tri E (sk.epoch ws s) Inv)
    (accel : ∀ e b s, e < K → Inv s → BInv b → Tri E (sk.accel ws e b s) (fun r => BInv r.1 ∧ Inv r.2))
    (stop : ∀ e s, e < K → Inv s → Tri E (sk.stop ws sz km e s) (fun x => x = false))
    (bad : ∀ b s, Inv s → BInv b → Tri E (sk.accel ws K b s) (fun _ => False)) :
    ∀ (r e : ℕ) (b : B) (s : S), e ≤ K → K < e + r → Inv s → BInv b →
      Tri E (sk.inner ws sz km r e b s) (fun _ => False) := by
  intro r
  induction r with
  | zero => intro e b s h1 h2; omega
  | succ r ih =>
    intro e b s h1 h2 hs hb
    unfold Skel.inner
    refine Tri.bind (epoch s hs) fun s hs => ?_
    by_cases he : e = K
    · subst he
      exact Tri.false_bind (bad b s hs hb)
    · refine Tri.bind (accel e b s (by omega) hs hb) fun ⟨b', s'⟩ h => ?_
      refine Tri.bind (stop e s' (by omega) h.2) fun x hx => ?_
      subst hx
      exact ih (e + 1) b' s' (by omega) (by omega) h.2 h.1

section
variable {F DM DF P : Type} [Scalar F] [DesignMatrix F DM] [Datafit F DM DF] [Penalty F P]
  {ds : Dataset DM F} {df : DF} {pen : P} {n nf : ℕ}

theorem accel_early (hnf : DesignMatrix.nFeatures (F := F) ds.designMatrix = .ok nf)
    {st : CDState F} {ws : List ℕ} {B : Mat F} {K e : ℕ} {v : Bool} {log : List (Event F)}
    (hw : st.w.length = nf) (hX : st.Xw.length = n) (hws : ∀ j ∈ ws, j < nf)
    (hB : Shaped B (K + 1) ws.length) (he : e < K) :
    Ok (andersonAccel ds df pen B st ws e K v log)
      (fun r => Shaped r.1 (K + 1) ws.length ∧ r.2.1.w.length = nf ∧ r.2.1.Xw.length = n) := by
  unfold andersonAccel
  rw [hnf]
  refine Tri.bind (Q := fun k => k = nf) rfl fun k hk => ?_
  subst hk
  refine Tri.bind (storeIterate_safe hB (by rw [hw]; exact hws) (Nat.mod_lt _ (Nat.succ_pos _))) fun B1 hB1 => ?_
  rw [if_neg (by rw [Nat.mod_eq_of_lt (by omega)]; omega)]
  exact ⟨hB1, hw, hX⟩

theorem accel_panics (hnf : DesignMatrix.nFeatures (F := F) ds.designMatrix = .ok nf)
    {st : CDState F} {ws : List ℕ} {B : Mat F} {K : ℕ} {v : Bool} {log : List (Event F)}
    (hw : st.w.length = nf) (hws : ∀ j ∈ ws, j < nf)
    (hB : Shaped B (K + 1) ws.length) (hK : ws.length < K) :
    Tri (· = .index) (andersonAccel ds df pen B st ws K K v log) (fun _ => False) := by
  unfold andersonAccel
  rw [hnf]
  refine Tri.bind (Q := fun k => k = nf) rfl fun k hk => ?_
  subst hk
  refine Tri.bind (Tri.ofOk (storeIterate_safe hB (by rw [hw]; exact hws) (Nat.mod_lt _ (Nat.succ_pos _)))) fun B1 hB1 => ?_
  rw [if_pos (Nat.mod_eq_of_lt (by omega))]
  refine Tri.bind (Tri.ofOk (diffMatrix_safe hB1)) fun U hU => ?_
  refine Tri.bind (Tri.ofOk (tMulMat_safe hU hU)) fun C hC => ?_
  rw [solveLinSys_panics hC (by simpa using hK)]
  rfl

/-- The accelerated solver panics if the working set has fewer than `K` features. -/
theorem solve_panics {srt : Argsort F} (hs : ArgsortSpec srt) (cfg : Solver F) (df0 : DF)
    (hn : ds.targets.nSamples = n)
    (hnf : DesignMatrix.nFeatures (F := F) ds.designMatrix = .ok nf)
    (hi : Datafit.init df0 ds = .ok df) (hf : SafeFit ds df n nf) (hp : SafePen pen)
    (hu : cfg.useAcceleration = true) (hK : nf < cfg.K) (hK10 : cfg.K ≤ 10)
    (he : cfg.K < cfg.maxEpochs) (hit : 0 < cfg.maxIterations) {kkt : List F} {km : F}
    (hv : optCondViolation ds (List.replicate nf zero) (List.replicate n zero) (List.range nf) df pen =
      .ok (kkt, km)) (hkm : (km <=. cfg.tolerance) = false) :
    Tri (fun e => e = .index ∨ e = .nanCompare) (cfg.solve srt ds df0 pen) (fun _ => False) := by
  rw [solve_eq]
  unfold runCD
  rw [hnf, hi]
  refine Tri.bind (Q := fun _ => False) ?_ fun q hq => hq.elim
  refine Tri.bind (Q := fun k => k = nf) rfl fun k hk => ?_
  subst hk
  refine Tri.bind (Q := fun d => d = df) rfl fun d hd => ?_
  subst hd
  obtain ⟨r, hr⟩ : ∃ r, cfg.maxIterations = r + 1 := ⟨cfg.maxIterations - 1, by omega⟩
  rw [hr]
  unfold Skel.outer
  have hv' : (skelCD srt ds d pen cfg k (ws0CD cfg k)).viol (initCD ds.targets.nSamples k) = .ok (kkt, km) := by
    rw [hn]; exact hv
  rw [hv']
  refine Tri.bind (Q := fun q => q = (kkt, km)) rfl fun q hq => ?_
  subst hq
  dsimp only
  have hd : (skelCD srt ds d pen cfg k (ws0CD cfg k)).done km = false := hkm
  rw [hd]
  have hkl : kkt.length = k := by
    have := viol_safe (ws := List.range k) hf hp (w := List.replicate k zero) (Xw := List.replicate n zero)
      (by simp) (by simp) fun j hj => List.mem_range.mp hj
    have h2 := Tri.elim_ok this hv
    rwa [List.length_range] at h2
  refine Tri.bind (Q := fun q : List ℕ × ℕ => (∀ j ∈ q.1, j < k) ∧ q.2 = q.1.length ∧ q.1.length ≤ k) ?_
    fun ⟨ws, sz⟩ hws => ?_
  · have := constructWs_safe hs (kkt := kkt) (w := List.replicate k (zero : F)) (start := ws0CD cfg k)
      (by rw [hkl]; simp) (by rw [List.length_replicate]; exact Nat.min_le_right _ _)
    refine Tri.monoE (Tri.mono this fun q hq => ?_) fun e h => Or.inr h
    rw [List.length_replicate] at hq
    exact ⟨hq.1, hq.2.1, hq.2.2.2⟩
  dsimp only at hws ⊢
  obtain ⟨h1, rfl, h3⟩ := hws
  refine Tri.false_bind (Skel.inner_panics (K := cfg.K) (Inv := fun s => s.w.length = k ∧ s.Xw.length = n)
    (BInv := fun b => Shaped b (cfg.K + 1) ws.length) ?_ ?_ ?_ ?_ _ _ _ _ (Nat.zero_le _) (by
      show cfg.K < 0 + cfg.maxEpochs
      omega) ?_ Shaped.zeros)
  · exact fun s hs => Tri.ofOk (cdEpoch_safe hf hp hs.1 hs.2 h1)
  · intro e b s he hs hb
    show Tri _ (accelCD ds d pen cfg ws e b s) _
    unfold accelCD
    rw [if_pos hu]
    exact Tri.ofOk (Tri.bind (accel_early hnf hs.1 hs.2 h1 hb he) fun r hr => hr)
  · intro e s he hs
    show Tri _ (stopCD ds d pen cfg.tolerance k ws ws.length km e s) _
    unfold stopCD
    rw [if_neg (by omega)]
    rfl
  · intro b s hs hb
    show Tri _ (accelCD ds d pen cfg ws cfg.K b s) _
    unfold accelCD
    rw [if_pos hu]
    exact Tri.monoE (Tri.false_bind (accel_panics hnf hs.1 h1 hb (Nat.lt_of_le_of_lt h3 hK)))
      fun e h => Or.inl h
  · unfold initCD
    simp [hn]

end

namespace MT
section
variable {F DM DF P : Type} [Scalar F] [DesignMatrix F DM] [MTDatafit F DM DF] [MTPenalty F P]
  {ds : Dataset DM F} {df : DF} {pen : P} {n nf t : ℕ}

theorem accel_early (hnf : DesignMatrix.nFeatures (F := F) ds.designMatrix = .ok nf)
    {st : BCDState F} {ws : List ℕ} {B : Mat F} {K e : ℕ} {v : Bool} {log : List (Event F)}
    (hw : Shaped st.W nf t) (hX : Shaped st.XW n t) (hws : ∀ j ∈ ws, j < nf)
    (hB : Shaped B (K + 1) (ws.length * t)) (he : e < K) :
    Ok (andersonAccel ds df pen B st ws e K v log)
      (fun r => Shaped r.1 (K + 1) (ws.length * t) ∧ Shaped r.2.1.W nf t ∧ Shaped r.2.1.XW n t) := by
  unfold andersonAccel
  rw [hnf]
  refine Tri.bind (Q := fun k => k = nf) rfl fun k hk => ?_
  subst hk
  refine Tri.bind (storeIterate_safe hB hw hws (Nat.mod_lt _ (Nat.succ_pos _))) fun B1 hB1 => ?_
  rw [if_neg (by rw [Nat.mod_eq_of_lt (by omega)]; omega)]
  exact ⟨hB1, hw, hX⟩

theorem accel_panics (hnf : DesignMatrix.nFeatures (F := F) ds.designMatrix = .ok nf)
    (ht : ds.targets.nTasks = t)
    {st : BCDState F} {ws : List ℕ} {B : Mat F} {K : ℕ} {v : Bool} {log : List (Event F)}
    (hw : Shaped st.W nf t) (hws : ∀ j ∈ ws, j < nf)
    (hB : Shaped B (K + 1) (ws.length * t)) (hK : ws.length * t < K) :
    Tri (· = .index) (andersonAccel ds df pen B st ws K K v log) (fun _ => False) := by
  unfold andersonAccel
  rw [hnf, ht]
  refine Tri.bind (Q := fun k => k = nf) rfl fun k hk => ?_
  subst hk
  refine Tri.bind (Tri.ofOk (storeIterate_safe hB hw hws (Nat.mod_lt _ (Nat.succ_pos _)))) fun B1 hB1 => ?_
  rw [if_pos (Nat.mod_eq_of_lt (by omega))]
  refine Tri.bind (Tri.ofOk (diffMatrix_safe hB1)) fun U hU => ?_
  refine Tri.bind (Tri.ofOk (tMulMat_safe hU hU)) fun C hC => ?_
  rw [solveLinSys_panics hC (by simpa using hK)]
  rfl

/-- The accelerated multi-task solver panics if the working set has fewer than `K / n_tasks` features. -/
theorem solve_panics {srt : Argsort F} (hs : ArgsortSpec srt) (cfg : Solver F) (df0 : DF)
    (hn : ds.targets.nSamples = n) (ht : ds.targets.nTasks = t)
    (hnf : DesignMatrix.nFeatures (F := F) ds.designMatrix = .ok nf)
    (hi : MTDatafit.init df0 ds = .ok df) (hf : SafeFit ds df n nf t) (hp : SafePen pen)
    (hu : cfg.useAcceleration = true) (hK : nf * t < cfg.K) (hK10 : cfg.K ≤ 10)
    (he : cfg.K < cfg.maxEpochs) (hit : 0 < cfg.maxIterations) {kkt : List F} {km : F}
    (hv : optCondViolation ds (Mat.zeros nf t) (Mat.zeros n t) (List.range nf) df pen =
      .ok (kkt, km)) (hkm : (km <=. cfg.tolerance) = false) :
    Tri (fun e => e = .index ∨ e = .nanCompare) (cfg.solveMultiTask srt ds df0 pen) (fun _ => False) := by
  rw [solve_eq]
  unfold runBCD
  rw [hnf, hi]
  refine Tri.bind (Q := fun _ => False) ?_ fun q hq => hq.elim
  refine Tri.bind (Q := fun k => k = nf) rfl fun k hk => ?_
  subst hk
  refine Tri.bind (Q := fun d => d = df) rfl fun d hd => ?_
  subst hd
  obtain ⟨r, hr⟩ : ∃ r, cfg.maxIterations = r + 1 := ⟨cfg.maxIterations - 1, by omega⟩
  rw [hr]
  unfold Skel.outer
  have hv' : (skelBCD srt ds d pen cfg k (ws0CD cfg k)).viol
      (initBCD ds.targets.nSamples k ds.targets.nTasks) = .ok (kkt, km) := by
    rw [hn, ht]; exact hv
  rw [hv']
  refine Tri.bind (Q := fun q => q = (kkt, km)) rfl fun q hq => ?_
  subst hq
  dsimp only
  have hd : (skelBCD srt ds d pen cfg k (ws0CD cfg k)).done km = false := hkm
  rw [hd]
  have hz : (Mat.zeros k t : Mat F).nrows = k := by simp [Mat.zeros, Mat.nrows]
  have hkl : kkt.length = k := by
    have := viol_safe (ws := List.range k) ht hf hp (W := Mat.zeros k t) (XW := Mat.zeros n t)
      Shaped.zeros Shaped.zeros fun j hj => List.mem_range.mp hj
    have h2 := Tri.elim_ok this hv
    rwa [List.length_range] at h2
  refine Tri.bind (Q := fun q : List ℕ × ℕ => (∀ j ∈ q.1, j < k) ∧ q.2 = q.1.length ∧ q.1.length ≤ k) ?_
    fun ⟨ws, sz⟩ hws => ?_
  · show Tri _ (constructWs srt kkt (Mat.zeros k ds.targets.nTasks) (ws0CD cfg k)) _
    rw [ht]
    have := constructWs_safe hs (kkt := kkt) (W := (Mat.zeros k t : Mat F)) (start := ws0CD cfg k)
      (by rw [hkl, hz]) (by rw [hz]; exact Nat.min_le_right _ _)
    refine Tri.monoE (Tri.mono this fun q hq => ?_) fun e h => Or.inr h
    rw [hz] at hq
    exact ⟨hq.1, hq.2.1, hq.2.2.2⟩
  dsimp only at hws ⊢
  obtain ⟨h1, rfl, h3⟩ := hws
  refine Tri.false_bind (Skel.inner_panics (K := cfg.K) (Inv := fun s => Shaped s.W k t ∧ Shaped s.XW n t)
    (BInv := fun b => Shaped b (cfg.K + 1) (ws.length * t)) ?_ ?_ ?_ ?_ _ _ _ _ (Nat.zero_le _) (by
      show cfg.K < 0 + cfg.maxEpochs
      omega) ?_ (by
      show Shaped (Mat.zeros (cfg.K + 1) (ws.length * ds.targets.nTasks)) _ _
      rw [ht]; exact Shaped.zeros))
  · exact fun s hs => Tri.ofOk (bcdEpoch_safe ht hf hp hs.1 hs.2 h1)
  · intro e b s he hs hb
    show Tri _ (accelBCD ds d pen cfg ws e b s) _
    unfold accelBCD
    rw [if_pos hu]
    exact Tri.ofOk (Tri.bind (accel_early hnf hs.1 hs.2 h1 hb he) fun r hr => hr)
  · intro e s he hs
    show Tri _ (stopBCD ds d pen cfg.tolerance k ws ws.length km e s) _
    unfold stopBCD
    rw [if_neg (by omega)]
    rfl
  · intro b s hs hb
    show Tri _ (accelBCD ds d pen cfg ws cfg.K b s) _
    unfold accelBCD
    rw [if_pos hu]
    exact Tri.monoE (Tri.false_bind (accel_panics hnf ht hs.1 h1 hb
      (Nat.lt_of_le_of_lt (Nat.mul_le_mul_right t h3) hK))) fun e h => Or.inl h
  · unfold initBCD
    rw [hn, ht]
    exact ⟨Shaped.zeros, Shaped.zeros⟩

end
end MT
end Sglm
