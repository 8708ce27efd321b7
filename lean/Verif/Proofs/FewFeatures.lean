import Verif.Proofs.AccelPanic
import Verif.Proofs.Quiet

/-!
# Accelerated runs whose first working set is smaller than `K` return zeros or panic
-/

set_option linter.unusedSectionVars false

namespace Sglm
open Scalar LawfulCmp

theorem foldlM_skip {α β : Type} {f : β → α → M β} {b : β} {l : List α} (h : ∀ a ∈ l, f b a = .ok b) : l.foldlM f b = .ok b := by
  induction l with
  | nil => rfl
  | cons a l ih =>
    rw [List.foldlM_cons, h a List.mem_cons_self]
    exact ih fun a ha => h a (List.mem_cons_of_mem _ ha)

theorem zero_beq_zero {F : Type} [Scalar F] [LawfulCmp F] : ((zero : F) ==. zero) = true :=
  (beq_iff _ _).mpr ⟨0, 0, key_zero, key_zero, rfl⟩

/-- At zero, the working set has the initial size. -/
theorem constructWs_zero {F : Type} [Scalar F] [LawfulCmp F] {srt : Argsort F} {kkt : List F} {k start : ℕ} {r : List ℕ × ℕ}
    (h : constructWs srt kkt (List.replicate k zero) start = .ok r) : r.1.length = start := by
  unfold constructWs markSupport at h
  rw [foldlM_skip (b := (kkt, 0)) fun j hj => by
    have hg : getM (List.replicate k (zero : F)) j = .ok zero := by
      unfold getM
      rw [List.getElem?_eq_getElem (List.mem_range.mp hj), List.getElem_replicate]
    rw [hg]
    show (if !((zero : F) ==. zero) then _ else _) = _
    rw [zero_beq_zero]
    rfl] at h
  simp only [bind, Except.bind] at h
  cases hsrt : srt kkt with
  | error e => rw [hsrt] at h; cases h
  | ok l =>
    rw [hsrt] at h
    dsimp only at h
    split at h
    · rename_i he
      injection h with h
      rw [← h]
      simpa using he
    · cases h

/-- The same for several tasks. -/
theorem MT.constructWs_zero {F : Type} [Scalar F] [LawfulCmp F] {srt : Argsort F} {kkt : List F} {k t start : ℕ} {r : List ℕ × ℕ}
    (h : MT.constructWs srt kkt (Mat.zeros k t) start = .ok r) : r.1.length = start := by
  unfold MT.constructWs MT.markSupport at h
  rw [foldlM_skip (b := (kkt, 0)) fun j hj => by
    have hj : j < k := by simpa [Mat.nrows, Mat.zeros] using List.mem_range.mp hj
    have hg : (Mat.zeros k t : Mat F).rowM j = .ok (List.replicate t zero) := by
      unfold Mat.rowM getM Mat.zeros
      dsimp only
      rw [List.getElem?_replicate, if_pos hj]
    rw [hg]
    have h0 : anyNonzero (List.replicate t (zero : F)) = false := by
      unfold anyNonzero
      rw [List.any_eq_false]
      intro x hx
      rw [List.eq_of_mem_replicate hx, zero_beq_zero]
      decide
    show (if anyNonzero (List.replicate t (zero : F)) then _ else _) = _
    rw [h0]
    rfl] at h
  simp only [bind, Except.bind] at h
  cases hsrt : srt kkt with
  | error e => rw [hsrt] at h; cases h
  | ok l =>
    rw [hsrt] at h
    dsimp only at h
    split at h
    · rename_i he
      injection h with h
      rw [← h]
      simpa using he
    · cases h

section
variable {F DM DF P : Type} [Scalar F] [LawfulCmp F] [DesignMatrix F DM] [Datafit F DM DF] [Penalty F P]
  {ds : Dataset DM F} {df : DF} {pen : P} {n nf : ℕ}

theorem solve_zero_or_index {srt : Argsort F} (hs : ArgsortSpec srt) (cfg : Solver F) (df0 : DF)
    (hn : ds.targets.nSamples = n)
    (hnf : DesignMatrix.nFeatures (F := F) ds.designMatrix = .ok nf)
    (hi : Datafit.init df0 ds = .ok df) (hf : SafeFit ds df n nf) (hp : SafePen pen) (hq : QuietPen (F := F) pen)
    (hu : cfg.useAcceleration = true) (hK : ws0CD cfg nf < cfg.K) (hK10 : cfg.K ≤ 10)
    (he : cfg.K < cfg.maxEpochs) :
    Tri (· = .index) (cfg.solve srt ds df0 pen) (fun w => w = List.replicate nf zero) := by
  rw [solve_eq]
  unfold runCD
  rw [hnf, hi]
  refine Tri.bind (Q := fun q : CDState F × ℕ => q.1.w = List.replicate nf zero) ?_ fun q hq => hq
  refine Tri.bind (Q := fun k => k = nf) rfl fun k hk => ?_
  subst hk
  refine Tri.bind (Q := fun d => d = df) rfl fun d hd => ?_
  subst hd
  cases hr : cfg.maxIterations with
  | zero => exact rfl
  | succ r => ?_
  unfold Skel.outer
  have hvs := viol_safe (ws := List.range k) hf hp (w := List.replicate k zero) (Xw := List.replicate n zero)
    (by simp) (by simp) fun j hj => List.mem_range.mp hj
  obtain ⟨⟨kkt, km⟩, hv, hkl⟩ := Tri.exists_ok hvs
  rw [List.length_range] at hkl
  have hv' : (skelCD srt ds d pen cfg k (ws0CD cfg k)).viol (initCD ds.targets.nSamples k) = .ok (kkt, km) := by
    rw [hn]; exact hv
  rw [hv']
  refine Tri.bind (Q := fun q => q = (kkt, km)) rfl fun q hq => ?_
  subst hq
  dsimp only at hkl ⊢
  by_cases hd : (skelCD srt ds d pen cfg k (ws0CD cfg k)).done km = true
  · rw [if_pos hd]
    exact rfl
  rw [if_neg hd]
  refine Tri.bind (Q := fun q : List ℕ × ℕ => (∀ j ∈ q.1, j < k) ∧ q.2 = q.1.length ∧ q.1.length = ws0CD cfg k) ?_
    fun ⟨ws, sz⟩ hws => ?_
  · have := constructWs_quiet hs (kkt := kkt) (w := List.replicate k (zero : F)) (start := ws0CD cfg k)
      (by rw [hkl]; simp) (by rw [List.length_replicate]; exact Nat.min_le_right _ _) (fun j wj x hw hz hx => by
        unfold optCondViolation at hv
        cases hg : constructGrad ds (List.replicate n zero) (List.range k) d with
        | error e => rw [hg] at hv; cases hv
        | ok g =>
          rw [hg] at hv
          have hj : j < k := by
            by_contra hc
            rw [List.getElem?_eq_none_iff.mpr (by rw [List.length_replicate]; omega)] at hw
            cases hw
          exact hq _ g (List.range k) kkt km hv j j wj x (by rw [List.getElem?_range hj]) hw hz hx)
    obtain ⟨q, hok, hq⟩ := Tri.exists_ok this
    rw [List.length_replicate] at hq
    show Tri _ (constructWs srt kkt (List.replicate k zero) (ws0CD cfg k)) _
    rw [hok]
    exact ⟨hq.1, hq.2.1, constructWs_zero hok⟩
  dsimp only at hws ⊢
  obtain ⟨h1, rfl, h3⟩ := hws
  refine Tri.false_bind (Skel.inner_panics (K := cfg.K) (Inv := fun s => s.w.length = k ∧ s.Xw.length = n)
    (BInv := fun b => Shaped b (cfg.K + 1) ws.length) ?_ ?_ ?_ ?_ _ _ _ _ (Nat.zero_le _) (by
      show cfg.K < 0 + cfg.maxEpochs
      omega) ?_ Shaped.zeros)
  · exact fun s hs => Tri.ofOk (cdEpoch_safe hf hp hs.1 hs.2 h1)
  · intro e b s he hs hb
    show Tri _ (accelCD ds d pen cfg ws e b s) _
    unfold accelCD
    rw [if_pos hu]
    exact Tri.ofOk (Tri.bind (accel_early hnf hs.1 hs.2 h1 hb he) fun r hr => hr)
  · intro e s he hs
    show Tri _ (stopCD ds d pen cfg.tolerance k ws ws.length km e s) _
    unfold stopCD
    rw [if_neg (by omega)]
    rfl
  · intro b s hs hb
    show Tri _ (accelCD ds d pen cfg ws cfg.K b s) _
    unfold accelCD
    rw [if_pos hu]
    exact Tri.false_bind (accel_panics hnf hs.1 h1 hb (by rw [h3]; exact hK))
  · unfold initCD
    simp [hn]

end

namespace MT
section
variable {F DM DF P : Type} [Scalar F] [LawfulCmp F] [DesignMatrix F DM] [MTDatafit F DM DF] [MTPenalty F P]
  {ds : Dataset DM F} {df : DF} {pen : P} {n nf t : ℕ}

theorem solve_zero_or_index {srt : Argsort F} (hs : ArgsortSpec srt) (cfg : Solver F) (df0 : DF)
    (hn : ds.targets.nSamples = n) (ht : ds.targets.nTasks = t)
    (hnf : DesignMatrix.nFeatures (F := F) ds.designMatrix = .ok nf)
    (hi : MTDatafit.init df0 ds = .ok df) (hf : SafeFit ds df n nf t) (hp : SafePen pen) (hq : QuietPen (F := F) pen)
    (hu : cfg.useAcceleration = true) (hK : ws0CD cfg nf * t < cfg.K) (hK10 : cfg.K ≤ 10)
    (he : cfg.K < cfg.maxEpochs) :
    Tri (· = .index) (cfg.solveMultiTask srt ds df0 pen) (fun W => W = Mat.zeros nf t) := by
  rw [solve_eq]
  unfold runBCD
  rw [hnf, hi]
  refine Tri.bind (Q := fun q : BCDState F × ℕ => q.1.W = Mat.zeros nf t) ?_ fun q hq => hq
  refine Tri.bind (Q := fun k => k = nf) rfl fun k hk => ?_
  subst hk
  refine Tri.bind (Q := fun d => d = df) rfl fun d hd => ?_
  subst hd
  cases hr : cfg.maxIterations with
  | zero => exact congrArg (Mat.zeros k) ht
  | succ r => ?_
  unfold Skel.outer
  have hz : (Mat.zeros k t : Mat F).nrows = k := by simp [Mat.zeros, Mat.nrows]
  have hvs := viol_safe (ws := List.range k) ht hf hp (W := Mat.zeros k t) (XW := Mat.zeros n t)
    Shaped.zeros Shaped.zeros fun j hj => List.mem_range.mp hj
  obtain ⟨⟨kkt, km⟩, hv, hkl⟩ := Tri.exists_ok hvs
  rw [List.length_range] at hkl
  have hv' : (skelBCD srt ds d pen cfg k (ws0CD cfg k)).viol
      (initBCD ds.targets.nSamples k ds.targets.nTasks) = .ok (kkt, km) := by
    rw [hn, ht]; exact hv
  rw [hv']
  refine Tri.bind (Q := fun q => q = (kkt, km)) rfl fun q hq => ?_
  subst hq
  dsimp only at hkl ⊢
  by_cases hd : (skelBCD srt ds d pen cfg k (ws0CD cfg k)).done km = true
  · rw [if_pos hd]
    exact congrArg (Mat.zeros k) ht
  rw [if_neg hd]
  refine Tri.bind (Q := fun q : List ℕ × ℕ => (∀ j ∈ q.1, j < k) ∧ q.2 = q.1.length ∧ q.1.length = ws0CD cfg k) ?_
    fun ⟨ws, sz⟩ hws => ?_
  · show Tri _ (constructWs srt kkt (Mat.zeros k ds.targets.nTasks) (ws0CD cfg k)) _
    rw [ht]
    have := constructWs_quiet hs (kkt := kkt) (W := (Mat.zeros k t : Mat F)) (start := ws0CD cfg k)
      (by rw [hkl, hz]) (by rw [hz]; exact Nat.min_le_right _ _) (fun j Wj x hw h0 hx => by
        unfold optCondViolation at hv
        cases hg : constructGrad ds (Mat.zeros n t) (List.range k) d with
        | error e => rw [hg] at hv; cases hv
        | ok g =>
          rw [hg] at hv
          have hj : j < k := by
            by_contra hc
            rw [← hz] at hc
            unfold Mat.nrows at hc
            rw [List.getElem?_eq_none_iff.mpr (by omega)] at hw
            cases hw
          exact hq _ g (List.range k) kkt km hv j j Wj x (by rw [List.getElem?_range hj]) hw h0 hx)
    obtain ⟨q, hok, hq⟩ := Tri.exists_ok this
    rw [hz] at hq
    rw [hok]
    exact ⟨hq.1, hq.2.1, constructWs_zero hok⟩
  dsimp only at hws ⊢
  obtain ⟨h1, rfl, h3⟩ := hws
  refine Tri.false_bind (Skel.inner_panics (K := cfg.K) (Inv := fun s => Shaped s.W k t ∧ Shaped s.XW n t)
    (BInv := fun b => Shaped b (cfg.K + 1) (ws.length * t)) ?_ ?_ ?_ ?_ _ _ _ _ (Nat.zero_le _) (by
      show cfg.K < 0 + cfg.maxEpochs
      omega) ?_ (by
      show Shaped (Mat.zeros (cfg.K + 1) (ws.length * ds.targets.nTasks)) _ _
      rw [ht]; exact Shaped.zeros))
  · exact fun s hs => Tri.ofOk (bcdEpoch_safe ht hf hp hs.1 hs.2 h1)
  · intro e b s he hs hb
    show Tri _ (accelBCD ds d pen cfg ws e b s) _
    unfold accelBCD
    rw [if_pos hu]
    exact Tri.ofOk (Tri.bind (accel_early hnf hs.1 hs.2 h1 hb he) fun r hr => hr)
  · intro e s he hs
    show Tri _ (stopBCD ds d pen cfg.tolerance k ws ws.length km e s) _
    unfold stopBCD
    rw [if_neg (by omega)]
    rfl
  · intro b s hs hb
    show Tri _ (accelBCD ds d pen cfg ws cfg.K b s) _
    unfold accelBCD
    rw [if_pos hu]
    exact Tri.false_bind (accel_panics hnf ht hs.1 h1 hb (by rw [h3]; exact hK))
  · unfold initBCD
    rw [hn, ht]
    exact ⟨Shaped.zeros, Shaped.zeros⟩

end
end MT
end Sglm
