import Verif.Proofs.Shapes
import Verif.Proofs.SkelCD
import Verif.Proofs.SkelBCD

/-!
# Invariants that hold whatever the shapes and the arithmetic: lengths, features with zero step size
-/

set_option linter.unusedSectionVars false

namespace Sglm
open Scalar

section
variable {E : Panic → Prop} {F DM DF P : Type} [Scalar F]

/-- Everything is allowed to panic. -/
abbrev Any : Panic → Prop := fun _ => True

theorem setM_any {α : Type} (l : List α) (i : ℕ) (a : α) :
    Tri Any (setM l i a) (fun r => r = l.set i a) := by
  by_cases h : i < l.length
  · exact Tri.setM a h
  · unfold setM; rw [if_neg h]; trivial

theorem getM_any {α : Type} (l : List α) (i : ℕ) : Tri Any (getM l i) (fun a => l[i]? = some a) := by
  by_cases h : i < l.length
  · exact Tri.getM h
  · unfold getM
    rw [List.getElem?_eq_none (by omega)]
    trivial

theorem set2_any {A : Mat F} {r c : ℕ} (h : Shaped A r c) (i j : ℕ) (a : F) :
    Tri Any (A.set2 i j a) (fun B => Shaped B r c ∧ ∀ k, k ≠ i → B.rows[k]? = A.rows[k]?) := by
  unfold Mat.set2
  refine Tri.bind (getM_any _ _) fun x hx => ?_
  refine Tri.bind (setM_any _ _ _) fun y hy => ?_
  refine Tri.bind (setM_any _ _ _) fun rows hr => ?_
  subst hr hy
  refine ⟨⟨by rw [List.length_set]; exact h.1, h.2.1, fun z hz => ?_⟩, fun k hk => ?_⟩
  · rcases List.mem_or_eq_of_mem_set hz with h1 | h1
    · exact h.2.2 z h1
    · rw [h1, List.length_set]; exact h.2.2 x (List.mem_of_getElem? hx)
  · rw [List.getElem?_set_ne (Ne.symm hk)]

theorem fromShapeVec_any (r c : ℕ) (v : List F) : Tri Any (Mat.fromShapeVec r c v) (fun A => Shaped A r c) := by
  by_cases h : v.length = r * c
  · exact Shaped.fromShapeVec h
  · unfold Mat.fromShapeVec; rw [if_neg h]; trivial

variable [DesignMatrix F DM] [Datafit F DM DF] [Penalty F P]

/-- One coefficient per feature; features with zero step size have coefficient zero. -/
def Kept (steps : List F) (nf : ℕ) (w : List F) : Prop :=
  w.length = nf ∧ ∀ j l, steps[j]? = some l → (l ==. zero) = true → j < nf → w[j]? = some zero

theorem cdStep_keep (ds : Dataset DM F) (df : DF) (pen : P) (nf : ℕ) (st : CDState F) (j : ℕ)
    (h : Kept (Datafit.stepSize (DM := DM) df) nf st.w) :
    Tri Any (cdStep ds df pen st j) (fun s => Kept (Datafit.stepSize (DM := DM) df) nf s.w) := by
  unfold cdStep
  refine Tri.bind (getM_any _ _) fun lj hlj => ?_
  split
  · exact h
  · rename_i hz
    refine Tri.bind Tri.triv fun old _ => ?_
    refine Tri.bind Tri.triv fun g _ => ?_
    refine Tri.bind Tri.triv fun v _ => ?_
    refine Tri.bind (setM_any _ _ _) fun w hw => ?_
    have hk : Kept (Datafit.stepSize (DM := DM) df) nf w := by
      subst hw
      refine ⟨by rw [List.length_set]; exact h.1, fun i l hl hl0 hi => ?_⟩
      have hij : j ≠ i := by
        rintro rfl
        rw [hlj] at hl
        injection hl with hl
        subst hl
        exact hz hl0
      rw [List.getElem?_set_ne hij]
      exact h.2 i l hl hl0 hi
    dsimp only
    split
    · exact Tri.bind Tri.triv fun _ _ => hk
    · exact hk

theorem scatter_any (nf : ℕ) (pt : List F) (ws : List ℕ) :
    Tri Any (scatter nf pt ws) (fun w => w.length = nf) := by
  unfold scatter
  refine Tri.foldlM (fun w : List F => w.length = nf) _ _ (fun acc vj _ hacc => ?_) _ (by simp)
  refine Tri.mono (setM_any _ _ _) fun r hr => ?_
  rw [hr, List.length_set, hacc]

theorem accel_length (ds : Dataset DM F) (df : DF) (pen : P) {nf : ℕ}
    (hnf : DesignMatrix.nFeatures (F := F) ds.designMatrix = .ok nf) (B : Mat F) (st : CDState F)
    (ws : List ℕ) (e K : ℕ) (v : Bool) (log : List (Event F)) (h : st.w.length = nf) :
    Tri Any (andersonAccel ds df pen B st ws e K v log) (fun r => r.2.1.w.length = nf) := by
  unfold andersonAccel
  rw [hnf]
  refine Tri.bind (Q := fun k => k = nf) rfl fun k hk => ?_
  subst hk
  refine Tri.bind Tri.triv fun B1 _ => ?_
  split
  · refine Tri.bind Tri.triv fun U _ => ?_
    refine Tri.bind Tri.triv fun C _ => ?_
    refine Tri.bind Tri.triv fun z _ => ?_
    cases z with
    | none => exact h
    | some z =>
      refine Tri.bind Tri.triv fun pt _ => ?_
      refine Tri.bind (scatter_any _ _ _) fun wa hwa => ?_
      refine Tri.bind Tri.triv fun _ _ => ?_
      refine Tri.bind Tri.triv fun _ _ => ?_
      refine Tri.bind Tri.triv fun _ _ => ?_
      split
      · exact hwa
      · exact h
  · exact h

theorem hoare_length (srt : Argsort F) (ds : Dataset DM F) (df : DF) (pen : P) (cfg : Solver F) {nf : ℕ}
    (hnf : DesignMatrix.nFeatures (F := F) ds.designMatrix = .ok nf) (ws0 : ℕ) :
    Skel.Hoare (skelCD srt ds df pen cfg nf ws0) Any (fun s => s.w.length = nf)
      (fun _ _ => True) (fun _ _ _ => True) where
  viol _ _ := Tri.triv
  mkWs _ _ _ _ _ _ := Tri.triv
  buf0 _ _ _ := trivial
  epoch ws sz s hs _ := by
    refine Tri.mono (Q := fun s : CDState F => Kept [] nf s.w) ?_ fun s h => h.1
    have : ∀ st : CDState F, Kept [] nf st.w → ∀ j, Tri Any (cdStep ds df pen st j) (fun s => Kept [] nf s.w) := by
      intro st h j
      unfold cdStep
      refine Tri.bind Tri.triv fun lj _ => ?_
      split
      · exact h
      · refine Tri.bind Tri.triv fun old _ => ?_
        refine Tri.bind Tri.triv fun g _ => ?_
        refine Tri.bind Tri.triv fun v _ => ?_
        refine Tri.bind (setM_any _ _ _) fun w hw => ?_
        have hk : Kept [] nf w := ⟨by rw [hw, List.length_set]; exact h.1, by simp⟩
        dsimp only
        split
        · exact Tri.bind Tri.triv fun _ _ => hk
        · exact hk
    exact Tri.foldlM (fun s : CDState F => Kept [] nf s.w) _ _ (fun s j _ h => this s h j) _ ⟨hs, by simp⟩
  accel ws sz e b s hs _ _ := by
    show Tri _ (accelCD ds df pen cfg ws e b s) _
    unfold accelCD
    split
    · refine Tri.bind (accel_length ds df pen hnf b s ws e cfg.K _ _ hs) fun r hr => ⟨trivial, hr⟩
    · exact ⟨trivial, hs⟩
  stop _ _ _ _ _ _ _ := Tri.triv

theorem hoare_keep (srt : Argsort F) (ds : Dataset DM F) (df : DF) (pen : P) (cfg : Solver F)
    (hu : cfg.useAcceleration = false) (nf ws0 : ℕ) :
    Skel.Hoare (skelCD srt ds df pen cfg nf ws0) Any
      (fun s => Kept (Datafit.stepSize (DM := DM) df) nf s.w) (fun _ _ => True) (fun _ _ _ => True) where
  viol _ _ := Tri.triv
  mkWs _ _ _ _ _ _ := Tri.triv
  buf0 _ _ _ := trivial
  epoch ws sz s hs _ :=
    Tri.foldlM (fun s : CDState F => Kept (Datafit.stepSize (DM := DM) df) nf s.w) _ _
      (fun s j _ h => cdStep_keep ds df pen nf s j h) _ hs
  accel ws sz e b s hs _ _ := by
    show Tri _ (accelCD ds df pen cfg ws e b s) _
    unfold accelCD
    rw [if_neg (by simp [hu])]
    exact ⟨trivial, hs⟩
  stop _ _ _ _ _ _ _ := Tri.triv

end

namespace MT
section
variable {F DM DF P : Type} [Scalar F] [DesignMatrix F DM] [MTDatafit F DM DF] [MTPenalty F P]

/-- `nf × t` coefficients; features with zero step size have zero coefficients. -/
def Kept (steps : List F) (nf t : ℕ) (W : Mat F) : Prop :=
  Shaped W nf t ∧ ∀ j l, steps[j]? = some l → (l ==. zero) = true → j < nf →
    W.rows[j]? = some (List.replicate t zero)

theorem bcdStep_keep (ds : Dataset DM F) (df : DF) (pen : P) (nf t : ℕ) (st : BCDState F) (j : ℕ)
    (steps : List F) (hs : ∀ l, (MTDatafit.stepSize (DM := DM) df)[j]? = some l → (l ==. zero) = false →
      ∀ l', steps[j]? = some l' → (l' ==. zero) = false)
    (h : Kept steps nf t st.W) :
    Tri Any (bcdStep ds df pen st j) (fun s => Kept steps nf t s.W) := by
  unfold bcdStep
  refine Tri.bind (getM_any _ _) fun lj hlj => ?_
  split
  · exact h
  · rename_i hz
    refine Tri.bind Tri.triv fun old _ => ?_
    refine Tri.bind Tri.triv fun g _ => ?_
    refine Tri.bind Tri.triv fun st _ => ?_
    refine Tri.bind Tri.triv fun v _ => ?_
    have hj : ∀ l', steps[j]? = some l' → (l' ==. zero) = false := hs lj hlj (by simpa using hz)
    refine Tri.bind (Q := fun W => Kept steps nf t W) ?_ fun W hk => ?_
    · refine Tri.foldlM (fun W => Kept steps nf t W) _ _ (fun A k _ hA => ?_) _ h
      refine Tri.bind Tri.triv fun u _ => ?_
      refine Tri.mono (set2_any hA.1 _ _ _) fun B hB => ⟨hB.1, fun i l hl hl0 hi => ?_⟩
      have hij : i ≠ j := by
        rintro rfl
        rw [hj l hl] at hl0
        cases hl0
      rw [hB.2 i hij]
      exact hA.2 i l hl hl0 hi
    refine Tri.bind Tri.triv fun d _ => ?_
    split
    · exact Tri.bind Tri.triv fun _ _ => hk
    · exact hk

theorem scatter_any (nf t : ℕ) (pt : List F) (ws : List ℕ) :
    Tri Any (scatter nf t pt ws) (fun W => Shaped W nf t) := by
  unfold scatter
  refine Tri.bind (fromShapeVec_any _ _ _) fun A hA => ?_
  refine Tri.foldlM (fun W : Mat F => Shaped W nf t) _ _ (fun acc rj hrj hacc => ?_) _ Shaped.zeros
  refine Tri.bind (setM_any _ _ _) fun rows hr => ?_
  subst hr
  refine ⟨by rw [List.length_set]; exact hacc.1, hacc.2.1, fun z hz => ?_⟩
  rcases List.mem_or_eq_of_mem_set hz with h1 | h1
  · exact hacc.2.2 z h1
  · rw [h1]; exact hA.2.2 _ (List.of_mem_zip hrj).1

theorem accel_length (ds : Dataset DM F) (df : DF) (pen : P) {nf t : ℕ}
    (hnf : DesignMatrix.nFeatures (F := F) ds.designMatrix = .ok nf) (ht : ds.targets.nTasks = t)
    (B : Mat F) (st : BCDState F)
    (ws : List ℕ) (e K : ℕ) (v : Bool) (log : List (Event F)) (h : Shaped st.W nf t) :
    Tri Any (andersonAccel ds df pen B st ws e K v log) (fun r => Shaped r.2.1.W nf t) := by
  unfold andersonAccel
  rw [hnf, ht]
  refine Tri.bind (Q := fun k => k = nf) rfl fun k hk => ?_
  subst hk
  refine Tri.bind Tri.triv fun B1 _ => ?_
  split
  · refine Tri.bind Tri.triv fun U _ => ?_
    refine Tri.bind Tri.triv fun C _ => ?_
    refine Tri.bind Tri.triv fun z _ => ?_
    cases z with
    | none => exact h
    | some z =>
      refine Tri.bind Tri.triv fun pt _ => ?_
      refine Tri.bind (scatter_any _ _ _ _) fun wa hwa => ?_
      refine Tri.bind Tri.triv fun _ _ => ?_
      refine Tri.bind Tri.triv fun _ _ => ?_
      refine Tri.bind Tri.triv fun _ _ => ?_
      split
      · exact hwa
      · exact h
  · exact h

theorem hoare_length (srt : Argsort F) (ds : Dataset DM F) (df : DF) (pen : P) (cfg : Solver F) {nf t : ℕ}
    (hnf : DesignMatrix.nFeatures (F := F) ds.designMatrix = .ok nf) (ht : ds.targets.nTasks = t) (ws0 : ℕ) :
    Skel.Hoare (skelBCD srt ds df pen cfg nf ws0) Any (fun s => Shaped s.W nf t)
      (fun _ _ => True) (fun _ _ _ => True) where
  viol _ _ := Tri.triv
  mkWs _ _ _ _ _ _ := Tri.triv
  buf0 _ _ _ := trivial
  epoch ws sz s hs _ := by
    refine Tri.mono (Q := fun s : BCDState F => Kept [] nf t s.W) ?_ fun s h => h.1
    exact Tri.foldlM (fun s : BCDState F => Kept [] nf t s.W) _ _
      (fun s j _ h => bcdStep_keep ds df pen nf t s j [] (by simp) h) _ ⟨hs, by simp⟩
  accel ws sz e b s hs _ _ := by
    show Tri _ (accelBCD ds df pen cfg ws e b s) _
    unfold accelBCD
    split
    · refine Tri.bind (accel_length ds df pen hnf ht b s ws e cfg.K _ _ hs) fun r hr => ⟨trivial, hr⟩
    · exact ⟨trivial, hs⟩
  stop _ _ _ _ _ _ _ := Tri.triv

theorem hoare_keep (srt : Argsort F) (ds : Dataset DM F) (df : DF) (pen : P) (cfg : Solver F)
    (hu : cfg.useAcceleration = false) (nf t ws0 : ℕ) :
    Skel.Hoare (skelBCD srt ds df pen cfg nf ws0) Any
      (fun s => Kept (MTDatafit.stepSize (DM := DM) df) nf t s.W) (fun _ _ => True) (fun _ _ _ => True) where
  viol _ _ := Tri.triv
  mkWs _ _ _ _ _ _ := Tri.triv
  buf0 _ _ _ := trivial
  epoch ws sz s hs _ :=
    Tri.foldlM (fun s : BCDState F => Kept (MTDatafit.stepSize (DM := DM) df) nf t s.W) _ _
      (fun s j _ h => bcdStep_keep ds df pen nf t s j _ (fun l hl hl0 l' hl' => by
        rw [hl] at hl'; injection hl' with e; rw [← e]; exact hl0) h) _ hs
  accel ws sz e b s hs _ _ := by
    show Tri _ (accelBCD ds df pen cfg ws e b s) _
    unfold accelBCD
    rw [if_neg (by simp [hu])]
    exact ⟨trivial, hs⟩
  stop _ _ _ _ _ _ _ := Tri.triv

end
end MT
end Sglm
