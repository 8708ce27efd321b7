import Verif.Proofs.Length
import Verif.Spec.Guard

/-!
# Invariants of guarded runs
-/

set_option linter.unusedSectionVars false

namespace Sglm
open Scalar Spec

section
variable {F DM DF P : Type} [Scalar F] [DesignMatrix F DM] [Datafit F DM DF] [Penalty F P]

theorem any_ok {α : Type} (x : M α) : Tri Any x (fun a => x = .ok a) := by
  cases x with
  | error e => trivial
  | ok a => rfl

theorem cdStep_guard (ds : Dataset DM F) (df : DF) {pen : P} {S : F → Prop} (H : ProxGuards pen S) (st : CDState F) (j : ℕ)
    (h : ∀ z ∈ st.w, S z) : Tri Any (cdStep ds df pen st j) (fun s => ∀ z ∈ s.w, S z) := by
  unfold cdStep
  refine Tri.bind Tri.triv fun lj _ => ?_
  split
  · exact h
  · refine Tri.bind Tri.triv fun old _ => ?_
    refine Tri.bind Tri.triv fun g _ => ?_
    refine Tri.bind (any_ok _) fun v hv => ?_
    refine Tri.bind (setM_any _ _ _) fun w hw => ?_
    have hk : ∀ z ∈ w, S z := by
      subst hw
      intro z hz
      rcases List.mem_or_eq_of_mem_set hz with h1 | h1
      · exact h z h1
      · rw [h1]; exact H.prox _ _ _ hv
    dsimp only
    split
    · exact Tri.bind Tri.triv fun _ _ => hk
    · exact hk

theorem objective_guard (ds : Dataset DM F) (df : DF) {pen : P} {S : F → Prop} (H : Guards pen S) (w Xw : List F) {c b : F}
    (hb : objective ds df pen w Xw = .ok b) (hlt : (b <. c) = true) : ∀ z ∈ w, S z := by
  by_contra hc
  push Not at hc
  unfold objective at hb
  cases h1 : Datafit.value df ds Xw with
  | error e => rw [h1] at hb; cases hb
  | ok a =>
    rw [h1] at hb
    cases h2 : Penalty.value pen w with
    | error e => rw [h2] at hb; cases hb
    | ok d =>
      rw [h2] at hb
      injection hb with hb
      subst hb
      rw [H.value w d h2 hc] at hlt
      cases hlt

theorem accel_guard (ds : Dataset DM F) (df : DF) {pen : P} {S : F → Prop} (H : Guards pen S) (B : Mat F) (st : CDState F)
    (ws : List ℕ) (e K : ℕ) (v : Bool) (log : List (Event F)) (h : ∀ z ∈ st.w, S z) :
    Tri Any (andersonAccel ds df pen B st ws e K v log) (fun r => ∀ z ∈ r.2.1.w, S z) := by
  unfold andersonAccel
  refine Tri.bind Tri.triv fun k _ => ?_
  refine Tri.bind Tri.triv fun B1 _ => ?_
  split
  · refine Tri.bind Tri.triv fun U _ => ?_
    refine Tri.bind Tri.triv fun C _ => ?_
    refine Tri.bind Tri.triv fun z _ => ?_
    cases z with
    | none => exact h
    | some z =>
      refine Tri.bind Tri.triv fun pt _ => ?_
      refine Tri.bind Tri.triv fun wa _ => ?_
      refine Tri.bind Tri.triv fun Xa _ => ?_
      refine Tri.bind Tri.triv fun o _ => ?_
      refine Tri.bind (any_ok _) fun oa ha => ?_
      split
      · rename_i hlt
        exact objective_guard ds df H _ _ ha hlt
      · exact h
  · exact h

theorem hoare_guard (srt : Argsort F) (ds : Dataset DM F) (df : DF) {pen : P} (cfg : Solver F) {S : F → Prop} (H : ProxGuards pen S)
    (HA : cfg.useAcceleration = true → Guards pen S) (nf ws0 : ℕ) :
    Skel.Hoare (skelCD srt ds df pen cfg nf ws0) Any (fun s => ∀ z ∈ s.w, S z) (fun _ _ => True) (fun _ _ _ => True) where
  viol _ _ := Tri.triv
  mkWs _ _ _ _ _ _ := Tri.triv
  buf0 _ _ _ := trivial
  epoch ws sz s hs _ :=
    Tri.foldlM (fun s : CDState F => ∀ z ∈ s.w, S z) _ _ (fun s j _ h => cdStep_guard ds df H s j h) _ hs
  accel ws sz e b s hs _ _ := by
    show Tri _ (accelCD ds df pen cfg ws e b s) _
    unfold accelCD
    split
    · rename_i hu
      exact Tri.bind (accel_guard ds df (HA hu) b s ws e cfg.K _ _ hs) fun r hr => ⟨trivial, hr⟩
    · exact ⟨trivial, hs⟩
  stop _ _ _ _ _ _ _ := Tri.triv

end

namespace MT
section
variable {F DM DF P : Type} [Scalar F] [DesignMatrix F DM] [MTDatafit F DM DF] [MTPenalty F P]

/-- All entries satisfy `S`. -/
def Entries (S : F → Prop) (W : Mat F) : Prop := ∀ r ∈ W.rows, ∀ z ∈ r, S z

theorem set2_entries {S : F → Prop} {A : Mat F} (h : Entries S A) (i j : ℕ) {a : F} (ha : S a) :
    Tri Any (A.set2 i j a) (Entries S) := by
  unfold Mat.set2
  refine Tri.bind (getM_any _ _) fun x hx => ?_
  refine Tri.bind (setM_any _ _ _) fun y hy => ?_
  refine Tri.bind (setM_any _ _ _) fun rows hr => ?_
  subst hr hy
  intro r hr z hz
  rcases List.mem_or_eq_of_mem_set hr with h1 | h1
  · exact h r h1 z hz
  · subst h1
    rcases List.mem_or_eq_of_mem_set hz with h2 | h2
    · exact h x (List.mem_of_getElem? hx) z h2
    · rw [h2]; exact ha

theorem bcdStep_guard (ds : Dataset DM F) (df : DF) {pen : P} {S : F → Prop} (H : ProxGuardsMT pen S) (st : BCDState F) (j : ℕ)
    (h : Entries S st.W) : Tri Any (bcdStep ds df pen st j) (fun s => Entries S s.W) := by
  unfold bcdStep
  refine Tri.bind Tri.triv fun lj _ => ?_
  split
  · exact h
  · refine Tri.bind Tri.triv fun old _ => ?_
    refine Tri.bind Tri.triv fun g _ => ?_
    refine Tri.bind Tri.triv fun st _ => ?_
    refine Tri.bind (any_ok _) fun v hv => ?_
    refine Tri.bind (Q := Entries S) ?_ fun W hk => ?_
    · refine Tri.foldlM (Entries S) _ _ (fun A k _ hA => ?_) _ h
      exact Tri.bind (getM_any _ _) fun u hu => set2_entries hA _ _ (H.prox _ _ _ hv u (List.mem_of_getElem? hu))
    refine Tri.bind Tri.triv fun d _ => ?_
    split
    · exact Tri.bind Tri.triv fun _ _ => hk
    · exact hk

theorem objective_guard (ds : Dataset DM F) (df : DF) {pen : P} {S : F → Prop} (H : GuardsMT pen S) (W XW : Mat F) {c b : F}
    (hb : objective ds df pen W XW = .ok b) (hlt : (b <. c) = true) : Entries S W := by
  by_contra hc
  unfold Entries at hc
  push Not at hc
  unfold objective at hb
  cases h1 : MTDatafit.value df ds XW with
  | error e => rw [h1] at hb; cases hb
  | ok a =>
    rw [h1] at hb
    cases h2 : MTPenalty.value pen W with
    | error e => rw [h2] at hb; cases hb
    | ok d =>
      rw [h2] at hb
      injection hb with hb
      subst hb
      rw [H.value W d h2 hc] at hlt
      cases hlt

theorem accel_guard (ds : Dataset DM F) (df : DF) {pen : P} {S : F → Prop} (H : GuardsMT pen S) (B : Mat F) (st : BCDState F)
    (ws : List ℕ) (e K : ℕ) (v : Bool) (log : List (Event F)) (h : Entries S st.W) :
    Tri Any (andersonAccel ds df pen B st ws e K v log) (fun r => Entries S r.2.1.W) := by
  unfold andersonAccel
  refine Tri.bind Tri.triv fun k _ => ?_
  refine Tri.bind Tri.triv fun B1 _ => ?_
  split
  · refine Tri.bind Tri.triv fun U _ => ?_
    refine Tri.bind Tri.triv fun C _ => ?_
    refine Tri.bind Tri.triv fun z _ => ?_
    cases z with
    | none => exact h
    | some z =>
      refine Tri.bind Tri.triv fun pt _ => ?_
      refine Tri.bind Tri.triv fun wa _ => ?_
      refine Tri.bind Tri.triv fun Xa _ => ?_
      refine Tri.bind Tri.triv fun o _ => ?_
      refine Tri.bind (any_ok _) fun oa ha => ?_
      split
      · rename_i hlt
        exact objective_guard ds df H _ _ ha hlt
      · exact h
  · exact h

theorem hoare_guard (srt : Argsort F) (ds : Dataset DM F) (df : DF) {pen : P} (cfg : Solver F) {S : F → Prop} (H : ProxGuardsMT pen S)
    (HA : cfg.useAcceleration = true → GuardsMT pen S) (nf ws0 : ℕ) :
    Skel.Hoare (skelBCD srt ds df pen cfg nf ws0) Any (fun s => Entries S s.W) (fun _ _ => True) (fun _ _ _ => True) where
  viol _ _ := Tri.triv
  mkWs _ _ _ _ _ _ := Tri.triv
  buf0 _ _ _ := trivial
  epoch ws sz s hs _ :=
    Tri.foldlM (fun s : BCDState F => Entries S s.W) _ _ (fun s j _ h => bcdStep_guard ds df H s j h) _ hs
  accel ws sz e b s hs _ _ := by
    show Tri _ (accelBCD ds df pen cfg ws e b s) _
    unfold accelBCD
    split
    · rename_i hu
      exact Tri.bind (accel_guard ds df (HA hu) b s ws e cfg.K _ _ hs) fun r hr => ⟨trivial, hr⟩
    · exact ⟨trivial, hs⟩
  stop _ _ _ _ _ _ _ := Tri.triv

end
end MT
end Sglm
