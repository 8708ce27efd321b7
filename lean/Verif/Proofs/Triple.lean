import Verif.Scalar

/-!
# Hoare triples and relational triples for computations which may panic
-/

namespace Sglm

/-- `m` either panics with a panic allowed by `E`, or returns a value satisfying `Q`. -/
def Tri {α : Type} (E : Panic → Prop) (m : M α) (Q : α → Prop) : Prop :=
  match m with
  | .ok a => Q a
  | .error e => E e

namespace Tri
variable {α β : Type} {E : Panic → Prop}

@[simp] theorem ok_iff {a : α} {Q : α → Prop} : Tri E (.ok a) Q ↔ Q a := Iff.rfl
@[simp] theorem pure_iff {a : α} {Q : α → Prop} : Tri E (pure a) Q ↔ Q a := Iff.rfl
@[simp] theorem error_iff {e : Panic} {Q : α → Prop} : Tri E (.error e : M α) Q ↔ E e := Iff.rfl

theorem bind {m : M α} {f : α → M β} {Q : α → Prop} {R : β → Prop} (hm : Tri E m Q)
    (hf : ∀ a, Q a → Tri E (f a) R) : Tri E (m >>= f) R := by
  cases m with
  | ok a => exact hf a hm
  | error e => exact hm

theorem bind_eq {m : M α} {f : α → M β} {Q : α → Prop} {R : β → Prop} (hm : Tri E m Q)
    (hf : ∀ a, m = .ok a → Q a → Tri E (f a) R) : Tri E (m >>= f) R := by
  cases m with
  | ok a => exact hf a rfl hm
  | error e => exact hm

theorem mono {m : M α} {Q R : α → Prop} (hm : Tri E m Q) (h : ∀ a, Q a → R a) : Tri E m R := by
  cases m with
  | ok a => exact h a hm
  | error e => exact hm

theorem monoE {E' : Panic → Prop} {m : M α} {Q : α → Prop} (hm : Tri E m Q) (h : ∀ e, E e → E' e) :
    Tri E' m Q := by
  cases m with
  | ok a => exact hm
  | error e => exact h e hm

theorem and {m : M α} {Q R : α → Prop} (h1 : Tri E m Q) (h2 : Tri E m R) :
    Tri E m (fun a => Q a ∧ R a) := by
  cases m with
  | ok a => exact ⟨h1, h2⟩
  | error e => exact h1

/-- A triple without allowed panics is an equation. -/
theorem exists_ok {m : M α} {Q : α → Prop} (h : Tri (fun _ => False) m Q) : ∃ a, m = .ok a ∧ Q a := by
  cases m with
  | ok a => exact ⟨a, rfl, h⟩
  | error e => exact h.elim

theorem of_ok {m : M α} {a : α} {Q : α → Prop} (h : m = .ok a) (hQ : Q a) : Tri E m Q := by
  subst h; exact hQ

theorem elim_ok {m : M α} {a : α} {Q : α → Prop} (h : Tri E m Q) (e : m = .ok a) : Q a := by
  subst e; exact h

theorem triv {m : M α} : Tri (fun _ => True) m (fun _ => True) := by
  cases m <;> exact trivial

theorem foldlM {σ : Type} (Inv : σ → Prop) (f : σ → α → M σ) (l : List α)
    (h : ∀ s a, a ∈ l → Inv s → Tri E (f s a) Inv) (s : σ) (hs : Inv s) :
    Tri E (l.foldlM f s) Inv := by
  induction l generalizing s with
  | nil => exact hs
  | cons a t ih =>
    rw [List.foldlM_cons]
    exact bind (h s a List.mem_cons_self hs)
      (fun s' hs' => ih (fun s b hb => h s b (List.mem_cons_of_mem _ hb)) s' hs')

theorem mapM (P : α → β → Prop) (f : α → M β) (l : List α) (h : ∀ a ∈ l, Tri E (f a) (P a)) :
    Tri E (l.mapM f) (fun r => List.Forall₂ P l r) := by
  induction l with
  | nil => exact List.Forall₂.nil
  | cons a t ih =>
    rw [List.mapM_cons]
    refine bind (h a List.mem_cons_self) fun b hb => ?_
    refine bind (ih fun c hc => h c (List.mem_cons_of_mem _ hc)) fun r hr => ?_
    exact List.Forall₂.cons hb hr

theorem getM {l : List α} {i : Nat} (hi : i < l.length) :
    Tri E (Sglm.getM l i) (fun a => l[i]? = some a) := by
  unfold Sglm.getM
  rw [List.getElem?_eq_getElem hi]
  rfl

theorem setM {l : List α} {i : Nat} (a : α) (hi : i < l.length) :
    Tri E (Sglm.setM l i a) (fun r => r = l.set i a) := by
  unfold Sglm.setM
  rw [if_pos hi]
  rfl

end Tri

/-- Both computations panic in the same way, or return related values. -/
def RelM {α β : Type} (R : α → β → Prop) : M α → M β → Prop
  | .ok a, .ok b => R a b
  | .error e, .error e' => e = e'
  | _, _ => False

namespace RelM
variable {α β γ δ : Type}

theorem bind {R : α → β → Prop} {S : γ → δ → Prop} {m : M α} {m' : M β} {f : α → M γ} {f' : β → M δ}
    (hm : RelM R m m') (hf : ∀ a b, R a b → RelM S (f a) (f' b)) : RelM S (m >>= f) (m' >>= f') := by
  cases m with
  | ok a => cases m' with
    | ok b => exact hf a b hm
    | error e => exact hm.elim
  | error e => cases m' with
    | ok b => exact hm.elim
    | error e' => exact hm

theorem of_eq {m m' : M α} (h : m = m') : RelM Eq m m' := by
  subst h; cases m <;> rfl

theorem eq {m m' : M α} (h : RelM Eq m m') : m = m' := by
  cases m with
  | ok a => cases m' with
    | ok b => exact congrArg _ h
    | error e => exact h.elim
  | error e => cases m' with
    | ok b => exact h.elim
    | error e' => exact congrArg _ h

theorem mono {R S : α → β → Prop} {m : M α} {m' : M β} (h : RelM R m m') (hRS : ∀ a b, R a b → S a b) :
    RelM S m m' := by
  cases m with
  | ok a => cases m' with
    | ok b => exact hRS a b h
    | error e => exact h.elim
  | error e => cases m' with
    | ok b => exact h.elim
    | error e' => exact h

theorem foldlM {σ τ : Type} (R : σ → τ → Prop) (f : σ → α → M σ) (g : τ → α → M τ) (l : List α)
    (h : ∀ s t a, a ∈ l → R s t → RelM R (f s a) (g t a)) (s : σ) (t : τ) (hs : R s t) :
    RelM R (l.foldlM f s) (l.foldlM g t) := by
  induction l generalizing s t with
  | nil => exact hs
  | cons a l ih =>
    rw [List.foldlM_cons, List.foldlM_cons]
    exact bind (h s t a List.mem_cons_self hs)
      (fun s' t' hs' => ih (fun s t b hb => h s t b (List.mem_cons_of_mem _ hb)) s' t' hs')

theorem map_eq {R : α → β → Prop} {f : α → γ} {g : β → γ} {m : M α} {m' : M β} (h : RelM R m m')
    (hfg : ∀ a b, R a b → f a = g b) : f <$> m = g <$> m' := by
  cases m with
  | ok a => cases m' with
    | ok b => exact congrArg Except.ok (hfg a b h)
    | error e => exact h.elim
  | error e => cases m' with
    | ok b => exact h.elim
    | error e' => exact congrArg Except.error h

end RelM

/-- Pointwise equal functions give equal traversals. -/
theorem mapM_congr {α β : Type} {f g : α → M β} {l : List α} (h : ∀ a ∈ l, f a = g a) :
    l.mapM f = l.mapM g := by
  induction l with
  | nil => rfl
  | cons a t ih =>
    rw [List.mapM_cons, List.mapM_cons, h a List.mem_cons_self,
      ih fun b hb => h b (List.mem_cons_of_mem _ hb)]

theorem foldlM_congr {α σ : Type} {f g : σ → α → M σ} {l : List α} (h : ∀ s, ∀ a ∈ l, f s a = g s a)
    (s : σ) : l.foldlM f s = l.foldlM g s := by
  induction l generalizing s with
  | nil => rfl
  | cons a t ih =>
    rw [List.foldlM_cons, List.foldlM_cons, h s a List.mem_cons_self]
    congr 1
    funext s'
    exact ih (fun s b hb => h s b (List.mem_cons_of_mem _ hb)) s'

/-- A traversal which succeeds has one result per element. -/
theorem mapM_length {α β : Type} {f : α → M β} {l : List α} {r : List β} (h : l.mapM f = .ok r) :
    r.length = l.length := by
  induction l generalizing r with
  | nil =>
    injection h with h; subst h; rfl
  | cons a t ih =>
    rw [List.mapM_cons] at h
    cases ha : f a with
    | error e => rw [ha] at h; cases h
    | ok b =>
      rw [ha] at h
      cases ht : t.mapM f with
      | error e => rw [ht] at h; cases h
      | ok r' =>
        rw [ht] at h
        injection h with h
        subst h
        simp [ih ht]

end Sglm
