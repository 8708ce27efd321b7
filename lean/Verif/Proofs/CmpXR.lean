import Verif.Cmp
import Verif.Proofs.XRBasic
import Verif.Model.Utils
import Mathlib.Data.List.Sort

/-!
# `XR` has exact comparisons; an argsort satisfying the contract exists
-/

namespace Sglm
open Scalar

/-- The extended real denoted by an `XR`. -/
noncomputable def XR.toEReal : XR → Option EReal
  | XR.fin a => some (a : EReal)
  | XR.pinf => some ⊤
  | XR.ninf => some ⊥
  | XR.nan => none

theorem XR.lt_def (a b : XR) : (a <. b) = XR.lt a b := rfl
theorem XR.beq_def (a b : XR) : (a ==. b) = XR.beq a b := rfl
theorem XR.le_def (a b : XR) : (a <=. b) = (XR.lt a b || XR.beq a b) := rfl

theorem XR.lt_key (a b : XR) :
    (a <. b) = true ↔ ∃ x y, XR.toEReal a = some x ∧ XR.toEReal b = some y ∧ x < y := by
  cases a <;> cases b <;> simp [XR.toEReal] <;> rfl

theorem XR.beq_key (a b : XR) :
    (a ==. b) = true ↔ ∃ x y, XR.toEReal a = some x ∧ XR.toEReal b = some y ∧ x = y := by
  cases a <;> cases b <;> simp [XR.toEReal] <;> first | rfl | exact eq_comm

noncomputable instance : LawfulCmp XR where
  key := XR.toEReal
  lt_iff := XR.lt_key
  beq_iff := XR.beq_key
  le_iff a b := by
    have h : (a <=. b) = ((a <. b) || (a ==. b)) := rfl
    rw [h, Bool.or_eq_true, XR.lt_key, XR.beq_key]
    constructor
    · rintro (⟨x, y, h1, h2, h3⟩ | ⟨x, y, h1, h2, h3⟩)
      · exact ⟨x, y, h1, h2, le_of_lt h3⟩
      · exact ⟨x, y, h1, h2, le_of_eq h3⟩
    · rintro ⟨x, y, h1, h2, h3⟩
      rcases lt_or_eq_of_le h3 with h | h
      · exact Or.inl ⟨x, y, h1, h2, h⟩
      · exact Or.inr ⟨x, y, h1, h2, h⟩
  key_zero := rfl
  key_inf := rfl
  key_negInf := rfl
  key_fmax a b := by
    cases a <;> cases b <;> first | rfl | skip
    · rename_i r s
      rw [XR.s_fmax]
      show some ((max r s : ℝ) : EReal) = some (max (r : EReal) s)
      rw [EReal.coe_strictMono.monotone.map_max]

section
variable {F : Type} [Scalar F] [LawfulCmp F]
open LawfulCmp

theorem isNaN_iff (x : F) : isNaN x = true ↔ key x = none := by
  unfold isNaN
  rw [Bool.not_eq_true', ← Bool.not_eq_true, beq_iff]
  constructor
  · intro h
    cases hk : key x with
    | none => rfl
    | some y => exact absurd ⟨y, y, hk, hk, rfl⟩ h
  · rintro h ⟨x', y', h1, -⟩
    rw [h] at h1; cases h1

theorem not_isNaN_iff (x : F) : isNaN x = false ↔ ∃ k, key x = some k := by
  rw [← Bool.not_eq_true, isNaN_iff]
  cases key x <;> simp

theorem lt_false_iff {a b : F} {x y : EReal} (ha : key a = some x) (hb : key b = some y) :
    (a <. b) = false ↔ y ≤ x := by
  rw [← Bool.not_eq_true, lt_iff]
  constructor
  · intro h; by_contra hc
    exact h ⟨x, y, ha, hb, lt_of_not_ge hc⟩
  · rintro h ⟨x', y', h1, h2, h3⟩
    rw [ha] at h1; rw [hb] at h2
    injection h1 with h1; injection h2 with h2
    subst h1; subst h2
    exact absurd h3 (not_lt.mpr h)

/-- Insertion sort of the indices, descending. -/
def argsortIns : Argsort F := fun l =>
  if 2 ≤ l.length ∧ l.any isNaN then .error .nanCompare
  else .ok ((List.range l.length).insertionSort
    (fun i j => (l.getD i zero <. l.getD j zero) = false))

/-- The contract assumed of the standard library's sort is satisfiable, in every format with exact
comparisons. -/
theorem argsortIns_spec : ArgsortSpec (argsortIns (F := F)) where
  sorted l h := by
    have hn : ¬ (2 ≤ l.length ∧ l.any isNaN) := by
      rintro ⟨h1, h2⟩
      rcases h with h | h
      · omega
      · obtain ⟨x, hx, hx'⟩ := List.any_eq_true.mp h2
        rw [h x hx] at hx'; cases hx'
    refine ⟨_, if_neg hn, List.perm_insertionSort _ _, ?_⟩
    by_cases h2 : l.length < 2
    · have : l.length = 0 ∨ l.length = 1 := by omega
      rcases this with h0 | h0 <;> rw [h0] <;> simp
    have hk : ∀ i, ∃ k, key (l.getD i zero) = some k := by
      intro i
      by_cases hi : i < l.length
      · rw [← not_isNaN_iff]
        rcases h with h | h
        · exact absurd h h2
        · refine h _ ?_
          rw [List.getD_eq_getElem?_getD, List.getElem?_eq_getElem hi]
          exact List.getElem_mem hi
      · rw [List.getD_eq_getElem?_getD, List.getElem?_eq_none (by omega)]
        exact ⟨0, key_zero⟩
    choose k hk using hk
    have e : ∀ i j, (l.getD i zero <. l.getD j zero) = false ↔ k j ≤ k i :=
      fun i j => lt_false_iff (hk i) (hk j)
    have : Std.Total (fun i j => (l.getD i zero <. l.getD j zero) = false) :=
      ⟨fun i j => by rw [e, e]; exact le_total _ _⟩
    have : IsTrans ℕ (fun i j => (l.getD i zero <. l.getD j zero) = false) :=
      ⟨fun a b c h1 h2 => by rw [e] at *; exact le_trans h2 h1⟩
    refine (List.pairwise_insertionSort (fun i j => (l.getD i zero <. l.getD j zero) = false)
      (List.range l.length)).imp ?_
    intro i j hij a b ha hb
    have : l.getD i zero = a := by rw [List.getD_eq_getElem?_getD, ha]; rfl
    rw [this] at hij
    have : l.getD j zero = b := by rw [List.getD_eq_getElem?_getD, hb]; rfl
    rw [this] at hij
    exact hij
  nan l h2 := by
    rintro ⟨x, hx, hn⟩
    exact if_pos ⟨h2, List.any_eq_true.mpr ⟨x, hx, hn⟩⟩

end
end Sglm
