import Verif.Spec.Storage
import Verif.Proofs.Duplicates

/-!
# Auxiliary lemmas: order of the stored entries and explicit zeros
-/

namespace Sglm
open Scalar Spec Classical
variable {n p : ℕ}

theorem sum_filter_ne_zero {f : Fin n × ℝ → ℝ} (h : ∀ i, f (i, 0) = 0) (s : Multiset (Fin n × ℝ)) :
    (s.map f).sum = ((s.filter fun e => e.2 ≠ 0).map f).sum := by
  induction s using Multiset.induction with
  | empty => simp
  | cons e s ih =>
    obtain ⟨i, x⟩ := e
    by_cases hx : x = 0
    · subst hx
      rw [Multiset.filter_cons_of_neg _ (by simp), Multiset.map_cons, Multiset.sum_cons, h, zero_add, ih]
    · rw [Multiset.filter_cons_of_pos _ (by simpa using hx), Multiset.map_cons, Multiset.sum_cons, Multiset.map_cons, Multiset.sum_cons, ih]

theorem sum_entries (A : CSCData n p) (j : Fin p) (f : Fin n × ℝ → ℝ) :
    ((entries A j).map f).sum = ∑ k, if A.InCol j k then f (A.row k, A.data k) else 0 := by
  unfold entries
  rw [Multiset.map_map, ← Finset.sum_filter]
  rfl

theorem same_sum {A A' : CSCData n p} (h : SameEntries A A') (j : Fin p) {f : Fin n × ℝ → ℝ} (hf : ∀ i, f (i, 0) = 0) :
    (∑ k, if A.InCol j k then f (A.row k, A.data k) else 0) = ∑ k, if A'.InCol j k then f (A'.row k, A'.data k) else 0 := by
  rw [← sum_entries, ← sum_entries, sum_filter_ne_zero hf (entries A j), sum_filter_ne_zero hf (entries A' j), h j]

theorem same_dense {A A' : CSCData n p} (h : SameEntries A A') : A.dense = A'.dense := by
  funext i j
  have := same_sum h j (f := fun e => if e.1 = i then e.2 else 0) (by simp)
  unfold CSCData.dense
  simp only [ite_and]
  exact this

theorem same_colSq {A A' : CSCData n p} (h : SameEntries A A') : colSq A = colSq A' := by
  funext j
  rw [colSq_stored, colSq_stored]
  exact same_sum h j (f := fun e => e.2 ^ 2) (by simp)

theorem same_steps {A A' : CSCData n p} (h : SameEntries A A') (k : LossKind) : stepsOf (.csc A) k = stepsOf (.csc A') k := by
  cases k
  · show cscStep A = cscStep A'
    funext j
    unfold cscStep
    rw [same_colSq h]
  · show cscLogStep A = cscLogStep A'
    funext j
    unfold cscLogStep
    rw [same_colSq h]

end Sglm
