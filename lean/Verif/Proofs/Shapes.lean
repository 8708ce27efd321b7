import Verif.Proofs.Triple
import Verif.Model.SolverBCD
import Verif.Spec.Shapes
import Mathlib.Data.List.Forall2
import Mathlib.Algebra.BigOperators.Group.List.Basic

/-!
# Shapes: operations on arrays of the right shapes do not panic
-/

namespace Sglm
open Scalar

variable {F : Type} {E : Panic → Prop} {r c : ℕ}

theorem Tri.getM' {α : Type} {l : List α} {i : ℕ} (hi : i < l.length) :
    Tri E (Sglm.getM l i) (fun a => a ∈ l) :=
  Tri.mono (Tri.getM hi) fun _ h => List.mem_of_getElem? h

theorem Tri.setM' {α : Type} {l : List α} {i : ℕ} (a : α) (hi : i < l.length) :
    Tri E (Sglm.setM l i a) (fun r => r.length = l.length ∧ ∀ x ∈ r, x = a ∨ x ∈ l) := by
  refine Tri.mono (Tri.setM a hi) fun r hr => ?_
  subst hr
  refine ⟨List.length_set, fun x hx => ?_⟩
  rcases List.mem_or_eq_of_mem_set hx with h | h
  · exact Or.inr h
  · exact Or.inl h

theorem Tri.mapM_len {α β : Type} (Q : β → Prop) (f : α → M β) (l : List α) (h : ∀ a ∈ l, Tri E (f a) Q) :
    Tri E (l.mapM f) (fun r => r.length = l.length ∧ ∀ b ∈ r, Q b) := by
  refine Tri.mono (Tri.mapM (fun _ b => Q b) f l h) fun r hr => ?_
  refine ⟨hr.length_eq.symm, fun b hb => ?_⟩
  obtain ⟨i, hi, rfl⟩ := List.getElem_of_mem hb
  have := List.forall₂_iff_get.mp hr
  exact this.2 i (by rw [this.1]; exact hi) hi

namespace Shaped

theorem get2 {A : Mat F} (h : Shaped A r c) {i j : ℕ} (hi : i < r) (hj : j < c) :
    Tri E (A.get2 i j) (fun _ => True) := by
  unfold Mat.get2
  refine Tri.bind (Tri.getM' (by rw [h.1]; exact hi)) fun x hx => ?_
  refine Tri.mono (Tri.getM' ?_) fun _ _ => trivial
  rw [h.2.2 x hx]; exact hj

theorem rowM {A : Mat F} (h : Shaped A r c) {i : ℕ} (hi : i < r) :
    Tri E (A.rowM i) (fun x => x.length = c) := by
  unfold Mat.rowM
  exact Tri.mono (Tri.getM' (by rw [h.1]; exact hi)) fun x hx => h.2.2 x hx

theorem colM {A : Mat F} (h : Shaped A r c) {j : ℕ} (hj : j < c) :
    Tri E (A.colM j) (fun x => x.length = r) := by
  unfold Mat.colM
  rw [if_pos (by rw [h.2.1]; exact hj)]
  refine Tri.mono (Tri.mapM_len (fun _ => True) _ _ fun x hx => ?_) fun x hx => by rw [hx.1, h.1]
  refine Tri.mono (Tri.getM' ?_) fun _ _ => trivial
  rw [h.2.2 x hx]; exact hj

theorem setRow {A : Mat F} (h : Shaped A r c) {i : ℕ} (hi : i < r) {x : List F} (hx : x.length = c) :
    Tri E (setM A.rows i x) (fun rows => Shaped { A with rows := rows } r c) := by
  refine Tri.mono (Tri.setM' x (by rw [h.1]; exact hi)) fun rows ⟨h1, h2⟩ => ?_
  refine ⟨by rw [h1, h.1], h.2.1, fun y hy => ?_⟩
  rcases h2 y hy with h3 | h3
  · rw [h3, hx]
  · exact h.2.2 y h3

theorem set2 {A : Mat F} (h : Shaped A r c) {i j : ℕ} (hi : i < r) (hj : j < c) (a : F) :
    Tri E (A.set2 i j a) (fun B => Shaped B r c) := by
  unfold Mat.set2
  refine Tri.bind (Tri.getM' (by rw [h.1]; exact hi)) fun x hx => ?_
  have hxl := h.2.2 x hx
  refine Tri.bind (Tri.setM' a (by rw [hxl]; exact hj)) fun y hy => ?_
  refine Tri.bind (h.setRow hi (x := y) (by rw [hy.1, hxl])) fun rows hr => ?_
  exact hr

theorem fromShapeVec {v : List F} (h : v.length = r * c) :
    Tri E (Mat.fromShapeVec r c v) (fun A => Shaped A r c) := by
  unfold Mat.fromShapeVec
  rw [if_pos h]
  refine ⟨by simp, rfl, fun x hx => ?_⟩
  obtain ⟨i, hi, rfl⟩ := List.mem_map.mp hx
  rw [List.mem_range] at hi
  rw [List.length_take, List.length_drop, h]
  have : (i + 1) * c ≤ r * c := Nat.mul_le_mul_right c hi
  rw [Nat.add_mul] at this
  omega

theorem zeros [Scalar F] : Shaped (Mat.zeros r c : Mat F) r c := by
  refine ⟨by simp [Mat.zeros], rfl, fun x hx => ?_⟩
  rw [List.eq_of_mem_replicate hx]; simp

end Shaped

variable [Scalar F]

theorem dotM_safe {a b : List F} (h : a.length = b.length) : Tri E (dotM a b) (fun _ => True) := by
  unfold dotM; rw [if_pos h]; trivial

omit [Scalar F] in
theorem bop_safe (f : F → F → F) {a b : List F} (h : a.length = b.length) :
    Tri E (bop f a b) (fun x => x.length = a.length) := by
  unfold bop; rw [if_pos h]
  show (List.zipWith f a b).length = _
  simp [h]

theorem scaledAdd_safe {a b : List F} (d : F) (h : a.length = b.length) :
    Tri E (scaledAdd a d b) (fun x => x.length = a.length) := by
  unfold scaledAdd; rw [if_pos h]
  show (List.zipWith _ a b).length = _
  simp [h]

omit [Scalar F] in
theorem bopMat_safe (f : F → F → F) {A B : Mat F} (hA : Shaped A r c) (hB : Shaped B r c) :
    Tri E (bopMat f A B) (fun _ => True) := by
  unfold bopMat
  rw [if_pos ⟨by rw [hA.2.1, hB.2.1], by unfold Mat.nrows; rw [hA.1, hB.1]⟩]; trivial

theorem tMulVec_safe {A : Mat F} (hA : Shaped A r c) {v : List F} (hv : v.length = r) :
    Tri E (tMulVec A v) (fun x => x.length = c) := by
  unfold tMulVec
  rw [if_neg (by unfold Mat.nrows; rw [hA.1, hv]; simp)]
  refine Tri.mono (Tri.mapM_len (fun _ => True) _ _ fun j hj => ?_)
    fun x hx => by rw [hx.1, List.length_range, hA.2.1]
  rw [List.mem_range, hA.2.1] at hj
  exact Tri.bind (hA.colM hj) fun _ _ => trivial

theorem vecMul_safe {A : Mat F} (hA : Shaped A r c) {v : List F} (hv : v.length = r) :
    Tri E (vecMul v A) (fun x => x.length = c) := by
  unfold vecMul
  rw [if_neg (by unfold Mat.nrows; rw [hA.1, hv]; simp)]
  refine Tri.mono (Tri.mapM_len (fun _ => True) _ _ fun j hj => ?_)
    fun x hx => by rw [hx.1, List.length_range, hA.2.1]
  rw [List.mem_range, hA.2.1] at hj
  exact Tri.bind (hA.colM hj) fun _ _ => trivial

theorem tMulMat_safe {c' : ℕ} {A B : Mat F} (hA : Shaped A r c) (hB : Shaped B r c') :
    Tri E (tMulMat A B) (fun C => Shaped C c c') := by
  unfold tMulMat
  rw [if_neg (by unfold Mat.nrows; rw [hA.1, hB.1]; simp)]
  refine Tri.bind (Tri.mapM_len (fun x : List F => x.length = c') _ _ fun i hi => ?_) fun rows hr => ?_
  · rw [List.mem_range, hA.2.1] at hi
    refine Tri.bind (hA.colM hi) fun a _ => ?_
    refine Tri.mono (Tri.mapM_len (fun _ => True) _ _ fun j hj => ?_)
      fun x hx => by rw [hx.1, List.length_range, hB.2.1]
    rw [List.mem_range, hB.2.1] at hj
    exact Tri.bind (hB.colM hj) fun _ _ => trivial
  · exact ⟨by rw [hr.1, List.length_range, hA.2.1], hB.2.1, hr.2⟩

/-! ## The linear solver -/

theorem elimRow_safe {A : Mat F} (hA : Shaped A r c) {dst i : ℕ} {ks : List ℕ} (hd : dst < r) (hi : i < r)
    (hic : i < c) (hks : ∀ k ∈ ks, k < c) : Tri E (elimRow A dst i ks) (fun B => Shaped B r c) := by
  unfold elimRow
  refine Tri.bind (hA.get2 hd hic) fun a _ => ?_
  refine Tri.bind (hA.get2 hi hic) fun p _ => ?_
  refine Tri.foldlM (fun B => Shaped B r c) _ _ (fun S k hk hS => ?_) _ hA
  refine Tri.bind (hS.get2 hd (hks k hk)) fun x _ => ?_
  refine Tri.bind (hS.get2 hi (hks k hk)) fun y _ => ?_
  exact hS.set2 hd (hks k hk) _

theorem solveLinSys_safe {A : Mat F} (hA : Shaped A r c) {b : List F} (h0 : 0 < b.length)
    (hr : b.length ≤ r) (hc : b.length ≤ c) :
    Tri E (solveLinSys A b) (fun z => ∀ x, z = some x → x.length = b.length) := by
  unfold solveLinSys
  set n := b.length with hn
  refine Tri.bind (Q := fun S => Shaped S n (n + 1)) ?_ fun S hS => ?_
  · unfold augment
    refine Tri.bind (Tri.mapM_len (fun x : List F => x.length = n + 1) _ _ fun i hi => ?_) fun rows h => ?_
    · rw [List.mem_range, ← hn] at hi
      refine Tri.mono (Tri.mapM_len (fun _ => True) _ _ fun j hj => ?_)
        fun x hx => by rw [hx.1, List.length_range, ← hn]
      rw [List.mem_range, ← hn] at hj
      split
      · exact Tri.mono (Tri.getM' (by rw [← hn]; exact hi)) fun _ _ => trivial
      · exact hA.get2 (by omega) (by omega)
    · exact ⟨by rw [h.1, List.length_range, ← hn], rfl, h.2⟩
  have hm : subM n 1 = .ok (n - 1) := by unfold subM; rw [if_pos (by omega)]
  rw [hm]
  show Tri E (do
      let S' ← echelon n (n - 1) S
      let S' ← backElim n S'
      readSolution n S') _
  refine Tri.bind (Q := fun S => Shaped S n (n + 1)) ?_ fun S1 hS1 => ?_
  · unfold echelon
    refine Tri.foldlM _ _ _ (fun S i hi hS => ?_) _ hS
    rw [List.mem_range] at hi
    refine Tri.foldlM _ _ _ (fun S j hj hS => ?_) _ hS
    rw [List.mem_range'_1] at hj
    refine Tri.bind (hS.get2 (by omega) (by omega)) fun p _ => ?_
    split
    · exact hS
    · refine elimRow_safe hS (by omega) (by omega) (by omega) fun k hk => ?_
      rw [List.mem_range'_1] at hk; omega
  refine Tri.bind (Q := fun S => Shaped S n (n + 1)) ?_ fun S2 hS2 => ?_
  · unfold backElim
    refine Tri.foldlM _ _ _ (fun S i hi hS => ?_) _ hS1
    rw [List.mem_reverse, List.mem_range'_1] at hi
    refine Tri.bind (hS.get2 (by omega) (by omega)) fun p _ => ?_
    split
    · exact hS
    · refine Tri.foldlM _ _ _ (fun S j hj hS => ?_) _ hS
      rw [List.mem_reverse, List.mem_range'_1] at hj
      refine elimRow_safe hS (by omega) (by omega) (by omega) fun k hk => ?_
      rw [List.mem_reverse, List.mem_range] at hk; omega
  · unfold readSolution
    have key : ∀ k ≤ n, Tri E ((List.range k).foldlM (fun (acc : Option (List F)) i =>
        match acc with
        | none => pure none
        | some x => do
          let p ← S2.get2 i i
          if p ==. zero then pure none
          else do
            let r ← S2.get2 i n
            pure (some (x ++ [r /. p]))) (some [])) (fun z => ∀ x, z = some x → x.length = k) := by
      intro k
      induction k with
      | zero => intro _ x hx; injection hx with hx; subst hx; rfl
      | succ k ih =>
        intro hk
        rw [List.range_succ, List.foldlM_append]
        refine Tri.bind (ih (by omega)) fun z hz => ?_
        rw [List.foldlM_cons]
        refine Tri.bind (Q := fun z => ∀ x, z = some x → x.length = k + 1) ?_
          fun z hz => by rw [List.foldlM_nil]; exact hz
        cases z with
        | none => intro x hx; cases hx
        | some x =>
          refine Tri.bind (hS2.get2 (by omega) (by omega)) fun p _ => ?_
          split
          · intro x hx; cases hx
          · refine Tri.bind (hS2.get2 (by omega) (by omega)) fun q _ => ?_
            intro y hy; injection hy with hy; subst hy
            simp [hz x rfl]
    exact key n (Nat.le_refl n)

/-! ## The acceleration buffers -/

theorem diffMatrix_safe {B : Mat F} {K : ℕ} (hB : Shaped B (K + 1) c) :
    Tri E (diffMatrix B K c) (fun U => Shaped U K c) := by
  unfold diffMatrix
  refine Tri.bind (Tri.mapM_len (fun x : List F => x.length = c) _ _ fun rr hrr => ?_) fun rows h => ?_
  · have h1 := List.of_mem_zip hrr
    have l1 := hB.2.2 _ (List.mem_of_mem_take h1.1)
    have l2 := hB.2.2 _ (List.mem_of_mem_drop h1.2)
    exact Tri.mono (bop_safe _ (by rw [l1, l2])) fun x hx => by rw [hx, l2]
  · refine Shaped.fromShapeVec ?_
    have hl : rows.length = K := by
      rw [h.1, List.length_zip, List.length_take, List.length_drop, hB.1]; omega
    rw [List.length_flatten, ← hl]
    have : rows.map List.length = List.replicate rows.length c := by
      rw [List.eq_replicate_iff]
      refine ⟨by simp, fun x hx => ?_⟩
      obtain ⟨y, hy, rfl⟩ := List.mem_map.mp hx
      exact h.2 y hy
    rw [this, List.sum_replicate]; rfl

theorem extrapolate_safe {B : Mat F} {K : ℕ} (hB : Shaped B (K + 1) c) (z : List F) :
    Tri E (extrapolate B z K c) (fun x => x.length = c) := by
  unfold extrapolate
  refine Tri.foldlM (fun x : List F => x.length = c) _ _ (fun acc row hrow hacc => ?_) _ (by simp)
  obtain ⟨rc, hrc, rfl⟩ := List.mem_map.mp hrow
  have h1 := List.of_mem_zip hrc
  have l1 := hB.2.2 _ (List.mem_of_mem_take h1.1)
  exact Tri.mono (bop_safe _ (by rw [hacc, List.length_map, l1])) fun x hx => by rw [hx, hacc]

end Sglm
