import Verif.Proofs.FloatCheck

/-!
# Predictions computed from the coefficients, with explicit errors
-/

namespace Sglm
open Scalar Spec
variable {n p : ℕ} {F : Type}

theorem fold_update_at {α : Type} (row : α → Fin n) (h : F → α → F) (i : Fin n) : ∀ (l : List α) (u : Fin n → F),
    (l.foldl (fun u a => Function.update u (row a) (h (u (row a)) a)) u) i = (l.filter fun a => row a = i).foldl h (u i)
  | [], u => rfl
  | a :: l, u => by
    rw [List.foldl_cons, fold_update_at row h i l]
    by_cases hi : row a = i
    · rw [List.filter_cons_of_pos (by simpa using hi), List.foldl_cons, ← hi, Function.update_self]
    · rw [List.filter_cons_of_neg (by simpa using hi), Function.update_of_ne (Ne.symm hi)]

theorem sum_map_filter {α : Type} (q : α → Prop) [DecidablePred q] (f : α → ℝ) : ∀ l : List α,
    ((l.filter fun a => q a).map f).sum = (l.map fun a => if q a then f a else 0).sum
  | [] => rfl
  | a :: l => by
    by_cases h : q a
    · rw [List.filter_cons_of_pos (by simpa using h), List.map_cons, List.sum_cons, List.map_cons, List.sum_cons, if_pos h,
        sum_map_filter q f l]
    · rw [List.filter_cons_of_neg (by simpa using h), List.map_cons, List.sum_cons, if_neg h, zero_add, sum_map_filter q f l]

theorem sum_map_flatMap {α β : Type} (g : α → List β) (f : β → ℝ) : ∀ l : List α,
    ((l.flatMap g).map f).sum = (l.map fun a => ((g a).map f).sum).sum
  | [] => rfl
  | a :: l => by
    rw [List.flatMap_cons, List.map_append, List.sum_append, List.map_cons, List.sum_cons, sum_map_flatMap g f l]

/-- The stored entries with their columns. -/
def entries (A : CSCData n p) : List (Fin p × Fin A.nnz) := (List.finRange p).flatMap fun j => (colList A j).map fun k => (j, k)

theorem mem_entries (A : CSCData n p) (a : Fin p × Fin A.nnz) (h : a ∈ entries A) : A.InCol a.1 a.2 := by
  unfold entries at h
  simp only [List.mem_flatMap, List.mem_map, List.mem_finRange, true_and] at h
  obtain ⟨j, k, hk, rfl⟩ := h
  simpa [colList] using hk

theorem nodup_entries (A : CSCData n p) : (entries A).Nodup := by
  unfold entries
  rw [List.nodup_flatMap]
  refine ⟨fun j _ => List.Nodup.map (fun a b h => (Prod.mk.inj h).2) ?_, ?_⟩
  · unfold colList
    exact (List.nodup_finRange _).filter _
  · refine (List.nodup_finRange p).imp fun {a b} hab => ?_
    intro x hx hy
    simp only [List.mem_map] at hx hy
    obtain ⟨k, -, rfl⟩ := hx
    obtain ⟨k', -, h⟩ := hy
    exact hab (Prod.mk.inj h).1.symm

theorem row_entries_length (A : CSCData n p) (hA : A.NoDup) (i : Fin n) :
    ((entries A).filter fun a => A.row a.2 = i).length ≤ p := by
  have hnd : (((entries A).filter fun a => A.row a.2 = i).map Prod.fst).Nodup := by
    refine (List.nodup_map_iff_inj_on ((nodup_entries A).filter _)).mpr ?_
    rintro ⟨j, k⟩ hk ⟨j', k'⟩ hk' (h : j = j')
    subst h
    rw [List.mem_filter] at hk hk'
    have h1 := mem_entries A _ hk.1
    have h2 := mem_entries A _ hk'.1
    have h3 : A.row k = i := by simpa using hk.2
    have h4 : A.row k' = i := by simpa using hk'.2
    rw [hA j k k' h1 h2 (h3.trans h4.symm)]
  have := List.Nodup.length_le_card hnd
  simpa using this

theorem row_entries_sum (A : CSCData n p) (v : Fin p → ℝ) (i : Fin n) :
    (((entries A).filter fun a => A.row a.2 = i).map fun a => A.data a.2 * v a.1).sum = ∑ j, A.dense i j * v j := by
  rw [sum_map_filter]
  unfold entries
  rw [sum_map_flatMap, Fin.sum_univ_def]
  congr 1
  refine List.map_congr_left fun j _ => ?_
  rw [List.map_map]
  have h := sum_colList A j (fun i' => if i' = i then v j else 0)
  simp only [mul_ite, mul_zero, Finset.sum_ite_eq', Finset.mem_univ, if_true] at h
  rw [← h]
  rfl

theorem row_entries_abs (A : CSCData n p) (hA : A.NoDup) (v : Fin p → ℝ) (i : Fin n) :
    (((entries A).filter fun a => A.row a.2 = i).map fun a => |A.data a.2 * v a.1|).sum = ∑ j, |A.dense i j * v j| := by
  have h := row_entries_sum (absCSC A) (fun j => |v j|) i
  simp only [abs_dense A hA] at h
  simp only [abs_mul]
  exact h

variable [Scalar F] [LawfulCmp F] {e : ℝ}

/-- The predictions computed by `compute_extrapolated_fit`. -/
theorem fit_dense (P : Precise F e) (x : Fin n → Fin p → F) (X : Fin n → Fin p → ℝ) (hx : ∀ i j, Den (x i j) (X i j))
    (w : Fin p → F) (v : Fin p → ℝ) (hw : ∀ j, Den (w j) (v j)) (hpe : 8 * (p * e) ≤ 1)
    (hs : ∀ i, 4 * (∑ j, |X i j * v j| + 1) * e ≤ 1) :
    ∃ (z : Fin n → F) (Z : Fin n → ℝ), (matOf x).extrapolatedFit (List.range p) (List.ofFn w) = .ok (List.ofFn z) ∧
      ∀ i, Den (z i) (Z i) ∧ |Z i - fit X v i| ≤ 4 * (p * e) * (∑ j, |X i j * v j| + 1) := by
  have hr : List.range p = (List.finRange p).map Fin.val := by simp
  rw [hr, dense_extra_eq]
  have h : ∀ i, ∃ t, Den ((List.finRange p).foldl (fun acc j => acc +. x i j *. w j) zero) t ∧
      |t - fit X v i| ≤ 4 * (p * e) * (∑ j, |X i j * v j| + 1) := by
    intro i
    have := foldProd_err P (x i) w (X i) v (List.finRange p) (fun j _ => ⟨hx i j, hw j⟩) (by rwa [List.length_finRange]) (by
      rw [← Fin.sum_univ_def]; exact hs i)
    rwa [← Fin.sum_univ_def, ← Fin.sum_univ_def, List.length_finRange] at this
  choose Z hZ using h
  exact ⟨_, Z, rfl, hZ⟩

theorem fit_csc (P : Precise F e) (A : CSCData n p) (hA : A.NoDup) (x : Fin A.nnz → F) (hx : ∀ k, Den (x k) (A.data k))
    (w : Fin p → F) (v : Fin p → ℝ) (hw : ∀ j, Den (w j) (v j)) (hpe : 8 * (p * e) ≤ 1)
    (hs : ∀ i, 4 * (∑ j, |A.dense i j * v j| + 1) * e ≤ 1) :
    ∃ (z : Fin n → F) (Z : Fin n → ℝ), (A.toCSCOf x).extrapolatedFit (List.range p) (List.ofFn w) n = .ok (List.ofFn z) ∧
      ∀ i, Den (z i) (Z i) ∧ |Z i - fit A.dense v i| ≤ 4 * (p * e) * (∑ j, |A.dense i j * v j| + 1) := by
  have he := P.pos
  have hr : List.range p = (List.finRange p).map Fin.val := by simp
  rw [hr, csc_extra_eq]
  have h : ∀ i, ∃ t, Den ((((List.finRange p).flatMap fun j => (colList A j).map fun k => (j, k)).foldl
        (fun (u : Fin n → F) jk => Function.update u (A.row jk.2) (u (A.row jk.2) +. x jk.2 *. w jk.1)) fun _ => zero) i) t ∧
      |t - fit A.dense v i| ≤ 4 * (p * e) * (∑ j, |A.dense i j * v j| + 1) := by
    intro i
    rw [fold_update_at (fun jk : Fin p × Fin A.nnz => A.row jk.2) (fun acc jk => acc +. x jk.2 *. w jk.1) i]
    have hl : (((entries A).filter fun a => A.row a.2 = i).length : ℝ) ≤ p := by exact_mod_cast row_entries_length A hA i
    have hl' := mul_le_mul_of_nonneg_right hl he.le
    obtain ⟨t, h1, h2⟩ := foldProd_err P (fun a : Fin p × Fin A.nnz => x a.2) (fun a => w a.1) (fun a => A.data a.2) (fun a => v a.1)
      ((entries A).filter fun a => A.row a.2 = i) (fun a _ => ⟨hx a.2, hw a.1⟩) (by linarith) (by
        rw [row_entries_abs A hA]; exact hs i)
    rw [row_entries_abs A hA, row_entries_sum] at h2
    refine ⟨t, h1, h2.trans (mul_le_mul_of_nonneg_right (by linarith) ?_)⟩
    have := Finset.sum_nonneg fun j (_ : j ∈ Finset.univ) => abs_nonneg (A.dense i j * v j)
    linarith
  choose Z hZ using h
  exact ⟨_, Z, rfl, hZ⟩

/-- The check with recomputed predictions. -/
theorem recheck_eq (P : Precise F e) (D : Design n p) (hD : D.Canonical) (x : D.Entries F) (hx : D.Holds x) (y : Fin n → F)
    (pen' : PenOf F) (w : Fin p → F) (v : Fin p → ℝ) (hw : ∀ j, Den (w j) (v j)) (hpe : 8 * (p * e) ≤ 1)
    (hs : ∀ i, 4 * (∑ j, |D.matrix i j * v j| + 1) * e ≤ 1) :
    ∃ (z : Fin n → F) (Z : Fin n → ℝ), recheckOf D x y .quadratic pen' w = checkOf D x y .quadratic pen' w z ∧
      ∀ i, Den (z i) (Z i) ∧ |Z i - fit D.matrix v i| ≤ 4 * (p * e) * (∑ j, |D.matrix i j * v j| + 1) := by
  cases D with
  | dense X =>
    change Fin n → Fin p → F at x
    obtain ⟨z, Z, h1, h2⟩ := fit_dense P x X hx w v hw hpe hs
    refine ⟨z, Z, ?_, h2⟩
    unfold recheckOf checkOf callOf
    have h1' : DesignMatrix.extrapolatedFit (matOf x) (List.range p) (List.ofFn w) n = .ok (List.ofFn z) := h1
    cases pen' <;> simp only [quad_init_dense, h1', bind, Except.bind]
  | csc A =>
    change Fin A.nnz → F at x
    obtain ⟨z, Z, h1, h2⟩ := fit_csc P A hD x hx w v hw hpe hs
    refine ⟨z, Z, ?_, h2⟩
    unfold recheckOf checkOf callOf
    have h1' : DesignMatrix.extrapolatedFit (A.toCSCOf x) (List.range p) (List.ofFn w) n = .ok (List.ofFn z) := h1
    cases pen' <;> simp only [quad_init_csc, h1', bind, Except.bind]

end Sglm
