import Verif.Proofs.MatN
import Verif.Spec.Data

/-!
# Array operations on real data
-/

namespace Sglm
open Scalar Spec

section
variable {n p m T : ℕ}

@[simp] theorem mat_nrows (X : Fin n → Fin p → ℝ) : (mat X).nrows = n := by simp [mat, Mat.nrows]
@[simp] theorem mat_ncols (X : Fin n → Fin p → ℝ) : (mat X).ncols = p := rfl
@[simp] theorem mat_rows_length (X : Fin n → Fin p → ℝ) : (mat X).rows.length = n := by simp [mat]

theorem mapM_ofFn {α β : Type} {f : α → M β} {k : ℕ} (a : Fin k → α) (b : Fin k → β)
    (h : ∀ i, f (a i) = .ok (b i)) : (List.ofFn a).mapM f = .ok (List.ofFn b) := by
  induction k with
  | zero => rfl
  | succ k ih =>
    rw [List.ofFn_succ, List.ofFn_succ, List.mapM_cons, h 0, ih _ _ fun i => h i.succ]
    rfl

theorem range_eq_ofFn (k : ℕ) : List.range k = List.ofFn (fun i : Fin k => (i : ℕ)) := by
  apply List.ext_getElem (by simp)
  intro i h1 h2
  simp

theorem mapM_range {β : Type} {f : ℕ → M β} {k : ℕ} (b : Fin k → β)
    (h : ∀ i : Fin k, f i = .ok (b i)) : (List.range k).mapM f = .ok (List.ofFn b) := by
  rw [range_eq_ofFn]
  exact mapM_ofFn _ _ h

@[simp] theorem getM_ofFn {α : Type} (a : Fin n → α) (i : Fin n) : getM (List.ofFn a) i = .ok (a i) := by
  simp [getM]

theorem setM_ofFn {α : Type} (a : Fin n → α) (i : Fin n) (x : α) :
    setM (List.ofFn a) i x = .ok (List.ofFn (Function.update a i x)) := by
  rw [setM, if_pos (by simp)]
  congr 1
  apply List.ext_getElem (by simp)
  intro k h1 h2
  rw [List.getElem_set]
  simp only [List.getElem_ofFn]
  by_cases h : (i : ℕ) = k
  · subst h; simp
  · rw [if_neg h, Function.update_of_ne]
    intro h'; apply h; rw [← h']

@[simp] theorem rowM_mat (X : Fin n → Fin p → ℝ) (i : Fin n) : (mat X).rowM i = .ok (vec (X i)) :=
  getM_ofFn _ i

@[simp] theorem get2_mat (X : Fin n → Fin p → ℝ) (i : Fin n) (j : Fin p) :
    (mat X).get2 i j = .ok (XR.fin (X i j)) := by
  unfold Mat.get2 mat
  rw [getM_ofFn]
  exact getM_vec _ _

@[simp] theorem colM_mat (X : Fin n → Fin p → ℝ) (j : Fin p) :
    (mat X).colM j = .ok (vec (fun i => X i j)) := by
  unfold Mat.colM
  rw [if_pos (show (j : ℕ) < (mat X).ncols from j.isLt)]
  exact mapM_ofFn _ _ fun i => getM_vec _ _

theorem set2_mat (X : Fin n → Fin p → ℝ) (i : Fin n) (j : Fin p) (a : ℝ) :
    (mat X).set2 i j (XR.fin a) = .ok (mat (Function.update X i (Function.update (X i) j a))) := by
  unfold Mat.set2 mat
  rw [getM_ofFn]
  simp only [bind, Except.bind, setM_vec, setM_ofFn, pure, Except.pure]
  congr 3
  funext r
  by_cases h : r = i
  · subst h; simp
  · simp [h]

theorem tMulVec_mat (X : Fin n → Fin p → ℝ) (v : Fin n → ℝ) :
    tMulVec (mat X) (vec v) = .ok (vec (fun j => ∑ i, X i j * v i)) := by
  unfold tMulVec
  rw [if_neg (by simp)]
  simp only [mat_ncols]
  unfold vec
  apply mapM_range
  intro j
  rw [colM_mat]
  show Except.ok (dot _ (vec v)) = _
  rw [dot_vec]

theorem vecMul_mat (v : Fin n → ℝ) (X : Fin n → Fin p → ℝ) :
    vecMul (vec v) (mat X) = .ok (vec (fun j => ∑ i, v i * X i j)) := by
  unfold vecMul
  rw [if_neg (by simp)]
  simp only [mat_ncols]
  show _ = Except.ok (List.ofFn _)
  apply mapM_range
  intro j
  rw [colM_mat]
  show Except.ok (dot (vec v) _) = _
  rw [dot_vec]

theorem tMulMat_mat (X : Fin n → Fin p → ℝ) (Y : Fin n → Fin m → ℝ) :
    tMulMat (mat X) (mat Y) = .ok (mat (fun a b => ∑ i, X i a * Y i b)) := by
  unfold tMulMat
  rw [if_neg (by simp)]
  simp only [mat_ncols]
  rw [mapM_range (fun a => vec (fun b => ∑ i, X i a * Y i b))]
  · rfl
  · intro a
    rw [colM_mat]
    simp only [bind, Except.bind]
    show _ = Except.ok (List.ofFn _)
    apply mapM_range
    intro b
    rw [colM_mat]
    show Except.ok (mmdot _ _) = _
    rw [mmdot_vec]

theorem bop_vec (F : XR → XR → XR) (h : ℝ → ℝ → ℝ) (hF : ∀ a b, F (XR.fin a) (XR.fin b) = XR.fin (h a b))
    (f g : Fin n → ℝ) : bop F (vec f) (vec g) = .ok (vec (fun i => h (f i) (g i))) := by
  unfold bop
  rw [if_pos (by simp), zipWith_vec f g F h fun i => hF _ _]

theorem bop_sub_vec (f g : Fin n → ℝ) : bop Scalar.sub (vec f) (vec g) = .ok (vec (fun i => f i - g i)) :=
  bop_vec _ _ XR.s_sub f g

theorem bop_add_vec (f g : Fin n → ℝ) : bop Scalar.add (vec f) (vec g) = .ok (vec (fun i => f i + g i)) :=
  bop_vec _ _ XR.s_add f g

theorem bopMat_sub_mat (A B : Fin n → Fin p → ℝ) :
    bopMat Scalar.sub (mat A) (mat B) = .ok (mat (fun i j => A i j - B i j)) := by
  unfold bopMat
  rw [if_pos (by simp)]
  congr 1
  unfold mat
  congr 1
  apply List.ext_getElem (by simp)
  intro i h1 h2
  simp only [List.getElem_zipWith, List.getElem_ofFn]
  exact zipWith_vec _ _ _ _ fun i => XR.s_sub _ _

theorem dotM_vec (f g : Fin n → ℝ) : dotM (vec f) (vec g) = .ok (XR.fin (∑ i, f i * g i)) := by
  unfold dotM
  rw [if_pos (by simp), dot_vec]

theorem scaledAdd_vec (f g : Fin n → ℝ) (c : ℝ) :
    scaledAdd (vec f) (XR.fin c) (vec g) = .ok (vec (fun i => f i + c * g i)) := by
  unfold scaledAdd
  rw [if_pos (by simp)]
  congr 1
  exact zipWith_vec f g _ (fun a b => a + c * b) fun i => by simp

theorem zeros_eq_mat : (Mat.zeros n p : Mat XR) = mat (fun (_ : Fin n) (_ : Fin p) => (0 : ℝ)) := by
  unfold Mat.zeros mat
  congr 1
  rw [XR.s_zero, replicate_zero_eq_vec]
  simp

theorem replicate_zero_vec : List.replicate n (Scalar.zero : XR) = vec (fun _ : Fin n => (0 : ℝ)) :=
  replicate_zero_eq_vec

/-- The sum of a list of reals. -/
theorem foldl_add_map {α : Type} (l : List α) (f : α → ℝ) (c : ℝ) :
    l.foldl (fun acc a => acc + f a) c = c + (l.map f).sum := by
  induction l generalizing c with
  | nil => simp
  | cons a l ih => rw [List.foldl_cons, ih, List.map_cons, List.sum_cons]; ring

/-- Flattening a matrix and reading it back. -/
theorem fromShapeVec_flatten {F : Type} {r c : ℕ} (rows : List (List F)) (hr : rows.length = r)
    (hc : ∀ x ∈ rows, x.length = c) : Mat.fromShapeVec r c rows.flatten = .ok ⟨c, rows⟩ := by
  subst hr
  unfold Mat.fromShapeVec
  have hlen : rows.flatten.length = rows.length * c := by
    induction rows with
    | nil => simp
    | cons x t ih =>
      rw [List.flatten_cons, List.length_append, hc x List.mem_cons_self,
        ih fun y hy => hc y (List.mem_cons_of_mem _ hy), List.length_cons]
      ring
  rw [if_pos hlen]
  congr 2
  clear hlen
  induction rows with
  | nil => rfl
  | cons x t ih =>
    have hx := hc x List.mem_cons_self
    rw [List.length_cons, List.range_succ_eq_map, List.map_cons, List.map_map, List.flatten_cons]
    congr 1
    · simp [hx]
    · refine Eq.trans ?_ (ih fun y hy => hc y (List.mem_cons_of_mem _ hy))
      apply List.map_congr_left
      intro i _
      simp only [Function.comp_apply, Nat.succ_eq_add_one]
      rw [show (i + 1) * c = x.length + i * c by rw [hx]; ring, ← List.drop_drop, List.drop_left]

theorem fromShapeVec_mat (A : Fin n → Fin p → ℝ) :
    Mat.fromShapeVec n p (List.ofFn (fun i => vec (A i))).flatten = .ok (mat A) := by
  rw [fromShapeVec_flatten _ (by simp)]
  · rfl
  · intro x hx
    rw [List.mem_ofFn] at hx
    obtain ⟨i, rfl⟩ := hx
    simp

theorem iterSum_flatten_mat (A : Fin n → Fin p → ℝ) (F : XR → XR) (h : ℝ → ℝ)
    (hF : ∀ a, F (XR.fin a) = XR.fin (h a)) :
    iterSum ((mat A).rows.flatten.map F) = XR.fin (∑ i, ∑ j, h (A i j)) := by
  have e : (mat A).rows.flatten.map F = ((List.ofFn (fun i => List.ofFn (fun j => h (A i j)))).flatten).map XR.fin := by
    unfold mat
    rw [List.map_flatten, List.map_flatten]
    congr 1
    rw [List.map_ofFn, List.map_ofFn]
    congr 1
    funext i
    simp only [Function.comp_apply]
    rw [map_vec (A i) F h fun j => hF _, vec_eq_map]
  rw [e, XR.iterSum_map_fin]
  congr 1
  rw [List.sum_flatten, List.map_ofFn, List.sum_ofFn]
  simp [List.sum_ofFn]

/-! ## Targets -/

theorem one_asMulti (y : Fin n → ℝ) : (Targets.one (vec y)).asMulti = mat (fun i (_ : Fin 1) => y i) := by
  unfold Targets.one mat
  simp [vec, List.map_ofFn, Function.comp_def]

@[simp] theorem one_nSamples (y : Fin n → ℝ) : (Targets.one (vec y)).nSamples = n := by simp [Targets.one]

theorem single_of_asMulti (Tg : Targets XR) (y : Fin n → ℝ) (h : Tg.asMulti = mat (fun i (_ : Fin 1) => y i)) :
    Tg.single = .ok (vec y) := by
  unfold Targets.single Targets.trySingle
  rw [h, if_neg (by simp)]
  have := colM_mat (fun i (_ : Fin 1) => y i) 0
  rw [show (mat (fun i (_ : Fin 1) => y i)).colM 0 = _ from this]
  rfl

@[simp] theorem single_one (y : Fin n → ℝ) : (Targets.one (vec y)).single = .ok (vec y) :=
  single_of_asMulti _ y (one_asMulti y)

/-! ## Sparse columns -/

theorem intRange_eq (a b : ℕ) : intRange (a : ℤ) (b : ℤ) = (List.range' a (b - a)).map (fun k : ℕ => (k : ℤ)) := by
  unfold intRange
  rw [show ((b : ℤ) - (a : ℤ)).toNat = b - a by omega, List.range'_eq_map_range, List.map_map]
  apply List.map_congr_left
  intro k _
  simp

theorem filter_range (a b m : ℕ) (hb : b ≤ m) :
    (List.range m).filter (fun k => decide (a ≤ k ∧ k < b)) = List.range' a (b - a) := by
  rcases Nat.le_total b a with h | h
  · rw [Nat.sub_eq_zero_of_le h]
    rw [List.range'_zero, List.filter_eq_nil_iff]
    intro k _
    simp; omega
  · have e : List.range m = List.range' 0 a ++ (List.range' a (b - a) ++ List.range' b (m - b)) := by
      have e1 := List.range'_append (s := a) (m := b - a) (n := m - b) (step := 1)
      have e2 := List.range'_append (s := 0) (m := a) (n := b - a + (m - b)) (step := 1)
      rw [one_mul, Nat.add_sub_cancel' h] at e1
      rw [one_mul, Nat.zero_add] at e2
      rw [e1, e2, List.range_eq_range']
      congr 1; omega
    rw [e, List.filter_append, List.filter_append]
    rw [List.filter_eq_nil_iff.mpr, List.filter_eq_self.mpr, List.filter_eq_nil_iff.mpr]
    · simp
    · intro k hk; rw [List.mem_range'_1] at hk; simp; omega
    · intro k hk; rw [List.mem_range'_1] at hk; simp; omega
    · intro k hk; rw [List.mem_range'_1] at hk; simp; omega

/-- The stored entries of column `j`, in order. -/
def colList (A : CSCData n p) (j : Fin p) : List (Fin A.nnz) :=
  (List.finRange A.nnz).filter (fun k => decide (A.InCol j k))

theorem colRange_toCSC (A : CSCData n p) (j : Fin p) :
    A.toCSC.colRange j = .ok ((colList A j).map (fun k : Fin A.nnz => ((k : ℕ) : ℤ))) := by
  unfold CSC.colRange CSCData.toCSC
  simp only
  have h1 := getM_ofFn (fun j => (A.ptr j : ℤ)) j.castSucc
  have h2 := getM_ofFn (fun j => (A.ptr j : ℤ)) j.succ
  simp only [Fin.val_castSucc, Fin.val_succ] at h1 h2
  rw [h1, h2]
  simp only [bind, Except.bind, pure, Except.pure]
  rw [intRange_eq, ← filter_range _ _ A.nnz (A.ptr_le _)]
  congr 1
  rw [← List.map_coe_finRange_eq_range, List.filter_map, List.map_map]
  rfl

@[simp] theorem dataAt_toCSC (A : CSCData n p) (k : Fin A.nnz) :
    A.toCSC.dataAt ((k : ℕ) : ℤ) = .ok (XR.fin (A.data k)) := by
  unfold CSC.dataAt toIdx
  rw [if_pos (by omega)]
  simp only [bind, Except.bind, Int.toNat_natCast]
  exact getM_vec _ _

@[simp] theorem rowAt_toCSC (A : CSCData n p) (k : Fin A.nnz) :
    A.toCSC.rowAt ((k : ℕ) : ℤ) = .ok (A.row k : ℕ) := by
  unfold CSC.rowAt toIdx
  rw [if_pos (by omega)]
  simp only [bind, Except.bind, Int.toNat_natCast]
  have := getM_ofFn (fun k => ((A.row k : ℕ) : ℤ)) k
  unfold CSCData.toCSC
  rw [this]
  simp

theorem sum_filter_list {m : ℕ} (P : Fin m → Prop) [DecidablePred P] (f : Fin m → ℝ) :
    (((List.finRange m).filter (fun k => decide (P k))).map f).sum = ∑ k, if P k then f k else 0 := by
  rw [← Finset.sum_filter, Finset.sum]
  congr 1

/-- Sums over the stored entries of a column are sums over rows of the dense matrix. -/
theorem sum_colList (A : CSCData n p) (j : Fin p) (f : Fin n → ℝ) :
    ((colList A j).map (fun k => A.data k * f (A.row k))).sum = ∑ i, A.dense i j * f i := by
  unfold colList
  rw [sum_filter_list]
  unfold CSCData.dense
  simp only [Finset.sum_mul]
  rw [Finset.sum_comm]
  apply Finset.sum_congr rfl
  intro k _
  by_cases h : A.InCol j k
  · simp [h]
  · simp [h]

theorem sum_sq_colList (A : CSCData n p) (hA : A.NoDup) (j : Fin p) :
    ((colList A j).map (fun k => A.data k * A.data k)).sum = ∑ i, A.dense i j * A.dense i j := by
  have h := sum_colList A j (fun i => A.dense i j)
  rw [← h]
  unfold colList
  congr 1
  apply List.map_congr_left
  intro k hk
  have hk : A.InCol j k := by simpa using (List.mem_filter.mp hk).2
  congr 1
  unfold CSCData.dense
  rw [Finset.sum_eq_single k]
  · simp [hk]
  · intro k' _ hne
    rw [if_neg]
    rintro ⟨h1, h2⟩
    exact hne (hA j k' k h1 hk h2)
  · intro h; exact absurd (Finset.mem_univ k) h

/-- Folding over a column. -/
theorem foldlM_col {σ τ : Type} (A : CSCData n p) (j : Fin p) (g : τ → σ) (f : σ → ℤ → M σ)
    (h : τ → Fin A.nnz → τ) (hf : ∀ t (k : Fin A.nnz), f (g t) ((k : ℕ) : ℤ) = .ok (g (h t k))) (t : τ) :
    ((colList A j).map (fun k : Fin A.nnz => ((k : ℕ) : ℤ))).foldlM f (g t) = .ok (g ((colList A j).foldl h t)) := by
  rw [List.foldlM_map]
  exact (foldlM_ok g _ h _ (fun _ => True) (fun t _ k _ => ⟨hf t k, trivial⟩) t trivial).1

end
end Sglm
