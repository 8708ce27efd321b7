import Verif.Proofs.XRBasic
import Verif.Proofs.Triple

/-!
# Arrays of reals indexed by natural numbers
-/

namespace Sglm
open Scalar

/-- The array of the first `n` values of `f`. -/
noncomputable def vecN (n : ℕ) (f : ℕ → ℝ) : List XR := (List.range n).map (fun i => XR.fin (f i))

/-- The `n × m` matrix of the values of `f`. -/
noncomputable def matN (n m : ℕ) (f : ℕ → ℕ → ℝ) : Mat XR :=
  ⟨m, (List.range n).map (fun i => vecN m (f i))⟩

@[simp] theorem vecN_length (n : ℕ) (f : ℕ → ℝ) : (vecN n f).length = n := by simp [vecN]

theorem vecN_congr {n : ℕ} {f g : ℕ → ℝ} (h : ∀ i < n, f i = g i) : vecN n f = vecN n g := by
  unfold vecN
  apply List.map_congr_left
  intro i hi
  rw [h i (List.mem_range.mp hi)]

theorem matN_congr {n m : ℕ} {f g : ℕ → ℕ → ℝ} (h : ∀ i < n, ∀ j < m, f i j = g i j) :
    matN n m f = matN n m g := by
  unfold matN
  congr 1
  apply List.map_congr_left
  intro i hi
  exact vecN_congr (h i (List.mem_range.mp hi))

theorem getM_vecN {n : ℕ} (f : ℕ → ℝ) {i : ℕ} (hi : i < n) : getM (vecN n f) i = .ok (XR.fin (f i)) := by
  simp [getM, vecN, hi]

theorem getM_map_range {α : Type} {n i : ℕ} (f : ℕ → α) (hi : i < n) :
    getM ((List.range n).map f) i = .ok (f i) := by
  simp [getM, hi]

theorem setM_map_range {α : Type} {n i : ℕ} (f : ℕ → α) (a : α) (hi : i < n) :
    setM ((List.range n).map f) i a = .ok ((List.range n).map (Function.update f i a)) := by
  rw [setM, if_pos (by simpa using hi)]
  congr 1
  apply List.ext_getElem (by simp)
  intro k h1 h2
  rw [List.getElem_set]
  simp only [List.getElem_map, List.getElem_range]
  by_cases h : i = k
  · subst h; simp
  · rw [if_neg h, Function.update_of_ne (Ne.symm h)]

theorem setM_vecN {n : ℕ} (f : ℕ → ℝ) {i : ℕ} (a : ℝ) (hi : i < n) :
    setM (vecN n f) i (XR.fin a) = .ok (vecN n (Function.update f i a)) := by
  unfold vecN
  rw [setM_map_range _ _ hi]
  congr 2
  funext k
  by_cases h : k = i
  · subst h; simp
  · simp [Function.update_of_ne h]

theorem get2_matN {n m : ℕ} (f : ℕ → ℕ → ℝ) {i j : ℕ} (hi : i < n) (hj : j < m) :
    (matN n m f).get2 i j = .ok (XR.fin (f i j)) := by
  unfold Mat.get2 matN
  rw [getM_map_range _ hi]
  exact getM_vecN _ hj

theorem set2_matN {n m : ℕ} (f : ℕ → ℕ → ℝ) {i j : ℕ} (a : ℝ) (hi : i < n) (hj : j < m) :
    (matN n m f).set2 i j (XR.fin a) =
      .ok (matN n m (fun r c => if r = i ∧ c = j then a else f r c)) := by
  unfold Mat.set2 matN
  simp only [getM_map_range _ hi, bind, Except.bind, setM_vecN _ _ hj, setM_map_range _ _ hi, pure,
    Except.pure]
  congr 3
  funext r
  by_cases h : r = i
  · subst h
    rw [Function.update_self]
    congr 1
    funext c
    by_cases h' : c = j
    · subst h'; simp
    · simp [h']
  · rw [Function.update_of_ne h]
    simp [h]

/-- The values of a `Fin`-indexed vector, extended by zero. -/
noncomputable def extV {n : ℕ} (f : Fin n → ℝ) (i : ℕ) : ℝ := if h : i < n then f ⟨i, h⟩ else 0

/-- The values of a `Fin`-indexed matrix, extended by zero. -/
noncomputable def extM {n m : ℕ} (f : Fin n → Fin m → ℝ) (i j : ℕ) : ℝ :=
  if h : i < n then extV (f ⟨i, h⟩) j else 0

@[simp] theorem extV_fin {n : ℕ} (f : Fin n → ℝ) (i : Fin n) : extV f i = f i := by simp [extV]
@[simp] theorem extM_fin {n m : ℕ} (f : Fin n → Fin m → ℝ) (i : Fin n) (j : Fin m) :
    extM f i j = f i j := by simp [extM]

theorem vec_eq_vecN {n : ℕ} (f : Fin n → ℝ) : vec f = vecN n (extV f) := by
  apply List.ext_getElem (by simp)
  intro i h1 h2
  have hi : i < n := by simpa using h2
  simp [vec, vecN, extV, hi]

theorem vecN_eq_vec {n : ℕ} (f : ℕ → ℝ) : vecN n f = vec (fun i : Fin n => f i) := by
  apply List.ext_getElem (by simp)
  intro i h1 h2
  simp [vec, vecN]

theorem mat_eq_matN {n m : ℕ} (X : Fin n → Fin m → ℝ) : mat X = matN n m (extM X) := by
  unfold mat matN
  congr 1
  apply List.ext_getElem (by simp)
  intro i h1 h2
  have hi : i < n := by simpa using h2
  simp only [List.getElem_ofFn, vec_eq_vecN, List.getElem_map, List.getElem_range]
  congr 1
  funext j
  simp [extM, hi]

theorem matN_eq_mat {n m : ℕ} (f : ℕ → ℕ → ℝ) : matN n m f = mat (fun (i : Fin n) (j : Fin m) => f i j) := by
  unfold mat matN
  congr 1
  apply List.ext_getElem (by simp)
  intro i h1 h2
  simp [vecN_eq_vec]

/-- A fold whose body never panics is a pure fold under an embedding `g`. -/
theorem foldlM_ok {α σ τ : Type} (g : τ → σ) (f : σ → α → M σ) (h : τ → α → τ) (l : List α)
    (Inv : τ → Prop) (hf : ∀ t, Inv t → ∀ a ∈ l, f (g t) a = .ok (g (h t a)) ∧ Inv (h t a)) (t : τ)
    (ht : Inv t) : l.foldlM f (g t) = .ok (g (l.foldl h t)) ∧ Inv (l.foldl h t) := by
  induction l generalizing t with
  | nil => exact ⟨rfl, ht⟩
  | cons a l ih =>
    rw [List.foldlM_cons, List.foldl_cons, (hf t ht a List.mem_cons_self).1]
    exact ih (fun t ht b hb => hf t ht b (List.mem_cons_of_mem _ hb)) _
      (hf t ht a List.mem_cons_self).2

/-- Traversals which never panic. -/
theorem mapM_ok' {α β : Type} {f : α → M β} {g : α → β} {l : List α} (h : ∀ a ∈ l, f a = .ok (g a)) :
    l.mapM f = .ok (l.map g) := by
  induction l with
  | nil => rfl
  | cons a t ih =>
    rw [List.mapM_cons, h a List.mem_cons_self, ih fun b hb => h b (List.mem_cons_of_mem _ hb)]
    rfl

end Sglm
