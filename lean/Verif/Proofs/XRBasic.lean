import Verif.Bridge
import Mathlib.Algebra.BigOperators.Fin
import Mathlib.Data.List.OfFn

/-!
# Basic facts about `XR` on finite numbers
-/

namespace Sglm
open Scalar
namespace XR

section
variable (a b : ℝ)
@[simp] theorem s_zero : (Scalar.zero : XR) = fin 0 := rfl
@[simp] theorem s_one : (Scalar.one : XR) = fin 1 := rfl
@[simp] theorem s_add : Scalar.add (fin a) (fin b) = fin (a + b) := rfl
@[simp] theorem s_sub : Scalar.sub (fin a) (fin b) = fin (a - b) := by
  show fin (a + -b) = _; rw [sub_eq_add_neg]
@[simp] theorem s_mul : Scalar.mul (fin a) (fin b) = fin (a * b) := rfl
@[simp] theorem s_neg : Scalar.neg (fin a) = fin (-a) := rfl
@[simp] theorem s_abs : Scalar.abs (fin a) = fin |a| := rfl
@[simp] theorem s_exp : Scalar.exp (fin a) = fin (Real.exp a) := rfl
@[simp] theorem s_cos : Scalar.cos (fin a) = fin (Real.cos a) := rfl
@[simp] theorem s_signum : Scalar.signum (fin a) = fin (if a < 0 then -1 else 1) := by
  show fin _ = fin _; congr 1
@[simp] theorem s_inf : (Scalar.inf : XR) = pinf := rfl
@[simp] theorem s_negInf : (Scalar.negInf : XR) = ninf := rfl
@[simp] theorem s_ofNat (n : ℕ) : (Scalar.ofNat n : XR) = fin (n : ℝ) := rfl
@[simp] theorem s_lit (n : ℤ) (d : ℕ) : (Scalar.lit n d : XR) = fin ((n : ℝ) / (d : ℝ)) := rfl
@[simp] theorem s_eConst : (Scalar.eConst : XR) = fin (Real.exp 1) := rfl
@[simp] theorem s_sq : Scalar.sq (fin a) = fin (a ^ 2) := by
  show fin (a * a) = _; rw [pow_two]
theorem s_div (h : b ≠ 0) : Scalar.div (fin a) (fin b) = fin (a / b) := by
  show (if b = 0 then _ else _) = _
  rw [if_neg h]
theorem s_div_zero : Scalar.div (fin a) (fin 0) = infTimes a := by
  show (if (0:ℝ) = 0 then _ else _) = _
  rw [if_pos rfl]
theorem s_sqrt (h : 0 ≤ a) : Scalar.sqrt (fin a) = fin (Real.sqrt a) := by
  show (if a < 0 then _ else _) = _
  rw [if_neg (not_lt.mpr h)]
theorem s_ln (h : 0 < a) : Scalar.ln (fin a) = fin (Real.log a) := by
  show (if 0 < a then _ else _) = _
  rw [if_pos h]
theorem s_acos (h : -1 ≤ a ∧ a ≤ 1) : Scalar.acos (fin a) = fin (Real.arccos a) := by
  show (if -1 ≤ a ∧ a ≤ 1 then _ else _) = _
  rw [if_pos h]
theorem s_powf (h : 0 < a) : Scalar.powf (fin a) (fin b) = fin (a ^ b) := by
  show (if 0 < a then _ else _) = _
  rw [if_pos h]
theorem s_powf_zero (h : 0 < b) : Scalar.powf (fin 0) (fin b) = fin 0 := by
  show (if (0:ℝ) < 0 then _ else _) = _
  rw [if_neg (lt_irrefl _), if_pos rfl, if_pos h]
@[simp] theorem s_lt : Scalar.lt (fin a) (fin b) = decide (a < b) := by
  show decide _ = decide _; congr
@[simp] theorem s_beq : Scalar.beq (fin a) (fin b) = decide (a = b) := by
  show decide _ = decide _; congr
@[simp] theorem s_le : Scalar.le (fin a) (fin b) = decide (a ≤ b) := by
  show (XR.lt (fin a) (fin b) || XR.beq (fin a) (fin b)) = _
  rw [show XR.lt (fin a) (fin b) = decide (a < b) from s_lt a b,
    show XR.beq (fin a) (fin b) = decide (a = b) from s_beq a b]
  by_cases h : a ≤ b
  · rcases lt_or_eq_of_le h with h' | h' <;> simp [h', h]
  · simp [h, not_lt.mpr (le_of_lt (not_le.mp h)), (ne_of_gt (not_le.mp h))]
@[simp] theorem s_fmax : Scalar.fmax (fin a) (fin b) = fin (max a b) := by
  show (if XR.lt (fin a) (fin b) = true then fin b else fin a) = _
  rw [show XR.lt (fin a) (fin b) = decide (a < b) from s_lt a b]
  by_cases h : a < b
  · simp [h, max_eq_right h.le]
  · simp [h, max_eq_left (not_lt.mp h)]
@[simp] theorem s_signBit : Scalar.signBit (fin a) = decide (a < 0) := by
  show decide _ = decide _; congr
@[simp] theorem s_lt_pinf : Scalar.lt (fin a) pinf = true := rfl
@[simp] theorem s_le_pinf : Scalar.le (fin a) pinf = true := rfl
@[simp] theorem s_isNaN : Scalar.isNaN (fin a) = false := by simp [Scalar.isNaN]
end

theorem fin_inj {a b : ℝ} : fin a = fin b ↔ a = b := by
  constructor
  · intro h; injection h
  · rintro rfl; rfl

theorem foldl_add_fin (l : List ℝ) (c : ℝ) :
    (l.map fin).foldl Scalar.add (fin c) = fin (c + l.sum) := by
  induction l generalizing c with
  | nil => simp
  | cons a l ih => simp only [List.map_cons, List.foldl_cons, s_add, ih, List.sum_cons, add_assoc]

theorem sum_map_fin (l : List ℝ) : Scalar.sum (l.map fin) = fin l.sum := by
  have := foldl_add_fin l 0
  rw [zero_add] at this
  exact this

theorem iterSum_map_fin (l : List ℝ) : Scalar.iterSum (l.map fin) = fin l.sum := by
  have := foldl_add_fin l 0
  rw [zero_add] at this
  exact this

theorem dot_map_fin (l m : List ℝ) :
    Scalar.dot (l.map fin) (m.map fin) = fin (List.zipWith (· * ·) l m).sum := by
  have : List.zipWith XR.mul (l.map fin) (m.map fin) = (List.zipWith (· * ·) l m).map fin := by
    rw [List.zipWith_map, List.map_zipWith]; rfl
  show XR.sum (List.zipWith XR.mul (l.map fin) (m.map fin)) = _
  rw [this]; exact sum_map_fin _

end XR

section Vec
variable {n p : ℕ}

theorem vec_eq_map (f : Fin n → ℝ) : vec f = (List.ofFn f).map XR.fin := by
  simp [vec, List.map_ofFn, Function.comp_def]

@[simp] theorem vec_length (f : Fin n → ℝ) : (vec f).length = n := by simp [vec]

theorem vec_getElem? (f : Fin n → ℝ) (j : Fin n) : (vec f)[(j : ℕ)]? = some (XR.fin (f j)) := by
  simp [vec]

@[simp] theorem getM_vec (f : Fin n → ℝ) (j : Fin n) : getM (vec f) j = .ok (XR.fin (f j)) := by
  rw [getM, vec_getElem?]

@[simp] theorem setM_vec (f : Fin n → ℝ) (j : Fin n) (a : ℝ) :
    setM (vec f) j (XR.fin a) = .ok (vec (Function.update f j a)) := by
  have hj : (j : ℕ) < (vec f).length := by simp
  rw [setM, if_pos hj]
  congr 1
  apply List.ext_getElem (by simp)
  intro i h1 h2
  have hi : i < n := by simpa using h2
  rw [List.getElem_set]
  simp only [vec, List.getElem_ofFn]
  by_cases h : (j : ℕ) = i
  · subst h; simp
  · rw [if_neg h, Function.update_of_ne]
    intro h'; apply h; rw [← h']

theorem map_vec (f : Fin n → ℝ) (g : XR → XR) (h : ℝ → ℝ) (hg : ∀ i, g (XR.fin (f i)) = XR.fin (h (f i))) :
    (vec f).map g = vec (fun i => h (f i)) := by
  simp [vec, List.map_ofFn, Function.comp_def, hg]

theorem zipWith_vec (f g : Fin n → ℝ) (F : XR → XR → XR) (h : ℝ → ℝ → ℝ)
    (hF : ∀ i, F (XR.fin (f i)) (XR.fin (g i)) = XR.fin (h (f i) (g i))) :
    List.zipWith F (vec f) (vec g) = vec (fun i => h (f i) (g i)) := by
  apply List.ext_getElem (by simp)
  intro i h1 h2
  simp [vec, hF]

theorem sum_vec (f : Fin n → ℝ) : Scalar.sum (vec f) = XR.fin (∑ i, f i) := by
  rw [vec_eq_map, XR.sum_map_fin, List.sum_ofFn]

theorem iterSum_vec (f : Fin n → ℝ) : Scalar.iterSum (vec f) = XR.fin (∑ i, f i) := by
  rw [vec_eq_map, XR.iterSum_map_fin, List.sum_ofFn]

theorem dot_vec (f g : Fin n → ℝ) : Scalar.dot (vec f) (vec g) = XR.fin (∑ i, f i * g i) := by
  show XR.sum (List.zipWith XR.mul (vec f) (vec g)) = _
  rw [zipWith_vec f g XR.mul (fun a b => a * b) (fun i => rfl)]
  exact sum_vec _

theorem mmdot_vec (f g : Fin n → ℝ) : Scalar.mmdot (vec f) (vec g) = XR.fin (∑ i, f i * g i) :=
  dot_vec f g

theorem replicate_zero_eq_vec : List.replicate n (XR.fin 0) = vec (fun _ : Fin n => (0:ℝ)) := by
  simp [vec]

theorem vec_inj {f g : Fin n → ℝ} : vec f = vec g ↔ f = g := by
  constructor
  · intro h
    funext i
    have := congrArg (fun l => l[(i:ℕ)]?) h
    simp only [vec_getElem?] at this
    simpa [XR.fin_inj] using this
  · rintro rfl; rfl

end Vec
end Sglm
