import Verif.Proofs.CmpXR
import Mathlib.Data.Int.Log
import Mathlib.Algebra.Order.Round

/-!
# Arithmetic with rounding

`Fl r` interprets the float operations with rounding: the result of every arithmetic operation is the exact result, rounded by
`r.rd`, or an infinity if it is larger than `r.top`.  Simplification: there is no underflow.  It shows that the assumptions of the
theorems on rounding errors can be met by an arithmetic which does round.
-/

namespace Sglm

/-- A rounding function with unit roundoff `u`; numbers above `top` overflow. -/
structure Rounder where
  rd : ℝ → ℝ
  u : ℝ
  top : ℝ
  err : ∀ x, |rd x - x| ≤ u * |x|
  ge_one : ∀ x, 1 ≤ x → 1 ≤ rd x
  u_nonneg : 0 ≤ u
  u_small : u ≤ 1 / 4
  top_ge : 1 ≤ top

/-- A number of the format. -/
structure Fl (r : Rounder) where
  val : XR

namespace Fl
noncomputable section
open Classical
variable {r : Rounder}

/-- Rounding. -/
def rnd (r : Rounder) : XR → XR
  | .fin a => if |a| ≤ r.top then .fin (r.rd a) else if 0 < a then .pinf else .ninf
  | x => x

def add (a b : Fl r) : Fl r := ⟨rnd r (XR.add a.val b.val)⟩
def mul (a b : Fl r) : Fl r := ⟨rnd r (XR.mul a.val b.val)⟩
def sum (l : List (Fl r)) : Fl r := l.foldl add ⟨.fin 0⟩
def dot (a b : List (Fl r)) : Fl r := sum (List.zipWith mul a b)

instance : Scalar (Fl r) where
  zero := ⟨.fin 0⟩
  one := ⟨.fin 1⟩
  add := add
  sub a b := ⟨rnd r (XR.add a.val (XR.neg b.val))⟩
  mul := mul
  div a b := ⟨rnd r (XR.div a.val b.val)⟩
  neg a := ⟨XR.neg a.val⟩
  abs a := ⟨XR.abs a.val⟩
  sqrt a := ⟨rnd r (XR.sqrt a.val)⟩
  exp a := ⟨rnd r (XR.exp a.val)⟩
  ln a := ⟨rnd r (XR.ln a.val)⟩
  cos a := ⟨rnd r (XR.cos a.val)⟩
  acos a := ⟨rnd r (XR.acos a.val)⟩
  signum a := ⟨XR.signum a.val⟩
  powf a b := ⟨rnd r (XR.powf a.val b.val)⟩
  fmax a b := ⟨XR.fmax a.val b.val⟩
  lt a b := XR.lt a.val b.val
  le a b := XR.le a.val b.val
  beq a b := XR.beq a.val b.val
  inf := ⟨.pinf⟩
  negInf := ⟨.ninf⟩
  signBit a := XR.signBit a.val
  ofNat n := ⟨rnd r (.fin (n : ℝ))⟩
  lit n d := ⟨.fin ((n : ℝ) / (d : ℝ))⟩
  eConst := ⟨rnd r (.fin (Real.exp 1))⟩
  sum := sum
  dot := dot
  mmdot := dot

instance : LawfulCmp (Fl r) where
  key a := LawfulCmp.key a.val
  lt_iff a b := LawfulCmp.lt_iff a.val b.val
  le_iff a b := LawfulCmp.le_iff a.val b.val
  beq_iff a b := LawfulCmp.beq_iff a.val b.val
  key_zero := rfl
  key_inf := rfl
  key_negInf := rfl
  key_fmax a b := LawfulCmp.key_fmax a.val b.val

end
end Fl

/-- Rounding to the nearest number with `t + 1` significant bits. -/
noncomputable def binRd (t : ℕ) (x : ℝ) : ℝ :=
  (round (x / 2 ^ (Int.log 2 |x| - t)) : ℝ) * 2 ^ (Int.log 2 |x| - t)

theorem binRd_err (t : ℕ) (x : ℝ) : |binRd t x - x| ≤ 1 / 2 ^ (t + 1) * |x| := by
  by_cases hx : x = 0
  · subst hx
    simp [binRd]
  have hpos : (0 : ℝ) < 2 ^ (Int.log 2 |x| - t) := by positivity
  have h1 : binRd t x - x = ((round (x / 2 ^ (Int.log 2 |x| - t)) : ℝ) - x / 2 ^ (Int.log 2 |x| - t)) * 2 ^ (Int.log 2 |x| - t) := by
    unfold binRd
    field_simp
  rw [h1, abs_mul, abs_of_pos hpos]
  have h2 : |(round (x / 2 ^ (Int.log 2 |x| - t)) : ℝ) - x / 2 ^ (Int.log 2 |x| - t)| ≤ 1 / 2 := by
    rw [abs_sub_comm]; exact abs_sub_round _
  have h3 : (2 : ℝ) ^ Int.log 2 |x| ≤ |x| := by
    exact_mod_cast Int.zpow_log_le_self (b := 2) (by norm_num) (abs_pos.mpr hx)
  have h4 : (2 : ℝ) ^ (Int.log 2 |x| - t) = 2 ^ Int.log 2 |x| / 2 ^ t := by
    rw [zpow_sub₀ (by norm_num), zpow_natCast]
  calc _ ≤ 1 / 2 * (2 : ℝ) ^ (Int.log 2 |x| - t) := mul_le_mul_of_nonneg_right h2 hpos.le
    _ = 1 / 2 ^ (t + 1) * 2 ^ Int.log 2 |x| := by rw [h4, pow_succ]; field_simp
    _ ≤ _ := mul_le_mul_of_nonneg_left h3 (by positivity)

theorem binRd_ge_one (t : ℕ) (x : ℝ) (hx : 1 ≤ x) : 1 ≤ binRd t x := by
  have hx0 : 0 < x := by linarith
  have h3 : (2 : ℝ) ^ Int.log 2 |x| ≤ |x| := by
    exact_mod_cast Int.zpow_log_le_self (b := 2) (by norm_num) (abs_pos.mpr hx0.ne')
  have hl : 0 ≤ Int.log 2 |x| := by
    rw [abs_of_pos hx0]
    rw [Int.log_of_one_le_right _ hx]
    positivity
  rw [abs_of_pos hx0] at h3 hl
  unfold binRd
  rw [abs_of_pos hx0]
  obtain ⟨L, hL⟩ : ∃ L : ℕ, Int.log 2 x = L := ⟨_, (Int.toNat_of_nonneg hl).symm⟩
  rw [hL] at h3 ⊢
  have h4 : (2 : ℝ) ^ ((L : ℤ) - t) = 2 ^ L / 2 ^ t := by
    rw [zpow_sub₀ (by norm_num), zpow_natCast, zpow_natCast]
  rw [zpow_natCast] at h3
  rw [h4]
  have h5 : (2 : ℝ) ^ t ≤ x / (2 ^ L / 2 ^ t) := by
    rw [div_div_eq_mul_div, le_div_iff₀ (by positivity), mul_comm]
    exact mul_le_mul_of_nonneg_right h3 (by positivity)
  have h6 : (2 : ℤ) ^ t ≤ round (x / (2 ^ L / 2 ^ t)) := by
    rw [round_eq, Int.le_floor]
    push_cast
    linarith
  have h7 : (2 : ℝ) ^ t ≤ (round (x / (2 ^ L / 2 ^ t)) : ℝ) := by exact_mod_cast h6
  calc (1 : ℝ) ≤ 2 ^ L := one_le_pow₀ (by norm_num)
    _ = 2 ^ t * (2 ^ L / 2 ^ t) := by field_simp
    _ ≤ _ := mul_le_mul_of_nonneg_right h7 (by positivity)

/-- Rounding to nearest with 53 bits, overflow above `2 ^ 1023`. -/
noncomputable def bin64 : Rounder where
  rd := binRd 52
  u := 1 / 2 ^ 53
  top := 2 ^ 1023
  err := binRd_err 52
  ge_one := binRd_ge_one 52
  u_nonneg := by positivity
  u_small := by norm_num
  top_ge := one_le_pow₀ (by norm_num)

end Sglm
