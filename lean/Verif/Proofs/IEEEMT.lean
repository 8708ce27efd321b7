import Verif.Proofs.IEEENorm
import Verif.Spec.MTFloat

/-!
# The laws of `PreciseMT` for IEEE 754 arithmetic
-/

namespace Sglm
open Scalar Spec

namespace Format

/-- Numbers of the format other than one differ from one by at least the unit roundoff. -/
theorem mag_gap (f : Format) {x : ℝ} (hx : f.IsMag x) (h : x ≠ 1) : f.u ≤ |1 - x| := by
  rcases lt_or_gt_of_ne h with h1 | h1
  · obtain ⟨m, k, hm, hk, rfl⟩ := hx
    rw [abs_of_pos (by linarith)]
    by_contra hc
    push Not at hc
    have hu := f.u_pos
    have hus := f.u_small
    have hx0 : 0 < (m : ℝ) * 2 ^ k := by linarith
    have hm1 : 1 ≤ m := by
      rcases Nat.eq_zero_or_pos m with h0 | h0
      · rw [h0] at hx0; simp at hx0
      · exact h0
    -- `k ≤ -1`, otherwise the number is at least one
    have hk0 : k ≤ -1 := by
      by_contra hk0
      push Not at hk0
      have : (1 : ℝ) ≤ 2 ^ k := one_le_zpow₀ (by norm_num) (by omega)
      have : (1 : ℝ) ≤ m := by exact_mod_cast hm1
      nlinarith
    rcases le_or_gt k (-(f.t : ℤ) - 1) with hkt | hkt
    · have h2 : (m : ℝ) ≤ 2 ^ (f.t + 1) - 1 := by
        have : m + 1 ≤ 2 ^ (f.t + 1) := hm
        have h3 : ((m + 1 : ℕ) : ℝ) ≤ ((2 ^ (f.t + 1) : ℕ) : ℝ) := by exact_mod_cast this
        push_cast at h3
        linarith
      have h4 : (2 : ℝ) ^ k ≤ f.u := by
        unfold u
        rw [one_div, ← zpow_natCast, ← zpow_neg]
        refine zpow_le_zpow_right₀ (by norm_num) ?_
        push_cast
        omega
      have h5 : (m : ℝ) * 2 ^ k ≤ (2 ^ (f.t + 1) - 1) * f.u :=
        mul_le_mul h2 h4 (by positivity) (by linarith [show (1 : ℝ) ≤ m by exact_mod_cast hm1])
      have h6 : (2 : ℝ) ^ (f.t + 1) * f.u = 1 := by unfold u; field_simp
      nlinarith
    · -- multiples of `2 ^ k`
      obtain ⟨d, hd⟩ := Int.eq_ofNat_of_zero_le (by omega : 0 ≤ -k)
      have hk' : k = -(d : ℤ) := by omega
      have h2 : (2 : ℝ) ^ k = 1 / 2 ^ d := by rw [hk', zpow_neg, zpow_natCast, one_div]
      rw [h2] at h1 hc
      have hp : (0 : ℝ) < 2 ^ d := by positivity
      rw [mul_one_div, div_lt_one hp] at h1
      have h3 : m + 1 ≤ 2 ^ d := by exact_mod_cast h1
      have h4 : (m : ℝ) + 1 ≤ 2 ^ d := by exact_mod_cast h3
      have h5 : f.u ≤ 1 / 2 ^ d := by
        unfold u
        refine one_div_le_one_div_of_le hp (pow_le_pow_right₀ (by norm_num) (by omega))
      have h6 : 1 / 2 ^ d ≤ 1 - (m : ℝ) * (1 / 2 ^ d) := by
        rw [mul_one_div, le_sub_iff_add_le, ← add_div, div_le_one hp]
        linarith
      linarith
  · -- above one: multiples of the distance of neighbours of one
    have hx0 : 0 ≤ x := hx.nonneg
    rw [abs_of_neg (by linarith)]
    obtain ⟨z, hz⟩ := f.mag_multiple (x := 1) hx (by simp; linarith)
    have hs : f.scale 1 = -(f.t : ℤ) := by
      unfold scale
      have := f.hmin
      simp
      omega
    rw [hs, zpow_neg, zpow_natCast] at hz
    have hp : (0 : ℝ) < 2 ^ f.t := by positivity
    rw [← div_eq_mul_inv] at hz
    rw [hz, lt_div_iff₀ hp, one_mul] at h1
    have h2 : (2 : ℤ) ^ f.t + 1 ≤ z := by exact_mod_cast h1
    have h3 : (2 : ℝ) ^ f.t + 1 ≤ z := by exact_mod_cast h2
    have h4 : 1 + 1 / 2 ^ f.t ≤ x := by
      rw [hz, le_div_iff₀ hp, add_mul, one_div, inv_mul_cancel₀ hp.ne']
      linarith
    have h5 : f.u ≤ 1 / 2 ^ f.t := by
      unfold u
      exact one_div_le_one_div_of_le hp (pow_le_pow_right₀ (by norm_num) (by omega))
    linarith

end Format

namespace Num
variable {f : Format}

theorem sqrt_fin {x : Num f} {t : ℝ} (h : D (sqrt x) t) : ∃ r, D x r := by
  cases x with
  | nan => simp [sqrt, D, key] at h
  | inf s => cases s <;> simp [sqrt, D, key] at h
  | fin s a ha ha' => exact ⟨_, rfl⟩

theorem mem_zipWith_self : ∀ (l : List (Num f)), ∀ x ∈ l, mul x x ∈ List.zipWith mul l l
  | [], _, h => by cases h
  | a :: l, x, h => by
    rw [List.zipWith_cons_cons]
    rcases List.mem_cons.mp h with rfl | h
    · exact List.mem_cons_self
    · exact List.mem_cons_of_mem _ (mem_zipWith_self l x h)

/-- Sums of several numbers. -/
theorem sumOf_law {n : ℕ} {x : Fin n → Num f} {r : Fin n → ℝ} (hx : ∀ i, D (x i) (r i)) (hn : n * f.eps ≤ 1) {η : ℝ} (hη : 0 < η)
    (h3 : 8 / η ≤ f.top) {s : Num f} (hs : SumOf (List.ofFn x) s) :
    ((∑ i, _root_.abs (r i)) ≤ 1 / η → ∃ t, D s t) ∧ ∀ t, D s t → _root_.abs (t - ∑ i, r i) ≤ n * f.eps * ∑ i, _root_.abs (r i) := by
  have hu := f.u_pos
  have hv : ∀ i, Num.val (x i) = r i := fun i => Num.D.val_eq (hx i)
  have e1 : ((List.ofFn x).map (Num.val (f := f))).sum = ∑ i, r i := by
    rw [List.map_ofFn, List.sum_ofFn]
    exact Finset.sum_congr rfl fun i _ => hv i
  have e2 : ((List.ofFn x).map fun y => _root_.abs (val y)).sum = ∑ i, _root_.abs (r i) := by
    rw [List.map_ofFn, List.sum_ofFn]
    exact Finset.sum_congr rfl fun i _ => by simp only [Function.comp]; rw [hv]
  have hun : (n : ℝ) * f.u ≤ 1 / 8 := by rw [f.eps_eq] at hn; linarith
  have hn0 : (0 : ℝ) ≤ n := Nat.cast_nonneg n
  have hpow : (1 + f.u) ^ n ≤ 1 + 2 * (n * f.u) := Fl.pow_small hu.le le_rfl (by linarith)
  have hA : 0 ≤ ∑ i, _root_.abs (r i) := Finset.sum_nonneg fun i _ => abs_nonneg _
  constructor
  · intro hq
    refine Num.sumOf_fin hs (fun y hy => ?_) ?_
    · obtain ⟨i, rfl⟩ := List.mem_ofFn.mp hy
      exact Num.D.self (hx i)
    · have e3 : (List.ofFn x).length = n := List.length_ofFn
      rw [e3]
      rw [e2]
      have h4 := mul_le_mul_of_nonneg_right (by linarith : (1 + f.u) ^ n ≤ 2) hA
      have h5 : 8 / η = 8 * (1 / η) := by ring
      have h6 : 0 < 1 / η := by positivity
      linarith
  · intro t ht
    have h4 := (Num.sumOf_err hs ht).2
    have e3 : (List.ofFn x).length = n := List.length_ofFn
    rw [e3] at h4
    have h5 : _root_.abs (t - ∑ i, r i) ≤ ((1 + f.u) ^ n - 1) * ∑ i, _root_.abs (r i) := by
      rw [← e1, ← e2]; exact h4
    refine h5.trans (mul_le_mul_of_nonneg_right ?_ hA)
    rw [f.eps_eq]
    have := mul_nonneg hn0 hu.le
    linarith

end Num

namespace IEEE
variable {f : Format} {S : Summation f}

theorem preciseMT (f : Format) (S : Summation f) (hS : S.MatMul) {η : ℝ} (h1 : 2 * f.η ≤ η) (h2 : η ≤ f.eps ^ 5) (h3 : 8 / η ≤ f.top) :
    PreciseMT (IEEE f S) f.eps η := by
  have hu := f.u_pos
  have he := f.eps_pos
  have hes := f.eps_small
  have hη0 := f.η_pos
  have hη : 0 < η := by linarith
  have h54 : f.eps ^ 5 ≤ f.eps ^ 4 := pow_le_pow_of_le_one he.le (by linarith) (by norm_num)
  refine { norm := preciseNorm f S hS h1 (h2.trans h54) h3, small := h2, gap := ?_, div_le_one := ?_, sum := ?_, sum_nonneg := ?_,
           sum_fin := ?_, dot_fin := ?_, sqrt_fin := fun x t h => Num.sqrt_fin h, sqrt_nonneg := ?_ }
  · intro x r hx hr
    obtain ⟨s, a, ha, ha', rfl, rfl⟩ := Num.D.elim (den_iff.mp hx)
    have e8 : f.eps / 8 = f.u := by rw [f.eps_eq]; ring
    rw [e8]
    cases s with
    | false => exact f.mag_gap ha hr
    | true =>
      have := ha.nonneg
      have hus := f.u_small
      show f.u ≤ |1 - -a|
      rw [sub_neg_eq_add, abs_of_nonneg (by linarith)]
      linarith
  · intro x y r s t hx hy hr hrs hs ht
    obtain ⟨z, hz⟩ := Num.div_D (den_iff.mp hx) (den_iff.mp hy) hs.ne'
    have h : x /. y = (Num.ofReal z (r / s) : Num f) := hz
    rw [h] at ht
    rw [Num.D_ofReal ht]
    have h4 := f.rd_mono ((div_le_one hs).mpr hrs)
    rwa [f.rd_nonneg zero_le_one, f.near_idem f.mag_nat_one] at h4
  · intro n x r hx hn
    exact Num.sumOf_law hx hn hη h3 (S.sum_spec (List.ofFn x))
  · intro l hl
    exact Num.sumOf_nonneg (S.sum_spec l) hl
  · intro l t ht x hx
    exact ⟨_, (Num.sumOf_err (S.sum_spec l) ht).1 x hx⟩
  · intro l t ht x hx
    have := (Num.sumOf_err (S.dot_spec l l) ht).1 _ (Num.mem_zipWith_self l x hx)
    obtain ⟨a, -, h, -⟩ := Num.mul_fin this
    exact ⟨a, h⟩
  · intro x
    cases x with
    | nan => exact nonNeg_nan
    | inf s => cases s with
      | true => exact nonNeg_nan
      | false => exact nonNeg_pinf
    | fin s a ha ha' =>
      show NonNeg (F := IEEE f S) (Num.sqrt (Num.fin s a ha ha'))
      unfold Num.sqrt
      dsimp only
      split
      · rw [Num.mk_eq_ofReal s le_rfl]
        have e1 : signed s 0 = 0 := by cases s <;> simp [signed]
        rw [e1]
        exact nonNeg_ofReal rfl le_rfl
      · split
        · exact nonNeg_nan
        · rw [Num.mk_eq_ofReal false (Real.sqrt_nonneg a)]
          exact nonNeg_ofReal rfl (Real.sqrt_nonneg a)

set_option exponentiation.threshold 2000 in
/-- The laws hold of `f64`, if the entries of matrix products are sums of products. -/
theorem mtLaws64 (S : Summation binary64) (hS : S.MatMul) : MTLaws (IEEE binary64 S) (1 / 2 ^ 50) := by
  have h64 : binary64.eps = 1 / 2 ^ 50 := rfl
  have h := IEEE.preciseMT binary64 S hS (η := 1 / 2 ^ 1000)
    (by unfold Format.η binary64; norm_num) (by rw [h64]; norm_num) (by unfold Format.top binary64; norm_num)
  exact ⟨IEEE.precise binary64 S, IEEE.propagates binary64 S, _, h⟩

/-- The laws hold of `f32`. -/
theorem mtLaws32 (S : Summation binary32) (hS : S.MatMul) : MTLaws (IEEE binary32 S) (1 / 2 ^ 21) := by
  have e32 : binary32.eps = 1 / 2 ^ 21 := rfl
  have h := IEEE.preciseMT binary32 S hS (η := 1 / 2 ^ 120)
    (by unfold Format.η binary32; norm_num) (by rw [e32]; norm_num) (by unfold Format.top binary32; norm_num)
  exact ⟨IEEE.precise binary32 S, IEEE.propagates binary32 S, _, h⟩

end IEEE
end Sglm
