import Verif.Spec.Rounding
import Mathlib.Tactic.Linarith
import Mathlib.Tactic.Ring
import Mathlib.Tactic.FieldSimp
import Mathlib.Tactic.Positivity

/-!
# Calculus of rounding errors

`Apx e x r c`: the float `x` is finite and within `c e` of `r`.
-/

namespace Sglm
open Scalar Spec

variable {F : Type} [Scalar F] [LawfulCmp F] {e : ℝ}

theorem Spec.Den.unique {x : F} {r s : ℝ} (h1 : Den x r) (h2 : Den x s) : r = s := by
  have := Option.some.inj (h1.symm.trans h2)
  exact_mod_cast this

/-- The float `x` approximates `r` within `c e`. -/
def Apx (e : ℝ) (x : F) (r c : ℝ) : Prop := ∃ t, Den x t ∧ |t - r| ≤ c * e

theorem den_zero : Den (zero : F) 0 := LawfulCmp.key_zero

theorem Apx.mono {x : F} {r c c' : ℝ} (he : 0 ≤ e) (h : Apx e x r c) (hc : c ≤ c') : Apx e x r c' := by
  obtain ⟨t, h1, h2⟩ := h
  exact ⟨t, h1, h2.trans (mul_le_mul_of_nonneg_right hc he)⟩

theorem Den.apx {x : F} {r c : ℝ} (he : 0 ≤ e) (h : Den x r) (hc : 0 ≤ c) : Apx e x r c :=
  ⟨r, h, by rw [sub_self, abs_zero]; positivity⟩

theorem Spec.Stores.apx {x : F} {r B c : ℝ} (he : 0 ≤ e) (h : Stores e x r) (hr : |r| ≤ B) (hc : B + 1 ≤ c) : Apx e x r c := by
  obtain ⟨t, h1, h2⟩ := h.near
  refine ⟨t, h1, h2.trans ?_⟩
  rw [mul_comm]
  exact mul_le_mul_of_nonneg_right (by linarith) he

/-- Size of the denoted value. -/
theorem Apx.abs_le {x : F} {r c t : ℝ} (h : Apx e x r c) (ht : Den x t) : |t - r| ≤ c * e := by
  obtain ⟨t', h1, h2⟩ := h
  rw [ht.unique h1]; exact h2

/-- Constants of the calculus: `B` bounds magnitudes, `K` is the growth of the error per operation, for sums of at most
`N` terms. -/
structure Consts (e B K : ℝ) (N : ℕ) : Prop where
  e0 : 0 < e
  B1 : 1 ≤ B
  hK : 10 * (N + 1) ^ 2 * (B + 1) ^ 3 ≤ K

namespace Consts
variable {B K : ℝ} {N : ℕ} (k : Consts e B K N)
include k

theorem e0' : 0 ≤ e := k.e0.le

theorem K_ge : 10 * (B + 1) ^ 3 ≤ K := by
  have h := k.hK
  have h2 : (0 : ℝ) ≤ 10 * (B + 1) ^ 3 := by have := k.B1; positivity
  have h1 : (1 : ℝ) ≤ (N + 1 : ℝ) ^ 2 := one_le_pow₀ (by linarith [(Nat.cast_nonneg N : (0 : ℝ) ≤ N)])
  nlinarith

theorem K1 : 1 ≤ K := by
  have h := k.K_ge
  have h2 := k.B1
  have h3 : (1 : ℝ) ≤ (B + 1) ^ 3 := one_le_pow₀ (by linarith)
  linarith

theorem poly : 4 * (B + 1) ^ 2 + 3 ≤ K ∧ 10 * B + 10 ≤ K := by
  have h := k.K_ge
  have h2 := k.B1
  constructor <;> nlinarith [sq_nonneg B, mul_nonneg (sq_nonneg (B + 1)) (by linarith : (0:ℝ) ≤ B)]

/-- One rounding on top of a perturbed exact result. -/
theorem round {z : F} {q q' a M δ c : ℝ} (hR : Rounded e z q' δ) (hδ : δ ≤ e * (|q'| + 1)) (hc : 1 ≤ c)
    (h0 : |q' - q| ≤ a * (c * e)) (hq : |q'| ≤ M) (hM : a + M + 1 ≤ K) (ha : 0 ≤ a) (hsm : K * c * e ≤ 1) :
    Apx e z q (K * c) := by
  have he := k.e0
  have hK1 := k.K1
  have hcp : 0 < c * e := mul_pos (by linarith) he
  have hee : e ≤ c * e := by nlinarith
  have hKe : K * e ≤ 1 := by
    have := mul_le_mul_of_nonneg_left hee (by linarith : 0 ≤ K)
    rw [← mul_assoc] at this
    linarith
  have hM0 : 0 ≤ M := (abs_nonneg _).trans hq
  obtain ⟨v, hv⟩ := hR.1 (by
    rw [le_div_iff₀ he]
    calc |q'| * e ≤ K * e := mul_le_mul_of_nonneg_right (by linarith) he.le
      _ ≤ 1 := hKe)
  have h7 := hR.2 v hv
  refine ⟨v, hv, ?_⟩
  have h8 : |v - q| ≤ |v - q'| + |q' - q| := by
    have := abs_add_le (v - q') (q' - q); simpa using this
  have h9 : e * (|q'| + 1) ≤ (M + 1) * (c * e) := by
    calc e * (|q'| + 1) ≤ e * (M + 1) := mul_le_mul_of_nonneg_left (by linarith) he.le
      _ ≤ (c * e) * (M + 1) := mul_le_mul_of_nonneg_right hee (by linarith)
      _ = _ := by ring
  have h10 : (a + M + 1) * (c * e) ≤ K * (c * e) := mul_le_mul_of_nonneg_right hM hcp.le
  rw [mul_assoc]
  linarith

theorem small {c : ℝ} (hc : 1 ≤ c) (hsm : K * c * e ≤ 1) : 0 < c * e ∧ K * (c * e) ≤ 1 ∧ c * e ≤ 1 / 10 := by
  have he := k.e0
  have hB := k.B1
  obtain ⟨-, hK⟩ := k.poly
  have hcp : 0 < c * e := mul_pos (by linarith) he
  have : K * (c * e) ≤ 1 := by rw [← mul_assoc]; exact hsm
  refine ⟨hcp, this, ?_⟩
  nlinarith

variable (P : Precise F e) {x y : F} {r s c : ℝ}
include P

theorem add (hx : Apx e x r c) (hy : Apx e y s c) (hc : 1 ≤ c) (hb : |r + s| ≤ B) (hs : K * c * e ≤ 1) :
    Apx e (x +. y) (r + s) (K * c) := by
  obtain ⟨t, h1, h2⟩ := hx
  obtain ⟨u, h3, h4⟩ := hy
  have hB := k.B1
  have he := k.e0
  obtain ⟨-, hK⟩ := k.poly
  obtain ⟨hcp, -, hce⟩ := k.small hc hs
  have h0 : |(t + u) - (r + s)| ≤ 2 * (c * e) := by
    calc |(t + u) - (r + s)| = |(t - r) + (u - s)| := by ring_nf
      _ ≤ |t - r| + |u - s| := abs_add_le _ _
      _ ≤ _ := by linarith
  have h5 : |t + u| ≤ B + 1 := by
    have : |t + u| ≤ |(t + u) - (r + s)| + |r + s| := by
      have := abs_add_le ((t + u) - (r + s)) (r + s); simpa using this
    linarith
  exact k.round (P.add x y t u h1 h3) (mul_le_mul_of_nonneg_left (by linarith) he.le) hc h0 h5 (by linarith) (by norm_num) hs

/-- Addition where only the second operand is scaled by `K`. -/
theorem add_drift {d : ℝ} (hx : Apx e x r d) (hy : Apx e y s c) (hc : 1 ≤ c) (hd : 0 ≤ d) (hb : |r + s| ≤ B)
    (hs : (K * c + K * d) * e ≤ 1) : Apx e (x +. y) (r + s) (d + K * c) := by
  obtain ⟨t, h1, h2⟩ := hx
  obtain ⟨u, h3, h4⟩ := hy
  have he := k.e0
  have hB := k.B1
  obtain ⟨-, hK⟩ := k.poly
  have hce : c * e ≤ 1 / 10 := by
    nlinarith [mul_pos (by linarith : 0 < c) he, mul_nonneg hd he.le]
  have hde : d * e ≤ 1 / 10 := by
    nlinarith [mul_pos (by linarith : 0 < c) he, mul_nonneg hd he.le]
  have h0 : |(t + u) - (r + s)| ≤ d * e + c * e := by
    calc |(t + u) - (r + s)| = |(t - r) + (u - s)| := by ring_nf
      _ ≤ |t - r| + |u - s| := abs_add_le _ _
      _ ≤ _ := by linarith
  have h5 : |t + u| ≤ B + 1 := by
    have : |t + u| ≤ |(t + u) - (r + s)| + |r + s| := by
      have := abs_add_le ((t + u) - (r + s)) (r + s); simpa using this
    linarith
  have h6 : |t + u| ≤ 1 / e := by
    rw [le_div_iff₀ he]
    have : (B + 1) * e ≤ 1 := by
      have : e ≤ c * e := by nlinarith
      nlinarith [mul_nonneg (by linarith : 0 ≤ K) (mul_nonneg hd he.le)]
    nlinarith
  obtain ⟨v, hv⟩ := (P.add x y t u h1 h3).1 h6
  have h7 := (P.add x y t u h1 h3).2 v hv
  refine ⟨v, hv, ?_⟩
  have h8 : |v - (r + s)| ≤ |v - (t + u)| + |(t + u) - (r + s)| := by
    have := abs_add_le (v - (t + u)) ((t + u) - (r + s)); simpa using this
  have h9 : e * |t + u| ≤ (B + 1) * (c * e) := by
    have : e ≤ c * e := by nlinarith
    calc e * |t + u| ≤ (c * e) * (B + 1) := mul_le_mul this h5 (abs_nonneg _) (by positivity)
      _ = _ := by ring
  nlinarith [mul_nonneg (by linarith : 0 ≤ c) he.le]

theorem sub (hx : Apx e x r c) (hy : Apx e y s c) (hc : 1 ≤ c) (hb : |r - s| ≤ B) (hs : K * c * e ≤ 1) :
    Apx e (x -. y) (r - s) (K * c) := by
  obtain ⟨t, h1, h2⟩ := hx
  obtain ⟨u, h3, h4⟩ := hy
  have hB := k.B1
  have he := k.e0
  obtain ⟨-, hK⟩ := k.poly
  obtain ⟨hcp, -, hce⟩ := k.small hc hs
  have h0 : |(t - u) - (r - s)| ≤ 2 * (c * e) := by
    calc |(t - u) - (r - s)| = |(t - r) - (u - s)| := by ring_nf
      _ ≤ |t - r| + |u - s| := abs_sub _ _
      _ ≤ _ := by linarith
  have h5 : |t - u| ≤ B + 1 := by
    have : |t - u| ≤ |(t - u) - (r - s)| + |r - s| := by
      have := abs_add_le ((t - u) - (r - s)) (r - s); simpa using this
    linarith
  exact k.round (P.sub x y t u h1 h3) (mul_le_mul_of_nonneg_left (by linarith) he.le) hc h0 h5 (by linarith) (by norm_num) hs

omit P in
omit [Scalar F] [LawfulCmp F] in
/-- Products of perturbed factors. -/
theorem prod_near {t u : ℝ} (hr : |r| ≤ B) (hs : |s| ≤ B) (hce : c * e ≤ 1) (h2 : |t - r| ≤ c * e)
    (h4 : |u - s| ≤ c * e) : |t * u - r * s| ≤ (2 * B + 1) * (c * e) ∧ |t * u| ≤ (B + 1) ^ 2 := by
  have hB := k.B1
  have he := k.e0
  have ht : |t| ≤ B + 1 := by
    have := abs_add_le (t - r) r; simp only [sub_add_cancel] at this; linarith
  have hu : |u| ≤ B + 1 := by
    have := abs_add_le (u - s) s; simp only [sub_add_cancel] at this; linarith
  constructor
  · calc |t * u - r * s| = |t * (u - s) + (t - r) * s| := by ring_nf
      _ ≤ |t| * |u - s| + |t - r| * |s| := by rw [← abs_mul, ← abs_mul]; exact abs_add_le _ _
      _ ≤ (B + 1) * (c * e) + (c * e) * B :=
        add_le_add (mul_le_mul ht h4 (abs_nonneg _) (by linarith))
          (mul_le_mul h2 hs (abs_nonneg _) (by nlinarith [abs_nonneg (t - r)]))
      _ = _ := by ring
  · rw [abs_mul]
    nlinarith [abs_nonneg t, abs_nonneg u]

theorem mul (hx : Apx e x r c) (hy : Apx e y s c) (hc : 1 ≤ c) (hr : |r| ≤ B) (hs : |s| ≤ B) (hsm : K * c * e ≤ 1) :
    Apx e (x *. y) (r * s) (K * c) := by
  obtain ⟨t, h1, h2⟩ := hx
  obtain ⟨u, h3, h4⟩ := hy
  have he := k.e0
  have hB := k.B1
  obtain ⟨hK, -⟩ := k.poly
  have hcp : 0 < c * e := mul_pos (by linarith) he
  have hK1 := k.K1
  have hce : c * e ≤ 1 := by nlinarith
  obtain ⟨h0, h5⟩ := k.prod_near hr hs hce h2 h4
  exact k.round (P.mul x y t u h1 h3) le_rfl hc h0 h5 (by nlinarith) (by linarith) hsm

theorem div (hx : Apx e x r c) (hy : Apx e y s c) (hc : 1 ≤ c) (hr : |r| ≤ B) (hs : 1 / B ≤ |s|) (hsm : K * c * e ≤ 1) :
    Apx e (x /. y) (r / s) (K * c) := by
  obtain ⟨t, h1, h2⟩ := hx
  obtain ⟨u, h3, h4⟩ := hy
  have he := k.e0
  have hB := k.B1
  have hK := k.K_ge
  have hcp : 0 < c * e := mul_pos (by linarith) he
  have hB0 : 0 < B := by linarith
  have hs0 : 0 < |s| := lt_of_lt_of_le (by positivity) hs
  have hsne : s ≠ 0 := abs_pos.mp hs0
  have hKc : 10 * (B + 1) ^ 3 * (c * e) ≤ 1 := by nlinarith
  have hce : c * e ≤ 1 / (2 * B) := by
    rw [le_div_iff₀ (by positivity)]
    nlinarith [mul_nonneg (sq_nonneg (B + 1)) hcp.le, mul_nonneg (pow_nonneg hB0.le 3) hcp.le, mul_nonneg (pow_nonneg hB0.le 2) hcp.le, mul_nonneg hB0.le hcp.le]
  have hu : 1 / (2 * B) ≤ |u| := by
    have h5 : |s| ≤ |u| + |u - s| := by
      have := abs_sub_abs_le_abs_sub s u
      rw [abs_sub_comm s u] at this
      linarith
    have h6 : 1 / B = 1 / (2 * B) + 1 / (2 * B) := by field_simp; norm_num
    linarith
  have hu0 : 0 < |u| := lt_of_lt_of_le (by positivity) hu
  have hune : u ≠ 0 := abs_pos.mp hu0
  have hsi : |s|⁻¹ ≤ B := by
    rw [inv_le_comm₀ hs0 hB0]; simpa using hs
  have hui : |u|⁻¹ ≤ 2 * B := by
    rw [inv_le_comm₀ hu0 (by positivity)]; simpa using hu
  have hui0 : 0 ≤ |u|⁻¹ := by positivity
  have hsi0 : 0 ≤ |s|⁻¹ := by positivity
  have h0 : |t / u - r / s| ≤ (2 * B + 2 * B ^ 3) * (c * e) := by
    have e1 : t / u - r / s = (t - r) * u⁻¹ - r * (u - s) * (u⁻¹ * s⁻¹) := by field_simp; ring
    rw [e1]
    refine (abs_sub _ _).trans ?_
    rw [abs_mul, abs_mul, abs_mul, abs_mul, abs_inv, abs_inv]
    have a1 : |t - r| * |u|⁻¹ ≤ (c * e) * (2 * B) := mul_le_mul h2 hui hui0 hcp.le
    have a2 : |r| * |u - s| ≤ B * (c * e) := mul_le_mul hr h4 (abs_nonneg _) hB0.le
    have a3 : |u|⁻¹ * |s|⁻¹ ≤ 2 * B * B := mul_le_mul hui hsi hsi0 (by positivity)
    have a4 : |r| * |u - s| * (|u|⁻¹ * |s|⁻¹) ≤ B * (c * e) * (2 * B * B) :=
      mul_le_mul a2 a3 (by positivity) (by positivity)
    calc _ ≤ (c * e) * (2 * B) + B * (c * e) * (2 * B * B) := add_le_add a1 a4
      _ = _ := by ring
  have hrs : |r / s| ≤ B ^ 2 := by
    rw [abs_div, div_eq_mul_inv]
    calc |r| * |s|⁻¹ ≤ B * B := mul_le_mul hr hsi hsi0 hB0.le
      _ = _ := by ring
  have h5 : |t / u| ≤ B ^ 2 + 1 := by
    have h6 := abs_add_le (t / u - r / s) (r / s)
    simp only [sub_add_cancel] at h6
    have h7 : (2 * B + 2 * B ^ 3) * (c * e) ≤ 1 := by
      refine le_trans (mul_le_mul_of_nonneg_right ?_ hcp.le) hKc
      nlinarith [pow_nonneg hB0.le 3, pow_nonneg hB0.le 2]
    linarith
  refine k.round (P.div x y t u h1 h3 hune) le_rfl hc h0 h5 (le_trans ?_ hK) (by positivity) hsm
  nlinarith [pow_nonneg hB0.le 3, pow_nonneg hB0.le 2]

theorem dot {n : ℕ} (hn : n ≤ N) {x y : Fin n → F} {r s : Fin n → ℝ} (hx : ∀ i, Apx e (x i) (r i) c)
    (hy : ∀ i, Apx e (y i) (s i) c) (hc : 1 ≤ c) (hr : ∀ i, |r i| ≤ B) (hs : ∀ i, |s i| ≤ B) (hsm : K * c * e ≤ 1) :
    Apx e (Scalar.dot (List.ofFn x) (List.ofFn y)) (∑ i, r i * s i) (K * c) := by
  choose t h1 h2 using hx
  choose u h3 h4 using hy
  have he := k.e0
  have hB := k.B1
  have hK := k.hK
  have hcp : 0 < c * e := mul_pos (by linarith) he
  have hK1 := k.K1
  have hce : c * e ≤ 1 := by nlinarith
  have hee : e ≤ c * e := by nlinarith
  have hnN : (n : ℝ) ≤ N := by exact_mod_cast hn
  have hn0 : (0 : ℝ) ≤ n := Nat.cast_nonneg n
  have hN0 : (0 : ℝ) ≤ N := Nat.cast_nonneg N
  have hKce : K * (c * e) ≤ 1 := by rw [← mul_assoc]; exact hsm
  have key := fun i => k.prod_near (hr i) (hs i) hce (h2 i) (h4 i)
  have hsum : |∑ i, t i * u i - ∑ i, r i * s i| ≤ n * ((2 * B + 1) * (c * e)) := by
    rw [← Finset.sum_sub_distrib]
    refine (Finset.abs_sum_le_sum_abs _ _).trans ?_
    refine (Finset.sum_le_sum fun i _ => (key i).1).trans (le_of_eq ?_)
    rw [Finset.sum_const, Finset.card_univ, Fintype.card_fin, nsmul_eq_mul]
  have habs : ∑ i, |t i * u i| ≤ n * (B + 1) ^ 2 := by
    refine (Finset.sum_le_sum fun i _ => (key i).2).trans (le_of_eq ?_)
    rw [Finset.sum_const, Finset.card_univ, Fintype.card_fin, nsmul_eq_mul]
  have hB3 : (1 : ℝ) ≤ (B + 1) ^ 2 := one_le_pow₀ (by linarith)
  have hN1 : (1 : ℝ) ≤ (N + 1 : ℝ) := by linarith
  -- everything is below `K`
  have hbig : n * (2 * B + 1) + n * (n * (B + 1) ^ 2 + 1) ≤ K := by
    refine le_trans ?_ hK
    have a1 : n * (2 * B + 1) + n * (n * (B + 1) ^ 2 + 1) ≤ N * (2 * B + 1) + N * (N * (B + 1) ^ 2 + 1) := by
      have b1 : (n : ℝ) * (2 * B + 1) ≤ N * (2 * B + 1) := mul_le_mul_of_nonneg_right hnN (by linarith)
      have b2 : (n : ℝ) * (B + 1) ^ 2 + 1 ≤ N * (B + 1) ^ 2 + 1 := by
        have := mul_le_mul_of_nonneg_right hnN (by positivity : (0 : ℝ) ≤ (B + 1) ^ 2)
        linarith
      have b3 : (n : ℝ) * (n * (B + 1) ^ 2 + 1) ≤ N * (N * (B + 1) ^ 2 + 1) :=
        mul_le_mul hnN b2 (by positivity) hN0
      linarith
    refine a1.trans ?_
    have a2 : 2 * B + 1 ≤ 2 * (B + 1) ^ 2 := by nlinarith
    have a3 : (B + 1) ^ 2 ≤ (B + 1) ^ 3 := by
      have : (B + 1) ^ 3 = (B + 1) ^ 2 * (B + 1) := by ring
      nlinarith
    have a4 : N * (2 * B + 1) + N * (N * (B + 1) ^ 2 + 1) ≤ 10 * (N + 1) ^ 2 * (B + 1) ^ 2 := by
      have : (N : ℝ) * (2 * B + 1) ≤ N * (2 * (B + 1) ^ 2) := mul_le_mul_of_nonneg_left a2 hN0
      nlinarith [mul_nonneg hN0 (by positivity : (0 : ℝ) ≤ (B + 1) ^ 2)]
    refine a4.trans (mul_le_mul_of_nonneg_left a3 (by positivity))
  have hbig2 : (n : ℝ) * (B + 1) ^ 2 + n + 1 ≤ K := by
    refine le_trans ?_ hK
    have a1 : (n : ℝ) * (B + 1) ^ 2 ≤ N * (B + 1) ^ 2 := mul_le_mul_of_nonneg_right hnN (by positivity)
    have a3 : (B + 1) ^ 2 ≤ (B + 1) ^ 3 := by
      have : (B + 1) ^ 3 = (B + 1) ^ 2 * (B + 1) := by ring
      nlinarith
    have a4 : N * (B + 1) ^ 2 + N + 1 ≤ 10 * (N + 1) ^ 2 * (B + 1) ^ 2 := by
      nlinarith [mul_nonneg hN0 (by positivity : (0 : ℝ) ≤ (B + 1) ^ 2)]
    have a5 : 10 * (N + 1 : ℝ) ^ 2 * (B + 1) ^ 2 ≤ 10 * (N + 1) ^ 2 * (B + 1) ^ 3 :=
      mul_le_mul_of_nonneg_left a3 (by positivity)
    linarith
  have hKe : K * e ≤ 1 := by
    have := mul_le_mul_of_nonneg_left hee (by linarith : 0 ≤ K)
    linarith
  have hbe : (n * (B + 1) ^ 2 + n + 1) * e ≤ 1 := (mul_le_mul_of_nonneg_right hbig2 he.le).trans hKe
  have hq : 0 ≤ n * (B + 1) ^ 2 := by positivity
  have hne : n * e ≤ 1 := by nlinarith
  obtain ⟨d1, d2⟩ := P.dot n x y t u h1 h3 hne
  obtain ⟨v, hv⟩ := d1 (habs.trans (by rw [le_div_iff₀ he]; nlinarith))
  have h7 := d2 v hv
  refine ⟨v, hv, ?_⟩
  have h8 : |v - ∑ i, r i * s i| ≤ |v - ∑ i, t i * u i| + |∑ i, t i * u i - ∑ i, r i * s i| := by
    have := abs_add_le (v - ∑ i, t i * u i) (∑ i, t i * u i - ∑ i, r i * s i); simpa using this
  have h9 : n * e * ((∑ i, |t i * u i|) + 1) ≤ n * (n * (B + 1) ^ 2 + 1) * (c * e) := by
    have b1 : n * e * ((∑ i, |t i * u i|) + 1) ≤ n * e * (n * (B + 1) ^ 2 + 1) :=
      mul_le_mul_of_nonneg_left (by linarith) (by positivity)
    have b2 : n * (n * (B + 1) ^ 2 + 1) * e ≤ n * (n * (B + 1) ^ 2 + 1) * (c * e) :=
      mul_le_mul_of_nonneg_left hee (by positivity)
    linarith
  have h10 := mul_le_mul_of_nonneg_right hbig hcp.le
  rw [mul_assoc]
  linarith

omit k in
theorem neg (hx : Apx e x r c) : Apx e (-.x) (-r) c := by
  obtain ⟨t, h1, h2⟩ := hx
  refine ⟨-t, P.neg x t h1, ?_⟩
  rw [show -t - -r = -(t - r) by ring, abs_neg]; exact h2

omit k in
theorem abs (hx : Apx e x r c) : Apx e (Scalar.abs x) |r| c := by
  obtain ⟨t, h1, h2⟩ := hx
  exact ⟨|t|, P.abs x t h1, (abs_abs_sub_abs_le _ _).trans h2⟩

omit k P in
theorem max (hx : Apx e x r c) (hy : Apx e y s c) : Apx e (fmax x y) (max r s) c := by
  obtain ⟨t, h1, h2⟩ := hx
  obtain ⟨u, h3, h4⟩ := hy
  refine ⟨Max.max t u, ?_, ?_⟩
  · unfold Den at *
    rw [LawfulCmp.key_fmax, h1, h3]
    rcases le_total t u with h | h
    · simp [max_eq_right h, max_eq_right (EReal.coe_le_coe_iff.mpr h)]
    · simp [max_eq_left h, max_eq_left (EReal.coe_le_coe_iff.mpr h)]
  · refine (abs_max_sub_max_le_max _ _ _ _).trans (max_le h2 h4)

theorem nat (n : ℕ) (hn : (n : ℝ) ≤ B) (hc : 1 ≤ c) (hsm : K * c * e ≤ 1) : Apx e (ofNat n : F) n (K * c) := by
  have he := k.e0
  have hB := k.B1
  obtain ⟨-, hK⟩ := k.poly
  have hn0 : (0 : ℝ) ≤ n := Nat.cast_nonneg n
  have hcp : 0 < c * e := mul_pos (by linarith) he
  have hee : e ≤ c * e := by nlinarith
  obtain ⟨v, hv⟩ := (P.ofNat n).1 (by
    rw [abs_of_nonneg hn0, le_div_iff₀ he]
    have : K * e ≤ 1 := by
      have := mul_le_mul_of_nonneg_left hee (by linarith : 0 ≤ K)
      nlinarith
    nlinarith)
  refine ⟨v, hv, ((P.ofNat n).2 v hv).trans ?_⟩
  have : e * n ≤ (c * e) * K := mul_le_mul hee (by linarith) hn0 hcp.le
  linarith

end Consts
end Sglm
