import Verif.Proofs.FloatCall
import Mathlib.Analysis.Complex.ExponentialBounds

/-!
# The logistic loss in floating point
-/

set_option linter.unusedSectionVars false

namespace Sglm
open Scalar Spec
variable {n p : ℕ}

section
variable {F : Type} [Scalar F] [LawfulCmp F] {e B K c : ℝ} {N m : ℕ}

/-- Chains of at most `m` operations, starting with errors of at most `c e`. -/
structure Chain (e B K c : ℝ) (N m : ℕ) : Prop where
  k : Consts e B K N
  one : 1 ≤ c
  small : K ^ m * c * e ≤ 1

namespace Chain
variable (ch : Chain e B K c N m)
include ch

theorem mono {i j : ℕ} (h : i ≤ j) : K ^ i * c ≤ K ^ j * c :=
  mul_le_mul_of_nonneg_right (pow_le_pow_right₀ ch.k.K1 h) (by linarith [ch.one])

theorem ge (i : ℕ) : 1 ≤ K ^ i * c := one_le_mul_of_one_le_of_one_le (one_le_pow₀ ch.k.K1) ch.one

theorem sm {i : ℕ} (h : i ≤ m) : K ^ i * c * e ≤ 1 := (mul_le_mul_of_nonneg_right (ch.mono h) ch.k.e0').trans ch.small

omit ch in
theorem succ (i : ℕ) : K * (K ^ i * c) = K ^ (i + 1) * c := by ring

theorem sm' {i : ℕ} (h : i < m) : K * (K ^ i * c) * e ≤ 1 := by rw [succ]; exact ch.sm h

theorem up {x : F} {r : ℝ} {i j : ℕ} (h : i ≤ j) (hx : Apx e x r (K ^ i * c)) : Apx e x r (K ^ j * c) := hx.mono ch.k.e0' (ch.mono h)

theorem base {x : F} {r d : ℝ} (h : d ≤ c) (hx : Apx e x r d) : Apx e x r (K ^ 0 * c) :=
  hx.mono ch.k.e0' (by rw [pow_zero, one_mul]; exact h)

theorem den {x : F} {r : ℝ} (i : ℕ) (hx : Den x r) : Apx e x r (K ^ i * c) := Den.apx ch.k.e0' hx (by linarith [ch.ge i])

variable (P : Precise F e)
include P
variable {x y : F} {r s : ℝ} {i j : ℕ}

theorem add (l : ℕ) (hx : Apx e x r (K ^ i * c)) (hy : Apx e y s (K ^ j * c)) (hb : |r + s| ≤ B) (h : i ≤ l ∧ j ≤ l ∧ l < m) :
    Apx e (x +. y) (r + s) (K ^ (l + 1) * c) := by
  rw [← succ]
  exact ch.k.add P (ch.up h.1 hx) (ch.up h.2.1 hy) (ch.ge l) hb (ch.sm' h.2.2)

theorem mul (l : ℕ) (hx : Apx e x r (K ^ i * c)) (hy : Apx e y s (K ^ j * c)) (hr : |r| ≤ B) (hs : |s| ≤ B) (h : i ≤ l ∧ j ≤ l ∧ l < m) :
    Apx e (x *. y) (r * s) (K ^ (l + 1) * c) := by
  rw [← succ]
  exact ch.k.mul P (ch.up h.1 hx) (ch.up h.2.1 hy) (ch.ge l) hr hs (ch.sm' h.2.2)

theorem div (l : ℕ) (hx : Apx e x r (K ^ i * c)) (hy : Apx e y s (K ^ j * c)) (hr : |r| ≤ B) (hs : 1 / B ≤ |s|) (h : i ≤ l ∧ j ≤ l ∧ l < m) :
    Apx e (x /. y) (r / s) (K ^ (l + 1) * c) := by
  rw [← succ]
  exact ch.k.div P (ch.up h.1 hx) (ch.up h.2.1 hy) (ch.ge l) hr hs (ch.sm' h.2.2)

theorem dot {n : ℕ} (hn : n ≤ N) {x y : Fin n → F} {r s : Fin n → ℝ} (l : ℕ) (hx : ∀ a, Apx e (x a) (r a) (K ^ i * c))
    (hy : ∀ a, Apx e (y a) (s a) (K ^ j * c)) (hr : ∀ a, |r a| ≤ B) (hs : ∀ a, |s a| ≤ B) (h : i ≤ l ∧ j ≤ l ∧ l < m) :
    Apx e (Scalar.dot (List.ofFn x) (List.ofFn y)) (∑ a, r a * s a) (K ^ (l + 1) * c) := by
  rw [← succ]
  exact ch.k.dot P hn (fun a => ch.up h.1 (hx a)) (fun a => ch.up h.2.1 (hy a)) (ch.ge l) hr hs (ch.sm' h.2.2)

theorem nat (a : ℕ) (ha : (a : ℝ) ≤ B) (h : 0 < m) : Apx e (Scalar.ofNat a : F) a (K ^ 1 * c) := by
  have := ch.k.nat P a ha (ch.ge 0) (ch.sm' h)
  rwa [succ] at this

omit P in
theorem len_le {a : ℕ} (ha : a ≤ N) : (a : ℝ) ≤ K := by
  have h1 := ch.k.hK
  have h2 : (a : ℝ) ≤ N := by exact_mod_cast ha
  have h3 : (0 : ℝ) ≤ N := Nat.cast_nonneg N
  have h4 : (1 : ℝ) ≤ (B + 1) ^ 3 := one_le_pow₀ (by linarith [ch.k.B1])
  have h5 : (N : ℝ) ≤ 10 * (N + 1) ^ 2 := by nlinarith
  have h6 : 10 * (N + 1 : ℝ) ^ 2 * 1 ≤ 10 * (N + 1) ^ 2 * (B + 1) ^ 3 := mul_le_mul_of_nonneg_left h4 (by positivity)
  linarith

omit P in
/-- Bookkeeping for sums. -/
theorem sum_small {a : ℕ} (ha : a ≤ N) (l : ℕ) (h : l + 4 ≤ m) :
    (K * (K ^ l * c) + K * (0 + a * (K * (K ^ l * c)))) * e ≤ 1 ∧ a * (K * (K ^ l * c)) ≤ K ^ (l + 2) * c := by
  have h1 := ch.len_le ha
  have hK := ch.k.K1
  have h2 := ch.ge (l + 1)
  have h0 : (0 : ℝ) ≤ a := Nat.cast_nonneg a
  have h3 : (a : ℝ) * (K * (K ^ l * c)) ≤ K ^ (l + 2) * c := by
    rw [succ]
    calc (a : ℝ) * (K ^ (l + 1) * c) ≤ K * (K ^ (l + 1) * c) := mul_le_mul_of_nonneg_right h1 (by linarith)
      _ = _ := by ring
  refine ⟨le_trans (mul_le_mul_of_nonneg_right ?_ ch.k.e0') (ch.sm h), h3⟩
  rw [zero_add, succ]
  have h4 : K * (a * (K ^ (l + 1) * c)) ≤ K ^ (l + 3) * c := by
    rw [succ] at h3
    calc K * (a * (K ^ (l + 1) * c)) ≤ K * (K ^ (l + 2) * c) := mul_le_mul_of_nonneg_left h3 (by linarith)
      _ = _ := by ring
  have h5 : K ^ (l + 1) * c ≤ K ^ (l + 3) * c := ch.mono (by omega)
  have h6 : 2 * (K ^ (l + 3) * c) ≤ K ^ (l + 4) * c := by
    have h7 : 2 ≤ K := by have := ch.k.poly.2; have := ch.k.B1; linarith
    calc 2 * (K ^ (l + 3) * c) ≤ K * (K ^ (l + 3) * c) := mul_le_mul_of_nonneg_right h7 (by linarith [ch.ge (l + 3)])
      _ = _ := by ring
  linarith

/-- Sums along a list. -/
theorem fsum {ι : Type} {x : ι → F} {r : ι → ℝ} {b : ℝ} (l : ℕ) (L : List ι) (hL : L.length ≤ N)
    (h : ∀ a ∈ L, Apx e (x a) (r a) (K ^ l * c) ∧ |r a| ≤ b) (hB : L.length * b ≤ B) (hm : l + 4 ≤ m) :
    Apx e (L.foldl (fun acc a => acc +. x a) zero) ((L.map r).sum) (K ^ (l + 2) * c) := by
  obtain ⟨h1, h2⟩ := ch.sum_small hL l hm
  have := ch.k.fsum P (ch.ge l) L h zero 0 0 (Den.apx ch.k.e0' den_zero le_rfl) le_rfl (by rw [abs_zero, zero_add]; exact hB) h1
  rw [zero_add, zero_add] at this
  exact this.mono ch.k.e0' h2

/-- Repeated subtraction along a list. -/
theorem fsub {ι : Type} {x : ι → F} {r : ι → ℝ} {b : ℝ} (l : ℕ) (L : List ι) (hL : L.length ≤ N)
    (h : ∀ a ∈ L, Apx e (x a) (r a) (K ^ l * c) ∧ |r a| ≤ b) (hB : L.length * b ≤ B) (hm : l + 4 ≤ m) :
    Apx e (L.foldl (fun acc a => acc -. x a) zero) (-(L.map r).sum) (K ^ (l + 2) * c) := by
  obtain ⟨h1, h2⟩ := ch.sum_small hL l hm
  have key : ∀ (L : List ι) (_ : ∀ i ∈ L, Apx e (x i) (r i) (K ^ l * c) ∧ |r i| ≤ b)
      (acc : F) (a d : ℝ), Apx e acc a d → 0 ≤ d → |a| + L.length * b ≤ B →
      (K * (K ^ l * c) + K * (d + L.length * (K * (K ^ l * c)))) * e ≤ 1 →
      Apx e (L.foldl (fun acc i => acc -. x i) acc) (a - (L.map r).sum) (d + L.length * (K * (K ^ l * c))) := by
    intro L
    induction L with
    | nil => intro _ acc a d ha _ _ _; simpa using ha
    | cons i L ih =>
      intro h acc a d ha hd hB hs
      obtain ⟨q1, q3⟩ := h i List.mem_cons_self
      have hK1 := ch.k.K1
      have he := ch.k.e0
      have hc := ch.ge l
      have hKc : 0 ≤ K * (K ^ l * c) := mul_nonneg (by linarith) (by linarith)
      have hl : (0 : ℝ) ≤ (L.length : ℝ) := Nat.cast_nonneg _
      have hb0 : 0 ≤ b := (abs_nonneg _).trans q3
      have hlen : ((i :: L).length : ℝ) = L.length + 1 := by simp
      rw [hlen] at hB hs ⊢
      have hlb : 0 ≤ L.length * b := by positivity
      have hlk : 0 ≤ L.length * (K * (K ^ l * c)) := by positivity
      have ar : |a - r i| ≤ |a| + |r i| := abs_sub a (r i)
      have step : Apx e (acc -. x i) (a - r i) (d + K * (K ^ l * c)) := by
        obtain ⟨t, g1, g2⟩ := ha
        obtain ⟨u, g3, g4⟩ := q1
        have hB1 := ch.k.B1
        obtain ⟨-, hK⟩ := ch.k.poly
        have hde0 : 0 ≤ d * e := mul_nonneg hd he.le
        have hce0 : e ≤ K ^ l * c * e := le_mul_of_one_le_left he.le hc
        obtain ⟨z, hz⟩ : ∃ z, z = K ^ l * c * e := ⟨_, rfl⟩
        rw [← hz] at hce0 g4
        have hs' : K * z + K * (d * e) ≤ 1 := by
          have h0 : 0 ≤ K * ((L.length + 1) * (K * (K ^ l * c))) * e := by positivity
          rw [hz]
          linarith
        have hz1 : z ≤ 1 / 10 := by nlinarith
        have hde : d * e ≤ 1 / 10 := by nlinarith
        have h0 : |(t - u) - (a - r i)| ≤ d * e + z := by
          calc |(t - u) - (a - r i)| = |(t - a) - (u - r i)| := by ring_nf
            _ ≤ |t - a| + |u - r i| := abs_sub _ _
            _ ≤ _ := by linarith
        have h5 : |t - u| ≤ B + 1 := by
          have := abs_add_le ((t - u) - (a - r i)) (a - r i)
          rw [sub_add_cancel] at this
          linarith
        obtain ⟨v, hv⟩ := (P.sub acc (x i) t u g1 g3).1 (by
          rw [le_div_iff₀ he]
          nlinarith)
        have h7 := (P.sub acc (x i) t u g1 g3).2 v hv
        refine ⟨v, hv, ?_⟩
        have h8 : |v - (a - r i)| ≤ |v - (t - u)| + |(t - u) - (a - r i)| := by
          have := abs_add_le (v - (t - u)) ((t - u) - (a - r i)); simpa using this
        have h9 : e * |t - u| ≤ (B + 1) * z := by
          rw [mul_comm]
          exact mul_le_mul h5 hce0 he.le (by linarith)
        rw [add_mul, mul_assoc, ← hz]
        nlinarith
      have := ih (fun j hj => h j (List.mem_cons_of_mem _ hj)) (acc -. x i) (a - r i) (d + K * (K ^ l * c)) step (by linarith)
        (by linarith) (le_trans (le_of_eq (by ring)) hs)
      rw [List.foldl_cons, List.map_cons, List.sum_cons]
      rw [show a - (r i + (L.map r).sum) = a - r i - (L.map r).sum by ring,
        show d + (L.length + 1) * (K * (K ^ l * c)) = d + K * (K ^ l * c) + L.length * (K * (K ^ l * c)) by ring]
      exact this
  have := key L h zero 0 0 (Den.apx ch.k.e0' den_zero le_rfl) le_rfl (by rw [abs_zero, zero_add]; exact hB) h1
  rw [zero_add, zero_sub] at this
  exact this.mono ch.k.e0' h2

variable (X : PreciseExp F e)
include X

omit P in
theorem exp {b : ℝ} (l : ℕ) (hx : Apx e x r (K ^ i * c)) (hr : |r| ≤ b) (hb : Real.exp (b + 1) ≤ B) (h : i ≤ l ∧ l < m) :
    Apx e (Scalar.exp x) (Real.exp r) (K ^ (l + 1) * c) := by
  obtain ⟨t, h1, h2⟩ := ch.up h.1 hx
  obtain ⟨hcp, -, hce⟩ := ch.k.small (ch.ge l) (ch.sm' h.2)
  have hr2 := (abs_le.mp hr).2
  have ht := abs_le.mp h2
  have hle : Real.exp t ≤ B := le_trans (Real.exp_le_exp.mpr (by linarith)) hb
  have hle2 : Real.exp r ≤ B := le_trans (Real.exp_le_exp.mpr (by linarith)) hb
  have near : ∀ u v : ℝ, Real.exp u ≤ B → |Real.exp u - Real.exp v| ≤ B * |u - v| ∨ u ≤ v := by
    intro u v hu
    rcases le_total u v with huv | huv
    · exact Or.inr huv
    · left
      rw [abs_of_nonneg (by linarith [Real.exp_le_exp.mpr huv]), abs_of_nonneg (by linarith)]
      have h5 : Real.exp v = Real.exp u * Real.exp (v - u) := by rw [← Real.exp_add]; congr 1; ring
      have h6 := Real.add_one_le_exp (v - u)
      have h7 := (Real.exp_pos u).le
      have h8 : Real.exp u * (v - u + 1) ≤ Real.exp v := by rw [h5]; exact mul_le_mul_of_nonneg_left h6 h7
      have h9 : Real.exp u * (u - v) ≤ B * (u - v) := mul_le_mul_of_nonneg_right hu (by linarith)
      linarith
  have h0 : |Real.exp t - Real.exp r| ≤ B * (K ^ l * c * e) := by
    have hB0 : 0 ≤ B := by linarith [ch.k.B1]
    have h3 : |Real.exp t - Real.exp r| ≤ B * |t - r| := by
      rcases near t r hle with h3 | h3
      · exact h3
      · rcases near r t hle2 with h4 | h4
        · rwa [abs_sub_comm, abs_sub_comm t r]
        · have : t = r := le_antisymm h3 h4
          subst this
          simp
    exact h3.trans (mul_le_mul_of_nonneg_left h2 hB0)
  rw [← succ]
  have hp := (Real.exp_pos t).le
  refine ch.k.round (X.exp x t h1) (by rw [abs_of_nonneg hp]) (ch.ge l) h0 (by rw [abs_of_nonneg hp]) ?_ (by linarith [ch.k.B1]) (ch.sm' h.2)
  have := ch.k.poly.2
  have := ch.k.B1
  linarith

omit P in
theorem ln (l : ℕ) (hx : Apx e x r (K ^ i * c)) (hr1 : 1 ≤ r) (hr : r ≤ B) (h : i ≤ l ∧ l < m) :
    Apx e (Scalar.ln x) (Real.log r) (K ^ (l + 1) * c) := by
  obtain ⟨t, h1, h2⟩ := ch.up h.1 hx
  obtain ⟨hcp, -, hce⟩ := ch.k.small (ch.ge l) (ch.sm' h.2)
  have ht := abs_le.mp h2
  have ht2 : 1 / 2 ≤ t := by linarith
  have hlog : ∀ u v : ℝ, 1 / 2 ≤ u → 1 / 2 ≤ v → u ≤ v → |Real.log v - Real.log u| ≤ 2 * |v - u| := by
    intro u v hu hv huv
    have hu0 : 0 < u := by linarith
    have hmono := Real.log_le_log hu0 huv
    rw [abs_of_nonneg (by linarith), abs_of_nonneg (by linarith), ← Real.log_div (by linarith) hu0.ne']
    have h5 := Real.log_le_sub_one_of_pos (show 0 < v / u by positivity)
    have h6 : v / u - 1 = (v - u) / u := by field_simp
    have h7 : (v - u) / u ≤ 2 * (v - u) := by
      rw [div_le_iff₀ hu0]
      nlinarith
    linarith
  have h0 : |Real.log t - Real.log r| ≤ 2 * (K ^ l * c * e) := by
    refine le_trans ?_ (mul_le_mul_of_nonneg_left h2 (by norm_num : (0 : ℝ) ≤ 2))
    rcases le_total t r with h3 | h3
    · rw [abs_sub_comm, abs_sub_comm t r]
      exact hlog t r ht2 (by linarith) h3
    · exact hlog r t (by linarith) ht2 h3
  have hB1 := ch.k.B1
  have hM : |Real.log t| ≤ B + 2 := by
    have h4 : |Real.log r| ≤ B := by
      rw [abs_of_nonneg (Real.log_nonneg hr1)]
      have := Real.log_le_sub_one_of_pos (show 0 < r by linarith)
      linarith
    have h5 := abs_add_le (Real.log t - Real.log r) (Real.log r)
    rw [sub_add_cancel] at h5
    linarith
  rw [← succ]
  refine ch.k.round (X.ln x t h1 (by linarith)) le_rfl (ch.ge l) h0 hM ?_ (by norm_num) (ch.sm' h.2)
  have := ch.k.poly.2
  linarith

/-- The sigmoid function. -/
theorem sigmoid {b : ℝ} (l : ℕ) (hx : Apx e x r (K ^ i * c)) (hr : |r| ≤ b) (hb : Real.exp (b + 1) + 1 ≤ B) (h : i ≤ l ∧ l + 3 ≤ m) :
    Apx e (Sglm.sigmoid x) (sigm r) (K ^ (l + 3) * c) := by
  have hr' : |-r| ≤ b := by rwa [abs_neg]
  have g1 := ch.exp X l (Consts.neg P hx) hr' (by linarith) ⟨h.1, by omega⟩
  have hpos := Real.exp_pos (-r)
  have hle : Real.exp (-r) ≤ Real.exp (b + 1) := Real.exp_le_exp.mpr (by linarith [(abs_le.mp hr').2])
  have g2 := ch.add P (l + 1) (ch.den 0 P.one) g1 (by rw [abs_of_pos (by linarith)]; linarith) ⟨by omega, le_rfl, by omega⟩
  have hB1 := ch.k.B1
  exact ch.div P (l + 2) (ch.den 0 P.one) g2 (by rw [abs_one]; exact hB1) (by
    rw [abs_of_pos (by linarith)]
    have : 1 / B ≤ 1 := (div_le_one (by linarith)).mpr hB1
    linarith) ⟨by omega, le_rfl, by omega⟩

/-- Euler's number. -/
theorem lnE (hc : 4 ≤ c) (hB : 3 ≤ B) (h : 0 < m) : Apx e (Scalar.ln (Scalar.eConst : F)) 1 (K ^ 1 * c) := by
  obtain ⟨t, h1, h2⟩ := X.eConst
  have h3 := Real.exp_one_lt_d9
  have h4 : Apx e (Scalar.eConst : F) (Real.exp 1) (K ^ 0 * c) := ⟨t, h1, h2.trans (by
    rw [pow_zero, one_mul, mul_comm]
    exact mul_le_mul_of_nonneg_right (by linarith) ch.k.e0')⟩
  have := ch.ln X 0 h4 (Real.one_le_exp (by norm_num)) (by linarith) ⟨le_rfl, h⟩
  rwa [Real.log_exp] at this

/-- One term of the loss. -/
theorem logTerm {b : ℝ} (l : ℕ) (hc : 4 ≤ c) (hx : Apx e x r (K ^ i * c)) (hr : |r| ≤ b) (hb : Real.exp (b + 1) + 3 ≤ B) (h : i ≤ l ∧ l + 4 ≤ m) :
    Apx e (Logistic.logE (Scalar.one +. Scalar.exp x)) (Real.log (1 + Real.exp r)) (K ^ (l + 4) * c) ∧ |Real.log (1 + Real.exp r)| ≤ B := by
  have hE := Real.exp_pos (b + 1)
  have g1 := ch.exp X l hx hr (by linarith) ⟨h.1, by omega⟩
  have hpos := Real.exp_pos r
  have hle : Real.exp r ≤ Real.exp (b + 1) := Real.exp_le_exp.mpr (by linarith [(abs_le.mp hr).2])
  have g2 := ch.add P (l + 1) (ch.den 0 P.one) g1 (by rw [abs_of_pos (by linarith)]; linarith) ⟨by omega, le_rfl, by omega⟩
  have g3 := ch.ln X (l + 2) g2 (by linarith) (by linarith) ⟨le_rfl, by omega⟩
  have g4 := ch.lnE P X hc (by linarith) (by omega)
  have hlog : |Real.log (1 + Real.exp r)| ≤ B := by
    rw [abs_of_nonneg (Real.log_nonneg (by linarith))]
    have := Real.log_le_sub_one_of_pos (show 0 < 1 + Real.exp r by linarith)
    linarith
  have hB1 := ch.k.B1
  have g5 := ch.div P (l + 3) g3 g4 hlog (by rw [abs_one]; exact (div_le_one (by linarith)).mpr hB1) ⟨le_rfl, by omega, by omega⟩
  rw [div_one] at g5
  exact ⟨g5, hlog⟩

end Chain

/-! ## Magnitudes -/

/-- Bounds for the magnitudes of the computation. -/
structure LMags (b B : ℝ) (m : ℕ) : Prop where
  one : 1 ≤ b
  big : (m + 1) * (Real.exp (b ^ 2 + 1) + 3) ≤ B

namespace LMags
variable {b : ℝ} {m : ℕ} (h : LMags b B m)
include h

theorem sq_ge : b ≤ b ^ 2 := by nlinarith [h.one]

theorem exp_ge : b ^ 2 ≤ Real.exp (b ^ 2 + 1) := by
  have := Real.add_one_le_exp (b ^ 2 + 1)
  linarith

theorem exp_le : Real.exp (b ^ 2 + 1) + 3 ≤ B := by
  have h1 := h.big
  have h2 : (0 : ℝ) ≤ m := Nat.cast_nonneg m
  have h3 := Real.exp_pos (b ^ 2 + 1)
  nlinarith

theorem mul_exp {a : ℕ} (ha : a ≤ m) : a * (Real.exp (b ^ 2 + 1) + 3) ≤ B := by
  have h1 := h.big
  have h2 : (a : ℝ) ≤ m := by exact_mod_cast ha
  have h3 := Real.exp_pos (b ^ 2 + 1)
  nlinarith

theorem mul_sq {a : ℕ} (ha : a ≤ m) : a * b ^ 2 ≤ B := by
  have h1 := h.mul_exp ha
  have h2 := h.exp_ge
  have h3 : (0 : ℝ) ≤ a := Nat.cast_nonneg a
  nlinarith

theorem sq_le : b ^ 2 ≤ B := by linarith [h.exp_le, h.exp_ge]

theorem b_le : b ≤ B := h.sq_ge.trans h.sq_le

end LMags

theorem sigm_mem (r : ℝ) : 0 < sigm r ∧ sigm r ≤ 1 := by
  unfold sigm
  have := Real.exp_pos (-r)
  exact ⟨by positivity, (div_le_one (by linarith)).mpr (by linarith)⟩

theorem abs_mul_sigm {y r b : ℝ} (hy : |y| ≤ b) : |y * sigm r| ≤ b := by
  obtain ⟨h1, h2⟩ := sigm_mem r
  rw [abs_mul, abs_of_pos h1]
  nlinarith [abs_nonneg y]

/-! ## The loss -/

theorem log_value_eq {DM : Type} {X : DM} (y' u : Fin n → F) :
    Logistic.value (⟨X, Targets.one (List.ofFn y')⟩ : Dataset DM F) (List.ofFn u) =
      .ok ((List.finRange n).foldl (fun acc i => acc +. Logistic.logE (one +. Scalar.exp ((-.u i) *. y' i))) zero /. Scalar.ofNat n) := by
  unfold Logistic.value
  simp only [single_oneOf, bind, Except.bind, zipWith_ofFn, List.length_ofFn]
  rw [List.ofFn_eq_map]
  simp only [iterSum, List.foldl_map]
  rfl

variable {b d : ℝ}

theorem log_value_apx {DM : Type} {X : DM} (hn : 0 < n) (P : Precise F e) (E : PreciseExp F e) (hm : LMags b B n)
    (ch : Chain e B K c n 10) (hc : (b + 4) * d ≤ c) (hd : 1 ≤ d) (bn : (n : ℝ) ≤ b)
    {y : Fin n → ℝ} (hy : ∀ i, |y i| ≤ b) {y' : Fin n → F} (hy' : ∀ i, Stores e (y' i) (y i))
    {u : Fin n → F} {U : Fin n → ℝ} (hU : ∀ i, |U i| ≤ b) (hu : ∀ i, Apx e (u i) (U i) d) :
    Ok (Logistic.value (⟨X, Targets.one (List.ofFn y')⟩ : Dataset DM F) (List.ofFn u)) (fun x => Apx e x (logLoss y U) (K ^ 10 * c)) := by
  have he := P.pos
  have b1 := hm.one
  have c4 : 4 ≤ c := by nlinarith
  have cb : b + 1 ≤ c := by nlinarith
  have cd : d ≤ c := by nlinarith
  have hb := hm.b_le
  have t1 : ∀ i, Apx e ((-.u i) *. y' i) (-U i * y i) (K ^ 1 * c) := fun i =>
    ch.mul P 0 (ch.base cd (Consts.neg P (hu i))) (ch.base le_rfl ((hy' i).apx he.le (hy i) cb)) (by rw [abs_neg]; exact (hU i).trans hb)
      ((hy i).trans hb) ⟨le_rfl, le_rfl, by norm_num⟩
  have bz : ∀ i, |-U i * y i| ≤ b ^ 2 := fun i => abs_mul_le (by rw [abs_neg]; exact hU i) (hy i)
  have t2 := fun i => ch.logTerm P E 1 c4 (t1 i) (bz i) hm.exp_le ⟨le_rfl, by norm_num⟩
  have bt : ∀ i, |Real.log (1 + Real.exp (-U i * y i))| ≤ Real.exp (b ^ 2 + 1) + 3 := by
    intro i
    have hpos := Real.exp_pos (-U i * y i)
    rw [abs_of_nonneg (Real.log_nonneg (by linarith))]
    have h1 := Real.log_le_sub_one_of_pos (show 0 < 1 + Real.exp (-U i * y i) by linarith)
    have h2 : Real.exp (-U i * y i) ≤ Real.exp (b ^ 2 + 1) := Real.exp_le_exp.mpr (by linarith [(abs_le.mp (bz i)).2])
    linarith
  have t3 := ch.fsum P 5 (List.finRange n) (by simp) (fun i _ => ⟨(t2 i).1, bt i⟩) (by
    rw [List.length_finRange]; exact hm.mul_exp le_rfl) (by norm_num)
  rw [← List.ofFn_eq_map, List.sum_ofFn] at t3
  have hn1 : (1 : ℝ) ≤ n := by exact_mod_cast hn
  have hB1 := ch.k.B1
  have t4 := ch.div P 7 t3 (ch.nat P n (bn.trans hb) (by norm_num)) ((abs_sum_le_card _ _ bt).trans (hm.mul_exp le_rfl)) (by
    rw [abs_of_nonneg (by linarith)]
    have : 1 / B ≤ 1 := (div_le_one (by linarith)).mpr hB1
    linarith) ⟨le_rfl, by norm_num, by norm_num⟩
  rw [log_value_eq]
  have e1 : logLoss y U = (∑ i, Real.log (1 + Real.exp (-U i * y i))) / n := by
    unfold logLoss
    congr 1
    refine Finset.sum_congr rfl fun i _ => ?_
    congr 3
    ring
  rw [e1]
  exact ch.up (by norm_num) t4

theorem log_value_nonneg {DM : Type} {X : DM} (hn : 0 < n) (P : Precise F e) (S : Propagates F) (E : PreciseExp F e)
    (ch : Chain e B K c N 10) (hc : 4 ≤ c) (hB : 3 ≤ B) (hnB : (n : ℝ) ≤ B) (y' u : Fin n → F) :
    Ok (Logistic.value (⟨X, Targets.one (List.ofFn y')⟩ : Dataset DM F) (List.ofFn u)) NonNeg := by
  rw [log_value_eq]
  have hn1 : (1 : ℝ) ≤ n := by exact_mod_cast hn
  have g4 := ch.lnE P E hc hB (by norm_num)
  have gn := ch.nat P (F := F) n hnB (by norm_num)
  obtain ⟨-, -, hce⟩ := ch.k.small (ch.ge 1) (ch.sm' (i := 1) (by norm_num))
  obtain ⟨t, h1, h2⟩ := g4
  obtain ⟨t', h3, h4⟩ := gn
  have ht : 0 < t := by linarith [(abs_le.mp h2).1]
  have ht' : 0 < t' := by linarith [(abs_le.mp h4).1]
  refine S.div_nonneg _ _ t' ?_ h3 ht'
  have : ∀ (L : List (Fin n)) (acc : F), NonNeg acc →
      NonNeg (L.foldl (fun acc i => acc +. Logistic.logE (one +. Scalar.exp ((-.u i) *. y' i))) acc) := by
    intro L
    induction L with
    | nil => exact fun acc h => h
    | cons i L ih =>
      intro acc h
      exact ih _ (S.add_nonneg _ _ h (S.div_nonneg _ _ t (E.ln_nonneg _ (E.exp_nonneg _)) h1 ht))
  exact this _ _ nonneg_zero

/-! ## Gradients and step constants -/

theorem log_weight (P : Precise F e) (E : PreciseExp F e) (hm : LMags b B N)
    (ch : Chain e B K c N 10) (hc : (b + 4) * d ≤ c) (hd : 1 ≤ d)
    {y : ℝ} (hy : |y| ≤ b) {y' : F} (hy' : Stores e y' y) {u : F} {U : ℝ} (hU : |U| ≤ b) (hu : Apx e u U d) :
    Apx e (Sglm.sigmoid ((-.y') *. u)) (sigm (-y * U)) (K ^ 4 * c) ∧ Apx e (y' *. Sglm.sigmoid ((-.y') *. u)) (y * sigm (-y * U)) (K ^ 5 * c) := by
  have he := P.pos
  have b1 := hm.one
  have cb : b + 1 ≤ c := by nlinarith
  have cd : d ≤ c := by nlinarith
  have hb := hm.b_le
  have ay := ch.base le_rfl (hy'.apx he.le hy cb)
  have t1 := ch.mul P 0 (Consts.neg P ay) (ch.base cd hu) (by rw [abs_neg]; exact hy.trans hb) (hU.trans hb) ⟨le_rfl, le_rfl, by norm_num⟩
  have t2 := ch.sigmoid P E 1 t1 (abs_mul_le (by rwa [abs_neg]) hU) (by linarith [hm.exp_le]) ⟨le_rfl, by norm_num⟩
  obtain ⟨h1, h2⟩ := sigm_mem (-y * U)
  exact ⟨t2, ch.mul P 4 ay t2 (hy.trans hb) (by rw [abs_of_pos h1]; linarith [ch.k.B1]) ⟨by norm_num, le_rfl, by norm_num⟩⟩

theorem log_grad_dense (hn : 0 < n) (X : Fin n → Fin p → ℝ) (P : Precise F e) (E : PreciseExp F e) (hm : LMags b B n)
    (ch : Chain e B K c n 10) (hc : (b + 4) * d ≤ c) (hd : 1 ≤ d) (bn : (n : ℝ) ≤ b) (bX : ∀ i j, |X i j| ≤ b)
    {y : Fin n → ℝ} (hy : ∀ i, |y i| ≤ b) {y' : Fin n → F} (hy' : ∀ i, Stores e (y' i) (y i))
    (x : Fin n → Fin p → F) (hx : ∀ i j, Stores e (x i j) (X i j))
    {u : Fin n → F} {U : Fin n → ℝ} (hU : ∀ i, |U i| ≤ b) (hu : ∀ i, Apx e (u i) (U i) d) (j : Fin p) :
    Ok (Logistic.gradDense (⟨matOf x, Targets.one (List.ofFn y')⟩ : Dataset (Mat F) F) (List.ofFn u) j)
      (fun z => Apx e z (logGrad X y U j) (K ^ 10 * c)) := by
  have he := P.pos
  have b1 := hm.one
  have cb : b + 1 ≤ c := by nlinarith
  have hb := hm.b_le
  have t1 := fun i => (log_weight P E hm ch hc hd (hy i) (hy' i) (hU i) (hu i)).2
  have bw : ∀ i, |y i * sigm (-y i * U i)| ≤ b := fun i => abs_mul_sigm (hy i)
  have t2 := ch.dot P le_rfl 5 (fun i => ch.base le_rfl ((hx i j).apx he.le (bX i j) cb)) t1 (fun i => (bX i j).trans hb)
    (fun i => (bw i).trans hb) ⟨by norm_num, le_rfl, by norm_num⟩
  have hn1 : (1 : ℝ) ≤ n := by exact_mod_cast hn
  have hB1 := ch.k.B1
  have t3 := ch.div P 6 (Consts.neg P t2) (ch.nat P n (bn.trans hb) (by norm_num)) (by
      rw [abs_neg]
      exact (abs_sum_le_card _ _ fun i => abs_mul_le (bX i j) (bw i)).trans (hm.mul_sq le_rfl)) (by
    rw [abs_of_nonneg (by linarith)]
    have : 1 / B ≤ 1 := (div_le_one (by linarith)).mpr hB1
    linarith) ⟨le_rfl, by norm_num, by norm_num⟩
  unfold Logistic.gradDense
  simp only [single_oneOf, bind, Except.bind, zipWith_ofFn, colM_matOf, dotM_ofFn, List.length_ofFn]
  exact ch.up (by norm_num) t3

theorem log_grad_csc (hn : 0 < n) (A : CSCData n p) (P : Precise F e) (E : PreciseExp F e) (hm : LMags b B (n + A.nnz))
    (ch : Chain e B K c (n + A.nnz) 10) (hc : (b + 4) * d ≤ c) (hd : 1 ≤ d) (bn : (n : ℝ) ≤ b) (bA : ∀ k, |A.data k| ≤ b)
    {y : Fin n → ℝ} (hy : ∀ i, |y i| ≤ b) {y' : Fin n → F} (hy' : ∀ i, Stores e (y' i) (y i))
    (x : Fin A.nnz → F) (hx : ∀ k, Stores e (x k) (A.data k))
    {u : Fin n → F} {U : Fin n → ℝ} (hU : ∀ i, |U i| ≤ b) (hu : ∀ i, Apx e (u i) (U i) d) (j : Fin p) :
    Ok (Logistic.gradCSC (⟨A.toCSCOf x, Targets.one (List.ofFn y')⟩ : Dataset (CSC F) F) (List.ofFn u) j)
      (fun z => Apx e z (logGrad A.dense y U j) (K ^ 10 * c)) := by
  have he := P.pos
  have b1 := hm.one
  have cb : b + 1 ≤ c := by nlinarith
  have hb := hm.b_le
  have hn1 : (1 : ℝ) ≤ n := by exact_mod_cast hn
  have hB1 := ch.k.B1
  have hB2 : 1 / B ≤ 1 := (div_le_one (by linarith)).mpr hB1
  have ay := fun i => ch.base le_rfl ((hy' i).apx he.le (hy i) cb)
  have b4 : ∀ k, |A.data k * y (A.row k) * sigm (-y (A.row k) * U (A.row k))| ≤ b ^ 2 := fun k => by
    rw [mul_assoc]; exact abs_mul_le (bA k) (abs_mul_sigm (hy _))
  have t1 : ∀ k, Apx e (x k *. y' (A.row k) *. Sglm.sigmoid ((-.y' (A.row k)) *. u (A.row k)) /. Scalar.ofNat n)
      (A.data k * y (A.row k) * sigm (-y (A.row k) * U (A.row k)) / n) (K ^ 6 * c) := by
    intro k
    have q1 := ch.mul P 0 (ch.base le_rfl ((hx k).apx he.le (bA k) cb)) (ay (A.row k)) ((bA k).trans hb) ((hy _).trans hb)
      ⟨le_rfl, le_rfl, by norm_num⟩
    obtain ⟨h1, h2⟩ := sigm_mem (-y (A.row k) * U (A.row k))
    have q2 := ch.mul P 4 q1 (log_weight P E hm ch hc hd (hy (A.row k)) (hy' _) (hU _) (hu _)).1
      ((abs_mul_le (bA k) (hy _)).trans hm.sq_le) (by rw [abs_of_pos h1]; linarith) ⟨by norm_num, le_rfl, by norm_num⟩
    exact ch.div P 5 q2 (ch.nat P n (bn.trans hb) (by norm_num)) ((b4 k).trans hm.sq_le) (by
      rw [abs_of_nonneg (by linarith)]; linarith) ⟨le_rfl, by norm_num, by norm_num⟩
  have b5 : ∀ k, |A.data k * y (A.row k) * sigm (-y (A.row k) * U (A.row k)) / n| ≤ b ^ 2 := fun k => by
    rw [abs_div, abs_of_nonneg (by linarith : (0 : ℝ) ≤ n)]
    exact (div_le_self (abs_nonneg _) hn1).trans (b4 k)
  have hlen : (colList A j).length ≤ n + A.nnz := (colList_len A j).trans (Nat.le_add_left _ _)
  have t2 := ch.fsub P 6 (colList A j) hlen (fun k _ => ⟨t1 k, b5 k⟩) (hm.mul_sq hlen) (by norm_num)
  have e1 : logGrad A.dense y U j =
      -((colList A j).map fun k => A.data k * y (A.row k) * sigm (-y (A.row k) * U (A.row k)) / n).sum := by
    have := sum_colList A j fun i => y i * sigm (-y i * U i) / n
    unfold logGrad
    rw [neg_div, Finset.sum_div]
    congr 1
    have h2 : (fun k => A.data k * y (A.row k) * sigm (-y (A.row k) * U (A.row k)) / n) =
        fun k => A.data k * (y (A.row k) * sigm (-y (A.row k) * U (A.row k)) / n) := by
      funext k; ring
    rw [h2, this]
    exact Finset.sum_congr rfl fun i _ => by ring
  rw [e1]
  unfold Logistic.gradCSC
  simp only [single_oneOf, one_nSamplesOf, bind, Except.bind, colRange_toCSCOf]
  have := foldlM_col A j (fun s : F => s) (fun grad idx => do
      let d ← (A.toCSCOf x).dataAt idx
      let i ← (A.toCSCOf x).rowAt idx
      let yi ← getM (List.ofFn y') i
      let xw ← getM (List.ofFn u) i
      pure (grad -. d *. yi *. Sglm.sigmoid ((-.yi) *. xw) /. Scalar.ofNat n))
    (fun s k => s -. x k *. y' (A.row k) *. Sglm.sigmoid ((-.y' (A.row k)) *. u (A.row k)) /. Scalar.ofNat n) (by
      intro t k
      simp only [dataAt_toCSCOf, rowAt_toCSCOf, bind, Except.bind, getM_ofFn]
      rfl) zero
  simp only [bind, Except.bind] at this
  rw [this]
  exact ch.up (by norm_num) t2

end
end Sglm
