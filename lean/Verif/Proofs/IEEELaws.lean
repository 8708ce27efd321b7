import Verif.Proofs.IEEE

/-!
# The laws of `Precise`, `Propagates`, `PreciseExp` and `MonoRounded` for IEEE 754 arithmetic
-/

namespace Sglm
open Scalar Spec

namespace IEEE
variable {f : Format} {S : Summation f}

open Classical in
noncomputable instance : LawfulCmp (IEEE f S) where
  key := Num.key
  lt_iff a b := by show Num.lt a b = true ↔ _; unfold Num.lt; exact decide_eq_true_iff
  le_iff a b := by show Num.le a b = true ↔ _; unfold Num.le; exact decide_eq_true_iff
  beq_iff a b := by show Num.beq a b = true ↔ _; unfold Num.beq; exact decide_eq_true_iff
  key_zero := by show Num.key (Num.zero : Num f) = _; have := Num.D_zero (f := f); simpa [Num.D] using this
  key_inf := rfl
  key_negInf := rfl
  key_fmax a b := by
    show Num.key (Num.fmax a b) = _
    have gen : ∀ (a b : Num f) x y, Num.key a = some x → Num.key b = some y →
        Num.key (if Num.lt a b then b else a) = some (max x y) := by
      intro a b x y ha hb
      by_cases h : x < y
      · have : Num.lt a b = true := by unfold Num.lt; exact decide_eq_true ⟨x, y, ha, hb, h⟩
        rw [if_pos this, hb, max_eq_right h.le]
      · have : ¬ Num.lt a b = true := by
          unfold Num.lt
          rw [decide_eq_true_iff]
          rintro ⟨x', y', h1, h2, h3⟩
          rw [ha] at h1; rw [hb] at h2
          cases h1; cases h2
          exact h h3
        rw [if_neg this, ha, max_eq_left (not_lt.mp h)]
    cases a with
    | nan => rfl
    | inf s =>
      cases b with
      | nan => rfl
      | inf s' => exact gen _ _ _ _ rfl rfl
      | fin => exact gen _ _ _ _ rfl rfl
    | fin =>
      cases b with
      | nan => rfl
      | inf s' => exact gen _ _ _ _ rfl rfl
      | fin => exact gen _ _ _ _ rfl rfl

theorem den_iff {x : IEEE f S} {t : ℝ} : Den x t ↔ Num.D x t := Iff.rfl

theorem top_ge_inv : 1 / f.eps ≤ f.top :=
  le_trans (div_le_div_of_nonneg_right (by norm_num) f.eps_pos.le) f.top_ge

theorem rounded_ofReal {x : IEEE f S} {q : ℝ} {z : Bool} (h : x = (Num.ofReal z q : Num f)) : Rounded f.eps x q (f.u * |q| + f.η) := by
  subst h
  refine ⟨fun hq => ⟨_, Num.ofReal_fin z (hq.trans top_ge_inv)⟩, fun t ht => ?_⟩
  rw [Num.D_ofReal ht]
  exact f.rd_err q

theorem bound_one (q : ℝ) : f.u * |q| + f.η ≤ f.eps * (|q| + 1) := by
  have := f.η_le
  have := f.u_pos
  have := abs_nonneg q
  rw [f.eps_eq]
  nlinarith

theorem rounded_one {x : IEEE f S} {q : ℝ} {z : Bool} (h : x = (Num.ofReal z q : Num f)) : Rounded f.eps x q (f.eps * (|q| + 1)) :=
  ⟨(rounded_ofReal h).1, fun t ht => ((rounded_ofReal h).2 t ht).trans (bound_one q)⟩

theorem den_ofReal_zero {x : IEEE f S} {z : Bool} (h : x = (Num.ofReal z 0 : Num f)) : Den x 0 := by
  subst h; exact Num.ofReal_zero_key z

theorem rd_half (g : Format) : g.rd (1 / 2) = 1 / 2 := by
  have h : g.IsMag (1 / 2) := by
    have := g.mag_pow (k := -1) (by have := g.hmin; omega)
    rwa [zpow_neg_one, ← one_div] at this
  rw [g.rd_nonneg (by norm_num), g.near_idem h]

theorem half_le_top (g : Format) : |(1 / 2 : ℝ)| ≤ g.top := by
  have : (1 : ℝ) ≤ g.top := by
    unfold Format.top
    exact one_le_zpow₀ (by norm_num) (by have := g.hmax; omega)
  rw [abs_of_pos (by norm_num)]
  linarith

theorem cast_D {g h : Format} {x : Num g} {r : ℝ} (hx : Num.D x r) : ∃ z, (Num.cast x : Num h) = Num.ofReal z r := by
  obtain ⟨s, m, hm, _, rfl, rfl⟩ := hx.elim
  exact ⟨s, Num.mk_eq_ofReal s hm.nonneg⟩

theorem sub_D {x y : IEEE f S} {a b : ℝ} (hx : Den x a) (hy : Den y b) : ∃ z, x -. y = (Num.ofReal z (a - b) : Num f) :=
  Num.add_D (den_iff.mp hx) (Num.neg_D (den_iff.mp hy))

theorem rd_sub_err {x y : IEEE f S} {a b : ℝ} (hx : Den x a) (hy : Den y b) : |f.rd (a - b) - (a - b)| ≤ f.u * |a - b| := by
  have := Num.rd_add_err (den_iff.mp hx) (Num.neg_D (den_iff.mp hy))
  rwa [← sub_eq_add_neg] at this

theorem precise (f : Format) (S : Summation f) : Precise (IEEE f S) f.eps := by
  have hu := f.u_pos
  have he := f.eps_pos
  have hue : f.u ≤ f.eps := by rw [f.eps_eq]; linarith
  have hη := f.η_le
  have hη0 := f.η_pos
  refine { pos := he, one := Num.D_mk_one false, half := ?_, ofNat := ?_, neg := fun x r h => Num.neg_D h,
           abs := fun x r h => Num.abs_D h, signum_pos := ?_, signum_neg := ?_, add := ?_, sub := ?_, mul := ?_, mul_zero := ?_, mul_sign := ?_,
           div := ?_, div_zero := ?_, div_sign := ?_, dot := ?_, dot_zero := ?_ }
  · show Num.D (Num.cast (Num.ofReal false (((1 : ℤ) : ℝ) / ((2 : ℕ) : ℝ)) : Num binary64) : Num f) _
    have h1 := Num.ofReal_fin (f := binary64) false (r := 1 / 2) (half_le_top _)
    rw [rd_half] at h1
    norm_num only [Int.cast_one, Nat.cast_ofNat]
    obtain ⟨z, hz⟩ := cast_D (h := f) h1
    rw [hz]
    have h2 := Num.ofReal_fin (f := f) z (r := 1 / 2) (half_le_top _)
    rwa [rd_half] at h2
  · intro n
    have e : (Scalar.ofNat n : IEEE f S) = (Num.ofReal false (n : ℝ) : Num f) := Num.mk_eq_ofReal false (Nat.cast_nonneg n)
    have h := rounded_ofReal (S := S) e
    refine ⟨h.1, fun t ht => ?_⟩
    rcases Nat.eq_zero_or_pos n with rfl | hn
    · rw [Nat.cast_zero] at e
      have := Num.D.unique ht (den_ofReal_zero e)
      simp [this]
    · refine (h.2 t ht).trans ?_
      have hn1 : (1 : ℝ) ≤ n := by exact_mod_cast hn
      rw [abs_of_nonneg (Nat.cast_nonneg n), f.eps_eq]
      nlinarith
  · intro x r h hr
    obtain ⟨s, m, hm, hm', rfl, rfl⟩ := Num.D.elim h
    have : s = false := by
      cases s with
      | false => rfl
      | true => have := hm.nonneg; simp [signed] at hr; linarith
    subst this
    exact Num.D_mk_one false
  · intro x r h hr
    obtain ⟨s, m, hm, hm', rfl, rfl⟩ := Num.D.elim h
    have : s = true := by
      cases s with
      | true => rfl
      | false => have := hm.nonneg; simp [signed] at hr; linarith
    subst this
    exact Num.D_mk_one true
  · intro x y a b hx hy
    obtain ⟨z, hz⟩ := Num.add_D (den_iff.mp hx) (den_iff.mp hy)
    have h := rounded_ofReal (S := S) (x := x +. y) hz
    refine ⟨h.1, fun t ht => ?_⟩
    have ht' : Num.D (Num.add x y) t := ht
    rw [hz] at ht'
    rw [Num.D_ofReal ht']
    exact (Num.rd_add_err (den_iff.mp hx) (den_iff.mp hy)).trans (mul_le_mul_of_nonneg_right hue (abs_nonneg _))
  · intro x y a b hx hy
    obtain ⟨z, hz⟩ := sub_D hx hy
    have h := rounded_ofReal (S := S) hz
    refine ⟨h.1, fun t ht => ?_⟩
    rw [hz] at ht
    rw [Num.D_ofReal ht]
    exact (rd_sub_err hx hy).trans (mul_le_mul_of_nonneg_right hue (abs_nonneg _))
  · intro x y a b hx hy
    obtain ⟨z, hz⟩ := Num.mul_D (den_iff.mp hx) (den_iff.mp hy)
    exact rounded_one (x := x *. y) hz
  · intro x y a b hx hy h0
    obtain ⟨z, hz⟩ := Num.mul_D (den_iff.mp hx) (den_iff.mp hy)
    rw [h0] at hz
    exact den_ofReal_zero (x := x *. y) hz
  · intro x y a b t hx hy ht
    obtain ⟨z, hz⟩ := Num.mul_D (den_iff.mp hx) (den_iff.mp hy)
    have ht' : Num.D (Num.mul x y) t := ht
    rw [hz] at ht'
    rw [Num.D_ofReal ht']
    exact f.rd_ne_zero_sign
  · intro x y a b hx hy hb
    obtain ⟨z, hz⟩ := Num.div_D (den_iff.mp hx) (den_iff.mp hy) hb
    exact rounded_one (x := x /. y) hz
  · intro x y b hx hy hb
    obtain ⟨z, hz⟩ := Num.div_D (den_iff.mp hx) (den_iff.mp hy) hb
    rw [zero_div] at hz
    exact den_ofReal_zero (x := x /. y) hz
  · intro x y a b t hx hy hb ht
    obtain ⟨z, hz⟩ := Num.div_D (den_iff.mp hx) (den_iff.mp hy) hb
    have ht' : Num.D (Num.div x y) t := ht
    rw [hz] at ht'
    rw [Num.D_ofReal ht']
    exact f.rd_ne_zero_sign
  · intro n x y r s hx hy hn
    have hS := S.dot_spec (List.ofFn x) (List.ofFn y)
    rw [Fl.zipWith_ofFn Num.mul x y] at hS
    set l := List.ofFn fun i => Num.mul (x i) (y i) with hl
    have hlen : l.length = n := by simp [hl]
    have e1 : (l.map Num.val).sum = ∑ i, Num.val (Num.mul (x i) (y i)) := by rw [hl, List.map_ofFn, List.sum_ofFn]; rfl
    have e2 : (l.map fun x => |Num.val x|).sum = ∑ i, |Num.val (Num.mul (x i) (y i))| := by rw [hl, List.map_ofFn, List.sum_ofFn]; rfl
    have hun : (n : ℝ) * f.u ≤ 1 / 8 := by rw [f.eps_eq] at hn; linarith
    have hpow : (1 + f.u) ^ n ≤ 1 + 2 * (n * f.u) := Fl.pow_small hu.le le_rfl (by linarith)
    have hn0 : (0 : ℝ) ≤ n := Nat.cast_nonneg n
    -- errors of the products
    have prod : ∀ i, Num.D (Num.mul (x i) (y i)) (Num.val (Num.mul (x i) (y i))) →
        |Num.val (Num.mul (x i) (y i)) - r i * s i| ≤ f.u * |r i * s i| + f.η := by
      intro i h
      obtain ⟨z, hz⟩ := Num.mul_D (den_iff.mp (hx i)) (den_iff.mp (hy i))
      rw [hz] at h ⊢
      rw [Num.D_ofReal h]
      exact f.rd_err _
    have sums : (∀ i, Num.D (Num.mul (x i) (y i)) (Num.val (Num.mul (x i) (y i)))) →
        (∑ i, |Num.val (Num.mul (x i) (y i)) - r i * s i|) ≤ f.u * (∑ i, |r i * s i|) + n * f.η := by
      intro h
      refine (Finset.sum_le_sum fun i _ => prod i (h i)).trans (le_of_eq ?_)
      rw [Finset.sum_add_distrib, ← Finset.mul_sum]
      simp
    have sums2 : (∑ i, |Num.val (Num.mul (x i) (y i))|) ≤ (∑ i, |r i * s i|) + ∑ i, |Num.val (Num.mul (x i) (y i)) - r i * s i| := by
      rw [← Finset.sum_add_distrib]
      refine Finset.sum_le_sum fun i _ => ?_
      have := abs_sub_abs_le_abs_sub (Num.val (Num.mul (x i) (y i))) (r i * s i)
      linarith
    have hA : 0 ≤ ∑ i, |r i * s i| := Finset.sum_nonneg fun i _ => abs_nonneg _
    have hnη : (n : ℝ) * f.η ≤ n * f.u := mul_le_mul_of_nonneg_left hη hn0
    refine ⟨fun hsmall => ?_, fun t ht => ?_⟩
    · have hall : ∀ i, Num.D (Num.mul (x i) (y i)) (Num.val (Num.mul (x i) (y i))) := by
        intro i
        obtain ⟨z, hz⟩ := Num.mul_D (den_iff.mp (hx i)) (den_iff.mp (hy i))
        rw [hz]
        refine (Num.ofReal_fin z (le_trans ?_ (hsmall.trans top_ge_inv))).self
        exact Finset.single_le_sum (f := fun i => |r i * s i|) (fun i _ => abs_nonneg _) (Finset.mem_univ i)
      refine Num.sumOf_fin hS ?_ ?_
      · intro v hv
        obtain ⟨i, rfl⟩ := (List.mem_ofFn' ..).mp hv
        exact hall i
      · rw [e2, hlen]
        have h1 := sums hall
        have h2 := f.u_small
        have hinv : 4 ≤ 1 / f.eps := by
          rw [le_div_iff₀ he]
          have := f.eps_small
          linarith
        have h3 : (∑ i, |Num.val (Num.mul (x i) (y i))|) ≤ 2 * (1 / f.eps) := by nlinarith
        have h4 : (1 + f.u) ^ n ≤ 2 := by linarith
        have h5 : (0 : ℝ) ≤ ∑ i, |Num.val (Num.mul (x i) (y i))| := Finset.sum_nonneg fun i _ => abs_nonneg _
        have h6 : (8 : ℝ) / f.eps = 8 * (1 / f.eps) := by ring
        have h7 := f.top_ge
        calc _ ≤ 2 * (2 * (1 / f.eps)) := mul_le_mul h4 h3 h5 (by norm_num)
          _ ≤ _ := by linarith
    · obtain ⟨h1, h2⟩ := Num.sumOf_err hS ht
      have hall : ∀ i, Num.D (Num.mul (x i) (y i)) (Num.val (Num.mul (x i) (y i))) := fun i => h1 _ ((List.mem_ofFn' ..).mpr ⟨i, rfl⟩)
      have h3 := sums hall
      rw [e1, e2, hlen] at h2
      have h4 : |∑ i, Num.val (Num.mul (x i) (y i)) - ∑ i, r i * s i| ≤ ∑ i, |Num.val (Num.mul (x i) (y i)) - r i * s i| := by
        rw [← Finset.sum_sub_distrib]
        exact Finset.abs_sum_le_sum_abs _ _
      have h5 := abs_sub_le t (∑ i, Num.val (Num.mul (x i) (y i))) (∑ i, r i * s i)
      rcases Nat.eq_zero_or_pos n with rfl | hnp
      · simp at h2 ⊢
        simp [h2]
      have hn1 : (1 : ℝ) ≤ n := by exact_mod_cast hnp
      set A := ∑ i, |r i * s i|
      set B := ∑ i, |Num.val (Num.mul (x i) (y i))|
      set E := ∑ i, |Num.val (Num.mul (x i) (y i)) - r i * s i|
      have hE : E ≤ (n * f.u) * (A + 1) := by
        have : f.u * A ≤ n * f.u * A := by
          rw [mul_assoc]
          exact le_mul_of_one_le_left (mul_nonneg hu.le hA) hn1
        linarith
      have hB : B ≤ 2 * (A + 1) := by nlinarith
      have hB0 : (0 : ℝ) ≤ B := Finset.sum_nonneg fun i _ => abs_nonneg _
      have h6 : ((1 + f.u) ^ n - 1) * B ≤ 2 * (n * f.u) * (2 * (A + 1)) :=
        mul_le_mul (by linarith) hB hB0 (by positivity)
      have h7 : 0 ≤ n * f.u * (A + 1) := by positivity
      rw [f.eps_eq]
      nlinarith
  · intro n x y r s hx hy h0
    have hS := S.dot_spec (List.ofFn x) (List.ofFn y)
    rw [Fl.zipWith_ofFn Num.mul x y] at hS
    refine Num.sumOf_zero hS fun v hv => ?_
    obtain ⟨i, rfl⟩ := (List.mem_ofFn' ..).mp hv
    obtain ⟨z, hz⟩ := Num.mul_D (den_iff.mp (hx i)) (den_iff.mp (hy i))
    show Num.D (Num.mul (x i) (y i)) 0
    rw [hz, h0]
    exact Num.ofReal_zero_key z

theorem nonNeg_ofReal {x : IEEE f S} {z : Bool} {r : ℝ} (h : x = (Num.ofReal z r : Num f)) (hr : 0 ≤ r) : NonNeg x := by
  subst h
  intro k hk
  obtain ⟨k', hk', h0⟩ := Num.ofReal_nonneg (f := f) z hr
  have := hk.symm.trans hk'
  rw [Option.some.inj this]
  exact h0

theorem nonNeg_fin {s : Bool} {a : ℝ} {h : f.IsMag a} {h' : a < 2 ^ f.emax} (hn : NonNeg (F := IEEE f S) (Num.fin s a h h')) : 0 ≤ signed s a := by
  have : (0 : EReal) ≤ (signed s a : ℝ) := hn _ rfl
  exact_mod_cast this

theorem nonNeg_inf {s : Bool} (hn : NonNeg (F := IEEE f S) (Num.inf s : Num f)) : s = false := by
  cases s with
  | false => rfl
  | true => have := hn ⊥ rfl; simp at this

theorem nonNeg_nan : NonNeg (F := IEEE f S) (Num.nan : Num f) := fun _ h => by cases h

theorem nonNeg_pinf : NonNeg (F := IEEE f S) (Num.inf false : Num f) := fun k h => by
  have : (⊤ : EReal) = k := Option.some.inj h
  rw [← this]; simp

theorem mul_nonNeg {x y : IEEE f S} (hx : NonNeg x) (hy : NonNeg y) : NonNeg (x *. y) := by
  cases x with
  | nan => exact nonNeg_nan
  | inf s =>
    have := nonNeg_inf hx; subst this
    cases y with
    | nan => exact nonNeg_nan
    | inf s' => have := nonNeg_inf hy; subst this; exact nonNeg_pinf
    | fin s' a ha ha' =>
      by_cases h0 : a = 0
      · have e : Num.mul (Num.inf false) (Num.fin s' a ha ha') = Num.nan := by simp [Num.mul, h0]
        intro k hk
        have hk' : Num.key (Num.mul (Num.inf false) (Num.fin s' a ha ha')) = some k := hk
        rw [e] at hk'
        cases hk'
      · have h1 := nonNeg_fin hy
        have : s' = false := by
          cases s' with
          | false => rfl
          | true => exfalso; simp [signed] at h1; exact h0 (le_antisymm h1 ha.nonneg)
        subst this
        have e : Num.mul (Num.inf false) (Num.fin false a ha ha') = Num.inf false := by simp [Num.mul, h0]
        intro k hk
        have hk' : Num.key (Num.mul (Num.inf false) (Num.fin false a ha ha')) = some k := hk
        rw [e] at hk'
        exact nonNeg_pinf (S := S) k hk'
  | fin s a ha ha' =>
    cases y with
    | nan => exact nonNeg_nan
    | inf s' =>
      have := nonNeg_inf hy; subst this
      by_cases h0 : a = 0
      · have e : Num.mul (Num.fin s a ha ha') (Num.inf false) = Num.nan := by simp [Num.mul, h0]
        intro k hk
        have hk' : Num.key (Num.mul (Num.fin s a ha ha') (Num.inf false)) = some k := hk
        rw [e] at hk'
        cases hk'
      · have h1 := nonNeg_fin hx
        have : s = false := by
          cases s with
          | false => rfl
          | true => exfalso; simp [signed] at h1; exact h0 (le_antisymm h1 ha.nonneg)
        subst this
        have e : Num.mul (Num.fin false a ha ha') (Num.inf false) = Num.inf false := by simp [Num.mul, h0]
        intro k hk
        have hk' : Num.key (Num.mul (Num.fin false a ha ha') (Num.inf false)) = some k := hk
        rw [e] at hk'
        exact nonNeg_pinf (S := S) k hk'
    | fin s' b hb hb' =>
      obtain ⟨z, hz⟩ := Num.mul_D (x := .fin s a ha ha') (y := .fin s' b hb hb') rfl rfl
      exact nonNeg_ofReal hz (mul_nonneg (nonNeg_fin hx) (nonNeg_fin hy))

theorem mul_self_nonNeg (x : IEEE f S) : NonNeg (x *. x) := by
  cases x with
  | nan => exact nonNeg_nan
  | inf s => cases s <;> exact nonNeg_pinf
  | fin s a ha ha' =>
    obtain ⟨z, hz⟩ := Num.mul_D (x := .fin s a ha ha') (y := .fin s a ha ha') rfl rfl
    exact nonNeg_ofReal hz (mul_self_nonneg _)

theorem propagates (f : Format) (S : Summation f) : Propagates (IEEE f S) where
  abs_fin x t h := Num.abs_fin h
  add_fin x y t h := by obtain ⟨a, b, h⟩ := Num.add_fin h; exact ⟨a, b, h⟩
  mul_fin x y t h := by obtain ⟨a, b, h⟩ := Num.mul_fin h; exact ⟨a, b, h⟩
  abs_nonneg x := by
    cases x with
    | nan => exact nonNeg_nan
    | inf s => exact nonNeg_pinf
    | fin s a ha ha' =>
      intro k hk
      have : ((signed false a : ℝ) : EReal) = k := Option.some.inj hk
      rw [← this]
      exact_mod_cast ha.nonneg
  add_nonneg x y hx hy := Num.add_nn hx hy
  mul_nonneg x y hx hy := mul_nonNeg hx hy
  div_nonneg x y s hx hy hs := by
    cases x with
    | nan => exact nonNeg_nan
    | inf b =>
      have := nonNeg_inf hx; subst this
      obtain ⟨s', m, hm, hm', rfl, rfl⟩ := Num.D.elim hy
      have : s' = false := by
        cases s' with
        | false => rfl
        | true => have := hm.nonneg; simp [signed] at hs; linarith
      subst this
      exact nonNeg_pinf
    | fin b a ha ha' =>
      obtain ⟨z, hz⟩ := Num.div_D (x := .fin b a ha ha') rfl (den_iff.mp hy) hs.ne'
      exact nonNeg_ofReal hz (div_nonneg (nonNeg_fin hx) hs.le)
  dot_nonneg x := by
    refine Num.sumOf_nonneg (S.dot_spec x x) fun v hv => ?_
    have : ∀ l : List (Num f), ∀ v ∈ List.zipWith Num.mul l l, ∃ w : Num f, v = Num.mul w w := by
      intro l
      induction l with
      | nil => simp
      | cons a l ih =>
        intro v hv
        simp only [List.zipWith_cons_cons, List.mem_cons] at hv
        rcases hv with rfl | hv
        · exact ⟨a, rfl⟩
        · exact ih v hv
    obtain ⟨w, rfl⟩ := this x v hv
    exact mul_self_nonNeg (S := S) w
  sub_nonneg x y r s hx hy h := by
    obtain ⟨z, hz⟩ := sub_D hx hy
    exact nonNeg_ofReal hz (by linarith)

theorem exp_one_le (g : Format) : |Real.exp 1| ≤ g.top := by
  rw [abs_of_pos (Real.exp_pos 1)]
  have h1 : (4 : ℝ) ≤ g.top := by
    unfold Format.top
    calc (4 : ℝ) = 2 ^ (2 : ℤ) := by norm_num
      _ ≤ _ := zpow_le_zpow_right₀ (by norm_num) (by have := g.hmax; omega)
  have := Real.exp_one_lt_d9
  linarith

theorem preciseExp (f : Format) (S : Summation f) (h64 : f.t ≤ 52) : PreciseExp (IEEE f S) f.eps where
  exp x r hx := by
    have e : ∃ z, Scalar.exp x = (Num.ofReal z (Real.exp r) : Num f) := by
      obtain ⟨s, m, hm, hm', rfl, rfl⟩ := Num.D.elim hx
      exact ⟨false, Num.mk_eq_ofReal false (Real.exp_pos _).le⟩
    obtain ⟨z, hz⟩ := e
    have := rounded_one (S := S) hz
    rwa [abs_of_pos (Real.exp_pos r)] at this
  exp_nonneg x := by
    cases x with
    | nan => exact nonNeg_nan
    | inf s =>
      cases s with
      | false => exact nonNeg_pinf
      | true => exact nonNeg_ofReal (z := false) (r := 0) (Num.mk_eq_ofReal false le_rfl) le_rfl
    | fin s a ha ha' => exact nonNeg_ofReal (z := false) (Num.mk_eq_ofReal false (Real.exp_pos _).le) (Real.exp_pos (signed s a)).le
  ln x r hx hr := by
    have e : Scalar.ln x = (Num.ofReal false (Real.log r) : Num f) := by
      obtain ⟨s, m, hm, hm', rfl, rfl⟩ := Num.D.elim hx
      have : s = false := by
        cases s with
        | false => rfl
        | true => have := hm.nonneg; simp [signed] at hr; linarith
      subst this
      have h0 : m ≠ 0 := hr.ne'
      show Num.ln _ = _
      simp [Num.ln, h0, signed]
    exact rounded_one (S := S) e
  ln_nonneg x hx := by
    cases x with
    | nan =>
      have h1 : (Scalar.one : IEEE f S) +. (Num.nan : Num f) = (Num.nan : Num f) := by
        obtain ⟨s, m, hm, hm', h, -⟩ := Num.D.elim (Num.D_mk_one (f := f) false)
        show Num.add (Num.mk false 1) Num.nan = _
        rw [h]; rfl
      rw [h1]
      exact nonNeg_nan
    | inf s =>
      have := nonNeg_inf hx; subst this
      have h1 : (Scalar.one : IEEE f S) +. (Num.inf false : Num f) = (Num.inf false : Num f) := by
        obtain ⟨s, m, hm, hm', h, -⟩ := Num.D.elim (Num.D_mk_one (f := f) false)
        show Num.add (Num.mk false 1) (Num.inf false) = _
        rw [h]; rfl
      rw [h1]
      exact nonNeg_pinf
    | fin s a ha ha' =>
      have h0 := nonNeg_fin hx
      obtain ⟨z, hz⟩ := Num.add_D (x := Num.mk false 1) (y := .fin s a ha ha') (Num.D_mk_one (f := f) false) rfl
      have hz' : (Scalar.one : IEEE f S) +. (Num.fin s a ha ha' : Num f) = (Num.ofReal z (1 + signed s a) : Num f) := hz
      rw [hz']
      obtain ⟨k, k', h1, h2, h3⟩ := Num.ofReal_mono (f := f) false z (r := 1) (s := 1 + signed s a) (by linarith)
      have h1' : k = ((1 : ℝ) : EReal) := by
        have e := Num.D_mk_one (f := f) false
        rw [Num.mk_eq_ofReal false zero_le_one] at e
        exact Option.some.inj (h1.symm.trans e)
      rw [h1'] at h3
      generalize (Num.ofReal z (1 + signed s a) : Num f) = w at h2
      cases w with
      | nan => exact nonNeg_nan
      | inf b =>
        have : b = false := by
          cases b with
          | false => rfl
          | true =>
            have : (⊥ : EReal) = k' := Option.some.inj h2
            rw [← this] at h3
            exact absurd (le_bot_iff.mp h3) (EReal.coe_ne_bot 1)
        subst this
        exact nonNeg_pinf
      | fin b c hc hc' =>
        have hk : ((signed b c : ℝ) : EReal) = k' := Option.some.inj h2
        rw [← hk] at h3
        have h4 : 1 ≤ signed b c := by exact_mod_cast h3
        have : b = false := by
          cases b with
          | false => rfl
          | true => have := hc.nonneg; simp [signed] at h4; linarith
        subst this
        have h5 : 1 ≤ c := h4
        refine nonNeg_ofReal (z := false) (r := Real.log c) ?_ (Real.log_nonneg h5)
        show Num.ln _ = _
        simp [Num.ln, (by linarith : c ≠ 0)]
  eConst := by
    have h1 := Num.ofReal_fin (f := binary64) false (exp_one_le _)
    have e1 := Num.mk_eq_ofReal (f := binary64) false (Real.exp_pos 1).le
    have h2 : Num.D (Num.mk false (Real.exp 1) : Num binary64) (binary64.rd (Real.exp 1)) := by rw [e1]; exact h1
    obtain ⟨z, hz⟩ := cast_D (h := f) h2
    set q := binary64.rd (Real.exp 1)
    have hq : |q - Real.exp 1| ≤ binary64.u * |Real.exp 1| + binary64.η := binary64.rd_err _
    have hu64 : binary64.u ≤ f.u := by
      unfold Format.u
      refine one_div_le_one_div_of_le (by positivity) (pow_le_pow_right₀ (by norm_num) ?_)
      show f.t + 1 ≤ 52 + 1
      omega
    have hη64 := binary64.η_le
    have hu := f.u_pos
    have hus := f.u_small
    have he1 := Real.exp_one_gt_d9
    have he2 := Real.exp_one_lt_d9
    rw [abs_of_pos (Real.exp_pos 1)] at hq
    have hq2 : |q - Real.exp 1| ≤ f.u * (Real.exp 1 + 1) := by nlinarith
    have hqa : |q| ≤ 4 := by
      have h := abs_sub_abs_le_abs_sub q (Real.exp 1)
      rw [abs_of_pos (Real.exp_pos 1)] at h
      nlinarith
    have htop : |q| ≤ f.top := by
      refine hqa.trans ?_
      unfold Format.top
      calc (4 : ℝ) = 2 ^ (2 : ℤ) := by norm_num
        _ ≤ _ := zpow_le_zpow_right₀ (by norm_num) (by have := f.hmax; omega)
    refine ⟨f.rd q, ?_, ?_⟩
    · show Num.D (Num.cast _) _
      rw [hz]
      exact Num.ofReal_fin z htop
    · have h3 := f.rd_err q
      have h4 := abs_sub_le (f.rd q) q (Real.exp 1)
      have h5 := f.η_le
      rw [f.eps_eq]
      nlinarith

theorem monoRounded (f : Format) (S : Summation f) : MonoRounded (IEEE f S) (fun _ => True) where
  rep_zero := trivial
  rep_add _ _ := trivial
  rep_dot _ _ := trivial
  abs x r h := Num.abs_D h
  ofNat n hn s h := by
    have e : (Scalar.ofNat n : IEEE f S) = (Num.ofReal false (n : ℝ) : Num f) := Num.mk_eq_ofReal false (Nat.cast_nonneg n)
    rw [e] at h
    rw [Num.D_ofReal h]
    have h1 : (1 : ℝ) ≤ n := by exact_mod_cast hn
    have h2 := f.rd_mono h1
    rw [f.rd_nonneg zero_le_one, f.near_idem f.mag_nat_one] at h2
    linarith
  add_zero x y hx hy := by
    obtain ⟨z, hz⟩ := Num.add_D (den_iff.mp hx) (den_iff.mp hy)
    rw [add_zero] at hz
    exact den_ofReal_zero (x := x +. y) hz
  mul_zero x y r hx hy := by
    obtain ⟨z, hz⟩ := Num.mul_D (den_iff.mp hx) (den_iff.mp hy)
    rw [mul_zero] at hz
    exact den_ofReal_zero (x := x *. y) hz
  dot_zero n x y r hx hy := (precise f S).dot_zero n x y r (fun _ => 0) hx hy fun i => mul_zero _
  zero_sub x y s hx _ hy := by
    obtain ⟨z, hz⟩ := sub_D hx hy
    rw [zero_sub] at hz
    rw [hz]
    have h1 : f.rd (-s) = -s := by rw [f.rd_neg, Num.D.rep hy]
    obtain ⟨b, m, hm, hm', rfl, rfl⟩ := Num.D.elim hy
    have h2 : f.near |(-signed b m)| < (2 : ℝ) ^ f.emax := by
      rw [abs_neg, Num.signed_abs hm.nonneg, f.near_idem hm]
      exact hm'
    have h3 := Num.key_ofReal_small z h2
    rw [h1] at h3
    exact h3
  sub_nonpos x y r s hx hy h := by
    obtain ⟨z, hz⟩ := sub_D hx hy
    obtain ⟨k, k', h1, h2, h3⟩ := Num.ofReal_mono (f := f) z false (by linarith : r - s ≤ 0)
    rw [Num.ofReal_zero_key] at h2
    refine ⟨k, ?_, ?_⟩
    · rw [hz]; exact h1
    · have := Option.some.inj h2
      rw [← this] at h3
      exact_mod_cast h3
  div_mono x x' y r r' s hx hx' hy hs h := by
    obtain ⟨z, hz⟩ := Num.div_D (den_iff.mp hx) (den_iff.mp hy) hs.ne'
    obtain ⟨z', hz'⟩ := Num.div_D (den_iff.mp hx') (den_iff.mp hy) hs.ne'
    have habs : Num.key (Num.abs (Num.ofReal z (r / s) : Num f)) = Num.key (Num.ofReal false (|r| / s) : Num f) := by
      have e : |r| / s = |r / s| := by rw [abs_div, abs_of_pos hs]
      rw [e]
      by_cases hb : f.near |r / s| < (2 : ℝ) ^ f.emax
      · have h1 := Num.abs_D (Num.key_ofReal_small z hb)
        have h2 := Num.key_ofReal_small false (r := |r / s|) (by rwa [abs_abs])
        rw [h2]
        rw [f.rd_abs] at h1
        rw [f.rd_nonneg (abs_nonneg _)]
        exact h1
      · have h2 := Num.key_ofReal_big false (r := |r / s|) (f := f) (by rwa [abs_abs])
        rw [h2, if_neg (not_lt.mpr (abs_nonneg _))]
        unfold Num.ofReal Num.mk
        rw [dif_neg hb]
        rfl
    obtain ⟨k, k', h1, h2, h3⟩ := Num.ofReal_mono (f := f) false z' (div_le_div_of_nonneg_right h hs.le)
    obtain ⟨k₀, h4, h5⟩ := Num.ofReal_nonneg (f := f) false (div_nonneg (abs_nonneg r) hs.le)
    have : k₀ = k := Option.some.inj (h4.symm.trans h1)
    subst this
    refine ⟨k₀, k', ?_, ?_, h5, h3⟩
    · show Num.key (Num.abs (Num.div x y)) = _
      rw [hz, habs, h1]
    · show Num.key (Num.div x' y) = _
      rw [hz', h2]

/-- A real number, rounded to the nearest number of the format. -/
noncomputable def of (S : Summation f) (x : ℝ) : IEEE f S := (Num.ofReal false x : Num f)

theorem stores (S : Summation f) {x : ℝ} (hx : |x| ≤ f.top) : Stores f.eps (of S x) x where
  near := ⟨_, Num.ofReal_fin false hx, (f.rd_err x).trans (bound_one x)⟩
  zero h := by subst h; exact Num.ofReal_zero_key false

end IEEE
end Sglm
