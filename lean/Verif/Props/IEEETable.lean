import Verif.Spec.IEEETable
import Verif.Props.IEEE

/-!
# The IEEE model does what the standard requires

`IEEE f S`, for which the theorems on floating point (C62 and others) are instantiated, is indeed IEEE 754 arithmetic: sums, products,
quotients and square roots are correctly rounded, and NaN and the infinities are treated as the standard says.
-/

namespace Sglm
open Scalar Spec
variable {f : Format}

namespace Num

theorem rounds_ofReal (z : Bool) (r : ℝ) : ∃ k, (ofReal z r : Num f).key = some k ∧ Rounds f r k := by
  have hn : ∀ q : ℝ, |q| = f.near |r| → |q - r| = _root_.abs (f.near |r| - |r|) → f.IsMag |q| ∧ ∀ z : ℝ, f.IsMag |z| → |q - r| ≤ |z - r| := by
    intro q hq hd
    refine ⟨hq ▸ f.near_mag (abs_nonneg r), fun z hz => ?_⟩
    rw [hd]
    exact (f.near_nearest (abs_nonneg r) hz).trans (abs_abs_sub_abs_le_abs_sub z r)
  obtain ⟨h1, h2⟩ := hn (f.rd r) (f.rd_abs r) (f.rd_sub_abs r)
  by_cases h : f.near |r| < (2 : ℝ) ^ f.emax
  · exact ⟨_, key_ofReal_small z h, Or.inl ⟨f.rd r, rfl, h1, by rwa [f.rd_abs], h2⟩⟩
  · refine ⟨_, key_ofReal_big z h, Or.inr ⟨?_, f.rd r, h1, by rw [f.rd_abs]; exact not_lt.mp h, h2⟩⟩
    have h0 : r ≠ 0 := by
      rintro rfl
      apply h
      rw [abs_zero, f.near_idem f.mag_zero]
      positivity
    by_cases hr : r < 0
    · rw [if_pos hr]; exact Or.inr ⟨rfl, hr⟩
    · rw [if_neg hr]; exact Or.inl ⟨rfl, lt_of_le_of_ne (not_lt.mp hr) (Ne.symm h0)⟩

theorem key_fin_cases (a : Num f) : a.key = none ∧ a = nan ∨ (∃ s, a = inf s ∧ a.key = some (if s then ⊥ else ⊤)) ∨ ∃ r : ℝ, D a r := by
  cases a with
  | nan => exact Or.inl ⟨rfl, rfl⟩
  | inf s => exact Or.inr (Or.inl ⟨s, rfl, rfl⟩)
  | fin s x h h' => exact Or.inr (Or.inr ⟨_, rfl⟩)

end Num

/-- Sums. -/
theorem ieee_add (a b : Num f) : IsSum f a.key b.key (Num.add a b).key := by
  refine ⟨?_, ?_, ?_, ?_⟩
  · rintro (h | h)
    · cases a with
      | nan => rfl
      | inf s => cases h
      | fin s x _ _ => cases h
    · cases b with
      | nan => cases a <;> rfl
      | inf s => cases h
      | fin s x _ _ => cases h
  · rintro x y hx hy (⟨rfl, rfl⟩ | ⟨rfl, rfl⟩) <;> cases a <;> cases b <;> simp [Num.key] at hx hy
    · subst hx hy; rfl
    · subst hx hy; rfl
  · intro x y hx hy _
    obtain ⟨z, hz⟩ := Num.add_D (f := f) hx hy
    rw [hz]
    exact Num.rounds_ofReal z _
  · intro x y hx hy hb hd
    cases a with
    | nan => cases hx
    | inf s =>
      cases b with
      | nan => cases hy
      | inf s' => cases s <;> cases s' <;> simp [Num.key] at hx hy <;> subst hx hy <;> simp [Num.add, Num.key] at hb ⊢
      | fin s' q _ _ => cases s <;> simp [Num.key] at hx hy <;> subst hx hy <;> simp [Num.add, Num.key]
    | fin s r _ _ =>
      cases b with
      | nan => cases hy
      | inf s' => cases s' <;> simp [Num.key] at hx hy <;> subst hx hy <;> simp [Num.add, Num.key]
      | fin s' q _ _ =>
        simp only [Num.key, Option.some.injEq] at hx hy
        exact absurd ⟨_, _, hx.symm, hy.symm, trivial⟩ hd

/-- Products. -/
theorem ieee_mul (a b : Num f) : IsProduct f a.key b.key (Num.mul a b).key := by
  refine ⟨?_, ?_, ?_, ?_⟩
  · rintro (h | h)
    · cases a with
      | nan => rfl
      | inf s => cases h
      | fin s x _ _ => cases h
    · cases b with
      | nan => cases a <;> rfl
      | inf s => cases h
      | fin s x _ _ => cases h
  · have key : ∀ (s s' : Bool) (q : ℝ) (hq : f.IsMag q) (hq' : q < (2 : ℝ) ^ f.emax), (Num.fin s' q hq hq' : Num f).key = some 0 →
        Num.mul (Num.inf s) (Num.fin s' q hq hq') = Num.nan ∧ Num.mul (Num.fin s' q hq hq') (Num.inf s) = Num.nan := by
      intro s s' q hq hq' h
      have h0 : q = 0 := by
        have := Option.some.inj h
        exact Num.signed_eq_zero.mp (by exact_mod_cast this)
      simp [Num.mul, h0]
    rintro x y hx hy (⟨rfl, h⟩ | ⟨h, rfl⟩)
    · cases a with
      | nan => cases hx
      | inf s => cases s <;> simp [Num.key] at hx
      | fin s q hq hq' =>
        cases b with
        | nan => cases hy
        | inf s' => rw [(key s' s q hq hq' hx).2]; rfl
        | fin s' r _ _ => rcases h with rfl | rfl <;> simp [Num.key] at hy
    · cases b with
      | nan => cases hy
      | inf s => cases s <;> simp [Num.key] at hy
      | fin s q hq hq' =>
        cases a with
        | nan => cases hx
        | inf s' => rw [(key s' s q hq hq' hy).1]; rfl
        | fin s' r _ _ => rcases h with rfl | rfl <;> simp [Num.key] at hx
  · intro x y hx hy _
    obtain ⟨z, hz⟩ := Num.mul_D (f := f) hx hy
    rw [hz]
    exact Num.rounds_ofReal z _
  · intro x y hx hy hb hd
    have top : ∀ (s s' : Bool) (q : ℝ), 0 < q →
        (if (s ^^ s') then (⊥ : EReal) else ⊤) = (if s then ⊥ else ⊤) * ((signed s' q : ℝ) : EReal) := by
      intro s s' q hq
      cases s <;> cases s' <;> simp only [signed, Bool.xor_false, Bool.xor_true, Bool.not_false, Bool.not_true, if_true, if_false,
        Bool.false_eq_true, EReal.coe_neg]
      · rw [EReal.top_mul_coe_of_pos hq]
      · rw [mul_comm, EReal.neg_mul, mul_comm, EReal.top_mul_coe_of_pos hq]; rfl
      · rw [EReal.bot_mul_coe_of_pos hq]
      · rw [mul_comm, EReal.neg_mul, mul_comm, EReal.bot_mul_coe_of_pos hq]; rfl
    cases a with
    | nan => cases hx
    | inf s =>
      cases b with
      | nan => cases hy
      | inf s' =>
        cases s <;> cases s' <;> simp [Num.key] at hx hy <;> subst hx hy <;> simp [Num.mul, Num.key]
      | fin s' q hq hq' =>
        simp only [Num.key, Option.some.injEq] at hx hy
        have h0 : q ≠ 0 := by
          rintro rfl
          apply hb
          refine Or.inr ⟨?_, ?_⟩
          · rw [← hx]; cases s <;> simp
          · rw [← hy]; cases s' <;> simp [signed]
        refine ⟨_, by simp only [Num.mul, if_neg h0]; rfl, ?_⟩
        rw [← hx, ← hy]
        exact top s s' q (lt_of_le_of_ne hq.nonneg (Ne.symm h0))
    | fin s q hq hq' =>
      cases b with
      | nan => cases hy
      | inf s' =>
        simp only [Num.key, Option.some.injEq] at hx hy
        have h0 : q ≠ 0 := by
          rintro rfl
          apply hb
          refine Or.inl ⟨?_, ?_⟩
          · rw [← hx]; cases s <;> simp [signed]
          · rw [← hy]; cases s' <;> simp
        refine ⟨_, by simp only [Num.mul, if_neg h0]; rfl, ?_⟩
        rw [← hx, ← hy, mul_comm, Bool.xor_comm]
        exact top s' s q (lt_of_le_of_ne hq.nonneg (Ne.symm h0))
      | fin s' r _ _ =>
        simp only [Num.key, Option.some.injEq] at hx hy
        exact absurd ⟨_, _, hx.symm, hy.symm, trivial⟩ hd

/-- Quotients. -/
theorem ieee_div (a b : Num f) : IsQuotient f a.key b.key (Num.div a b).key := by
  have zk : ∀ {s : Bool} {q : ℝ} {hq : f.IsMag q} {hq' : q < (2 : ℝ) ^ f.emax}, (Num.fin s q hq hq' : Num f).key = some 0 → q = 0 := by
    intro s q hq hq' h
    have := Option.some.inj h
    exact Num.signed_eq_zero.mp (by exact_mod_cast this)
  refine ⟨?_, ?_, ?_, ?_⟩
  · rintro (h | h)
    · cases a with
      | nan => rfl
      | inf s => cases h
      | fin s x _ _ => cases h
    · cases b with
      | nan => cases a <;> rfl
      | inf s => cases h
      | fin s x _ _ => cases h
  · rintro x y hx hy (⟨rfl, rfl⟩ | ⟨h, h'⟩)
    · cases a with
      | nan => cases hx
      | inf s => cases s <;> simp [Num.key] at hx
      | fin s q _ _ =>
        cases b with
        | nan => cases hy
        | inf s => cases s <;> simp [Num.key] at hy
        | fin s' r _ _ => simp [Num.div, zk hx, zk hy, Num.key]
    · cases a with
      | nan => cases hx
      | inf s =>
        cases b with
        | nan => cases hy
        | inf s => rfl
        | fin s' r _ _ => rcases h' with rfl | rfl <;> simp [Num.key] at hy
      | fin s q _ _ => rcases h with rfl | rfl <;> simp [Num.key] at hx
  · intro x y hx hy h0
    obtain ⟨z, hz⟩ := Num.div_D (f := f) hx hy (by exact_mod_cast h0)
    rw [hz]
    exact Num.rounds_ofReal z _
  · intro x y hx hy hb hd
    cases a with
    | nan => cases hx
    | inf s =>
      cases b with
      | nan => cases hy
      | inf s' => cases s <;> cases s' <;> simp [Num.key] at hx hy <;> subst hx hy <;> simp at hb
      | fin s' q hq hq' =>
        refine ⟨_, rfl, ?_⟩
        simp only [Num.key, Option.some.injEq] at hx hy
        rw [← hx, ← hy, if_neg (by simp)]
        split
        · cases s <;> cases s' <;> simp
        · rename_i h0
          have hq0 : 0 < q := lt_of_le_of_ne hq.nonneg (fun h => h0 (by rw [← h]; cases s' <;> simp [signed]))
          rw [← EReal.coe_inv]
          have hp : 0 < q⁻¹ := inv_pos.mpr hq0
          cases s <;> cases s' <;> simp only [signed, Bool.xor_false, Bool.xor_true, Bool.not_false, Bool.not_true, if_true, if_false,
            Bool.false_eq_true, inv_neg, EReal.coe_neg]
          · rw [EReal.top_mul_coe_of_pos hp]
          · rw [mul_comm, EReal.neg_mul, mul_comm, EReal.top_mul_coe_of_pos hp]; rfl
          · rw [EReal.bot_mul_coe_of_pos hp]
          · rw [mul_comm, EReal.neg_mul, mul_comm, EReal.bot_mul_coe_of_pos hp]; rfl
    | fin s q hq hq' =>
      cases b with
      | nan => cases hy
      | inf s' =>
        simp only [Num.key, Option.some.injEq] at hx hy
        refine ⟨0, ?_, ?_⟩
        · show (Num.mk (s ^^ s') 0 : Num f).key = _
          rw [Num.mk_eq_ofReal _ le_rfl, show signed (s ^^ s') 0 = 0 by cases s <;> cases s' <;> simp [signed], Num.ofReal_zero_key]
          rfl
        · rw [← hy, if_pos (by cases s' <;> simp)]
      | fin s' r hr hr' =>
        have h0 : r = 0 := by
          by_contra h0
          refine hd ⟨_, _, (Option.some.inj hx).symm, (Option.some.inj hy).symm, ?_⟩
          rw [← Option.some.inj hy]
          have := mt (Num.signed_eq_zero (s := s')).mp h0
          exact_mod_cast this
        subst h0
        have hq0 : q ≠ 0 := by
          rintro rfl
          apply hb
          rw [← Option.some.inj hx, ← Option.some.inj hy]
          left
          constructor
          · cases s <;> simp [signed]
          · cases s' <;> simp [signed]
        refine ⟨_, by simp only [Num.div, if_true, if_neg hq0]; rfl, ?_⟩
        rw [← Option.some.inj hy, if_neg (by simp), if_pos (by cases s' <;> simp [signed])]
        cases s <;> cases s' <;> simp

/-- Square roots. -/
theorem ieee_sqrt (a : Num f) : IsSqrt f a.key (Num.sqrt a).key := by
  refine ⟨?_, ?_, ?_, ?_⟩
  · intro h
    cases a with
    | nan => rfl
    | inf s => cases h
    | fin s x _ _ => cases h
  · intro x hx h
    cases a with
    | nan => cases hx
    | inf s => cases s <;> simp [Num.key] at hx <;> subst hx <;> simp [Num.sqrt, Num.key] at h ⊢
    | fin s q hq hq' =>
      have := Option.some.inj hx
      subst this
      have hs : signed s q < 0 := by exact_mod_cast h
      have := hq.nonneg
      cases s with
      | false => simp only [signed, Bool.false_eq_true, if_false] at hs; linarith
      | true =>
        simp only [signed, if_true] at hs
        have h0 : q ≠ 0 := by rintro rfl; simp at hs
        simp [Num.sqrt, h0, Num.key]
  · intro x hx h
    obtain ⟨s, q, hq, hq', rfl, rfl⟩ := Num.D.elim (f := f) hx
    by_cases h0 : q = 0
    · subst h0
      simp only [Num.sqrt, if_true]
      rw [Num.mk_eq_ofReal _ le_rfl]
      have e : signed s (0 : ℝ) = 0 := by cases s <;> simp [signed]
      rw [e, Real.sqrt_zero]
      exact Num.rounds_ofReal s 0
    · cases s with
      | true =>
        have := lt_of_le_of_ne hq.nonneg (Ne.symm h0)
        simp only [signed, if_true] at h
        linarith
      | false =>
        simp only [Num.sqrt, if_neg h0, Bool.false_eq_true, if_false]
        rw [Num.mk_eq_ofReal _ (Real.sqrt_nonneg q)]
        exact Num.rounds_ofReal false _
  · intro h
    cases a with
    | nan => cases h
    | inf s => cases s <;> simp [Num.key] at h ⊢; simp [Num.sqrt]
    | fin s q _ _ => simp [Num.key] at h

/-- **The arithmetic of C62**: the operations of `IEEE f S` are those of IEEE 754, with subtraction as addition of the negative. -/
theorem C62_ieee_operations (S : Summation f) (a b : IEEE f S) :
    IsSum f (LawfulCmp.key a) (LawfulCmp.key b) (LawfulCmp.key (a +. b)) ∧
    IsSum f (LawfulCmp.key a) ((LawfulCmp.key b).map (- ·)) (LawfulCmp.key (a -. b)) ∧
    IsProduct f (LawfulCmp.key a) (LawfulCmp.key b) (LawfulCmp.key (a *. b)) ∧
    IsQuotient f (LawfulCmp.key a) (LawfulCmp.key b) (LawfulCmp.key (a /. b)) ∧
    IsSqrt f (LawfulCmp.key a) (LawfulCmp.key (Scalar.sqrt a)) := by
  refine ⟨ieee_add a b, ?_, ieee_mul a b, ieee_div a b, ieee_sqrt a⟩
  have h : (Num.neg (f := f) b).key = (Num.key (f := f) b).map (- ·) := by
    cases b with
    | nan => rfl
    | inf s => cases s <;> simp [Num.neg, Num.key]
    | fin s x _ _ => cases s <;> simp [Num.neg, Num.key, signed]
  have := ieee_add (f := f) a (Num.neg b)
  rw [h] at this
  exact this

/-- `∞ - ∞` is NaN in `f64`. -/
example (S : Summation binary64) : LawfulCmp.key ((Scalar.inf : IEEE binary64 S) -. Scalar.inf) = none :=
  (C62_ieee_operations S Scalar.inf Scalar.inf).2.1.invalid ⊤ ⊥ rfl rfl (Or.inl ⟨rfl, rfl⟩)

/-- `1 / 0` is infinite, `0 / 0` is NaN. -/
example (S : Summation binary64) : LawfulCmp.key ((zero : IEEE binary64 S) /. zero) = none :=
  (C62_ieee_operations S zero zero).2.2.2.1.invalid 0 0 Num.D_zero Num.D_zero (Or.inl ⟨rfl, rfl⟩)

end Sglm
