import Verif.Proofs.Fl
import Verif.Spec.MonoRounding

/-!
# Rounding towards zero is monotone
-/

namespace Sglm
open Scalar Spec

/-- Rounding towards zero to `t + 1` significant bits. -/
noncomputable def chopRd (t : ℕ) (x : ℝ) : ℝ :=
  if 0 ≤ x then (⌊x / 2 ^ (Int.log 2 x - t)⌋ : ℝ) * 2 ^ (Int.log 2 x - t)
  else -((⌊(-x) / 2 ^ (Int.log 2 (-x) - t)⌋ : ℝ) * 2 ^ (Int.log 2 (-x) - t))

theorem chopRd_nonneg_eq (t : ℕ) {x : ℝ} (hx : 0 ≤ x) :
    chopRd t x = (⌊x / 2 ^ (Int.log 2 x - t)⌋ : ℝ) * 2 ^ (Int.log 2 x - t) := if_pos hx

theorem chopRd_zero (t : ℕ) : chopRd t 0 = 0 := by
  rw [chopRd_nonneg_eq t le_rfl]
  simp

theorem chopRd_neg (t : ℕ) (x : ℝ) : chopRd t (-x) = -chopRd t x := by
  rcases lt_trichotomy x 0 with h | rfl | h
  · unfold chopRd
    rw [if_pos (by linarith), if_neg (by linarith), neg_neg]
  · rw [neg_zero, chopRd_zero, neg_zero]
  · unfold chopRd
    rw [if_neg (by linarith), if_pos h.le, neg_neg]

/-- Bounds for positive numbers. -/
theorem chopRd_bounds (t : ℕ) {x : ℝ} (hx : 0 < x) :
    (2 : ℝ) ^ Int.log 2 x ≤ chopRd t x ∧ chopRd t x ≤ x ∧ x - chopRd t x ≤ 1 / 2 ^ t * x := by
  have hpos : (0 : ℝ) < 2 ^ (Int.log 2 x - t) := by positivity
  have h3 : (2 : ℝ) ^ Int.log 2 x ≤ x := by
    exact_mod_cast Int.zpow_log_le_self (b := 2) (by norm_num) hx
  have h4 : (2 : ℝ) ^ (Int.log 2 x - t) = 2 ^ Int.log 2 x / 2 ^ t := by
    rw [zpow_sub₀ (by norm_num), zpow_natCast]
  rw [chopRd_nonneg_eq t hx.le]
  have hq : x = x / 2 ^ (Int.log 2 x - t) * 2 ^ (Int.log 2 x - t) := by field_simp
  refine ⟨?_, ?_, ?_⟩
  · have h5 : ((2 ^ t : ℤ) : ℝ) ≤ x / 2 ^ (Int.log 2 x - t) := by
      push_cast
      rw [le_div_iff₀ hpos, h4]
      calc (2 : ℝ) ^ t * (2 ^ Int.log 2 x / 2 ^ t) = 2 ^ Int.log 2 x := by field_simp
        _ ≤ x := h3
    have h6 := Int.le_floor.mpr h5
    have h7 : ((2 ^ t : ℤ) : ℝ) ≤ (⌊x / 2 ^ (Int.log 2 x - t)⌋ : ℝ) := by exact_mod_cast h6
    push_cast at h7
    calc (2 : ℝ) ^ Int.log 2 x = 2 ^ t * (2 ^ (Int.log 2 x - t)) := by rw [h4]; field_simp
      _ ≤ _ := mul_le_mul_of_nonneg_right h7 hpos.le
  · conv_rhs => rw [hq]
    exact mul_le_mul_of_nonneg_right (Int.floor_le _) hpos.le
  · have h5 : x / 2 ^ (Int.log 2 x - t) - (⌊x / 2 ^ (Int.log 2 x - t)⌋ : ℝ) ≤ 1 := by
      have := Int.lt_floor_add_one (x / 2 ^ (Int.log 2 x - t)); linarith
    have h6 := mul_le_mul_of_nonneg_right h5 hpos.le
    rw [sub_mul, ← hq, one_mul] at h6
    refine h6.trans ?_
    rw [h4]
    calc (2 : ℝ) ^ Int.log 2 x / 2 ^ t = 1 / 2 ^ t * 2 ^ Int.log 2 x := by ring
      _ ≤ _ := mul_le_mul_of_nonneg_left h3 (by positivity)

theorem chopRd_nonneg (t : ℕ) {x : ℝ} (hx : 0 ≤ x) : 0 ≤ chopRd t x := by
  rcases hx.eq_or_lt with rfl | hx
  · rw [chopRd_zero]
  · exact le_trans (by positivity) (chopRd_bounds t hx).1

theorem chopRd_mono_pos (t : ℕ) {x y : ℝ} (hx : 0 ≤ x) (hxy : x ≤ y) : chopRd t x ≤ chopRd t y := by
  rcases hx.eq_or_lt with rfl | hx
  · rw [chopRd_zero]
    exact chopRd_nonneg t hxy
  · have hy : 0 < y := hx.trans_le hxy
    have hlog : Int.log 2 x ≤ Int.log 2 y := Int.log_mono_right hx hxy
    rcases hlog.eq_or_lt with h | h
    · rw [chopRd_nonneg_eq t hx.le, chopRd_nonneg_eq t hy.le, h]
      have hpos : (0 : ℝ) < 2 ^ (Int.log 2 y - t) := by positivity
      refine mul_le_mul_of_nonneg_right ?_ hpos.le
      exact_mod_cast Int.floor_le_floor (div_le_div_of_nonneg_right hxy hpos.le)
    · have h1 : x < (2 : ℝ) ^ (Int.log 2 x + 1) := by
        exact_mod_cast Int.lt_zpow_succ_log_self (b := 2) (by norm_num) x
      have h2 : (2 : ℝ) ^ (Int.log 2 x + 1) ≤ 2 ^ Int.log 2 y := zpow_le_zpow_right₀ (by norm_num) (by omega)
      linarith [(chopRd_bounds t hx).2.1, (chopRd_bounds t hy).1]

theorem chopRd_abs (t : ℕ) (x : ℝ) : |chopRd t x| = chopRd t |x| := by
  rcases le_total 0 x with h | h
  · rw [abs_of_nonneg h, abs_of_nonneg (chopRd_nonneg t h)]
  · rw [abs_of_nonpos h, chopRd_neg, abs_of_nonpos]
    have := chopRd_nonneg t (x := -x) (by linarith)
    rw [chopRd_neg] at this
    linarith

theorem chopRd_idem (t : ℕ) (x : ℝ) : chopRd t (chopRd t x) = chopRd t x := by
  have key : ∀ x : ℝ, 0 ≤ x → chopRd t (chopRd t x) = chopRd t x := by
    intro x hx
    rcases hx.eq_or_lt with rfl | hx
    · simp only [chopRd_zero]
    · obtain ⟨h1, h2, -⟩ := chopRd_bounds t hx
      have hc : 0 < chopRd t x := lt_of_lt_of_le (by positivity) h1
      have hl : Int.log 2 (chopRd t x) = Int.log 2 x := by
        refine le_antisymm (Int.log_mono_right hc h2) ?_
        exact (Int.zpow_le_iff_le_log (b := 2) (by norm_num) hc).mp (by exact_mod_cast h1)
      rw [chopRd_nonneg_eq t hc.le, hl]
      have hpos : (0 : ℝ) < 2 ^ (Int.log 2 x - t) := by positivity
      rw [chopRd_nonneg_eq t hx.le, mul_div_assoc, div_self hpos.ne', mul_one, Int.floor_intCast]
  rcases le_total 0 x with h | h
  · exact key x h
  · have := key (-x) (by linarith)
    rw [chopRd_neg, chopRd_neg] at this
    linarith

theorem chopRd_err (t : ℕ) (x : ℝ) : |chopRd t x - x| ≤ 1 / 2 ^ t * |x| := by
  have key : ∀ x : ℝ, 0 ≤ x → |chopRd t x - x| ≤ 1 / 2 ^ t * |x| := by
    intro x hx
    rcases hx.eq_or_lt with rfl | hx
    · simp [chopRd_zero]
    · obtain ⟨-, h2, h3⟩ := chopRd_bounds t hx
      rw [abs_sub_comm, abs_of_nonneg (by linarith), abs_of_pos hx]
      exact h3
  rcases le_total 0 x with h | h
  · exact key x h
  · have := key (-x) (by linarith)
    rwa [chopRd_neg, abs_neg, ← neg_sub_neg, neg_neg, neg_neg, abs_sub_comm] at this

theorem chopRd_ge_one (t : ℕ) (x : ℝ) (hx : 1 ≤ x) : 1 ≤ chopRd t x := by
  refine le_trans ?_ (chopRd_bounds t (by linarith : (0 : ℝ) < x)).1
  refine one_le_zpow₀ (by norm_num) ?_
  rw [Int.log_of_one_le_right _ hx]
  positivity

/-- Rounding towards zero with 53 bits, overflow above `2 ^ 1023`. -/
noncomputable def chop64 : Rounder where
  rd := chopRd 52
  u := 1 / 2 ^ 52
  top := 2 ^ 1023
  err := chopRd_err 52
  ge_one := chopRd_ge_one 52
  u_nonneg := by positivity
  u_small := by norm_num
  top_ge := one_le_pow₀ (by norm_num)

/-- What rounding needs to satisfy for `MonoRounded`. -/
structure Rounder.Mono (r : Rounder) : Prop where
  mono : ∀ x y, 0 ≤ x → x ≤ y → r.rd x ≤ r.rd y
  abs : ∀ x, |r.rd x| = r.rd |x|
  neg : ∀ x, r.rd (-x) = -r.rd x
  idem : ∀ x, r.rd (r.rd x) = r.rd x
  top : ∀ x, |x| ≤ r.top → |r.rd x| ≤ r.top

theorem chop64_mono : chop64.Mono where
  mono _ _ := chopRd_mono_pos 52
  abs := chopRd_abs 52
  neg := chopRd_neg 52
  idem := chopRd_idem 52
  top x hx := by
    show |chopRd 52 x| ≤ _
    rw [chopRd_abs]
    rcases (abs_nonneg x).eq_or_lt with h | h
    · rw [← h, chopRd_zero]
      exact zero_le_one.trans chop64.top_ge
    · exact (chopRd_bounds 52 h).2.1.trans hx

namespace Fl
variable {r : Rounder}

/-- The numbers of the format. -/
def IsRep (x : Fl r) : Prop := rnd r x.val = x.val

theorem rnd_idem (hr : r.Mono) (v : XR) : rnd r (rnd r v) = rnd r v := by
  cases v with
  | fin a =>
    by_cases h : |a| ≤ r.top
    · rw [rnd_small h, rnd_small (hr.top a h), hr.idem]
    · have : rnd r (.fin a) = if 0 < a then .pinf else .ninf := if_neg h
      rw [this]
      split <;> rfl
  | pinf => rfl
  | ninf => rfl
  | nan => rfl

theorem mono_rounded (hr : r.Mono) : MonoRounded (Fl r) IsRep where
  rep_zero := by
    show rnd r (.fin 0) = .fin 0
    rw [rnd_small (by rw [abs_zero]; linarith [r.top_ge]), rd_zero]
  rep_add x y := rnd_idem hr _
  rep_dot x y := by
    show IsRep (List.foldl add (⟨.fin 0⟩ : Fl r) (List.zipWith mul x y))
    have : ∀ (l : List (Fl r)) (a : Fl r), IsRep a → IsRep (List.foldl add a l) := by
      intro l
      induction l with
      | nil => exact fun _ h => h
      | cons b l ih => exact fun a _ => ih _ (rnd_idem hr _)
    refine this _ _ ?_
    show rnd r (.fin 0) = .fin 0
    rw [rnd_small (by rw [abs_zero]; linarith [r.top_ge]), rd_zero]
  abs x a h := by
    rw [den_iff] at h ⊢
    show XR.abs x.val = _
    rw [h]; rfl
  ofNat n hn s h := by
    rw [den_iff] at h
    obtain ⟨a, h1, -, rfl⟩ := rnd_fin (show rnd r (.fin (n : ℝ)) = _ from h)
    injection h1 with h1
    subst h1
    have := r.ge_one (n : ℝ) (by exact_mod_cast hn)
    linarith
  add_zero x y hx hy := by
    rw [den_iff, add_val hx hy, add_zero, rnd_small (by rw [abs_zero]; linarith [r.top_ge]), rd_zero]
  mul_zero x y a hx hy := by
    rw [den_iff, mul_val hx hy, mul_zero, rnd_small (by rw [abs_zero]; linarith [r.top_ge]), rd_zero]
  dot_zero n x y a hx hy := by
    have hz : ∀ (l : List (Fl r)) (b : Fl r), Den b 0 → (∀ c ∈ l, Den c 0) → Den (List.foldl add b l) 0 := by
      intro l
      induction l with
      | nil => exact fun _ h _ => h
      | cons c l ih =>
        intro b hb hl
        refine ih _ ?_ fun d hd => hl d (List.mem_cons_of_mem _ hd)
        have := add_val hb (hl c List.mem_cons_self)
        rw [den_iff]
        refine this.trans ?_
        rw [AddZeroClass.add_zero, rnd_small (by rw [abs_zero]; linarith [r.top_ge]), rd_zero]
    refine hz (List.zipWith mul (List.ofFn x) (List.ofFn y)) _ (den_iff.mpr rfl) fun c hc => ?_
    obtain ⟨i, hi, rfl⟩ := List.getElem_of_mem hc
    rw [List.getElem_zipWith]
    simp only [List.getElem_ofFn]
    rw [den_iff]
    refine (mul_val (hx _) (hy _)).trans ?_
    rw [MulZeroClass.mul_zero, rnd_small (by rw [abs_zero]; linarith [r.top_ge]), rd_zero]
  zero_sub x y s hx hrep hy := by
    rw [den_iff] at hx hy ⊢
    show rnd r (XR.add x.val (XR.neg y.val)) = _
    rw [hx, hy]
    show rnd r (.fin (0 + -s)) = _
    rw [zero_add]
    unfold IsRep at hrep
    rw [hy] at hrep
    obtain ⟨a, h1, h2, h3⟩ := rnd_fin hrep
    injection h1 with h1
    subst h1
    rw [rnd_small (by rwa [abs_neg]), hr.neg, ← h3]
  sub_nonpos x y a b hx hy hab := by
    rw [den_iff] at hx hy
    have : (x -. y).val = rnd r (.fin (a + -b)) := by
      show rnd r (XR.add x.val (XR.neg y.val)) = _
      rw [hx, hy]; rfl
    show ∃ k, LawfulCmp.key (x -. y).val = some k ∧ k ≤ 0
    rw [this]
    by_cases h : |a + -b| ≤ r.top
    · rw [rnd_small h]
      exact ⟨((r.rd (a + -b) : ℝ) : EReal), rfl, by exact_mod_cast rd_nonpos r (by linarith)⟩
    · have h2 : rnd r (.fin (a + -b)) = .ninf := by
        show (if |a + -b| ≤ r.top then XR.fin (r.rd (a + -b)) else if 0 < a + -b then .pinf else .ninf) = _
        rw [if_neg h, if_neg (by linarith)]
      rw [h2]
      exact ⟨⊥, rfl, bot_le⟩
  div_mono x x' y a a' s hx hx' hy hs ha := by
    have e1 : (Scalar.abs (x /. y)).val = XR.abs (rnd r (.fin (a / s))) := by
      rw [← div_val hx hy hs.ne']; rfl
    have e2 : (x' /. y).val = rnd r (.fin (a' / s)) := div_val hx' hy hs.ne'
    have hq : |a / s| ≤ a' / s := by
      rw [abs_div, abs_of_pos hs]
      exact div_le_div_of_nonneg_right ha hs.le
    have hq0 : 0 ≤ a' / s := (abs_nonneg _).trans hq
    show ∃ k k', LawfulCmp.key (Scalar.abs (x /. y)).val = some k ∧ LawfulCmp.key (x' /. y).val = some k' ∧ 0 ≤ k ∧ k ≤ k'
    rw [e1, e2]
    by_cases h' : |a' / s| ≤ r.top
    · have h : |a / s| ≤ r.top := hq.trans (by rwa [abs_of_nonneg hq0] at h')
      rw [rnd_small h, rnd_small h']
      refine ⟨((|r.rd (a / s)| : ℝ) : EReal), ((r.rd (a' / s) : ℝ) : EReal), rfl, rfl, by exact_mod_cast abs_nonneg _, ?_⟩
      rw [EReal.coe_le_coe_iff, hr.abs]
      exact hr.mono _ _ (abs_nonneg _) hq
    · have e3 : rnd r (.fin (a' / s)) = .pinf := by
        show (if |a' / s| ≤ r.top then XR.fin (r.rd (a' / s)) else if 0 < a' / s then .pinf else .ninf) = _
        rw [if_neg h', if_pos]
        refine lt_of_le_of_ne hq0 fun h0 => h' ?_
        rw [← h0, abs_zero]
        linarith [r.top_ge]
      rw [e3]
      by_cases h : |a / s| ≤ r.top
      · rw [rnd_small h]
        exact ⟨((|r.rd (a / s)| : ℝ) : EReal), ⊤, rfl, rfl, by exact_mod_cast abs_nonneg _, le_top⟩
      · have : ∃ v, rnd r (.fin (a / s)) = v ∧ (v = .pinf ∨ v = .ninf) := by
          refine ⟨_, rfl, ?_⟩
          have e5 : rnd r (.fin (a / s)) = if 0 < a / s then .pinf else .ninf := if_neg h
          rw [e5]
          split <;> simp
        obtain ⟨v, e4, h4⟩ := this
        rw [e4]
        rcases h4 with rfl | rfl
        · exact ⟨⊤, ⊤, rfl, rfl, le_top, le_rfl⟩
        · exact ⟨⊤, ⊤, rfl, rfl, le_top, le_rfl⟩

end Fl
end Sglm
