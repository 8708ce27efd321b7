import Verif.Fl
import Verif.Spec.FloatProblem
import Mathlib.Analysis.Complex.ExponentialBounds
import Mathlib.Tactic.Linarith
import Mathlib.Tactic.Positivity

/-!
# `Fl r` is a precise arithmetic
-/

namespace Sglm
open Scalar Spec
namespace Fl
variable {r : Rounder} {e : ℝ}

theorem den_iff {x : Fl r} {t : ℝ} : Den x t ↔ x.val = .fin t := by
  obtain ⟨v⟩ := x
  show XR.toEReal v = some (t : EReal) ↔ v = .fin t
  cases v <;> simp [XR.toEReal]

theorem rd_zero (r : Rounder) : r.rd 0 = 0 := by
  have := r.err 0
  rw [abs_zero, mul_zero, sub_zero] at this
  exact abs_eq_zero.mp (le_antisymm this (abs_nonneg _))

theorem rd_nonneg (r : Rounder) {x : ℝ} (hx : 0 ≤ x) : 0 ≤ r.rd x := by
  have h1 := r.err x
  rw [abs_of_nonneg hx] at h1
  have h2 := r.u_small
  have h3 := (abs_le.mp h1).1
  nlinarith

theorem rd_nonpos (r : Rounder) {x : ℝ} (hx : x ≤ 0) : r.rd x ≤ 0 := by
  have h1 := r.err x
  rw [abs_of_nonpos hx] at h1
  have h2 := r.u_small
  have h3 := (abs_le.mp h1).2
  nlinarith

theorem rnd_fin {y : XR} {t : ℝ} (h : rnd r y = .fin t) : ∃ a, y = .fin a ∧ |a| ≤ r.top ∧ t = r.rd a := by
  cases y with
  | fin a =>
    change (if |a| ≤ r.top then XR.fin (r.rd a) else if 0 < a then XR.pinf else XR.ninf) = _ at h
    by_cases ha : |a| ≤ r.top
    · rw [if_pos ha] at h
      injection h with h
      exact ⟨a, rfl, ha, h.symm⟩
    · rw [if_neg ha] at h
      by_cases h0 : 0 < a
      · rw [if_pos h0] at h
        cases h
      · rw [if_neg h0] at h
        cases h
  | pinf => cases h
  | ninf => cases h
  | nan => cases h

theorem rnd_small {a : ℝ} (h : |a| ≤ r.top) : rnd r (.fin a) = .fin (r.rd a) := if_pos h

theorem rounded (hu : r.u ≤ e) (ht : 1 / e ≤ r.top) {x : Fl r} {q : ℝ} (h : x.val = rnd r (.fin q)) :
    Rounded e x q (e * |q|) := by
  refine ⟨fun hq => ⟨r.rd q, den_iff.mpr (by rw [h, rnd_small (hq.trans ht)])⟩, fun t ht => ?_⟩
  rw [den_iff, h] at ht
  obtain ⟨a, h1, -, rfl⟩ := rnd_fin ht
  injection h1 with h1
  subst h1
  exact (r.err _).trans (mul_le_mul_of_nonneg_right hu (abs_nonneg _))

theorem Rounded.mono {F : Type} [Scalar F] [LawfulCmp F] {x : F} {q δ δ' : ℝ} (h : Rounded e x q δ) (hd : δ ≤ δ') : Rounded e x q δ' :=
  ⟨h.1, fun t ht => (h.2 t ht).trans hd⟩

theorem add_val {x y : Fl r} {a b : ℝ} (hx : Den x a) (hy : Den y b) : (x +. y).val = rnd r (.fin (a + b)) := by
  rw [den_iff] at hx hy
  show rnd r (XR.add x.val y.val) = _
  rw [hx, hy]; rfl

theorem mul_val {x y : Fl r} {a b : ℝ} (hx : Den x a) (hy : Den y b) : (x *. y).val = rnd r (.fin (a * b)) := by
  rw [den_iff] at hx hy
  show rnd r (XR.mul x.val y.val) = _
  rw [hx, hy]; rfl

theorem sub_val {x y : Fl r} {a b : ℝ} (hx : Den x a) (hy : Den y b) : (x -. y).val = rnd r (.fin (a - b)) := by
  rw [den_iff] at hx hy
  show rnd r (XR.add x.val (XR.neg y.val)) = _
  rw [hx, hy, sub_eq_add_neg]; rfl

theorem div_val {x y : Fl r} {a b : ℝ} (hx : Den x a) (hy : Den y b) (hb : b ≠ 0) : (x /. y).val = rnd r (.fin (a / b)) := by
  rw [den_iff] at hx hy
  show rnd r (XR.div x.val y.val) = _
  rw [hx, hy]
  show rnd r (if b = 0 then _ else _) = _
  rw [if_neg hb]

/-! ## Finite results have finite arguments -/

theorem add_fin {x y : Fl r} {t : ℝ} (h : Den (x +. y) t) : ∃ a b, Den x a ∧ Den y b := by
  obtain ⟨x⟩ := x
  obtain ⟨y⟩ := y
  rw [den_iff] at h
  obtain ⟨c, hc, -, -⟩ := rnd_fin h
  cases x <;> cases y <;> first | (exact ⟨_, _, den_iff.mpr rfl, den_iff.mpr rfl⟩) | cases hc

theorem infTimes_ne {a c : ℝ} : XR.infTimes a ≠ .fin c := by
  unfold XR.infTimes
  split
  · simp
  · split <;> simp

theorem mul_fin {x y : Fl r} {t : ℝ} (h : Den (x *. y) t) : ∃ a b, Den x a ∧ Den y b := by
  obtain ⟨x⟩ := x
  obtain ⟨y⟩ := y
  rw [den_iff] at h
  obtain ⟨c, hc, -, -⟩ := rnd_fin h
  cases x <;> cases y <;> first | (exact ⟨_, _, den_iff.mpr rfl, den_iff.mpr rfl⟩) | cases hc | exact absurd hc infTimes_ne

/-! ## Signs -/

/-- Not negative. -/
def NN : XR → Prop
  | .fin a => 0 ≤ a
  | .ninf => False
  | _ => True

theorem nonNeg_iff {x : Fl r} : NonNeg x ↔ NN x.val := by
  obtain ⟨v⟩ := x
  show (∀ k, XR.toEReal v = some k → 0 ≤ k) ↔ _
  cases v <;> simp [XR.toEReal, NN]

theorem nn_rnd {y : XR} (h : NN y) : NN (rnd r y) := by
  cases y with
  | fin a =>
    have ha : 0 ≤ a := h
    show NN (if |a| ≤ r.top then XR.fin (r.rd a) else if 0 < a then XR.pinf else XR.ninf)
    by_cases hc : |a| ≤ r.top
    · rw [if_pos hc]
      exact rd_nonneg r ha
    · rw [if_neg hc, if_pos]
      · trivial
      · refine lt_of_le_of_ne ha fun h0 => hc ?_
        rw [← h0, abs_zero]
        linarith [r.top_ge]
  | pinf => trivial
  | ninf => exact h.elim
  | nan => trivial

theorem nn_add {x y : XR} (hx : NN x) (hy : NN y) : NN (XR.add x y) := by
  cases x <;> cases y <;> first | exact add_nonneg hx hy | trivial

theorem nn_infTimes {a : ℝ} (h : 0 ≤ a) : NN (XR.infTimes a) := by
  unfold XR.infTimes
  split
  · trivial
  · rw [if_neg (not_lt.mpr h)]
    trivial

theorem nn_mul {x y : XR} (hx : NN x) (hy : NN y) : NN (XR.mul x y) := by
  cases x <;> cases y <;> first | exact mul_nonneg hx hy | exact nn_infTimes hx | exact nn_infTimes hy | trivial

theorem nn_mul_self (x : XR) : NN (XR.mul x x) := by
  cases x <;> first | exact mul_self_nonneg _ | trivial

theorem nn_foldl : ∀ (l : List (Fl r)) (acc : Fl r), NN acc.val → (∀ x ∈ l, NN x.val) → NN (l.foldl add acc).val
  | [], _, h, _ => h
  | x :: l, _, h, hl => nn_foldl l _ (nn_rnd (nn_add h (hl x List.mem_cons_self))) fun y hy => hl y (List.mem_cons_of_mem _ hy)

theorem propagates (r : Rounder) : Propagates (Fl r) where
  abs_fin x t h := by
    obtain ⟨v⟩ := x
    rw [den_iff] at h
    change XR.abs v = _ at h
    cases v <;> first | exact ⟨_, den_iff.mpr rfl⟩ | cases h
  add_fin x y t h := add_fin h
  mul_fin x y t h := mul_fin h
  abs_nonneg x := by
    rw [nonNeg_iff]
    obtain ⟨v⟩ := x
    show NN (XR.abs v)
    cases v <;> first | exact abs_nonneg _ | trivial
  add_nonneg x y hx hy := by
    rw [nonNeg_iff] at *
    exact nn_rnd (nn_add hx hy)
  mul_nonneg x y hx hy := by
    rw [nonNeg_iff] at *
    exact nn_rnd (nn_mul hx hy)
  div_nonneg x y s hx hy hs := by
    rw [nonNeg_iff] at *
    rw [den_iff] at hy
    refine nn_rnd ?_
    rw [hy]
    obtain ⟨v⟩ := x
    cases v with
    | fin a =>
      show NN (if s = 0 then _ else _)
      rw [if_neg hs.ne']
      exact div_nonneg hx hs.le
    | pinf =>
      show NN (if s < 0 then _ else _)
      rw [if_neg (not_lt.mpr hs.le)]
      trivial
    | ninf => exact hx.elim
    | nan => trivial
  dot_nonneg x := by
    rw [nonNeg_iff]
    refine nn_foldl _ _ (le_refl (0 : ℝ)) ?_
    intro y hy
    rw [List.zipWith_self, List.mem_map] at hy
    obtain ⟨a, -, rfl⟩ := hy
    exact nn_rnd (nn_mul_self _)
  sub_nonneg x y a b hx hy h := by
    rw [nonNeg_iff, sub_val hx hy]
    exact nn_rnd (sub_nonneg.mpr h)

/-! ## Sums -/

/-- Finite sums are accurate. -/
theorem fold_err : ∀ (l : List (Fl r)) (s : List ℝ) (acc : Fl r) (a t : ℝ), List.Forall₂ Den l s → Den acc a →
    Den (l.foldl add acc) t → |t - (a + s.sum)| ≤ ((1 + r.u) ^ l.length - 1) * (|a| + (s.map fun x => |x|).sum)
  | [], s, acc, a, t, hs, ha, h => by
    cases hs
    have := den_iff.mp h
    have h2 := den_iff.mp ha
    change acc.val = _ at this
    rw [this] at h2
    injection h2 with h2
    simp [h2]
  | x :: l, s, acc, a, t, hs, ha, h => by
    cases hs with
    | @cons _ b _ s hb hs =>
    rw [List.foldl_cons] at h
    have hu := r.u_nonneg
    -- the accumulator is finite
    obtain ⟨c, hc⟩ : ∃ c, Den (add acc x) c := by
      by_contra hn
      push Not at hn
      have : ∀ (l : List (Fl r)) (z : Fl r), (∀ c, ¬ Den z c) → ∀ c, ¬ Den (l.foldl add z) c := by
        intro l
        induction l with
        | nil => exact fun z hz => hz
        | cons y l ih =>
          intro z hz
          refine ih _ fun c hc => ?_
          obtain ⟨a, _, h1, _⟩ := add_fin (x := z) (y := y) hc
          exact hz a h1
      exact this l _ hn t h
    have h1 := fold_err l s _ c t hs hc h
    have h2 : |c - (a + b)| ≤ r.u * (|a| + |b|) := by
      have h3 := den_iff.mp hc
      have h4 := add_val ha hb
      change (add acc x).val = _ at h4
      rw [h4] at h3
      obtain ⟨q, h5, -, rfl⟩ := rnd_fin h3
      injection h5 with h5
      subst h5
      exact (r.err _).trans (mul_le_mul_of_nonneg_left (abs_add_le _ _) hu)
    have h6 : |c| ≤ (1 + r.u) * (|a| + |b|) := by
      have : |c| ≤ |c - (a + b)| + |a + b| := by
        have := abs_add_le (c - (a + b)) (a + b)
        rwa [sub_add_cancel] at this
      have := abs_add_le a b
      linarith
    rw [List.sum_cons, List.map_cons, List.sum_cons, List.length_cons, pow_succ]
    obtain ⟨S, hS⟩ : ∃ S, S = (s.map fun x => |x|).sum := ⟨_, rfl⟩
    have hS0 : 0 ≤ S := by
      rw [hS]
      refine List.sum_nonneg ?_
      intro z hz
      obtain ⟨q, -, rfl⟩ := List.mem_map.mp hz
      exact abs_nonneg _
    obtain ⟨m, hm⟩ : ∃ m, m = (1 + r.u) ^ l.length := ⟨_, rfl⟩
    have hm1 : 1 ≤ m := by rw [hm]; exact one_le_pow₀ (by linarith)
    rw [← hS, ← hm] at h1 ⊢
    obtain ⟨A, hA⟩ : ∃ A, A = |a| + |b| := ⟨_, rfl⟩
    have hA0 : 0 ≤ A := by rw [hA]; positivity
    rw [← hA] at h2 h6
    have h7 : |t - (a + (b + s.sum))| ≤ |t - (c + s.sum)| + |c - (a + b)| := by
      have := abs_add_le (t - (c + s.sum)) (c - (a + b))
      rwa [show t - (c + s.sum) + (c - (a + b)) = t - (a + (b + s.sum)) by ring] at this
    have h8 : (m - 1) * (|c| + S) ≤ (m - 1) * ((1 + r.u) * A + S) := mul_le_mul_of_nonneg_left (by linarith) (by linarith)
    have h9 : |a| + (|b| + S) = A + S := by rw [hA]; ring
    rw [h9]
    have h10 : 0 ≤ m * r.u * S := by positivity
    nlinarith

theorem fold_fin : ∀ (l : List (Fl r)) (s : List ℝ) (acc : Fl r) (a : ℝ), List.Forall₂ Den l s → Den acc a →
    (1 + r.u) ^ l.length * (|a| + (s.map fun x => |x|).sum) ≤ r.top → ∃ t, Den (l.foldl add acc) t
  | [], s, acc, a, hs, ha, _ => ⟨a, ha⟩
  | x :: l, s, acc, a, hs, ha, h => by
    cases hs with
    | @cons _ b _ s hb hs =>
    have hu := r.u_nonneg
    rw [List.map_cons, List.sum_cons, List.length_cons, pow_succ] at h
    obtain ⟨S, hS⟩ : ∃ S, S = (s.map fun x => |x|).sum := ⟨_, rfl⟩
    have hS0 : 0 ≤ S := by
      rw [hS]
      refine List.sum_nonneg ?_
      intro z hz
      obtain ⟨q, -, rfl⟩ := List.mem_map.mp hz
      exact abs_nonneg _
    obtain ⟨m, hm⟩ : ∃ m, m = (1 + r.u) ^ l.length := ⟨_, rfl⟩
    have hm1 : 1 ≤ m := by rw [hm]; exact one_le_pow₀ (by linarith)
    rw [← hS, ← hm] at h
    have hab := abs_add_le a b
    have hmu : 1 ≤ m * (1 + r.u) := by nlinarith
    have h1 : |a + b| ≤ r.top := by
      refine le_trans ?_ h
      have : |a| + (|b| + S) ≤ m * (1 + r.u) * (|a| + (|b| + S)) := le_mul_of_one_le_left (by positivity) hmu
      linarith
    have h2 : Den (add acc x) (r.rd (a + b)) := by
      have h4 := add_val ha hb
      change (add acc x).val = _ at h4
      rw [den_iff, h4, rnd_small h1]
    refine fold_fin l s _ _ hs h2 ?_
    rw [← hS, ← hm]
    refine le_trans ?_ h
    have h3 : |r.rd (a + b)| ≤ (1 + r.u) * |a + b| := by
      have := r.err (a + b)
      have h5 := abs_add_le (r.rd (a + b) - (a + b)) (a + b)
      rw [sub_add_cancel] at h5
      linarith
    rw [mul_assoc]
    refine mul_le_mul_of_nonneg_left ?_ (by linarith)
    nlinarith

theorem pow_small {u x : ℝ} {m : ℕ} (hu : 0 ≤ u) (hx : (m : ℝ) * u ≤ x) (hx2 : x ≤ 1 / 2) : (1 + u) ^ m ≤ 1 + 2 * x := by
  have key : (1 + u) ^ m * (1 - m * u) ≤ 1 := by
    clear hx hx2
    induction m with
    | zero => simp
    | succ m ih =>
      have hm : (0 : ℝ) ≤ m := Nat.cast_nonneg m
      have h1 : (1 + u) * (1 - (m + 1) * u) ≤ 1 - m * u := by nlinarith [mul_nonneg (mul_nonneg hm hu) hu, mul_nonneg hu hu]
      have h2 : 0 ≤ (1 + u) ^ m := by positivity
      push_cast
      rw [pow_succ, mul_assoc]
      exact (mul_le_mul_of_nonneg_left h1 h2).trans ih
  have h0 : 0 ≤ (m : ℝ) * u := by positivity
  have h1 : 1 / 2 ≤ 1 - m * u := by linarith
  have h2 : 1 ≤ (1 + 2 * x) * (1 - m * u) := by nlinarith
  by_contra hc
  push Not at hc
  nlinarith

theorem zipWith_ofFn {α β γ : Type} (f : α → β → γ) {n : ℕ} (x : Fin n → α) (y : Fin n → β) :
    List.zipWith f (List.ofFn x) (List.ofFn y) = List.ofFn fun i => f (x i) (y i) := by
  apply List.ext_getElem <;> simp

theorem forall₂_ofFn {α β : Type} {R : α → β → Prop} {n : ℕ} {x : Fin n → α} {y : Fin n → β} (h : ∀ i, R (x i) (y i)) :
    List.Forall₂ R (List.ofFn x) (List.ofFn y) := by
  rw [List.forall₂_iff_get]
  refine ⟨by simp, fun i h1 h2 => ?_⟩
  simpa using h _

theorem precise (r : Rounder) (he : 0 < e) (hu : 4 * r.u ≤ e) (ht : 4 / e ≤ r.top) : Precise (Fl r) e := by
  have hu0 := r.u_nonneg
  have hu1 : r.u ≤ e := by linarith
  have ht1 : 1 / e ≤ r.top := le_trans (div_le_div_of_nonneg_right (by norm_num) he.le) ht
  have rel : ∀ {x : Fl r} {q : ℝ}, x.val = rnd r (.fin q) → Rounded e x q (e * |q|) := fun h => rounded hu1 ht1 h
  have rel1 : ∀ {x : Fl r} {q : ℝ}, x.val = rnd r (.fin q) → Rounded e x q (e * (|q| + 1)) := fun h =>
    Rounded.mono (rel h) (mul_le_mul_of_nonneg_left (by linarith) he.le)
  refine {
    pos := he, one := den_iff.mpr rfl, half := ?_, ofNat := ?_, neg := ?_, abs := ?_, signum_pos := ?_, signum_neg := ?_,
    add := fun x y a b hx hy => rel (add_val hx hy), sub := fun x y a b hx hy => rel (sub_val hx hy),
    mul := fun x y a b hx hy => rel1 (mul_val hx hy), mul_zero := ?_, mul_sign := ?_,
    div := fun x y a b hx hy hb => rel1 (div_val hx hy hb), div_zero := ?_, div_sign := ?_, dot := ?_, dot_zero := ?_ }
  · rw [den_iff]
    show XR.fin (((1 : ℤ) : ℝ) / ((2 : ℕ) : ℝ)) = _
    norm_num
  · intro n
    have := rel (x := (Scalar.ofNat n : Fl r)) (q := n) rfl
    rwa [abs_of_nonneg (Nat.cast_nonneg n)] at this
  · intro x a h
    rw [den_iff] at *
    show XR.neg x.val = _
    rw [h]; rfl
  · intro x a h
    rw [den_iff] at *
    show XR.abs x.val = _
    rw [h]; rfl
  · intro x a h ha
    rw [den_iff] at *
    show XR.signum x.val = _
    rw [h]
    show XR.fin (if a < 0 then -1 else 1) = _
    rw [if_neg (not_lt.mpr ha.le)]
  · intro x a h ha
    rw [den_iff] at *
    show XR.signum x.val = _
    rw [h]
    show XR.fin (if a < 0 then -1 else 1) = _
    rw [if_pos ha]
  · intro x y a b hx hy h
    rw [den_iff, mul_val hx hy, h, rnd_small (by rw [abs_zero]; linarith [r.top_ge]), rd_zero]
  · intro x y a s t hx hy h
    rw [den_iff, mul_val hx hy] at h
    obtain ⟨q, h1, -, rfl⟩ := rnd_fin h
    injection h1 with h1
    subst h1
    rcases le_total 0 (a * s) with h2 | h2
    · exact mul_nonneg (rd_nonneg r h2) h2
    · exact mul_nonneg_of_nonpos_of_nonpos (rd_nonpos r h2) h2
  · intro x y s hx hy hs
    rw [den_iff, div_val hx hy hs, zero_div, rnd_small (by rw [abs_zero]; linarith [r.top_ge]), rd_zero]
  · intro x y a s t hx hy hs h
    rw [den_iff, div_val hx hy hs] at h
    obtain ⟨q, h1, -, rfl⟩ := rnd_fin h
    injection h1 with h1
    subst h1
    rcases le_total 0 (a / s) with h2 | h2
    · exact mul_nonneg (rd_nonneg r h2) h2
    · exact mul_nonneg_of_nonpos_of_nonpos (rd_nonpos r h2) h2
  · intro n x y a b hx hy hn
    -- products
    have hD : Scalar.dot (List.ofFn x) (List.ofFn y) = (List.ofFn fun i => x i *. y i).foldl add ⟨.fin 0⟩ := by
      show (List.zipWith mul (List.ofFn x) (List.ofFn y)).foldl add _ = _
      rw [zipWith_ofFn]; rfl
    have h0 : Den (⟨.fin 0⟩ : Fl r) 0 := den_iff.mpr rfl
    rcases Nat.eq_zero_or_pos n with rfl | hn0
    · refine ⟨fun _ => ⟨0, ?_⟩, fun t ht => ?_⟩
      · rw [hD]; simpa using h0
      · rw [hD] at ht
        have := den_iff.mp ht
        simp only [List.ofFn_zero, List.foldl_nil] at this
        injection this with this
        simp [← this]
    have hn1 : (1 : ℝ) ≤ n := by exact_mod_cast hn0
    have hsum : ∀ f : Fin n → ℝ, ((List.ofFn f).map fun z => |z|).sum = ∑ i, |f i| := fun f => by
      rw [List.map_ofFn, List.sum_ofFn]; rfl
    have hne : 0 ≤ (n : ℝ) * e := by positivity
    have hpow : (1 + r.u) ^ (n + 1) ≤ 1 + n * e := by
      have := pow_small (m := n + 1) (x := n * e / 2) hu0 (by push_cast; nlinarith) (by linarith)
      linarith
    have hpow0 : 1 ≤ (1 + r.u) ^ n := one_le_pow₀ (by linarith)
    have hs0 : 0 ≤ ∑ i, |a i * b i| := Finset.sum_nonneg fun i _ => abs_nonneg _
    have prodErr : ∀ i c, Den (x i *. y i) c → |c - a i * b i| ≤ r.u * |a i * b i| := by
      intro i c hc
      rw [den_iff, mul_val (hx i) (hy i)] at hc
      obtain ⟨q, h1, -, rfl⟩ := rnd_fin hc
      injection h1 with h1
      subst h1
      exact r.err _
    have absErr : ∀ c : Fin n → ℝ, (∀ i, Den (x i *. y i) (c i)) → ∑ i, |c i| ≤ (1 + r.u) * ∑ i, |a i * b i| := by
      intro c hc
      rw [Finset.mul_sum]
      refine Finset.sum_le_sum fun i _ => ?_
      have h1 := prodErr i _ (hc i)
      have h2 := abs_add_le (c i - a i * b i) (a i * b i)
      rw [sub_add_cancel] at h2
      linarith
    refine ⟨fun hS => ?_, fun t ht' => ?_⟩
    · have hc : ∀ i, Den (x i *. y i) (r.rd (a i * b i)) := fun i => by
        rw [den_iff, mul_val (hx i) (hy i), rnd_small]
        exact ((Finset.single_le_sum (f := fun i => |a i * b i|) (fun i _ => abs_nonneg _) (Finset.mem_univ i)).trans hS).trans ht1
      rw [hD]
      refine fold_fin _ (List.ofFn fun i => r.rd (a i * b i)) _ 0 (forall₂_ofFn hc) h0 ?_
      rw [hsum, abs_zero, zero_add, List.length_ofFn]
      have h1 := absErr _ hc
      have h2 : (1 + r.u) ^ n * ∑ i, |r.rd (a i * b i)| ≤ (1 + r.u) ^ n * ((1 + r.u) * ∑ i, |a i * b i|) :=
        mul_le_mul_of_nonneg_left h1 (by linarith)
      refine h2.trans ?_
      rw [← mul_assoc, ← pow_succ]
      have h3 : (1 + r.u) ^ (n + 1) ≤ 4 := by linarith
      calc (1 + r.u) ^ (n + 1) * ∑ i, |a i * b i| ≤ 4 * (1 / e) := mul_le_mul h3 hS hs0 (by norm_num)
        _ = 4 / e := by ring
        _ ≤ _ := ht
    · rw [hD] at ht'
      -- all products are finite
      have hfin : ∀ (l : List (Fl r)) (z : Fl r) (t : ℝ), Den (l.foldl add z) t → ∀ w ∈ l, ∃ c, Den w c := by
        intro l
        induction l with
        | nil => intro z t _ w hw; cases hw
        | cons y l ih =>
          intro z t h w hw
          rw [List.foldl_cons] at h
          rcases List.mem_cons.mp hw with rfl | hw
          · have : ∃ c, Den (add z w) c := by
              clear ih hw
              generalize add z w = q at h
              induction l generalizing q with
              | nil => exact ⟨t, h⟩
              | cons y l ih =>
                rw [List.foldl_cons] at h
                obtain ⟨c, hc⟩ := ih _ h
                obtain ⟨a, _, h1, _⟩ := add_fin (x := q) (y := y) hc
                exact ⟨a, h1⟩
            obtain ⟨c, hc⟩ := this
            obtain ⟨_, b, _, h2⟩ := add_fin (x := z) (y := w) hc
            exact ⟨b, h2⟩
          · exact ih _ t h w hw
      have hc : ∀ i, ∃ c, Den (x i *. y i) c := fun i => hfin _ _ t ht' _ (List.mem_ofFn.mpr ⟨i, rfl⟩)
      choose c hc using hc
      have h1 := fold_err _ (List.ofFn c) _ 0 t (forall₂_ofFn hc) h0 ht'
      rw [hsum, abs_zero, zero_add, zero_add, List.length_ofFn, List.sum_ofFn] at h1
      have h2 := absErr c hc
      have h3 : |∑ i, c i - ∑ i, a i * b i| ≤ r.u * ∑ i, |a i * b i| := by
        rw [← Finset.sum_sub_distrib, Finset.mul_sum]
        exact (Finset.abs_sum_le_sum_abs _ _).trans (Finset.sum_le_sum fun i _ => prodErr i _ (hc i))
      have h4 := abs_add_le (t - ∑ i, c i) (∑ i, c i - ∑ i, a i * b i)
      rw [sub_add_sub_cancel] at h4
      obtain ⟨S, hS⟩ : ∃ S, S = ∑ i, |a i * b i| := ⟨_, rfl⟩
      rw [← hS] at h2 h3 hs0 ⊢
      have h5 : ((1 + r.u) ^ n - 1) * ∑ i, |c i| ≤ ((1 + r.u) ^ n - 1) * ((1 + r.u) * S) :=
        mul_le_mul_of_nonneg_left h2 (by linarith)
      have h6 : (1 + r.u) ^ (n + 1) * S ≤ (1 + n * e) * S := mul_le_mul_of_nonneg_right hpow hs0
      rw [pow_succ] at h6
      nlinarith
  · intro n x y a b hx hy h
    have hz : ∀ i, Den (x i *. y i) 0 := fun i => by
      rw [den_iff, mul_val (hx i) (hy i), h i, rnd_small (by rw [abs_zero]; linarith [r.top_ge]), rd_zero]
    have hD : Scalar.dot (List.ofFn x) (List.ofFn y) = (List.ofFn fun i => x i *. y i).foldl add ⟨.fin 0⟩ := by
      show (List.zipWith mul (List.ofFn x) (List.ofFn y)).foldl add _ = _
      rw [zipWith_ofFn]; rfl
    rw [hD]
    have : ∀ (l : List (Fl r)) (z : Fl r), Den z 0 → (∀ w ∈ l, Den w 0) → Den (l.foldl add z) 0 := by
      intro l
      induction l with
      | nil => exact fun z hz _ => hz
      | cons y l ih =>
        intro z hz hl
        refine ih _ ?_ fun w hw => hl w (List.mem_cons_of_mem _ hw)
        have h4 := add_val hz (hl y List.mem_cons_self)
        change (add z y).val = _ at h4
        rw [den_iff, h4, add_zero, rnd_small (by rw [abs_zero]; linarith [r.top_ge]), rd_zero]
    refine this _ _ (den_iff.mpr rfl) fun w hw => ?_
    obtain ⟨i, rfl⟩ := List.mem_ofFn.mp hw
    exact hz i

/-- Exponential and logarithm. -/
theorem preciseExp (r : Rounder) (hu : r.u ≤ e) (ht : 1 / e ≤ r.top) (h3 : Real.exp 1 ≤ r.top) : PreciseExp (Fl r) e := by
  have he : 0 ≤ e := r.u_nonneg.trans hu
  refine ⟨fun x a hx => ?_, fun x => ?_, fun x a hx ha => ?_, fun x hx => ?_, ?_⟩
  · have hp := Real.exp_pos a
    refine Rounded.mono (rounded hu ht (x := Scalar.exp x) (q := Real.exp a) ?_) (by rw [abs_of_pos hp]; linarith)
    rw [den_iff] at hx
    show rnd r (XR.exp x.val) = _
    rw [hx]; rfl
  · rw [nonNeg_iff]
    refine nn_rnd (r := r) ?_
    obtain ⟨v⟩ := x
    cases v with
    | fin a => exact (Real.exp_pos a).le
    | ninf => exact le_refl (0 : ℝ)
    | pinf => trivial
    | nan => trivial
  · refine Rounded.mono (rounded hu ht (x := Scalar.ln x) (q := Real.log a) ?_) (by linarith)
    rw [den_iff] at hx
    show rnd r (XR.ln x.val) = _
    rw [hx]
    show rnd r (if 0 < a then _ else _) = _
    rw [if_pos ha]
  · rw [nonNeg_iff] at hx ⊢
    refine nn_rnd (r := r) ?_
    obtain ⟨v⟩ := x
    cases v with
    | fin a =>
      have ha : 0 ≤ a := hx
      show NN (XR.ln (if |1 + a| ≤ r.top then XR.fin (r.rd (1 + a)) else if 0 < 1 + a then XR.pinf else XR.ninf))
      by_cases hc : |1 + a| ≤ r.top
      · rw [if_pos hc]
        have h1 := r.ge_one (1 + a) (by linarith)
        show NN (if 0 < r.rd (1 + a) then _ else _)
        rw [if_pos (by linarith)]
        exact Real.log_nonneg h1
      · rw [if_neg hc, if_pos (by linarith)]
        trivial
    | ninf => exact hx.elim
    | pinf => trivial
    | nan => trivial
  · have hp := Real.exp_pos 1
    refine ⟨r.rd (Real.exp 1), ?_, ?_⟩
    · rw [den_iff]
      exact rnd_small (by rw [abs_of_pos hp]; exact h3)
    · have h1 := (r.err (Real.exp 1)).trans (mul_le_mul_of_nonneg_right hu (abs_nonneg _))
      rw [abs_of_pos hp] at h1
      linarith

/-- Every real number which is not huge can be stored. -/
theorem stores (r : Rounder) (hu : r.u ≤ e) (he : 0 ≤ e) (x : ℝ) : Stores e (⟨.fin (r.rd x)⟩ : Fl r) x := by
  refine ⟨⟨_, den_iff.mpr rfl, (r.err x).trans ?_⟩, fun h => ?_⟩
  · have := mul_le_mul_of_nonneg_right hu (abs_nonneg x)
    linarith
  · subst h
    rw [den_iff, rd_zero]

end Fl

/-- Rounding to nearest with `t + 2` bits. -/
noncomputable def bin (t : ℕ) : Rounder where
  rd := binRd (t + 1)
  u := 1 / 2 ^ (t + 2)
  top := 2 ^ 2 ^ (t + 2)
  err := binRd_err (t + 1)
  ge_one := binRd_ge_one (t + 1)
  u_nonneg := by positivity
  u_small := by
    rw [pow_add]
    have : (1 : ℝ) ≤ 2 ^ t := one_le_pow₀ (by norm_num)
    rw [div_le_div_iff₀ (by positivity) (by norm_num)]
    linarith
  top_ge := one_le_pow₀ (by norm_num)

/-- The real number `x`, rounded. -/
noncomputable def Fl.of (t : ℕ) (x : ℝ) : Fl (bin t) := ⟨.fin ((bin t).rd x)⟩

/-- The formats `bin t` satisfy all laws. -/
theorem bin_laws (t : ℕ) (k : LossKind) : FloatLaws k (Fl (bin t)) (1 / 2 ^ t) := by
  have h2 : (0 : ℝ) < 2 ^ t := by positivity
  have hu : (bin t).u ≤ 1 / 2 ^ t := by
    show (1 : ℝ) / 2 ^ (t + 2) ≤ _
    refine one_div_le_one_div_of_le h2 (pow_le_pow_right₀ (by norm_num) (by omega))
  have htop : (2 : ℝ) ^ (t + 2) ≤ (bin t).top := by
    show (2 : ℝ) ^ (t + 2) ≤ 2 ^ 2 ^ (t + 2)
    exact pow_le_pow_right₀ (by norm_num) (Nat.lt_two_pow_self).le
  have h4 : (4 : ℝ) / (1 / 2 ^ t) ≤ (bin t).top := by
    refine le_trans (le_of_eq ?_) htop
    rw [pow_add]; field_simp; norm_num
  refine ⟨Fl.precise _ (by positivity) ?_ h4, Fl.propagates _, fun _ => Fl.preciseExp _ hu (le_trans ?_ h4) ?_⟩
  · show 4 * ((1 : ℝ) / 2 ^ (t + 2)) ≤ _
    rw [pow_add]
    refine le_of_eq ?_
    field_simp; norm_num
  · refine div_le_div_of_nonneg_right (by norm_num) (by positivity)
  · refine le_trans ?_ htop
    rw [pow_add]
    have h5 := Real.exp_one_lt_three
    have : (1 : ℝ) ≤ 2 ^ t := one_le_pow₀ (by norm_num)
    linarith

theorem bin_stores (t : ℕ) (x : ℝ) : Stores (1 / 2 ^ t) (Fl.of t x) x :=
  Fl.stores _ (by
    show (1 : ℝ) / 2 ^ (t + 2) ≤ _
    exact one_div_le_one_div_of_le (by positivity) (pow_le_pow_right₀ (by norm_num) (by omega))) (by positivity) x

/-- Formats of any precision. -/
theorem bin_exists {e₀ : ℝ} (h : 0 < e₀) : ∃ t : ℕ, 1 / 2 ^ t ≤ e₀ := by
  obtain ⟨t, ht⟩ := exists_pow_lt_of_lt_one h (by norm_num : (1 / 2 : ℝ) < 1)
  refine ⟨t, ?_⟩
  rw [div_pow, one_pow] at ht
  exact ht.le

end Sglm
