import Verif.MatMul
import Verif.Proofs.IEEELaws
import Verif.Spec.MTCheck

/-!
# The laws of `PreciseNorm` for IEEE 754 arithmetic
-/

namespace Sglm
open Scalar Spec

namespace Num
variable {f : Format}

/-- Absolute values of the products. -/
noncomputable def absDot (l : List (Num f × Num f)) : ℝ := (l.map fun q => |val q.1 * val q.2|).sum

/-- The exact sum of the products. -/
noncomputable def realDot (l : List (Num f × Num f)) : ℝ := (l.map fun q => val q.1 * val q.2).sum

theorem absDot_nonneg (l : List (Num f × Num f)) : 0 ≤ absDot l := by
  unfold absDot
  refine List.sum_nonneg fun z hz => ?_
  obtain ⟨q, -, rfl⟩ := List.mem_map.mp hz
  exact abs_nonneg _

theorem fma_D {x y z : Num f} {a b c : ℝ} (hx : D x a) (hy : D y b) (hz : D z c) : ∃ s, fma x y z = ofReal s (a * b + c) := by
  obtain ⟨s, m, _, _, rfl, rfl⟩ := hx.elim
  obtain ⟨s', m', _, _, rfl, rfl⟩ := hy.elim
  obtain ⟨s'', m'', _, _, rfl, rfl⟩ := hz.elim
  exact ⟨_, rfl⟩

theorem fma_fin {x y z : Num f} {t : ℝ} (h : D (fma x y z) t) : ∃ a b c, D x a ∧ D y b ∧ D z c := by
  have gen : D (add (mul x y) z) t → ∃ a b c, D x a ∧ D y b ∧ D z c := fun h => by
    obtain ⟨m, c, h1, h2⟩ := add_fin h
    obtain ⟨a, b, h3, h4⟩ := mul_fin h1
    exact ⟨a, b, c, h3, h4, h2⟩
  cases x with
  | nan => exact gen h
  | inf s => exact gen h
  | fin s a ha ha' =>
    cases y with
    | nan => exact gen h
    | inf s' => exact gen h
    | fin s' b hb hb' =>
      cases z with
      | nan => exact gen h
      | inf s'' => cases s'' <;> simp [fma, D, key] at h
      | fin s'' c hc hc' => exact ⟨_, _, _, rfl, rfl, rfl⟩

/-- The bound of a computed sum of products. -/
noncomputable def dotBound (l : List (Num f × Num f)) : ℝ := (1 + f.u) ^ (2 * l.length) * (absDot l + l.length * f.η)

theorem dotBound_nonneg (l : List (Num f × Num f)) : 0 ≤ dotBound l := by
  have := f.u_pos
  have := f.η_pos
  have := absDot_nonneg l
  unfold dotBound
  positivity

theorem pow_dot {u : ℝ} (hu : 0 ≤ u) {a b : ℕ} (h : a ≤ b) : (1 + u) ^ a ≤ (1 + u) ^ b :=
  pow_le_pow_right₀ (by linarith) h

theorem dotBound_append (l l' : List (Num f × Num f)) (h : l ≠ []) (h' : l' ≠ []) :
    (1 + f.u) * (dotBound l + dotBound l') ≤ dotBound (l ++ l') := by
  have hu := f.u_pos
  have hη := f.η_pos
  have h1 := List.length_pos_iff.mpr h
  have h2 := List.length_pos_iff.mpr h'
  have e1 : absDot (l ++ l') = absDot l + absDot l' := by unfold absDot; rw [List.map_append, List.sum_append]
  unfold dotBound
  rw [e1, List.length_append]
  push_cast
  have a1 := absDot_nonneg l
  have a2 := absDot_nonneg l'
  have p1 := mul_le_mul_of_nonneg_right (pow_dot hu.le (by omega : 2 * l.length + 1 ≤ 2 * (l.length + l'.length)))
    (by positivity : 0 ≤ absDot l + l.length * f.η)
  have p2 := mul_le_mul_of_nonneg_right (pow_dot hu.le (by omega : 2 * l'.length + 1 ≤ 2 * (l.length + l'.length)))
    (by positivity : 0 ≤ absDot l' + l'.length * f.η)
  rw [pow_succ] at p1 p2
  linarith

theorem dotBound_cons (x y : Num f) (l : List (Num f × Num f)) :
    (1 + f.u) * dotBound l + (1 + f.u) * |val x * val y| + f.η ≤ dotBound ((x, y) :: l) := by
  have hu := f.u_pos
  have hη := f.η_pos
  have e1 : absDot ((x, y) :: l) = |val x * val y| + absDot l := by unfold absDot; rw [List.map_cons, List.sum_cons]
  unfold dotBound
  rw [e1, List.length_cons]
  push_cast
  have a1 := absDot_nonneg l
  have a2 := abs_nonneg (val x * val y)
  have p1 := mul_le_mul_of_nonneg_right (pow_dot hu.le (by omega : 2 * l.length + 1 ≤ 2 * (l.length + 1)))
    (by positivity : 0 ≤ absDot l + l.length * f.η)
  have p2 := mul_le_mul_of_nonneg_right (pow_dot hu.le (by omega : 1 ≤ 2 * (l.length + 1))) a2
  have p3 := mul_le_mul_of_nonneg_right (pow_dot hu.le (by omega : 0 ≤ 2 * (l.length + 1))) hη.le
  rw [pow_succ] at p1
  rw [pow_one] at p2
  rw [pow_zero] at p3
  linarith

theorem mul_one_D {a : Num f} {t : ℝ} (h : D a t) : D (mul one a) t := by
  obtain ⟨s, hs⟩ := mul_D (D_mk_one (f := f) false) h
  have e : (one : Num f) = mk false 1 := rfl
  rw [e, hs]
  have e1 : signed false 1 * t = t := by simp [signed]
  rw [e1]
  have h2 : f.near |t| < (2 : ℝ) ^ f.emax := by
    obtain ⟨s, m, hm, hm', rfl, rfl⟩ := h.elim
    rw [signed_abs hm.nonneg, f.near_idem hm]
    exact hm'
  have h3 := key_ofReal_small (f := f) s h2
  rw [h.rep] at h3
  exact h3

theorem absDot_perm {l l' : List (Num f × Num f)} (h : l.Perm l') :
    absDot l = absDot l' ∧ realDot l = realDot l' ∧ dotBound l = dotBound l' := by
  have e1 : absDot l = absDot l' := (h.map _).sum_eq
  refine ⟨e1, (h.map _).sum_eq, ?_⟩
  unfold dotBound
  rw [e1, h.length_eq]

theorem realDot_le (l : List (Num f × Num f)) : |realDot l| ≤ absDot l := by
  unfold realDot absDot
  induction l with
  | nil => simp
  | cons q l ih =>
    rw [List.map_cons, List.sum_cons, List.map_cons, List.sum_cons]
    exact (abs_add_le _ _).trans (add_le_add le_rfl ih)

theorem dotOf_err {l : List (Num f × Num f)} {s : Num f} (h : DotOf l s) : ∀ {t}, D s t →
    (∀ q ∈ l, D q.1 (val q.1) ∧ D q.2 (val q.2)) ∧ |t - realDot l| ≤ dotBound l - absDot l := by
  have hu := f.u_pos
  have hη := f.η_pos
  induction h with
  | zero =>
    intro t ht
    have := ht.unique D_zero
    subst this
    simp [realDot, dotBound, absDot]
  | mul x y =>
    intro t ht
    obtain ⟨a, b, ha, hb⟩ := mul_fin ht
    refine ⟨fun q hq => ?_, ?_⟩
    · rw [List.mem_singleton] at hq
      subst hq
      exact ⟨ha.self, hb.self⟩
    · obtain ⟨z, hz⟩ := mul_D ha.self hb.self
      rw [hz] at ht
      have h1 := f.rd_err (val x * val y)
      rw [← D_ofReal ht] at h1
      have h2 := dotBound_cons x y ([] : List (Num f × Num f))
      have e1 : dotBound ([] : List (Num f × Num f)) = 0 := by simp [dotBound, absDot]
      have e2 : realDot [(x, y)] = val x * val y := by simp [realDot]
      have e3 : absDot [(x, y)] = |val x * val y| := by simp [absDot]
      rw [e1] at h2
      rw [e2, e3]
      linarith
  | @add l l' a b h1 h2 ih1 ih2 =>
    intro t ht
    obtain ⟨r, s, hr, hs⟩ := add_fin ht
    obtain ⟨i1, i2⟩ := ih1 hr
    obtain ⟨j1, j2⟩ := ih2 hs
    refine ⟨fun q hq => ?_, ?_⟩
    · rcases List.mem_append.mp hq with h | h
      · exact i1 q h
      · exact j1 q h
    · obtain ⟨z, hz⟩ := add_D hr hs
      rw [hz] at ht
      have e := D_ofReal ht
      have e1 : absDot (l ++ l') = absDot l + absDot l' := by unfold absDot; rw [List.map_append, List.sum_append]
      have e2 : realDot (l ++ l') = realDot l + realDot l' := by unfold realDot; rw [List.map_append, List.sum_append]
      by_cases c1 : l = []
      · subst c1
        have : r = 0 := by
          have e3 : dotBound ([] : List (Num f × Num f)) - absDot ([] : List (Num f × Num f)) = 0 := by simp [dotBound, absDot]
          rw [e3] at i2
          have := abs_nonpos_iff.mp i2
          simpa [realDot] using this
        subst this
        rw [zero_add, hs.rep] at e
        rw [e]
        exact j2
      by_cases c2 : l' = []
      · subst c2
        have : s = 0 := by
          have e3 : dotBound ([] : List (Num f × Num f)) - absDot ([] : List (Num f × Num f)) = 0 := by simp [dotBound, absDot]
          rw [e3] at j2
          have := abs_nonpos_iff.mp j2
          simpa [realDot] using this
        subst this
        rw [add_zero, hr.rep] at e
        rw [e, List.append_nil]
        exact i2
      have h3 := rd_add_err hr hs
      rw [← e] at h3
      have h4 := dotBound_append l l' c1 c2
      have b1 : |r| ≤ dotBound l := by
        have := abs_sub_abs_le_abs_sub r (realDot l)
        linarith [realDot_le l]
      have b2 : |s| ≤ dotBound l' := by
        have := abs_sub_abs_le_abs_sub s (realDot l')
        linarith [realDot_le l']
      have b3 := mul_le_mul_of_nonneg_left ((abs_add_le r s).trans (add_le_add b1 b2)) hu.le
      rw [e1, e2]
      have e4 : t - (realDot l + realDot l') = (t - (r + s)) + (r - realDot l) + (s - realDot l') := by ring
      rw [e4]
      refine (abs_add_le _ _).trans ((add_le_add (abs_add_le _ _) le_rfl).trans ?_)
      linarith
  | @fma x y l a h1 ih =>
    intro t ht
    obtain ⟨r, s, c, hr, hs, hc⟩ := fma_fin ht
    obtain ⟨i1, i2⟩ := ih hc
    refine ⟨fun q hq => ?_, ?_⟩
    · rcases List.mem_cons.mp hq with rfl | h
      · exact ⟨hr.self, hs.self⟩
      · exact i1 q h
    · obtain ⟨z, hz⟩ := fma_D hr.self hs.self hc
      rw [hz] at ht
      have h3 := f.rd_err (val x * val y + c)
      rw [← D_ofReal ht] at h3
      have h4 := dotBound_cons x y l
      have e1 : absDot ((x, y) :: l) = |val x * val y| + absDot l := by unfold absDot; rw [List.map_cons, List.sum_cons]
      have e2 : realDot ((x, y) :: l) = val x * val y + realDot l := by unfold realDot; rw [List.map_cons, List.sum_cons]
      have b1 : |c| ≤ dotBound l := by
        have := abs_sub_abs_le_abs_sub c (realDot l)
        linarith [realDot_le l]
      have b3 := mul_le_mul_of_nonneg_left ((abs_add_le (val x * val y) c).trans (add_le_add le_rfl b1)) hu.le
      rw [e1, e2]
      have e4 : t - (val x * val y + realDot l) = (t - (val x * val y + c)) + (c - realDot l) := by ring
      rw [e4]
      refine (abs_add_le _ _).trans ?_
      linarith
  | @one l a h1 ih =>
    intro t ht
    obtain ⟨r, s, hr, hs⟩ := mul_fin ht
    have := (mul_one_D hs).unique ht
    subst this
    exact ih hs
  | @perm l l' a h1 hp ih =>
    intro t ht
    obtain ⟨i1, i2⟩ := ih ht
    obtain ⟨e1, e2, e3⟩ := absDot_perm hp
    rw [e1, e2, e3] at i2
    exact ⟨fun q hq => i1 q (hp.mem_iff.mpr hq), i2⟩

theorem dotOf_fin {l : List (Num f × Num f)} {s : Num f} (h : DotOf l s) : (∀ q ∈ l, D q.1 (val q.1) ∧ D q.2 (val q.2)) →
    dotBound l ≤ f.top → ∃ t, D s t := by
  have hu := f.u_pos
  have hη := f.η_pos
  induction h with
  | zero => intro _ _; exact ⟨0, D_zero⟩
  | mul x y =>
    intro hd hb
    obtain ⟨h1, h2⟩ := hd (x, y) (by simp)
    obtain ⟨z, hz⟩ := mul_D h1 h2
    rw [hz]
    refine ⟨_, ofReal_fin z ?_⟩
    have h3 := dotBound_cons x y ([] : List (Num f × Num f))
    have e1 : dotBound ([] : List (Num f × Num f)) = 0 := by simp [dotBound, absDot]
    rw [e1] at h3
    have := mul_nonneg hu.le (abs_nonneg (val x * val y))
    linarith
  | @add l l' a b h1 h2 ih1 ih2 =>
    intro hd hb
    have hm1 : dotBound l ≤ f.top := by
      by_cases c2 : l' = []
      · subst c2; rwa [List.append_nil] at hb
      by_cases c1 : l = []
      · subst c1
        have : dotBound ([] : List (Num f × Num f)) = 0 := by simp [dotBound, absDot]
        rw [this]
        unfold Format.top
        positivity
      · have := dotBound_append l l' c1 c2
        linarith [dotBound_nonneg l', mul_nonneg hu.le (add_nonneg (dotBound_nonneg l) (dotBound_nonneg l'))]
    have hm2 : dotBound l' ≤ f.top := by
      by_cases c1 : l = []
      · subst c1; exact hb
      by_cases c2 : l' = []
      · subst c2
        have : dotBound ([] : List (Num f × Num f)) = 0 := by simp [dotBound, absDot]
        rw [this]
        unfold Format.top
        positivity
      · have := dotBound_append l l' c1 c2
        linarith [dotBound_nonneg l, mul_nonneg hu.le (add_nonneg (dotBound_nonneg l) (dotBound_nonneg l'))]
    obtain ⟨r, hr⟩ := ih1 (fun q hq => hd q (List.mem_append_left _ hq)) hm1
    obtain ⟨s, hs⟩ := ih2 (fun q hq => hd q (List.mem_append_right _ hq)) hm2
    have b1 : |r| ≤ dotBound l := by
      have := abs_sub_abs_le_abs_sub r (realDot l)
      linarith [realDot_le l, (dotOf_err h1 hr).2]
    have b2 : |s| ≤ dotBound l' := by
      have := abs_sub_abs_le_abs_sub s (realDot l')
      linarith [realDot_le l', (dotOf_err h2 hs).2]
    obtain ⟨z, hz⟩ := add_D hr hs
    rw [hz]
    refine ⟨_, ofReal_fin z ((abs_add_le r s).trans ?_)⟩
    by_cases c1 : l = []
    · subst c1
      have : dotBound ([] : List (Num f × Num f)) = 0 := by simp [dotBound, absDot]
      rw [this] at b1
      linarith
    by_cases c2 : l' = []
    · subst c2
      have : dotBound ([] : List (Num f × Num f)) = 0 := by simp [dotBound, absDot]
      rw [this] at b2
      linarith
    have := dotBound_append l l' c1 c2
    linarith [mul_nonneg hu.le (add_nonneg (dotBound_nonneg l) (dotBound_nonneg l'))]
  | @fma x y l a h1 ih =>
    intro hd hb
    have h2 := dotBound_cons x y l
    have h3 := abs_nonneg (val x * val y)
    have h4 := dotBound_nonneg l
    have h5 := mul_nonneg hu.le h3
    have h6 := mul_nonneg hu.le h4
    obtain ⟨hx, hy⟩ := hd (x, y) (by simp)
    obtain ⟨c, hc⟩ := ih (fun q hq => hd q (List.mem_cons_of_mem _ hq)) (by linarith)
    have b1 : |c| ≤ dotBound l := by
      have := abs_sub_abs_le_abs_sub c (realDot l)
      linarith [realDot_le l, (dotOf_err h1 hc).2]
    obtain ⟨z, hz⟩ := fma_D hx hy hc
    rw [hz]
    refine ⟨_, ofReal_fin z ((abs_add_le _ c).trans ?_)⟩
    linarith
  | @one l a h1 ih =>
    intro hd hb
    obtain ⟨t, ht⟩ := ih hd hb
    exact ⟨t, mul_one_D ht⟩
  | @perm l l' a h1 hp ih =>
    intro hd hb
    rw [← (absDot_perm hp).2.2] at hb
    exact ih (fun q hq => hd q (hp.mem_iff.mp hq)) hb

end Num

namespace IEEE
variable {f : Format} {S : Summation f}

/-- Sums of products, from the bounds above. -/
theorem dotOf_law {n : ℕ} {x y : Fin n → Num f} {r s : Fin n → ℝ} (hx : ∀ i, Num.D (x i) (r i)) (hy : ∀ i, Num.D (y i) (s i))
    (hn : n * f.eps ≤ 1) {d : Num f} (h : Num.DotOf ((List.ofFn x).zip (List.ofFn y)) d) :
    (2 * ((∑ i, |r i * s i|) + n * f.η) ≤ f.top → ∃ t, Num.D d t) ∧
    ∀ t, Num.D d t → |t - ∑ i, r i * s i| ≤ n * (f.eps * (∑ i, |r i * s i|) + 2 * f.η) := by
  have hu := f.u_pos
  have hη := f.η_pos
  have e0 : (List.ofFn x).zip (List.ofFn y) = List.ofFn fun i => (x i, y i) := by
    rw [List.ofFn_eq_map, List.ofFn_eq_map, List.zip_map', ← List.ofFn_eq_map]
  rw [e0] at h
  have hv1 : ∀ i, Num.val (x i) = r i := fun i => Num.D.val_eq (hx i)
  have hv2 : ∀ i, Num.val (y i) = s i := fun i => Num.D.val_eq (hy i)
  have e1 : Num.absDot (f := f) (List.ofFn fun i => (x i, y i)) = ∑ i, |r i * s i| := by
    unfold Num.absDot
    rw [List.map_ofFn, List.sum_ofFn]
    exact Finset.sum_congr rfl fun i _ => by simp only [Function.comp]; rw [hv1, hv2]
  have e2 : Num.realDot (f := f) (List.ofFn fun i => (x i, y i)) = ∑ i, r i * s i := by
    unfold Num.realDot
    rw [List.map_ofFn, List.sum_ofFn]
    exact Finset.sum_congr rfl fun i _ => by simp only [Function.comp]; rw [hv1, hv2]
  have hA : 0 ≤ ∑ i, |r i * s i| := Finset.sum_nonneg fun i _ => abs_nonneg _
  have e3 : Num.dotBound (f := f) (List.ofFn fun i => (x i, y i)) = (1 + f.u) ^ (2 * n) * ((∑ i, |r i * s i|) + n * f.η) := by
    unfold Num.dotBound
    rw [e1, List.length_ofFn]
  have hun : (n : ℝ) * f.u ≤ 1 / 8 := by rw [f.eps_eq] at hn; linarith
  have hn0 : (0 : ℝ) ≤ n := Nat.cast_nonneg n
  have hpow : (1 + f.u) ^ (2 * n) ≤ 1 + 2 * (2 * (n * f.u)) := Fl.pow_small hu.le (by push_cast; linarith) (by linarith)
  have hnη : 0 ≤ n * f.η := mul_nonneg hn0 hη.le
  constructor
  · intro htop
    refine Num.dotOf_fin h (fun q hq => ?_) ?_
    · obtain ⟨i, rfl⟩ := (List.mem_ofFn' ..).mp hq
      exact ⟨Num.D.self (hx i), Num.D.self (hy i)⟩
    · rw [e3]
      have := mul_le_mul_of_nonneg_right (by linarith : (1 + f.u) ^ (2 * n) ≤ 2) (by linarith : 0 ≤ (∑ i, |r i * s i|) + n * f.η)
      linarith
  · intro t ht
    have h1 := (Num.dotOf_err h ht).2
    rw [e1, e2, e3] at h1
    refine h1.trans ?_
    have h2 := mul_le_mul_of_nonneg_right hpow (by linarith : 0 ≤ (∑ i, |r i * s i|) + n * f.η)
    have h3 : n * f.u * (n * f.η) ≤ 1 / 8 * (n * f.η) := mul_le_mul_of_nonneg_right hun hnη
    have h4 : 0 ≤ n * f.u * (∑ i, |r i * s i|) := mul_nonneg (mul_nonneg hn0 hu.le) hA
    rw [f.eps_eq]
    linarith

theorem dotOf_sum {l : List (Num f)} {s : Num f} (h : Num.SumOf l s) :
    ∀ q : List (Num f × Num f), l = q.map (fun a => Num.mul a.1 a.2) → Num.DotOf q s := by
  induction h with
  | zero =>
    intro q hq
    rw [List.map_eq_nil_iff.mp hq.symm]
    exact .zero
  | single x =>
    intro q hq
    obtain ⟨a, rfl, h2⟩ := List.map_eq_singleton_iff.mp hq.symm
    rw [← h2]
    exact .mul a.1 a.2
  | add _ _ ih1 ih2 =>
    intro q hq
    obtain ⟨q1, q2, rfl, h1, h2⟩ := List.map_eq_append_iff.mp hq.symm
    exact .add (ih1 q1 h1.symm) (ih2 q2 h2.symm)
  | perm _ hp ih =>
    intro q hq
    subst hq
    have h1 := (congrFun (congrFun (List.eq_map_comp_perm fun a : Num f × Num f => Num.mul a.1 a.2) _) q).mpr hp
    obtain ⟨q', h2, h3⟩ := h1
    exact (ih q' h2).perm h3

theorem sqrt_D {x : Num f} {r : ℝ} (hx : Num.D x r) (hr : 0 ≤ r) (hη : f.η ≤ f.eps ^ 4) :
    ∃ t, Num.D (Num.sqrt x) t ∧ |t - Real.sqrt r| ≤ f.eps * Real.sqrt r := by
  obtain ⟨s, a, ha, ha', rfl, hs⟩ := hx.elim
  have hu := f.u_pos
  by_cases h0 : a = 0
  · subst h0
    have e : r = 0 := by rw [← hs]; cases s <;> simp [signed]
    subst e
    refine ⟨0, ?_, by simp⟩
    have e0 : Num.sqrt (Num.fin s 0 ha ha') = Num.mk s 0 := by simp [Num.sqrt]
    rw [e0, Num.mk_eq_ofReal s le_rfl]
    have e1 : signed s 0 = 0 := by cases s <;> simp [signed]
    rw [e1]
    exact Num.ofReal_zero_key s
  · have hapos : 0 < a := lt_of_le_of_ne ha.nonneg (Ne.symm h0)
    have hsf : s = false := by
      cases s with
      | false => rfl
      | true =>
        simp only [signed, if_true] at hs
        linarith
    subst hsf
    have e : r = a := by rw [← hs]; rfl
    subst e
    have hsq := Real.sqrt_pos.mpr hapos
    have hlow : 2 * f.η ≤ r := by
      obtain ⟨m, k, -, hk, rfl⟩ := ha
      have hm : (1 : ℝ) ≤ m := by
        rcases Nat.eq_zero_or_pos m with rfl | hm
        · simp at h0
        · exact_mod_cast hm
      have h1 : 2 * f.η = (2 : ℝ) ^ f.emin := by
        unfold Format.η
        rw [zpow_sub_one₀ (by norm_num)]
        ring
      rw [h1]
      have h2 : (2 : ℝ) ^ f.emin ≤ (2 : ℝ) ^ k := zpow_le_zpow_right₀ (by norm_num) hk
      have h3 : (0 : ℝ) < (2 : ℝ) ^ k := by positivity
      nlinarith
    have hηr : f.η ≤ f.eps ^ 2 * Real.sqrt r := by
      have h1 : f.η ^ 2 ≤ (f.eps ^ 2 * Real.sqrt r) ^ 2 := by
        rw [mul_pow, Real.sq_sqrt hapos.le, ← pow_mul, pow_two]
        refine mul_le_mul hη ?_ f.η_pos.le (pow_nonneg f.eps_pos.le 4)
        linarith [f.η_pos]
      exact abs_le_of_sq_le_sq' h1 (mul_nonneg (pow_nonneg f.eps_pos.le 2) hsq.le) |>.2
    have htop : |Real.sqrt r| ≤ f.top := by
      rw [abs_of_pos hsq]
      refine Real.sqrt_le_iff.mpr ⟨by unfold Format.top; positivity, ha'.le.trans ?_⟩
      unfold Format.top
      rw [← zpow_natCast, ← zpow_mul]
      exact zpow_le_zpow_right₀ (by norm_num) (by have := f.hmax; push_cast; omega)
    have e0 : Num.sqrt (Num.fin false r ha ha') = Num.mk false (Real.sqrt r) := by simp [Num.sqrt, h0]
    rw [e0, Num.mk_eq_ofReal false hsq.le]
    refine ⟨_, Num.ofReal_fin false htop, ?_⟩
    have h1 := f.rd_err (Real.sqrt r)
    rw [abs_of_pos hsq] at h1
    refine h1.trans ?_
    have h2 : f.eps ^ 2 ≤ 2 * f.u := by
      rw [f.eps_eq]
      have := f.u_small
      nlinarith
    have h3 := mul_le_mul_of_nonneg_right h2 hsq.le
    rw [f.eps_eq] at h3 hηr ⊢
    have := mul_pos hu hsq
    linarith

theorem preciseNorm (f : Format) (S : Summation f) (hS : S.MatMul) {η : ℝ} (h1 : 2 * f.η ≤ η) (h2 : η ≤ f.eps ^ 4) (h3 : 8 / η ≤ f.top) :
    PreciseNorm (IEEE f S) f.eps η := by
  have hu := f.u_pos
  have he := f.eps_pos
  have hue : f.u ≤ f.eps := by rw [f.eps_eq]; linarith
  have hη0 := f.η_pos
  have hη : 0 < η := by linarith
  have hη1 : η ≤ 1 := h2.trans (pow_le_one₀ he.le (by linarith [f.eps_small]))
  have hinv : 1 ≤ 1 / η := by rw [le_div_iff₀ hη]; linarith
  have htop : 8 * (1 / η) ≤ f.top := by rw [← mul_div_assoc, mul_one]; exact h3
  have P := propagates f S
  refine { pos := hη, small := h2, mul := ?_, add := ?_, dot := ?_, dot_nonneg := P.dot_nonneg, sq_nonneg := fun x => mul_self_nonNeg x,
           add_nonneg := P.add_nonneg, sqrt := ?_, mmdot := ?_ }
  · intro x y a b hx hy
    obtain ⟨z, hz⟩ := Num.mul_D (den_iff.mp hx) (den_iff.mp hy)
    have h := rounded_ofReal (S := S) (x := x *. y) hz
    refine ⟨fun hq => ?_, fun t ht => (h.2 t ht).trans ?_⟩
    · have : Num.D (Num.mul x y) (f.rd (a * b)) := by
        rw [hz]
        exact Num.ofReal_fin z (by linarith)
      exact ⟨_, this⟩
    · have := mul_le_mul_of_nonneg_right hue (abs_nonneg (a * b))
      linarith
  · intro x y a b hx hy hq
    obtain ⟨z, hz⟩ := Num.add_D (den_iff.mp hx) (den_iff.mp hy)
    have : Num.D (Num.add x y) (f.rd (a + b)) := by
      rw [hz]
      exact Num.ofReal_fin z (by linarith)
    exact ⟨_, this⟩
  · intro n x y r s hx hy hn
    have hd := S.dot_spec (List.ofFn x) (List.ofFn y)
    have hd2 := dotOf_sum hd ((List.ofFn x).zip (List.ofFn y)) (by
      exact (List.map_zip_eq_zipWith (f := fun a : Num f × Num f => Num.mul a.1 a.2) (l := List.ofFn x) (l' := List.ofFn y)).symm)
    obtain ⟨a1, a2⟩ := dotOf_law (f := f) hx hy hn hd2
    have hn0 : (0 : ℝ) ≤ n := Nat.cast_nonneg n
    refine ⟨fun hq => a1 ?_, fun t ht => (a2 t ht).trans ?_⟩
    · have : n * f.η ≤ 1 := by
        have h4 : f.η ≤ f.eps := by have := f.η_le; linarith
        exact (mul_le_mul_of_nonneg_left h4 hn0).trans hn
      linarith
    · exact mul_le_mul_of_nonneg_left (by linarith) hn0
  · intro x r hx hr
    exact sqrt_D hx hr (by linarith)
  · intro n x y r s hx hy hn
    obtain ⟨a1, a2⟩ := dotOf_law (f := f) hx hy hn (hS (List.ofFn x) (List.ofFn y))
    have hn0 : (0 : ℝ) ≤ n := Nat.cast_nonneg n
    have h4 : 2 * f.η ≤ f.eps := by have := f.η_le; rw [f.eps_eq]; linarith
    have h5 : 1 ≤ 1 / f.eps := by rw [le_div_iff₀ he]; have := f.eps_small; linarith
    have h6 := f.top_ge
    have h7 : 8 / f.eps = 8 * (1 / f.eps) := by ring
    refine ⟨fun hq => a1 ?_, fun t ht => (a2 t ht).trans ?_⟩
    · have : n * f.η ≤ 1 := (mul_le_mul_of_nonneg_left (by linarith : f.η ≤ f.eps) hn0).trans hn
      linarith
    · have := mul_le_mul_of_nonneg_left h4 hn0
      linarith

end IEEE
end Sglm
