import Verif.Spec.LogCheck
import Verif.Proofs.FloatLogValue
import Verif.Proofs.FloatRecheck

/-!
# The optimality check of logistic regression in floating point
-/

namespace Sglm
open Scalar Spec
variable {n p : ℕ} {F : Type} [Scalar F] [LawfulCmp F] {e : ℝ}

/-! ## The logistic function -/

theorem sigm_le (r : ℝ) : sigm r ≤ 1 := (sigm_mem r).2

/-- Where the exponential is huge the logistic function is tiny. -/
theorem sigm_small {r c : ℝ} (hc : 0 < c) (h : 1 / c ≤ 1 + Real.exp (-r)) : sigm r ≤ c := by
  unfold sigm
  have := Real.exp_pos (-r)
  rw [div_le_iff₀ (by linarith)]
  rw [div_le_iff₀ hc] at h
  linarith

theorem ereal_cases {k : EReal} (h : 0 ≤ k) : k = ⊤ ∨ ∃ r : ℝ, k = (r : EReal) ∧ 0 ≤ r := by
  induction k using EReal.rec with
  | bot => simp at h
  | top => exact Or.inl rfl
  | coe r => exact Or.inr ⟨r, rfl, by exact_mod_cast h⟩

/-- The computed logistic function is finite and accurate everywhere. -/
theorem sigmoid_err (P : Precise F e) (E : PreciseExp F e) (T : Saturates F) (he64 : 64 * e ≤ 1) {x : F} {r : ℝ} (hx : Den x r) :
    ∃ s, Den (Sglm.sigmoid x) s ∧ |s - sigm r| ≤ 10 * e := by
  have he := P.pos
  have hpos := Real.exp_pos (-r)
  have hneg := P.neg _ _ hx
  have r1 := E.exp _ _ hneg
  unfold Sglm.sigmoid
  obtain ⟨k, hk⟩ := T.exp_num _ _ hneg
  rcases ereal_cases (E.exp_nonneg _ _ hk) with rfl | ⟨v, rfl, hv0⟩
  · -- the exponential overflows
    refine ⟨0, T.div_top _ _ 1 P.one (T.add_top _ _ 1 P.one hk), ?_⟩
    have h1 : ¬ |Real.exp (-r)| ≤ 1 / e := by
      intro hc
      obtain ⟨t, ht⟩ := r1.1 hc
      have : some ((t : ℝ) : EReal) = some ⊤ := ht.symm.trans hk
      exact EReal.coe_ne_top t (Option.some.inj this)
    rw [abs_of_pos hpos, not_le] at h1
    have h2 := sigm_small he (by linarith : 1 / e ≤ 1 + Real.exp (-r))
    rw [zero_sub, abs_neg, abs_of_pos (sigm_pos r)]
    linarith
  · have hv : Den (Scalar.exp (-.x)) v := hk
    have hv2 := abs_le.mp (r1.2 v hv)
    obtain ⟨X, hX⟩ : ∃ X, X = Real.exp (-r) := ⟨_, rfl⟩
    have hsX : sigm r = 1 / (1 + X) := by rw [hX]; rfl
    rw [← hX] at hpos hv2
    have r2 := P.add _ _ _ _ P.one hv
    rw [abs_of_nonneg (by linarith : 0 ≤ 1 + v)] at r2
    obtain ⟨k', hk'⟩ := T.add_num _ _ _ _ P.one hv
    have hXee : e * (e * (X + 1)) ≤ 1 / 64 * (e * (X + 1)) := mul_le_mul_of_nonneg_right (by linarith) (by positivity)
    have heX : 0 ≤ e * (X + 1) := by positivity
    rcases ereal_cases (T.add_nonneg _ _ _ _ _ P.one hv zero_le_one hv0 hk') with rfl | ⟨a, rfl, ha0⟩
    · -- the sum overflows
      refine ⟨0, T.div_top _ _ 1 P.one hk', ?_⟩
      have h1 : ¬ |1 + v| ≤ 1 / e := by
        intro hc
        obtain ⟨t, ht⟩ := r2.1 hc
        have : some ((t : ℝ) : EReal) = some ⊤ := ht.symm.trans hk'
        exact EReal.coe_ne_top t (Option.some.inj this)
      rw [abs_of_nonneg (by linarith : 0 ≤ 1 + v), not_le] at h1
      have h2 : 1 / (2 * e) ≤ 1 + X := by
        have h3 : 1 / (2 * e) = 1 / e / 2 := by field_simp
        rw [h3]
        have : e * (X + 1) ≤ 1 / 64 * (X + 1) := mul_le_mul_of_nonneg_right (by linarith) (by linarith)
        linarith
      rw [hX] at h2
      have h3 := sigm_small (by linarith : 0 < 2 * e) h2
      rw [zero_sub, abs_neg, abs_of_pos (sigm_pos r)]
      linarith
    · have ha : Den (one +. Scalar.exp (-.x)) a := hk'
      have ha2 := abs_le.mp (r2.2 a ha)
      have hev : e * (1 + v) ≤ e * (1 + X) + 1 / 64 * (e * (X + 1)) := by
        have := mul_le_mul_of_nonneg_left (by linarith : v ≤ X + e * (X + 1)) he.le
        linarith
      have haX : |a - (1 + X)| ≤ 3 * e * (1 + X) := by
        rw [abs_le]
        constructor <;> linarith
      have haX' := abs_le.mp haX
      have ha1 : (1 + X) / 2 ≤ a := by
        have : 3 * e * (1 + X) ≤ 3 / 64 * (1 + X) := mul_le_mul_of_nonneg_right (by linarith) (by linarith)
        linarith
      have ha3 : 1 / 2 ≤ a := by linarith
      have ha4 : 0 < a := by linarith
      have hq : |1 / a - 1 / (1 + X)| ≤ 6 * e := by
        have e1 : 1 / a - 1 / (1 + X) = ((1 + X) - a) / (a * (1 + X)) := by
          have : (1 + X) ≠ 0 := by linarith
          field_simp
        rw [e1, abs_div, abs_of_pos (by positivity : 0 < a * (1 + X)), div_le_iff₀ (by positivity), abs_sub_comm]
        refine haX.trans ?_
        have : 3 * e * (1 + X) ≤ 6 * e * a * (1 + X) := mul_le_mul_of_nonneg_right (by nlinarith) (by linarith)
        linarith
      have h1a : |1 / a| ≤ 2 := by
        rw [abs_of_pos (by positivity), div_le_iff₀ ha4]
        linarith
      have r3 := P.div _ _ _ _ P.one ha ha4.ne'
      obtain ⟨s, hs⟩ := r3.1 (by
        rw [le_div_iff₀ he]
        nlinarith)
      refine ⟨s, hs, ?_⟩
      have hs2 := r3.2 s hs
      rw [hsX]
      have e2 : s - 1 / (1 + X) = (s - 1 / a) + (1 / a - 1 / (1 + X)) := by ring
      rw [e2]
      refine (abs_add_le _ _).trans ?_
      have := mul_le_mul_of_nonneg_left h1a he.le
      linarith

/-- The weight of one sample. -/
theorem weight_err (P : Precise F e) (E : PreciseExp F e) (T : Saturates F) {y z : F} {Y Z : ℝ} (hy : Den y Y) (hz : Den z Z)
    (hm : 64 * ((|Y| + 1) * (|Y * Z| + 1) * e) ≤ 1) :
    ∃ s, Den (Sglm.sigmoid ((-.y) *. z)) s ∧ |s - sigm (-Y * Z)| ≤ 11 * (e * (|Y * Z| + 1)) ∧ |s| ≤ 2 := by
  have he := P.pos
  have hY := abs_nonneg Y
  have hM := abs_nonneg (Y * Z)
  have hYM := mul_nonneg hY hM
  have hMe := mul_nonneg hM he.le
  have hYe := mul_nonneg hY he.le
  have hYMe := mul_nonneg hYM he.le
  have hMe' : 64 * ((|Y * Z| + 1) * e) ≤ 1 := by nlinarith
  have he64 : 64 * e ≤ 1 := by nlinarith
  have r1 := P.mul _ _ _ _ (P.neg _ _ hy) hz
  rw [show |-Y * Z| = |Y * Z| by rw [neg_mul, abs_neg]] at r1
  obtain ⟨t, ht⟩ := r1.1 (by rw [show |-Y * Z| = |Y * Z| by rw [neg_mul, abs_neg], le_div_iff₀ he]; linarith)
  have ht2 := r1.2 t ht
  obtain ⟨s, hs, hs2⟩ := sigmoid_err P E T he64 ht
  have h1 : |sigm t - sigm (-Y * Z)| ≤ e * (|Y * Z| + 1) :=
    (sigm_lip t (-Y * Z)).trans (by linarith [abs_nonneg (t - -Y * Z)])
  have h2 : |s - sigm (-Y * Z)| ≤ 11 * (e * (|Y * Z| + 1)) := by
    have e1 : s - sigm (-Y * Z) = (s - sigm t) + (sigm t - sigm (-Y * Z)) := by ring
    rw [e1]
    exact (abs_add_le _ _).trans (by linarith)
  refine ⟨s, hs, h2, ?_⟩
  have h3 := abs_le_add_sub s (sigm (-Y * Z))
  rw [abs_of_pos (sigm_pos _)] at h3
  have h4 := sigm_le (-Y * Z)
  linarith

/-- Division by the number of samples. -/
theorem div_nat_err (P : Precise F e) (hn : 0 < n) {d : F} {δ A B : ℝ} (hd : Den d δ) (hB : 2 * |δ| ≤ B) (hBe : B * e ≤ 1)
    (hne : 8 * (n * e) ≤ 1) (hA : A = δ / n) :
    ∃ t, Den (d /. Scalar.ofNat n) t ∧ |t - A| ≤ 2 * (e * (B / n)) + e := by
  have he := P.pos
  have hn1 : (1 : ℝ) ≤ n := by exact_mod_cast hn
  have hn0 : (0 : ℝ) < n := by linarith
  have he8 : 8 * e ≤ 1 := by nlinarith
  have hB0 : 0 ≤ B := by linarith [abs_nonneg δ]
  obtain ⟨N, hN⟩ := (P.ofNat n).1 (by rw [abs_of_pos hn0, le_div_iff₀ he]; linarith)
  have hN2 := abs_le.mp ((P.ofNat n).2 N hN)
  have hNn : (n : ℝ) / 2 ≤ N := by nlinarith
  have hN0 : 0 < N := by linarith
  have hq : |δ / N| ≤ B / n := by
    rw [abs_div, abs_of_pos hN0, div_le_div_iff₀ hN0 hn0]
    nlinarith [abs_nonneg δ]
  have r1 := P.div _ _ _ _ hd hN hN0.ne'
  have hBn : B / n ≤ B := div_le_self hB0 hn1
  obtain ⟨t, ht⟩ := r1.1 (by
    rw [le_div_iff₀ he]
    have := mul_le_mul_of_nonneg_right (hq.trans hBn) he.le
    linarith)
  refine ⟨t, ht, ?_⟩
  have ht2 := r1.2 t ht
  have b1 : |δ / N - A| ≤ e * (B / n) := by
    have e1 : δ / N - A = δ / N * ((n - N) / n) := by
      rw [hA]
      field_simp
    rw [e1, abs_mul]
    have h1 : |((n : ℝ) - N) / n| ≤ e := by
      rw [abs_div, abs_of_pos hn0, div_le_iff₀ hn0, abs_le]
      constructor <;> linarith
    have := mul_le_mul hq h1 (abs_nonneg _) (by positivity)
    linarith
  have e2 : t - A = (t - δ / N) + (δ / N - A) := by ring
  rw [e2]
  have h2 := mul_le_mul_of_nonneg_left hq he.le
  exact (abs_add_le _ _).trans (by linarith)

/-- A difference computed one term after the other. -/
theorem foldDiff_err (P : Precise F e) {ι : Type} (x : ι → F) (r : ι → ℝ) :
    ∀ l : List ι, (∀ k ∈ l, Den (x k) (r k)) → 8 * (l.length * e) ≤ 1 → 4 * ((l.map fun k => |r k|).sum * e) ≤ 1 →
      ∃ t, Den (l.foldl (fun acc k => acc -. x k) zero) t ∧
        |t - -(l.map r).sum| ≤ 2 * (l.length * e) * (l.map fun k => |r k|).sum := by
  intro l
  induction l using List.reverseRecOn with
  | nil => intro _ _ _; exact ⟨0, den_zero, by simp⟩
  | append_singleton l k ih =>
    intro hd hl hA
    have he := P.pos
    rw [List.map_append, List.sum_append, List.map_singleton, List.sum_singleton] at hA
    rw [List.map_append, List.sum_append, List.map_append, List.sum_append, List.map_singleton, List.sum_singleton,
      List.map_singleton, List.sum_singleton, List.foldl_append]
    rw [List.length_append, List.length_singleton] at hl ⊢
    push_cast at hl ⊢
    have hk := hd k (by simp)
    obtain ⟨A, hAd⟩ : ∃ A, A = (l.map fun k => |r k|).sum := ⟨_, rfl⟩
    obtain ⟨R, hRd⟩ : ∃ R, R = (l.map r).sum := ⟨_, rfl⟩
    obtain ⟨N, hNd⟩ : ∃ N : ℝ, N = l.length := ⟨_, rfl⟩
    have hN0 : 0 ≤ N := hNd ▸ Nat.cast_nonneg _
    have hRA : |R| ≤ A := by rw [hRd, hAd]; exact abs_sum_list r l
    have hA0 : 0 ≤ A := (abs_nonneg _).trans hRA
    rw [← hAd] at hA ih ⊢
    rw [← hRd] at ih ⊢
    rw [← hNd] at hl ih ⊢
    have hr0 := abs_nonneg (r k)
    have hre := mul_nonneg hr0 he.le
    have hAe := mul_nonneg hA0 he.le
    obtain ⟨t, ht, ht2⟩ := ih (fun i hi => hd i (by simp [hi])) (by nlinarith) (by nlinarith)
    have hNA : 2 * (N * e) * A ≤ A / 4 := by
      have h1 : 8 * (N * e) ≤ 1 := by nlinarith
      nlinarith
    have htr : |t - r k| ≤ 5 / 4 * (A + |r k|) := by
      have h1 := abs_le_add_sub t (-R)
      rw [abs_neg] at h1
      have h2 := abs_sub t (r k)
      linarith
    have r1 := P.sub _ _ _ _ ht hk
    obtain ⟨s, hs⟩ := r1.1 (by
      rw [le_div_iff₀ he]
      have := mul_le_mul_of_nonneg_right htr he.le
      nlinarith)
    refine ⟨s, hs, ?_⟩
    have hs2 := r1.2 s hs
    have e1 : s - -(R + r k) = (s - (t - r k)) + (t - -R) := by ring
    rw [e1]
    refine (abs_add_le _ _).trans ?_
    have h1 := mul_le_mul_of_nonneg_left htr he.le
    have h2 : 0 ≤ N * e * |r k| := by positivity
    nlinarith

/-! ## The gradient -/

theorem sum_map_sub' {ι : Type} (f g : ι → ℝ) : ∀ l : List ι, (l.map fun k => f k - g k).sum = (l.map f).sum - (l.map g).sum
  | [] => by simp
  | k :: l => by
    rw [List.map_cons, List.sum_cons, sum_map_sub' f g l, List.map_cons, List.sum_cons, List.map_cons, List.sum_cons]
    ring


theorem logisticGrad_eq (X : Fin n → Fin p → ℝ) (Y Z : Fin n → ℝ) (j : Fin p) : logisticGrad X Y Z j = logGrad X Y Z j := by
  unfold logisticGrad logGrad sigm
  congr 2
  refine Finset.sum_congr rfl fun i _ => ?_
  rw [show -(-Y i * Z i) = Y i * Z i by ring]
  ring

theorem marginSize_ge (Y Z : Fin n → ℝ) (i : Fin n) : |Y i| + 1 ≤ marginSize Y Z i := by
  unfold marginSize
  have := abs_nonneg (Y i)
  have := abs_nonneg (Y i * Z i)
  nlinarith

theorem log_grad_dense_err (P : Precise F e) (E : PreciseExp F e) (T : Saturates F) (hn : 0 < n) (x : Fin n → Fin p → F)
    (X : Fin n → Fin p → ℝ) (hx : ∀ i j, Den (x i j) (X i j)) (y z : Fin n → F) (Y Z : Fin n → ℝ) (hy : ∀ i, Den (y i) (Y i))
    (hz : ∀ i, Den (z i) (Z i)) (hne : 8 * (n * e) ≤ 1) (hm : ∀ i, 64 * (marginSize Y Z i * e) ≤ 1) (j : Fin p) {S : ℝ}
    (hS : ∑ i, (|X i j| * marginSize Y Z i + 1) + 1 ≤ S) (hs : 64 * (S * e) ≤ 1) :
    ∃ t, Den ((-.(dot (List.ofFn fun i => x i j) (List.ofFn fun i => y i *. Sglm.sigmoid ((-.y i) *. z i)))) /. Scalar.ofNat n) t ∧
      |t - logisticGrad X Y Z j| ≤ 50 * (e * S) := by
  have he := P.pos
  have hn1 : (1 : ℝ) ≤ n := by exact_mod_cast hn
  have hn0 : (0 : ℝ) < n := by linarith
  have hW := marginSize_ge Y Z
  have hY0 := fun i => abs_nonneg (Y i)
  -- the weights
  have hw : ∀ i, ∃ t, Den (y i *. Sglm.sigmoid ((-.y i) *. z i)) t ∧ |t - Y i * sigm (-Y i * Z i)| ≤ 13 * (e * marginSize Y Z i) ∧
      |t| ≤ marginSize Y Z i := by
    intro i
    obtain ⟨s, hs1, hs2, hs3⟩ := weight_err P E T (hy i) (hz i) (hm i)
    have r1 := P.mul _ _ _ _ (hy i) hs1
    have hYs : |Y i * s| ≤ 2 * |Y i| := by
      rw [abs_mul]
      nlinarith [hY0 i]
    have hmi := hm i
    have hYe : |Y i| * e + e ≤ marginSize Y Z i * e := by nlinarith [hW i]
    obtain ⟨t, ht⟩ := r1.1 (by
      rw [le_div_iff₀ he]
      have := mul_le_mul_of_nonneg_right hYs he.le
      linarith)
    have ht2 := r1.2 t ht
    have herr : |t - Y i * sigm (-Y i * Z i)| ≤ 13 * (e * marginSize Y Z i) := by
      have e1 : t - Y i * sigm (-Y i * Z i) = (t - Y i * s) + Y i * (s - sigm (-Y i * Z i)) := by ring
      rw [e1]
      refine (abs_add_le _ _).trans ?_
      rw [abs_mul (Y i)]
      have h1 := mul_le_mul_of_nonneg_left hs2 (hY0 i)
      have h2 := mul_le_mul_of_nonneg_left hYs he.le
      have h3 : |Y i| * (e * (|Y i * Z i| + 1)) ≤ e * marginSize Y Z i := by
        have : |Y i| * (e * (|Y i * Z i| + 1)) = e * (|Y i| * (|Y i * Z i| + 1)) := by ring
        rw [this]
        unfold marginSize
        exact mul_le_mul_of_nonneg_left (mul_le_mul_of_nonneg_right (by linarith) (by positivity)) he.le
      linarith
    refine ⟨t, ht, herr, ?_⟩
    have h1 := abs_le_add_sub t (Y i * sigm (-Y i * Z i))
    have h2 : |Y i * sigm (-Y i * Z i)| ≤ |Y i| := by
      rw [abs_mul, abs_of_pos (sigm_pos _)]
      nlinarith [hY0 i, sigm_le (-Y i * Z i)]
    linarith [hW i]
  choose t ht1 ht2 ht3 using hw
  -- the dot product
  obtain ⟨A, hA⟩ : ∃ A, A = ∑ i, |X i j| * marginSize Y Z i := ⟨_, rfl⟩
  have hA0 : 0 ≤ A := hA ▸ Finset.sum_nonneg fun i _ => mul_nonneg (abs_nonneg _) (by linarith [hW i, hY0 i])
  have hAS : A + n + 1 ≤ S := by
    rw [Finset.sum_add_distrib] at hS
    simpa [hA] using hS
  have hXt : ∑ i, |X i j * t i| ≤ A := by
    rw [hA]
    refine Finset.sum_le_sum fun i _ => ?_
    rw [abs_mul]
    exact mul_le_mul_of_nonneg_left (ht3 i) (abs_nonneg _)
  have hSe := mul_le_mul_of_nonneg_right hAS he.le
  have hAe := mul_nonneg hA0 he.le
  have hne0 : 0 ≤ n * e := by positivity
  obtain ⟨hd1, hd2⟩ := P.dot n _ _ _ _ (fun i => hx i j) ht1 (by linarith)
  obtain ⟨d, hd⟩ := hd1 (by
    rw [le_div_iff₀ he]
    have := mul_le_mul_of_nonneg_right hXt he.le
    linarith)
  have hd3 := hd2 d hd
  have hd4 : |d - ∑ i, X i j * t i| ≤ n * e * (A + 1) := hd3.trans (mul_le_mul_of_nonneg_left (by linarith) hne0)
  have hneA : n * e * (A + 1) ≤ 1 / 8 * (A + 1) := mul_le_mul_of_nonneg_right (by linarith) (by linarith)
  have hsumt : |∑ i, X i j * t i| ≤ A := (Finset.abs_sum_le_sum_abs _ _).trans hXt
  have hdA : |d| ≤ 2 * (A + 1) := by
    have := abs_le_add_sub d (∑ i, X i j * t i)
    linarith
  have hω : |∑ i, X i j * t i - ∑ i, X i j * (Y i * sigm (-Y i * Z i))| ≤ 13 * (e * A) := by
    rw [← Finset.sum_sub_distrib, hA, Finset.mul_sum, Finset.mul_sum]
    refine (Finset.abs_sum_le_sum_abs _ _).trans (Finset.sum_le_sum fun i _ => ?_)
    rw [← mul_sub, abs_mul]
    have := mul_le_mul_of_nonneg_left (ht2 i) (abs_nonneg (X i j))
    linarith
  obtain ⟨g, hg, hg2⟩ := div_nat_err P hn (P.neg _ _ hd) (A := -d / n) (B := 4 * (A + 1)) (by rw [abs_neg]; linarith) (by linarith) hne rfl
  refine ⟨g, hg, ?_⟩
  rw [logisticGrad_eq]
  have hq : |-d / n - logGrad X Y Z j| ≤ 14 * (e * (A + 1)) := by
    unfold logGrad
    rw [← sub_div, abs_div, abs_of_pos hn0, div_le_iff₀ hn0]
    have e1 : -d - -∑ i, X i j * (Y i * sigm (-Y i * Z i)) =
      -((d - ∑ i, X i j * t i) + (∑ i, X i j * t i - ∑ i, X i j * (Y i * sigm (-Y i * Z i)))) := by ring
    rw [e1, abs_neg]
    refine (abs_add_le _ _).trans ((add_le_add hd4 hω).trans ?_)
    have h1 : e * A ≤ e * (A + 1) * n := by
      have : e * (A + 1) ≤ e * (A + 1) * n := le_mul_of_one_le_right (by positivity) hn1
      linarith
    linarith
  have hq2 : 4 * (A + 1) / n ≤ 4 * (A + 1) := div_le_self (by linarith) hn1
  have e3 : g - logGrad X Y Z j = (g - -d / n) + (-d / n - logGrad X Y Z j) := by ring
  rw [e3]
  refine (abs_add_le _ _).trans ?_
  have h1 := mul_le_mul_of_nonneg_left hq2 he.le
  linarith

theorem log_grad_csc_err (P : Precise F e) (E : PreciseExp F e) (T : Saturates F) (hn : 0 < n) (A : CSCData n p) (hA : A.NoDup)
    (x : Fin A.nnz → F) (hx : ∀ k, Den (x k) (A.data k)) (y z : Fin n → F) (Y Z : Fin n → ℝ) (hy : ∀ i, Den (y i) (Y i))
    (hz : ∀ i, Den (z i) (Z i)) (hne : 8 * (n * e) ≤ 1) (hm : ∀ i, 64 * (marginSize Y Z i * e) ≤ 1) (j : Fin p) {S : ℝ}
    (hS : ∑ i, (|A.dense i j| * marginSize Y Z i + 1) + 1 ≤ S) (hs : 64 * (S * e) ≤ 1) :
    ∃ t, Den ((colList A j).foldl (fun acc k => acc -. x k *. y (A.row k) *. Sglm.sigmoid ((-.y (A.row k)) *. z (A.row k)) /.
        Scalar.ofNat n) zero) t ∧ |t - logisticGrad A.dense Y Z j| ≤ 50 * (e * S) := by
  have he := P.pos
  have hn1 : (1 : ℝ) ≤ n := by exact_mod_cast hn
  have hn0 : (0 : ℝ) < n := by linarith
  have hW := marginSize_ge Y Z
  have hY0 := fun i => abs_nonneg (Y i)
  have hW0 : ∀ i, 0 < marginSize Y Z i := fun i => by linarith [hW i, hY0 i]
  obtain ⟨B, hB⟩ : ∃ B, B = ∑ i, |A.dense i j| * marginSize Y Z i := ⟨_, rfl⟩
  have hB0 : 0 ≤ B := hB ▸ Finset.sum_nonneg fun i _ => mul_nonneg (abs_nonneg _) (hW0 i).le
  have hBS : B + n + 1 ≤ S := by
    rw [Finset.sum_add_distrib] at hS
    simpa [hB] using hS
  have hSe := mul_le_mul_of_nonneg_right hBS he.le
  have hBe := mul_nonneg hB0 he.le
  have hne0 : 0 ≤ n * e := by positivity
  have hsumW : ((colList A j).map fun k => |A.data k * marginSize Y Z (A.row k)|).sum = B := by
    rw [sum_colList_abs A hA j (marginSize Y Z), hB]
    exact Finset.sum_congr rfl fun i _ => by rw [abs_of_pos (hW0 i)]
  have hXW : ∀ k ∈ colList A j, |A.data k| * marginSize Y Z (A.row k) ≤ B := by
    intro k hk
    rw [← hsumW]
    have := List.single_le_sum (l := (colList A j).map fun k => |A.data k * marginSize Y Z (A.row k)|) (by
      intro a ha
      obtain ⟨k', -, rfl⟩ := List.mem_map.mp ha
      exact abs_nonneg _) _ (List.mem_map.mpr ⟨k, hk, rfl⟩)
    rwa [abs_mul, abs_of_pos (hW0 _)] at this
  -- the terms
  have hterm : ∀ k : Fin A.nnz, ∃ t, k ∈ colList A j →
      Den (x k *. y (A.row k) *. Sglm.sigmoid ((-.y (A.row k)) *. z (A.row k)) /. Scalar.ofNat n) t ∧
      |t - A.data k * (Y (A.row k) * sigm (-Y (A.row k) * Z (A.row k))) / n| ≤
        38 * (e * ((|A.data k| * marginSize Y Z (A.row k) + 1) / n)) + e ∧
      |t| ≤ 6 * ((|A.data k| * marginSize Y Z (A.row k) + 1) / n) + e := by
    intro k
    by_cases hk : k ∈ colList A j
    swap
    · exact ⟨0, fun h => (hk h).elim⟩
    obtain ⟨i, hi⟩ : ∃ i, i = A.row k := ⟨_, rfl⟩
    have hkB := hXW k hk
    rw [← hi] at hkB ⊢
    obtain ⟨s, hs1, hs2, hs3⟩ := weight_err P E T (hy i) (hz i) (hm i)
    obtain ⟨W, hWd⟩ : ∃ W, W = marginSize Y Z i := ⟨_, rfl⟩
    obtain ⟨a, had⟩ : ∃ a, a = |A.data k| := ⟨_, rfl⟩
    have ha0 : 0 ≤ a := had ▸ abs_nonneg _
    have hWi := hW i
    rw [← hWd] at hkB hWi ⊢
    rw [← had] at hkB ⊢
    have haW : 0 ≤ a * W := mul_nonneg ha0 (by linarith [hY0 i])
    obtain ⟨q, hq⟩ : ∃ q, q = a * W + 1 := ⟨_, rfl⟩
    rw [← hq]
    have hqe : 64 * (q * e) ≤ 1 := by
      have : q * e ≤ S * e := mul_le_mul_of_nonneg_right (by linarith) he.le
      linarith
    have hq1 : 1 ≤ q := by linarith
    have he64 : 64 * e ≤ 1 := by nlinarith
    have haY : |A.data k * Y i| + 1 ≤ q := by
      rw [abs_mul, ← had, hq]
      have := mul_le_mul_of_nonneg_left (by linarith : |Y i| ≤ W) ha0
      linarith
    -- first product
    have r1 := P.mul _ _ _ _ (hx k) (hy i)
    obtain ⟨b, hb⟩ := r1.1 (by
      rw [le_div_iff₀ he]
      have := mul_le_mul_of_nonneg_right (by linarith : |A.data k * Y i| ≤ q) he.le
      linarith)
    have hb2 : |b - A.data k * Y i| ≤ e * q := (r1.2 b hb).trans (mul_le_mul_of_nonneg_left haY he.le)
    have hb3 : |b| ≤ 2 * q := by
      have := abs_le_add_sub b (A.data k * Y i)
      linarith
    -- second product
    have hbs : |b * s| ≤ 4 * q := by
      rw [abs_mul]
      have := mul_le_mul hb3 hs3 (abs_nonneg _) (by linarith)
      linarith
    have r2 := P.mul _ _ _ _ hb hs1
    obtain ⟨c, hc⟩ := r2.1 (by
      rw [le_div_iff₀ he]
      have := mul_le_mul_of_nonneg_right hbs he.le
      linarith)
    have hc2 : |c - b * s| ≤ 5 * (e * q) := by
      have h1 := mul_le_mul_of_nonneg_left hbs he.le
      have h2 := mul_le_mul_of_nonneg_left hq1 he.le
      exact (r2.2 c hc).trans (by linarith)
    have hc3 : |c| ≤ 5 * q := by
      have := abs_le_add_sub c (b * s)
      linarith
    have hc4 : |c - A.data k * (Y i * sigm (-Y i * Z i))| ≤ 18 * (e * q) := by
      have e1 : c - A.data k * (Y i * sigm (-Y i * Z i)) =
        (c - b * s) + (b - A.data k * Y i) * s + A.data k * Y i * (s - sigm (-Y i * Z i)) := by ring
      rw [e1]
      refine (abs_add_le _ _).trans ((add_le_add (abs_add_le _ _) le_rfl).trans ?_)
      rw [abs_mul (b - _), abs_mul (A.data k * Y i), abs_mul (A.data k), ← had]
      have h1 := mul_le_mul hb2 hs3 (abs_nonneg _) (by positivity)
      have h2 := mul_le_mul_of_nonneg_left hs2 (mul_nonneg ha0 (hY0 i))
      have h3 : a * |Y i| * (e * (|Y i * Z i| + 1)) ≤ e * q := by
        have : a * |Y i| * (e * (|Y i * Z i| + 1)) = e * (a * (|Y i| * (|Y i * Z i| + 1))) := by ring
        rw [this]
        refine mul_le_mul_of_nonneg_left ?_ he.le
        have h4 : |Y i| * (|Y i * Z i| + 1) ≤ W := by
          rw [hWd]
          unfold marginSize
          exact mul_le_mul_of_nonneg_right (by linarith) (by positivity)
        have := mul_le_mul_of_nonneg_left h4 ha0
        linarith
      linarith
    -- the quotient
    obtain ⟨t, ht, ht2⟩ := div_nat_err P hn hc (A := c / n) (B := 10 * q) (by linarith) (by linarith) hne rfl
    refine ⟨t, fun _ => ⟨ht, ?_, ?_⟩⟩
    · have e1 : t - A.data k * (Y i * sigm (-Y i * Z i)) / n =
        (t - c / n) + (c - A.data k * (Y i * sigm (-Y i * Z i))) / n := by ring
      rw [e1]
      refine (abs_add_le _ _).trans ?_
      have h1 : |(c - A.data k * (Y i * sigm (-Y i * Z i))) / n| ≤ 18 * (e * (q / n)) := by
        rw [abs_div, abs_of_pos hn0]
        have : 18 * (e * (q / n)) = 18 * (e * q) / n := by ring
        rw [this]
        exact div_le_div_of_nonneg_right hc4 hn0.le
      have h2 : 2 * (e * (10 * q / n)) = 20 * (e * (q / n)) := by ring
      linarith
    · have h1 := abs_le_add_sub t (c / n)
      have h2 : |c / n| ≤ 5 * (q / n) := by
        rw [abs_div, abs_of_pos hn0]
        have : 5 * (q / n) = 5 * q / n := by ring
        rw [this]
        exact div_le_div_of_nonneg_right hc3 hn0.le
      have h3 : 2 * (e * (10 * q / n)) = 20 * e * (q / n) := by ring
      have h4 : 20 * e * (q / n) ≤ 1 * (q / n) := mul_le_mul_of_nonneg_right (by linarith) (by positivity)
      linarith
  choose r hr using hterm
  -- sums over the column
  have hlen : ((colList A j).length : ℝ) ≤ n := by exact_mod_cast colList_length A hA j
  have hl0 : (0 : ℝ) ≤ (colList A j).length := Nat.cast_nonneg _
  have hsum1 : ∀ l : List (Fin A.nnz), ∀ c d : ℝ, (l.map fun k => c * ((|A.data k| * marginSize Y Z (A.row k) + 1) / n) + d).sum =
      c * (((l.map fun k => |A.data k * marginSize Y Z (A.row k)|).sum + l.length) / n) + l.length * d := by
    intro l c d
    induction l with
    | nil => simp
    | cons k l ih =>
      rw [List.map_cons, List.sum_cons, ih, List.map_cons, List.sum_cons, abs_mul, abs_of_pos (hW0 _), List.length_cons]
      push_cast
      ring
  have hmono : ∀ (l : List (Fin A.nnz)) (f g : Fin A.nnz → ℝ), (∀ k ∈ l, f k ≤ g k) → (l.map f).sum ≤ (l.map g).sum := by
    intro l f g h
    induction l with
    | nil => simp
    | cons k l ih =>
      rw [List.map_cons, List.sum_cons, List.map_cons, List.sum_cons]
      exact add_le_add (h k (by simp)) (ih fun k' hk' => h k' (by simp [hk']))
  have hBn : (B + (colList A j).length) / n ≤ B / n + 1 := by
    rw [add_div]
    have : ((colList A j).length : ℝ) / n ≤ 1 := (div_le_one hn0).mpr hlen
    linarith
  have hBn2 : B / n ≤ B := div_le_self hB0 hn1
  have hle : ((colList A j).length : ℝ) * e ≤ n * e := mul_le_mul_of_nonneg_right hlen he.le
  have hR : ((colList A j).map fun k => |r k|).sum ≤ 6 * (B / n + 1) + n * e := by
    refine (hmono _ _ _ fun k hk => (hr k hk).2.2).trans ?_
    rw [hsum1, hsumW]
    linarith
  have hR0 : 0 ≤ ((colList A j).map fun k => |r k|).sum := (abs_nonneg _).trans (abs_sum_list r (colList A j))
  have hne8 : n * e ≤ 1 / 8 := by linarith
  obtain ⟨t, ht, ht2⟩ := foldDiff_err P (fun k => x k *. y (A.row k) *. Sglm.sigmoid ((-.y (A.row k)) *. z (A.row k)) /. Scalar.ofNat n) r
    (colList A j) (fun k hk => (hr k hk).1) (by linarith) (by
      have h1 : ((colList A j).map fun k => |r k|).sum ≤ 7 * S := by linarith
      have := mul_le_mul_of_nonneg_right h1 he.le
      linarith)
  refine ⟨t, ht, ?_⟩
  have hgr : logisticGrad A.dense Y Z j =
      -((colList A j).map fun k => A.data k * (Y (A.row k) * sigm (-Y (A.row k) * Z (A.row k))) / n).sum := by
    rw [logisticGrad_eq]
    have := sum_colList A j fun i => Y i * sigm (-Y i * Z i) / n
    unfold logGrad
    rw [neg_div, Finset.sum_div]
    congr 1
    have h2 : (fun k => A.data k * (Y (A.row k) * sigm (-Y (A.row k) * Z (A.row k))) / n) =
        fun k => A.data k * (Y (A.row k) * sigm (-Y (A.row k) * Z (A.row k)) / n) := by
      funext k; ring
    rw [h2, this]
    exact Finset.sum_congr rfl fun i _ => by ring
  have hdiff : |-((colList A j).map r).sum - logisticGrad A.dense Y Z j| ≤ 38 * (e * (B / n + 1)) + n * e := by
    rw [hgr]
    have e1 : -((colList A j).map r).sum -
        -((colList A j).map fun k => A.data k * (Y (A.row k) * sigm (-Y (A.row k) * Z (A.row k))) / n).sum =
        -((colList A j).map fun k => r k - A.data k * (Y (A.row k) * sigm (-Y (A.row k) * Z (A.row k))) / n).sum := by
      rw [sum_map_sub']
      ring
    rw [e1, abs_neg]
    refine (abs_sum_list _ _).trans ((hmono _ _ _ fun k hk => (hr k hk).2.1).trans ?_)
    have e2 : (fun k => 38 * (e * ((|A.data k| * marginSize Y Z (A.row k) + 1) / n)) + e) =
        fun k => 38 * e * ((|A.data k| * marginSize Y Z (A.row k) + 1) / n) + e := by
      funext k; ring
    rw [e2, hsum1, hsumW]
    have := mul_le_mul_of_nonneg_left hBn (by linarith : 0 ≤ 38 * e)
    linarith
  have e3 : t - logisticGrad A.dense Y Z j = (t - -((colList A j).map r).sum) + (-((colList A j).map r).sum - logisticGrad A.dense Y Z j) := by
    ring
  rw [e3]
  refine (abs_add_le _ _).trans ((add_le_add ht2 hdiff).trans ?_)
  have h1 : 2 * ((colList A j).length * e) * ((colList A j).map fun k => |r k|).sum ≤ 2 * (n * e) * (6 * (B / n + 1) + n * e) :=
    mul_le_mul (by linarith) hR hR0 (by linarith)
  have h2 : n * e * (B / n) = e * B := by field_simp
  have h3 : n * e * (n * e) ≤ n * e * (1 / 8) := mul_le_mul_of_nonneg_left hne8 hne0
  have h4 : e * (B / n) ≤ e * B := mul_le_mul_of_nonneg_left hBn2 he.le
  nlinarith

/-! ## The model -/

omit [LawfulCmp F] in
theorem log_gradJ_dense (x : Fin n → Fin p → F) (y z : Fin n → F) (df : Logistic F) (j : Fin p) :
    Datafit.gradientJ df (⟨matOf x, Targets.one (List.ofFn y)⟩ : Dataset (Mat F) F) (List.ofFn z) j =
      .ok ((-.(dot (List.ofFn fun i => x i j) (List.ofFn fun i => y i *. Sglm.sigmoid ((-.y i) *. z i)))) /. Scalar.ofNat n) := by
  show Logistic.gradDense _ _ _ = _
  unfold Logistic.gradDense
  simp only [single_oneOf, bind, Except.bind, zipWith_ofFn, colM_matOf, dotM_ofFn, List.length_ofFn, pure, Except.pure]

omit [LawfulCmp F] in
theorem log_gradJ_csc (A : CSCData n p) (x : Fin A.nnz → F) (y z : Fin n → F) (df : Logistic F) (j : Fin p) :
    Datafit.gradientJ df (⟨A.toCSCOf x, Targets.one (List.ofFn y)⟩ : Dataset (CSC F) F) (List.ofFn z) j =
      .ok ((colList A j).foldl (fun acc k => acc -. x k *. y (A.row k) *. Sglm.sigmoid ((-.y (A.row k)) *. z (A.row k)) /.
        Scalar.ofNat n) zero) := by
  show Logistic.gradCSC _ _ _ = _
  unfold Logistic.gradCSC
  simp only [single_oneOf, one_nSamplesOf, colRange_toCSCOf, bind, Except.bind]
  have := foldlM_col A j (fun s : F => s) (fun grad idx => do
      let d ← (A.toCSCOf x).dataAt idx
      let i ← (A.toCSCOf x).rowAt idx
      let yi ← getM (List.ofFn y) i
      let xw ← getM (List.ofFn z) i
      pure (grad -. d *. yi *. Sglm.sigmoid ((-.yi) *. xw) /. Scalar.ofNat n))
    (fun s k => s -. x k *. y (A.row k) *. Sglm.sigmoid ((-.y (A.row k)) *. z (A.row k)) /. Scalar.ofNat n) (by
      intro t k
      simp only [dataAt_toCSCOf, rowAt_toCSCOf, bind, Except.bind, getM_ofFn]
      rfl) zero
  simp only [bind, Except.bind] at this
  rw [this]

omit [LawfulCmp F] in
theorem log_init_dense (x : Fin n → Fin p → F) (y : Fin n → F) (df : Logistic F) :
    ∃ df', Datafit.init df (⟨matOf x, Targets.one (List.ofFn y)⟩ : Dataset (Mat F) F) = .ok (df' : Logistic F) := by
  refine ⟨⟨List.ofFn fun j => dot (List.ofFn fun i => x i j) (List.ofFn fun i => x i j) /. Scalar.ofNat (4 * n)⟩, ?_⟩
  show Logistic.initDense _ = _
  unfold Logistic.initDense
  simp only [bind, Except.bind, one_nSamplesOf, colSqNorms_matOf, pure, Except.pure]

omit [LawfulCmp F] in
theorem log_init_csc (A : CSCData n p) (x : Fin A.nnz → F) (y : Fin n → F) (df : Logistic F) :
    ∃ df', Datafit.init df (⟨A.toCSCOf x, Targets.one (List.ofFn y)⟩ : Dataset (CSC F) F) = .ok (df' : Logistic F) := by
  refine ⟨⟨List.ofFn fun j => colFold A x x j /. Scalar.ofNat (4 * n)⟩, ?_⟩
  show Logistic.initCSC _ = _
  unfold Logistic.initCSC
  have hnf : DesignMatrix.nFeatures (A.toCSCOf x) = .ok p := nFeatures_toCSCOf A x
  simp only [one_nSamplesOf]
  rw [show (A.toCSCOf x).nFeatures = .ok p from hnf]
  simp only [bind, Except.bind]
  rw [mapM_range (fun j => colFold A x x j /. Scalar.ofNat (4 * n))]
  · rfl
  · intro j
    rw [colRange_toCSCOf]
    dsimp only
    have := foldlM_col A j (fun s : F => s) (fun acc idx => do
        let d ← (A.toCSCOf x).dataAt idx
        pure (acc +. d *. d))
      (fun s k => s +. x k *. x k) (by
        intro t k
        simp only [dataAt_toCSCOf, bind, Except.bind]
        rfl) zero
    simp only [bind, Except.bind] at this
    rw [this]
    rfl

/-- The computed violations of logistic regression problems. -/
theorem log_check_scores (P : Precise F e) (E : PreciseExp F e) (T : Saturates F) (hn : 0 < n) (hne : 8 * (n * e) ≤ 1) (D : Design n p)
    (hD : D.Canonical) (x : D.Entries F) (hx : D.Holds x) (y : Fin n → F) (Y : Fin n → ℝ) (hy : ∀ i, Den (y i) (Y i)) (pen' : PenOf F)
    (pen : Pen) (hp : pen'.Holds pen) (hv : pen.Valid) (w : Fin p → F) (v : Fin p → ℝ) (hw : ∀ j, Den (w j) (v j)) (z : Fin n → F)
    (Z : Fin n → ℝ) (hz : ∀ i, Den (z i) (Z i)) (hm : ∀ i, 64 * (marginSize Y Z i * e) ≤ 1)
    (hs : ∀ j, 64 * (logSize D.matrix Y pen v Z j * e) ≤ 1) :
    ∃ (κ : Fin p → F) (k : Fin p → ℝ), (∀ j, Den (κ j) (k j)) ∧
      checkOf D x y .logistic pen' w z = .ok (maxDist (List.ofFn κ)) ∧
      ∀ j, |k j - scoreOf pen (v j) (logisticGrad D.matrix Y Z j)| ≤ 100 * (e * logSize D.matrix Y pen v Z j) := by
  have he := P.pos
  have hα : 0 ≤ pen.alpha := by
    cases pen with
    | l1 α => exact hv
    | enet α ρ => exact hv.1
    | mcp α γ => exact hv.1
    | l05 α => exact hv.le
  have hc : pen.Convex := by
    cases pen <;> cases pen' <;> first | exact trivial | exact hp.elim
  have hW := marginSize_ge Y Z
  have hY0 := fun i => abs_nonneg (Y i)
  -- the gradients
  have key : ∃ g : Fin p → F, (∀ j, ∃ t, Den (g j) t ∧ |t - logisticGrad D.matrix Y Z j| ≤ 50 * (e * logSize D.matrix Y pen v Z j)) ∧
      checkOf D x y .logistic pen' w z = .ok (maxDist (List.ofFn fun j => PenOf.distOf pen' (w j) (g j))) := by
    have hS : ∀ j, ∑ i, (|D.matrix i j| * marginSize Y Z i + 1) + 1 ≤ logSize D.matrix Y pen v Z j := fun j => by
      unfold logSize
      have := abs_nonneg (v j)
      nlinarith [mul_nonneg hα this]
    cases D with
    | dense X =>
      change Fin n → Fin p → F at x
      refine ⟨fun j => _, fun j => log_grad_dense_err P E T hn x X hx y z Y Z hy hz hne hm j (hS j) (hs j), ?_⟩
      obtain ⟨df', hdf⟩ := log_init_dense x y Logistic.new
      unfold checkOf callOf
      cases pen' with
      | l1 a =>
        show (Datafit.init _ _ >>= _) = _
        rw [hdf]
        simp only [bind, Except.bind]
        rw [check_eq _ _ (L1.mk a) (L1.mk a).dist (fun _ _ _ => rfl) w z _ (fun j => log_gradJ_dense x y z df' j)]
        rfl
      | enet a r =>
        show (Datafit.init _ _ >>= _) = _
        rw [hdf]
        simp only [bind, Except.bind]
        rw [check_eq _ _ (L1PlusL2.mk a r) (L1PlusL2.mk a r).dist (fun _ _ _ => rfl) w z _ (fun j => log_gradJ_dense x y z df' j)]
        rfl
    | csc A =>
      change Fin A.nnz → F at x
      refine ⟨fun j => _, fun j => log_grad_csc_err P E T hn A hD x hx y z Y Z hy hz hne hm j (hS j) (hs j), ?_⟩
      obtain ⟨df', hdf⟩ := log_init_csc A x y Logistic.new
      unfold checkOf callOf
      cases pen' with
      | l1 a =>
        show (Datafit.init _ _ >>= _) = _
        rw [hdf]
        simp only [bind, Except.bind]
        rw [check_eq _ _ (L1.mk a) (L1.mk a).dist (fun _ _ _ => rfl) w z _ (fun j => log_gradJ_csc A x y z df' j)]
        rfl
      | enet a r =>
        show (Datafit.init _ _ >>= _) = _
        rw [hdf]
        simp only [bind, Except.bind]
        rw [check_eq _ _ (L1PlusL2.mk a r) (L1PlusL2.mk a r).dist (fun _ _ _ => rfl) w z _ (fun j => log_gradJ_csc A x y z df' j)]
        rfl
  obtain ⟨g, hg, hck⟩ := key
  have hsc : ∀ j, ∃ κ, Den (PenOf.distOf pen' (w j) (g j)) κ ∧
      |κ - scoreOf pen (v j) (logisticGrad D.matrix Y Z j)| ≤ 100 * (e * logSize D.matrix Y pen v Z j) := by
    intro j
    obtain ⟨t, ht, htG⟩ := hg j
    obtain ⟨S, hS⟩ : ∃ S, S = logSize D.matrix Y pen v Z j := ⟨_, rfl⟩
    have hsj := hs j
    rw [← hS] at hsj htG ⊢
    have hv0 := abs_nonneg (v j)
    have hαv := mul_nonneg hα hv0
    have hn1 : (1 : ℝ) ≤ n := by exact_mod_cast hn
    have hG : |logisticGrad D.matrix Y Z j| + 1 + (pen.alpha + 1) * (|v j| + 1) ≤ S := by
      rw [hS, logisticGrad_eq]
      unfold logSize logGrad
      refine add_le_add ?_ le_rfl
      rw [Finset.sum_add_distrib, abs_div, abs_neg, abs_of_pos (by linarith : (0 : ℝ) < n)]
      refine add_le_add ?_ (by simpa using hn1)
      refine (div_le_self (abs_nonneg _) hn1).trans ((Finset.abs_sum_le_sum_abs _ _).trans (Finset.sum_le_sum fun i _ => ?_))
      rw [abs_mul]
      refine mul_le_mul_of_nonneg_left ?_ (abs_nonneg _)
      rw [abs_mul, abs_of_pos (sigm_pos _)]
      nlinarith [hW i, hY0 i, sigm_le (-Y i * Z i)]
    have hg0 := abs_nonneg (logisticGrad D.matrix Y Z j)
    have hS1 : 1 ≤ S := by nlinarith
    have hSe : e ≤ S * e := le_mul_of_one_le_left he.le hS1
    have htS : |t| + pen.alpha * (|v j| + 1) + 1 ≤ 2 * S := by
      have := abs_le_add_sub t (logisticGrad D.matrix Y Z j)
      nlinarith
    have hvS : |v j| + 1 ≤ S := by nlinarith
    obtain ⟨κ, h1, h2⟩ := score_err P hp hv (hw j) ht (by linarith) (by
      have := mul_le_mul_of_nonneg_right htS he.le
      nlinarith) (by
      have := mul_le_mul_of_nonneg_right hvS he.le
      linarith)
    refine ⟨κ, h1, ?_⟩
    have h3 := scoreOf_lip pen hc (v j) t (logisticGrad D.matrix Y Z j)
    have e1 : κ - scoreOf pen (v j) (logisticGrad D.matrix Y Z j) =
      (κ - scoreOf pen (v j) t) + (scoreOf pen (v j) t - scoreOf pen (v j) (logisticGrad D.matrix Y Z j)) := by ring
    rw [e1]
    refine (abs_add_le _ _).trans ?_
    have h4 := mul_le_mul_of_nonneg_left htS he.le
    have h5 : 0 ≤ e * S := by positivity
    linarith
  choose k hk1 hk2 using hsc
  exact ⟨fun j => PenOf.distOf pen' (w j) (g j), k, hk1, hck, hk2⟩

/-- Predictions computed from the coefficients. -/
theorem log_recheck_eq (P : Precise F e) (D : Design n p) (hD : D.Canonical) (x : D.Entries F) (hx : D.Holds x) (y : Fin n → F)
    (pen' : PenOf F) (w : Fin p → F) (v : Fin p → ℝ) (hw : ∀ j, Den (w j) (v j)) (hpe : 8 * (p * e) ≤ 1)
    (hs : ∀ i, 4 * (∑ j, |D.matrix i j * v j| + 1) * e ≤ 1) :
    ∃ (z : Fin n → F) (Z : Fin n → ℝ), recheckOf D x y .logistic pen' w = checkOf D x y .logistic pen' w z ∧
      ∀ i, Den (z i) (Z i) ∧ |Z i - fit D.matrix v i| ≤ 4 * (p * e) * (∑ j, |D.matrix i j * v j| + 1) := by
  cases D with
  | dense X =>
    change Fin n → Fin p → F at x
    obtain ⟨z, Z, h1, h2⟩ := fit_dense P x X hx w v hw hpe hs
    refine ⟨z, Z, ?_, h2⟩
    obtain ⟨df', hdf⟩ := log_init_dense x y Logistic.new
    unfold recheckOf checkOf callOf
    have h1' : DesignMatrix.extrapolatedFit (matOf x) (List.range p) (List.ofFn w) n = .ok (List.ofFn z) := h1
    cases pen' <;> simp only [hdf, h1', bind, Except.bind]
  | csc A =>
    change Fin A.nnz → F at x
    obtain ⟨z, Z, h1, h2⟩ := fit_csc P A hD x hx w v hw hpe hs
    refine ⟨z, Z, ?_, h2⟩
    obtain ⟨df', hdf⟩ := log_init_csc A x y Logistic.new
    unfold recheckOf checkOf callOf
    have h1' : DesignMatrix.extrapolatedFit (A.toCSCOf x) (List.range p) (List.ofFn w) n = .ok (List.ofFn z) := h1
    cases pen' <;> simp only [hdf, h1', bind, Except.bind]

end Sglm
