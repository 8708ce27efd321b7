import Verif.Proofs.FloatCheck
import Verif.Proofs.FloatLog

/-!
# The computed logistic loss

Every step of the computation of one term `log(1 + exp(-y u))` is followed, with an explicit bound for the error.
-/

namespace Sglm
open Scalar Spec
variable {n : ℕ} {F : Type} [Scalar F] [LawfulCmp F] {e : ℝ}

/-- `log(1 + exp)` has slope at most one. -/
theorem softplus_le {a b d : ℝ} (hd : 0 ≤ d) (h : a ≤ b + d) : Real.log (1 + Real.exp a) ≤ Real.log (1 + Real.exp b) + d := by
  have hb := Real.exp_pos b
  have ha := Real.exp_pos a
  have h1 : 1 + Real.exp a ≤ (1 + Real.exp b) * Real.exp d := by
    have h2 : Real.exp a ≤ Real.exp b * Real.exp d := by
      rw [← Real.exp_add]
      exact Real.exp_le_exp.mpr h
    have h3 := Real.one_le_exp hd
    linarith
  have h4 := Real.log_le_log (by linarith) h1
  rwa [Real.log_mul (by linarith) (Real.exp_pos d).ne', Real.log_exp] at h4

theorem softplus_lip {a b d : ℝ} (h : |a - b| ≤ d) : |Real.log (1 + Real.exp a) - Real.log (1 + Real.exp b)| ≤ d := by
  have hd := (abs_nonneg _).trans h
  rw [abs_le] at h ⊢
  have h1 := softplus_le hd (show a ≤ b + d by linarith)
  have h2 := softplus_le hd (show b ≤ a + d by linarith)
  constructor <;> linarith

theorem softplus_nonneg (a : ℝ) : 0 ≤ Real.log (1 + Real.exp a) :=
  Real.log_nonneg (by linarith [Real.exp_pos a])

theorem softplus_le_abs (a : ℝ) : Real.log (1 + Real.exp a) ≤ |a| + 1 := by
  have h1 := softplus_le (abs_nonneg a) (show a ≤ 0 + |a| by rw [zero_add]; exact le_abs_self a)
  rw [Real.exp_zero] at h1
  have h2 := Real.log_le_sub_one_of_pos (show (0 : ℝ) < 1 + 1 by norm_num)
  linarith

/-- The logarithm of a number with a small relative error. -/
theorem log_rel {a b δ : ℝ} (hb : 0 < b) (hδ : δ ≤ 1 / 2) (h : |a - b| ≤ δ * b) : 0 < a ∧ |Real.log a - Real.log b| ≤ 2 * δ := by
  rw [abs_le] at h
  have ha2 : b / 2 ≤ a := by nlinarith
  have ha : 0 < a := by linarith
  refine ⟨ha, ?_⟩
  have hδ0 : 0 ≤ δ := by
    by_contra hc
    rw [not_le] at hc
    nlinarith
  have h1 := Real.log_le_sub_one_of_pos (show 0 < a / b by positivity)
  have h2 := Real.log_le_sub_one_of_pos (show 0 < b / a by positivity)
  rw [Real.log_div ha.ne' hb.ne'] at h1
  rw [Real.log_div hb.ne' ha.ne'] at h2
  have h3 : a / b ≤ 1 + δ := by rw [div_le_iff₀ hb]; linarith
  have h4 : b / a ≤ 1 + 2 * δ := by
    rw [div_le_iff₀ ha]
    nlinarith
  rw [abs_le]
  constructor <;> linarith

/-- The argument of the logarithm. -/
theorem log_arg_err (P : Precise F e) (E : PreciseExp F e) {w y : F} {ω η : ℝ} (hw : Den w ω) (hy : Den y η)
    (hm : 64 * ((|η * ω| + 1) * e) ≤ 1) (hx : 4 * (Real.exp (-(η * ω)) * e) ≤ 1) :
    ∃ a, Den (one +. Scalar.exp ((-.w) *. y)) a ∧ 0 < a ∧
      |Real.log a - Real.log (1 + Real.exp (-(η * ω)))| ≤ e * (|η * ω| + 1) + 6 * e := by
  have he := P.pos
  have h1e : ∀ q : ℝ, |q| * e ≤ 1 → |q| ≤ 1 / e := fun q hq => by rwa [le_div_iff₀ he]
  obtain ⟨m, hmd⟩ : ∃ m, m = η * ω := ⟨_, rfl⟩
  rw [← hmd] at hm hx ⊢
  obtain ⟨M, hM⟩ : ∃ M, M = |m| := ⟨_, rfl⟩
  have hM0 : 0 ≤ M := hM ▸ abs_nonneg _
  rw [← hM] at hm ⊢
  have he64 : 64 * e ≤ 1 := by nlinarith
  have hMe : 64 * (M * e) + 64 * e ≤ 1 := by linarith
  -- the exponent
  have r1 := P.mul _ _ _ _ (P.neg _ _ hw) hy
  rw [show -ω * η = -m by rw [hmd]; ring, abs_neg, ← hM] at r1
  obtain ⟨u, hu⟩ := r1.1 (by rw [le_div_iff₀ he, abs_neg, ← hM]; linarith [mul_nonneg hM0 he.le])
  have hu2 := r1.2 u hu
  -- its exponential
  have hum : u ≤ -m + 1 / 64 := by
    have := (abs_le.mp hu2).2
    linarith
  have hexp : Real.exp u ≤ 2 * Real.exp (-m) := by
    have h1 : Real.exp u ≤ Real.exp (-m) * Real.exp (1 / 64) := by
      rw [← Real.exp_add]
      exact Real.exp_le_exp.mpr hum
    have h2 : Real.exp (1 / 64 : ℝ) ≤ 2 := by
      have h3 := Real.exp_bound_div_one_sub_of_interval (x := 1 / 64) (by norm_num) (by norm_num)
      refine h3.trans ?_
      norm_num
    have := Real.exp_pos (-m)
    nlinarith
  obtain ⟨X, hX⟩ : ∃ X, X = Real.exp u := ⟨_, rfl⟩
  have hX0 : 0 < X := hX ▸ Real.exp_pos u
  have hXe : 2 * (X * e) ≤ 1 := by
    have := mul_le_mul_of_nonneg_right hexp he.le
    rw [← hX] at this
    linarith
  have r2 := E.exp _ _ hu
  rw [← hX] at r2
  obtain ⟨v, hv⟩ := r2.1 (h1e _ (by rw [abs_of_pos hX0]; linarith [mul_pos hX0 he]))
  have hv2 := abs_le.mp (r2.2 v hv)
  have hv0 : 0 ≤ v := by
    have := E.exp_nonneg _ _ hv
    exact_mod_cast this
  -- one more
  have r3 := P.add _ _ _ _ P.one hv
  rw [abs_of_nonneg (by linarith : 0 ≤ 1 + v)] at r3
  have hvX : v ≤ X + e * (X + 1) := by linarith
  have hXee : e * (e * (X + 1)) ≤ 1 / 64 * (e * (X + 1)) := mul_le_mul_of_nonneg_right (by linarith) (by positivity)
  obtain ⟨a, ha⟩ := r3.1 (by
    rw [le_div_iff₀ he, abs_of_nonneg (by linarith : 0 ≤ 1 + v)]
    have := mul_le_mul_of_nonneg_right hvX he.le
    nlinarith)
  have ha2 := abs_le.mp (r3.2 a ha)
  have hev : e * (1 + v) ≤ e * (1 + X) + 1 / 64 * (e * (X + 1)) := by
    have := mul_le_mul_of_nonneg_left hvX he.le
    linarith
  have haX : |a - (1 + X)| ≤ 3 * e * (1 + X) := by
    have h0 : 0 ≤ e * (X + 1) := by positivity
    rw [abs_le]
    constructor <;> nlinarith
  obtain ⟨ha0, hlog⟩ := log_rel (by linarith : 0 < 1 + X) (by linarith : 3 * e ≤ 1 / 2) haX
  -- the logarithm
  have hlip := softplus_lip (a := u) (b := -m) (d := e * (M + 1)) hu2
  obtain ⟨ℓ, hℓ⟩ : ∃ ℓ, ℓ = Real.log (1 + Real.exp (-m)) := ⟨_, rfl⟩
  have hℓ0 : 0 ≤ ℓ := hℓ ▸ softplus_nonneg (-m)
  have hℓM : ℓ ≤ M + 1 := by
    rw [hℓ, hM, ← abs_neg m]
    exact softplus_le_abs (-m)
  rw [← hX, ← hℓ] at hlip
  rw [← hℓ]
  have hla : |Real.log a - ℓ| ≤ e * (M + 1) + 6 * e := by
    have e1 : Real.log a - ℓ = (Real.log a - Real.log (1 + X)) + (Real.log (1 + X) - ℓ) := by ring
    rw [e1]
    exact (abs_add_le _ _).trans (by linarith)
  exact ⟨a, ha, ha0, hla⟩

/-- The logarithm of Euler's number. -/
theorem log_e_err (P : Precise F e) (E : PreciseExp F e) (he64 : 64 * e ≤ 1) :
    ∃ d, Den (Scalar.ln (Scalar.eConst : F)) d ∧ |d - 1| ≤ 7 * e := by
  have he := P.pos
  have h1e : ∀ q : ℝ, |q| * e ≤ 1 → |q| ≤ 1 / e := fun q hq => by rwa [le_div_iff₀ he]
  obtain ⟨c, hc, hc2⟩ := E.eConst
  have hE3 := Real.exp_one_lt_d9
  have hc3 : |c - Real.exp 1| ≤ 2 * e * Real.exp 1 := by
    have := Real.one_le_exp (show (0 : ℝ) ≤ 1 by norm_num)
    refine hc2.trans ?_
    nlinarith
  obtain ⟨hc0, hlc⟩ := log_rel (Real.exp_pos 1) (by linarith : 2 * e ≤ 1 / 2) hc3
  rw [Real.log_exp] at hlc
  have hlc2 : |Real.log c| ≤ 2 := by
    have := abs_le_add_sub (Real.log c) 1
    rw [abs_one] at this
    linarith
  have r5 := E.ln _ _ hc hc0
  obtain ⟨d, hd⟩ := r5.1 (h1e _ (by
    have := mul_le_mul_of_nonneg_right hlc2 he.le
    linarith))
  have hd2 : |d - 1| ≤ 7 * e := by
    have h1 := r5.2 d hd
    have e1 : d - 1 = (d - Real.log c) + (Real.log c - 1) := by ring
    rw [e1]
    have := mul_le_mul_of_nonneg_left hlc2 he.le
    exact (abs_add_le _ _).trans (by linarith)
  exact ⟨d, hd, hd2⟩

/-- One term of the loss: finite and accurate if the margin is moderate. -/
theorem log_term_err (P : Precise F e) (E : PreciseExp F e) {w y : F} {ω η : ℝ} (hw : Den w ω) (hy : Den y η)
    (hm : 64 * ((|η * ω| + 1) * e) ≤ 1) (hx : 4 * (Real.exp (-(η * ω)) * e) ≤ 1) :
    ∃ t, Den (Logistic.logE (one +. Scalar.exp ((-.w) *. y))) t ∧ 0 ≤ t + 60 * (e * (|η * ω| + 1)) ∧
      |t - Real.log (1 + Real.exp (-(η * ω)))| ≤ 60 * (e * (|η * ω| + 1)) := by
  have he := P.pos
  have h1e : ∀ q : ℝ, |q| * e ≤ 1 → |q| ≤ 1 / e := fun q hq => by rwa [le_div_iff₀ he]
  obtain ⟨a, ha, ha0, hla⟩ := log_arg_err P E hw hy hm hx
  obtain ⟨m, hmd⟩ : ∃ m, m = η * ω := ⟨_, rfl⟩
  rw [← hmd] at hm hx hla ⊢
  obtain ⟨M, hM⟩ : ∃ M, M = |m| := ⟨_, rfl⟩
  have hM0 : 0 ≤ M := hM ▸ abs_nonneg _
  rw [← hM] at hm hla ⊢
  have he64 : 64 * e ≤ 1 := by nlinarith
  have hMe : 64 * (M * e) + 64 * e ≤ 1 := by linarith
  obtain ⟨ℓ, hℓ⟩ : ∃ ℓ, ℓ = Real.log (1 + Real.exp (-m)) := ⟨_, rfl⟩
  have hℓ0 : 0 ≤ ℓ := hℓ ▸ softplus_nonneg (-m)
  have hℓM : ℓ ≤ M + 1 := by
    rw [hℓ, hM, ← abs_neg m]
    exact softplus_le_abs (-m)
  rw [← hℓ] at hla ⊢
  have hla2 : |Real.log a| ≤ M + 2 := by
    have := abs_le_add_sub (Real.log a) ℓ
    rw [abs_of_nonneg hℓ0] at this
    linarith
  have r4 := E.ln _ _ ha ha0
  obtain ⟨L, hL⟩ := r4.1 (h1e _ (by
    have := mul_le_mul_of_nonneg_right hla2 he.le
    linarith [mul_nonneg hM0 he.le]))
  have hL2 := r4.2 L hL
  have hLℓ : |L - ℓ| ≤ e * (2 * M + 10) := by
    have e1 : L - ℓ = (L - Real.log a) + (Real.log a - ℓ) := by ring
    rw [e1]
    have := mul_le_mul_of_nonneg_left hla2 he.le
    exact (abs_add_le _ _).trans (by linarith)
  have hLM : |L| ≤ M + 2 := by
    have := abs_le_add_sub L ℓ
    rw [abs_of_nonneg hℓ0] at this
    linarith
  obtain ⟨d, hd, hd2⟩ := log_e_err P E he64
  have hd3 := abs_le.mp hd2
  have hdh : 1 / 2 ≤ d := by linarith
  have hd0 : 0 < d := by linarith
  -- the quotient
  have hq : |L / d - L| ≤ 14 * (e * (M + 2)) := by
    have e1 : L / d - L = L * (1 - d) / d := by field_simp
    rw [e1, abs_div, abs_of_pos hd0, div_le_iff₀ hd0, abs_mul, abs_sub_comm]
    have h1 : |L| * |d - 1| ≤ (M + 2) * (7 * e) := mul_le_mul hLM hd2 (abs_nonneg _) (by linarith)
    have h2 : 0 ≤ e * (M + 2) := by positivity
    nlinarith
  have hqM : |L / d| ≤ 2 * (M + 2) := by
    rw [abs_div, abs_of_pos hd0, div_le_iff₀ hd0]
    nlinarith
  have r6 := P.div _ _ _ _ hL hd hd0.ne'
  obtain ⟨t, ht⟩ := r6.1 (h1e _ (by
    have := mul_le_mul_of_nonneg_right hqM he.le
    linarith [mul_nonneg hM0 he.le]))
  have ht2 := r6.2 t ht
  have herr : |t - ℓ| ≤ 60 * (e * (M + 1)) := by
    have e1 : t - ℓ = (t - L / d) + (L / d - L) + (L - ℓ) := by ring
    rw [e1]
    have h1 := mul_le_mul_of_nonneg_left hqM he.le
    have h2 := mul_nonneg he.le hM0
    refine (abs_add_le _ _).trans ((add_le_add (abs_add_le _ _) le_rfl).trans ?_)
    linarith
  exact ⟨t, ht, by linarith [(abs_le.mp herr).1], herr⟩

/-- A sum computed one term after the other. -/
theorem foldSum_err (P : Precise F e) {ι : Type} (x : ι → F) (r : ι → ℝ) :
    ∀ l : List ι, (∀ k ∈ l, Den (x k) (r k)) → 8 * (l.length * e) ≤ 1 → 4 * ((l.map fun k => |r k|).sum * e) ≤ 1 →
      ∃ t, Den (l.foldl (fun acc k => acc +. x k) zero) t ∧
        |t - (l.map r).sum| ≤ 2 * (l.length * e) * (l.map fun k => |r k|).sum := by
  intro l
  induction l using List.reverseRecOn with
  | nil => intro _ _ _; exact ⟨0, den_zero, by simp⟩
  | append_singleton l k ih =>
    intro hd hl hA
    have he := P.pos
    rw [List.map_append, List.sum_append, List.map_singleton, List.sum_singleton] at hA
    rw [List.map_append, List.sum_append, List.map_append, List.sum_append, List.map_singleton, List.sum_singleton,
      List.map_singleton, List.sum_singleton, List.foldl_append]
    rw [List.length_append, List.length_singleton] at hl ⊢
    push_cast at hl ⊢
    have hk := hd k (by simp)
    obtain ⟨A, hAd⟩ : ∃ A, A = (l.map fun k => |r k|).sum := ⟨_, rfl⟩
    obtain ⟨R, hRd⟩ : ∃ R, R = (l.map r).sum := ⟨_, rfl⟩
    obtain ⟨N, hNd⟩ : ∃ N : ℝ, N = l.length := ⟨_, rfl⟩
    have hN0 : 0 ≤ N := hNd ▸ Nat.cast_nonneg _
    have hRA : |R| ≤ A := by rw [hRd, hAd]; exact abs_sum_list r l
    have hA0 : 0 ≤ A := (abs_nonneg _).trans hRA
    rw [← hAd] at hA ih ⊢
    rw [← hRd] at ih ⊢
    rw [← hNd] at hl ih ⊢
    have hr0 := abs_nonneg (r k)
    have hre := mul_nonneg hr0 he.le
    have hAe := mul_nonneg hA0 he.le
    obtain ⟨t, ht, ht2⟩ := ih (fun i hi => hd i (by simp [hi])) (by nlinarith) (by nlinarith)
    have hNA : 2 * (N * e) * A ≤ A / 4 := by
      have h1 : 8 * (N * e) ≤ 1 := by nlinarith
      nlinarith
    have htr : |t + r k| ≤ 5 / 4 * (A + |r k|) := by
      have h1 := abs_le_add_sub t R
      have h2 := abs_add_le t (r k)
      linarith
    have r1 := P.add _ _ _ _ ht hk
    obtain ⟨s, hs⟩ := r1.1 (by
      rw [le_div_iff₀ he]
      have := mul_le_mul_of_nonneg_right htr he.le
      nlinarith)
    refine ⟨s, hs, ?_⟩
    have hs2 := r1.2 s hs
    have e1 : s - (R + r k) = (s - (t + r k)) + (t - R) := by ring
    rw [e1]
    refine (abs_add_le _ _).trans ?_
    have h1 := mul_le_mul_of_nonneg_left htr he.le
    have h2 : 0 ≤ N * e * |r k| := by positivity
    nlinarith

/-- The computed loss: finite and accurate if the margins are moderate. -/
theorem log_value_err {DM : Type} {X : DM} (P : Precise F e) (E : PreciseExp F e) (hn : 0 < n) {y' u : Fin n → F} {y U : Fin n → ℝ}
    (hy : ∀ i, Den (y' i) (y i)) (hu : ∀ i, Den (u i) (U i)) (hne : 8 * (n * e) ≤ 1)
    (hm : 64 * ((∑ i, (|y i * U i| + 1)) * e) ≤ 1) (hx : ∀ i, 4 * (Real.exp (-(y i * U i)) * e) ≤ 1) :
    ∃ v t, Logistic.value (⟨X, Targets.one (List.ofFn y')⟩ : Dataset DM F) (List.ofFn u) = .ok v ∧ Den v t ∧
      |t - logLoss y U| ≤ (80 + 4 * n) * (e * ((∑ i, (|y i * U i| + 1)) / n)) := by
  have he := P.pos
  have hn1 : (1 : ℝ) ≤ n := by exact_mod_cast hn
  obtain ⟨S, hS⟩ : ∃ S, S = ∑ i, (|y i * U i| + 1) := ⟨_, rfl⟩
  rw [← hS] at hm ⊢
  have hSn : (n : ℝ) ≤ S := by
    have h1 : ∑ _i : Fin n, (1 : ℝ) ≤ S := by
      rw [hS]
      exact Finset.sum_le_sum fun i _ => by linarith [abs_nonneg (y i * U i)]
    simpa using h1
  have hS0 : 0 < S := by linarith
  have hmi : ∀ i, |y i * U i| + 1 ≤ S := fun i => by
    rw [hS]
    exact Finset.single_le_sum (f := fun i => |y i * U i| + 1) (fun j _ => by positivity) (Finset.mem_univ i)
  have hterm := fun i => log_term_err P E (hu i) (hy i)
    (by have := mul_le_mul_of_nonneg_right (hmi i) he.le; linarith) (hx i)
  choose r hr0 _ hr using hterm
  have hSe : S * e ≤ 1 / 64 := by linarith
  -- magnitudes
  have hrb : ∀ i, |r i| ≤ 2 * (|y i * U i| + 1) := fun i => by
    have h1 := abs_le_add_sub (r i) (Real.log (1 + Real.exp (-(y i * U i))))
    rw [abs_of_nonneg (softplus_nonneg _)] at h1
    have h2 := softplus_le_abs (-(y i * U i))
    rw [abs_neg] at h2
    have h3 := hr i
    have h4 : e * (|y i * U i| + 1) ≤ e * S := mul_le_mul_of_nonneg_left (hmi i) he.le
    have h5 := abs_nonneg (y i * U i)
    linarith
  have hAS : ∑ i, |r i| ≤ 2 * S := by
    rw [hS, Finset.mul_sum]
    exact Finset.sum_le_sum fun i _ => hrb i
  have hA0 : 0 ≤ ∑ i, |r i| := Finset.sum_nonneg fun i _ => abs_nonneg _
  obtain ⟨s, hs, hs2⟩ := foldSum_err P (fun i => Logistic.logE (one +. Scalar.exp ((-.u i) *. y' i))) r (List.finRange n)
    (fun i _ => hr0 i) (by rw [List.length_finRange]; exact hne) (by
      rw [← List.ofFn_eq_map, List.sum_ofFn]
      have := mul_le_mul_of_nonneg_right hAS he.le
      linarith)
  rw [← List.ofFn_eq_map, List.sum_ofFn, ← List.ofFn_eq_map, List.sum_ofFn, List.length_finRange] at hs2
  -- the sum
  obtain ⟨ℓ, hℓ⟩ : ∃ ℓ, ℓ = ∑ i, Real.log (1 + Real.exp (-(y i * U i))) := ⟨_, rfl⟩
  have hℓ0 : 0 ≤ ℓ := hℓ ▸ Finset.sum_nonneg fun i _ => softplus_nonneg _
  have hℓS : ℓ ≤ S := by
    rw [hℓ, hS]
    refine Finset.sum_le_sum fun i _ => ?_
    have := softplus_le_abs (-(y i * U i))
    rwa [abs_neg] at this
  have hrl : |∑ i, r i - ℓ| ≤ 60 * (e * S) := by
    rw [hℓ, ← Finset.sum_sub_distrib, hS, Finset.mul_sum, Finset.mul_sum]
    exact (Finset.abs_sum_le_sum_abs _ _).trans (Finset.sum_le_sum fun i _ => hr i)
  have hsl : |s - ℓ| ≤ (60 + 4 * n) * (e * S) := by
    have e1 : s - ℓ = (s - ∑ i, r i) + (∑ i, r i - ℓ) := by ring
    rw [e1]
    have h1 := mul_le_mul_of_nonneg_left hAS (by positivity : 0 ≤ 2 * (n * e))
    exact (abs_add_le _ _).trans (by linarith)
  have hneS : n * (e * S) ≤ S / 8 := by
    have := mul_le_mul_of_nonneg_right hne hS0.le
    linarith
  have hsS : |s| ≤ 3 * S := by
    have h1 := abs_le_add_sub s ℓ
    rw [abs_of_nonneg hℓ0] at h1
    linarith
  -- the mean
  have hN := P.ofNat n
  obtain ⟨N, hN1⟩ := hN.1 (by
    rw [abs_of_nonneg (by linarith), le_div_iff₀ he]
    linarith)
  have hN2 := abs_le.mp (hN.2 N hN1)
  have hNn : (n : ℝ) / 2 ≤ N := by nlinarith
  have hN0 : 0 < N := by linarith
  have hn0 : (0 : ℝ) < n := by linarith
  have r1 := P.div _ _ _ _ hs hN1 hN0.ne'
  have hq2 : |s / N| ≤ 6 * (S / n) := by
    rw [abs_div, abs_of_pos hN0, div_le_iff₀ hN0]
    have : 6 * (S / n) * N = 6 * S * (N / n) := by ring
    rw [this]
    have h1 : 1 / 2 ≤ N / n := by rw [le_div_iff₀ hn0]; linarith
    nlinarith
  have hSn1 : 1 ≤ S / n := by rw [le_div_iff₀ hn0]; linarith
  have hSnS : S / n ≤ S := div_le_self hS0.le hn1
  obtain ⟨t, ht⟩ := r1.1 (by
    rw [le_div_iff₀ he]
    have := mul_le_mul_of_nonneg_right (hq2.trans (mul_le_mul_of_nonneg_left hSnS (by norm_num))) he.le
    linarith)
  refine ⟨_, t, log_value_eq y' u, ht, ?_⟩
  have ht2 := r1.2 t ht
  have e2 : logLoss y U = ℓ / n := by rw [hℓ]; rfl
  rw [e2]
  have e3 : t - ℓ / n = (t - s / N) + s * (n - N) / (n * N) + (s - ℓ) / n := by
    field_simp
    ring
  rw [e3]
  have b1 : |s * (n - N) / (n * N)| ≤ 6 * (e * (S / n)) := by
    have : s * (n - N) / (n * N) = s / N * ((n - N) / n) := by field_simp
    rw [this, abs_mul]
    have h1 : |((n : ℝ) - N) / n| ≤ e := by
      rw [abs_div, abs_of_pos hn0, div_le_iff₀ hn0, abs_le]
      constructor <;> linarith
    have := mul_le_mul hq2 h1 (abs_nonneg _) (by positivity)
    linarith
  have b2 : |(s - ℓ) / n| ≤ (60 + 4 * n) * (e * (S / n)) := by
    rw [abs_div, abs_of_pos hn0, div_le_iff₀ hn0]
    have : (60 + 4 * (n : ℝ)) * (e * (S / n)) * n = (60 + 4 * n) * (e * S) := by field_simp
    rw [this]
    exact hsl
  have h5 := mul_le_mul_of_nonneg_left hq2 he.le
  have h6 := mul_le_mul_of_nonneg_left hSn1 he.le
  have h7 : 0 ≤ e * (S / n) := by positivity
  refine (abs_add_le _ _).trans ((add_le_add (abs_add_le _ _) le_rfl).trans ?_)
  linarith

end Sglm
