import Verif.Spec.Check
import Verif.Proofs.FloatLoss
import Verif.Proofs.FloatRun
import Verif.Proofs.NullFloat
import Verif.Proofs.Cert

/-!
# Explicit error bounds for the violation of the optimality conditions
-/

namespace Sglm
open Scalar Spec
variable {n p : ℕ} {F : Type} [Scalar F] [LawfulCmp F] {e : ℝ}

theorem abs_le_add_sub (a b : ℝ) : |a| ≤ |b| + |a - b| := by
  have := abs_add_le b (a - b)
  rwa [add_sub_cancel] at this

theorem abs_sum_list {ι : Type} (f : ι → ℝ) : ∀ l : List ι, |(l.map f).sum| ≤ (l.map fun k => |f k|).sum
  | [] => by simp
  | k :: l => by
    rw [List.map_cons, List.sum_cons, List.map_cons, List.sum_cons]
    exact (abs_add_le _ _).trans (add_le_add le_rfl (abs_sum_list f l))

/-- A sum of products computed one after the other. -/
theorem foldProd_err (P : Precise F e) {ι : Type} (x v : ι → F) (r s : ι → ℝ) :
    ∀ l : List ι, (∀ k ∈ l, Den (x k) (r k) ∧ Den (v k) (s k)) → 8 * (l.length * e) ≤ 1 →
      4 * ((l.map fun k => |r k * s k|).sum + 1) * e ≤ 1 →
      ∃ t, Den (l.foldl (fun acc k => acc +. x k *. v k) zero) t ∧
        |t - (l.map fun k => r k * s k).sum| ≤ 4 * (l.length * e) * ((l.map fun k => |r k * s k|).sum + 1) := by
  intro l
  induction l using List.reverseRecOn with
  | nil => intro _ _ _; exact ⟨0, den_zero, by simp⟩
  | append_singleton l k ih =>
    intro hd hl hA
    have he := P.pos
    rw [List.map_append, List.sum_append, List.map_singleton, List.sum_singleton] at hA
    rw [List.map_append, List.sum_append, List.map_append, List.sum_append, List.map_singleton, List.sum_singleton,
      List.map_singleton, List.sum_singleton, List.foldl_append]
    rw [List.length_append, List.length_singleton] at hl ⊢
    push_cast at hl ⊢
    obtain ⟨A, hAe⟩ : ∃ A, A = (l.map fun k => |r k * s k|).sum := ⟨_, rfl⟩
    have hA0 : 0 ≤ A := by
      rw [hAe]
      refine List.sum_nonneg fun z hz => ?_
      obtain ⟨q, -, rfl⟩ := List.mem_map.mp hz
      exact abs_nonneg _
    obtain ⟨b, hb⟩ : ∃ b, b = |r k * s k| := ⟨_, rfl⟩
    have hb0 : 0 ≤ b := by rw [hb]; exact abs_nonneg _
    have hSA : |(l.map fun k => r k * s k).sum| ≤ A := by
      rw [hAe]
      exact abs_sum_list _ l
    obtain ⟨m, hm⟩ : ∃ m : ℝ, m = l.length := ⟨_, rfl⟩
    have hm0 : 0 ≤ m := by rw [hm]; positivity
    obtain ⟨t, ht, hte⟩ := ih (fun k hk => hd k (List.mem_append_left _ hk)) (by rw [← hm] at hl ⊢; nlinarith) (by
      rw [← hAe, ← hb] at hA
      rw [← hAe]
      nlinarith [mul_nonneg hb0 he.le])
    rw [← hAe, ← hm] at hte
    rw [← hAe, ← hb] at hA ⊢
    rw [← hm] at hl ⊢
    obtain ⟨T, hT⟩ : ∃ T, T = (l.map fun k => r k * s k).sum := ⟨_, rfl⟩
    rw [← hT] at hte hSA ⊢
    obtain ⟨hx, hv⟩ := hd k (List.mem_append_right _ (List.mem_singleton.mpr rfl))
    have h1e : ∀ q : ℝ, |q| * e ≤ 1 → |q| ≤ 1 / e := fun q hq => by rwa [le_div_iff₀ he]
    have hm1 := P.mul _ _ _ _ hx hv
    obtain ⟨q, hq⟩ := hm1.1 (h1e _ (by rw [← hb]; nlinarith [mul_nonneg hA0 he.le, mul_nonneg hb0 he.le]))
    have hqe := hm1.2 q hq
    rw [← hb] at hqe
    have hqb := abs_le_add_sub q (r k * s k)
    rw [← hb] at hqb
    have htA := abs_le_add_sub t T
    -- size of the exact sum of the two computed terms
    have hme : m * e ≤ 1 / 8 := by nlinarith
    have hme0 : 0 ≤ m * e := mul_nonneg hm0 he.le
    have hEm : 4 * (m * e) * (A + 1) ≤ (A + 1) / 2 := by nlinarith
    have he1 : e ≤ 1 / 8 := by nlinarith
    have htq : |t + q| ≤ 2 * (A + b + 1) := by
      have h1 := abs_add_le t q
      have h2 : e * (b + 1) ≤ (b + 1) / 8 := by nlinarith
      linarith
    have ha := P.add _ _ _ _ ht hq
    obtain ⟨t', ht'⟩ := ha.1 (h1e _ (by
      have := mul_le_mul_of_nonneg_right htq he.le
      nlinarith [mul_nonneg hA0 he.le, mul_nonneg hb0 he.le]))
    refine ⟨t', ht', ?_⟩
    have hae := ha.2 t' ht'
    have htri : |t' - (T + r k * s k)| ≤ |t' - (t + q)| + |t - T| + |q - r k * s k| := by
      have e1 : t' - (T + r k * s k) = (t' - (t + q)) + (t - T) + (q - r k * s k) := by ring
      rw [e1]
      exact (abs_add_le _ _).trans (add_le_add (abs_add_le _ _) le_rfl)
    have htq2 : |t + q| ≤ A + b + 4 * (m * e) * (A + 1) + e * (b + 1) := by
      have h1 := abs_add_le t q
      linarith
    have h3 := mul_le_mul_of_nonneg_left htq2 he.le
    have h4 : 4 * (m * e) * (A + 1) ≤ 4 * (m * e) * (A + b + 1) := mul_le_mul_of_nonneg_left (by linarith) (by linarith)
    -- collect
    have hB : 0 ≤ A + b + 1 := by linarith
    have h5 : e * (4 * (m * e) * (A + b + 1)) ≤ e * ((A + b + 1) / 2) := by
      refine mul_le_mul_of_nonneg_left ?_ he.le
      nlinarith
    have h6 : e * (e * (b + 1)) ≤ e * ((A + b + 1) / 8) := by
      refine mul_le_mul_of_nonneg_left ?_ he.le
      nlinarith
    have h7 : e * (4 * (m * e) * (A + 1)) ≤ e * (4 * (m * e) * (A + b + 1)) := mul_le_mul_of_nonneg_left h4 he.le
    have h8 : e * (b + 1) ≤ e * (A + b + 1) := mul_le_mul_of_nonneg_left (by linarith) he.le
    nlinarith

/-- The quotient of a difference of computed sums. -/
theorem quot_err (P : Precise F e) (hn : 0 < n) {d c : F} {δ γ A B E : ℝ} (hd : Den d δ) (hc : Den c γ) (hE : |δ - A| + |γ - B| ≤ E)
    (hs : 4 * (|A - B| + E + n) * e ≤ 1) (he : 16 * e ≤ 1) :
    ∃ t, Den ((d -. c) /. Scalar.ofNat n) t ∧ |t - (A - B) / n| ≤ 2 * (E / n) + 4 * e * (|A - B| / n) + e := by
  have he0 := P.pos
  have hn1 : (1 : ℝ) ≤ n := by exact_mod_cast hn
  have h1e : ∀ q : ℝ, |q| * e ≤ 1 → |q| ≤ 1 / e := fun q hq => by rwa [le_div_iff₀ he0]
  have hE0 : 0 ≤ E := (add_nonneg (abs_nonneg _) (abs_nonneg _)).trans hE
  obtain ⟨R, hR⟩ : ∃ R, R = |A - B| := ⟨_, rfl⟩
  have hR0 : 0 ≤ R := hR ▸ abs_nonneg _
  rw [← hR] at hs ⊢
  have hdg : |(δ - γ) - (A - B)| ≤ E := by
    have e1 : (δ - γ) - (A - B) = (δ - A) - (γ - B) := by ring
    rw [e1]
    exact (abs_sub _ _).trans hE
  have hdR : |δ - γ| ≤ R + E := by
    have := abs_le_add_sub (δ - γ) (A - B)
    rw [← hR] at this
    linarith
  have hsub := P.sub _ _ _ _ hd hc
  have hEe := mul_nonneg hE0 he0.le
  have hRe := mul_nonneg hR0 he0.le
  have hne : 0 ≤ (n : ℝ) * e := by positivity
  obtain ⟨s, hs1⟩ := hsub.1 (h1e _ (by have := mul_le_mul_of_nonneg_right hdR he0.le; nlinarith))
  have hs2 := hsub.2 s hs1
  obtain ⟨N, hN1⟩ := (P.ofNat n).1 (h1e _ (by rw [abs_of_nonneg (by positivity)]; nlinarith))
  have hN2 := (P.ofNat n).2 N hN1
  rw [abs_le] at hN2
  have hNn : 15 / 16 * (n : ℝ) ≤ N := by nlinarith
  have hN0 : 0 < N := by linarith
  have hsR : |s - (A - B)| ≤ E + e * (R + E) := by
    have e1 : s - (A - B) = (s - (δ - γ)) + ((δ - γ) - (A - B)) := by ring
    rw [e1]
    have := mul_le_mul_of_nonneg_left hdR he0.le
    exact (abs_add_le _ _).trans (by linarith)
  -- the quotient before rounding
  have hq : |s / N - (A - B) / n| ≤ 16 / 15 * ((17 / 16 * E + 2 * (e * R)) / n) := by
    have e1 : s / N - (A - B) / n = (s - (A - B)) / N + (A - B) * (n - N) / (n * N) := by
      field_simp
      ring
    rw [e1]
    have b1 : |(s - (A - B)) / N| ≤ 16 / 15 * ((E + e * (R + E)) / n) := by
      rw [abs_div, abs_of_pos hN0, div_le_iff₀ hN0]
      have : 16 / 15 * ((E + e * (R + E)) / n) * N = (E + e * (R + E)) * (16 / 15 * N / n) := by ring
      rw [this]
      have h1 : 1 ≤ 16 / 15 * N / n := by rw [le_div_iff₀ (by linarith)]; linarith
      have h0 : 0 ≤ E + e * (R + E) := by positivity
      nlinarith
    have b2 : |(A - B) * (n - N) / (n * N)| ≤ 16 / 15 * (e * R / n) := by
      rw [abs_div, abs_mul, ← hR, abs_of_pos (by positivity : (0 : ℝ) < n * N), div_le_iff₀ (by positivity)]
      have h2 : |(n : ℝ) - N| ≤ e * n := by rw [abs_le]; constructor <;> linarith
      have h3 : 16 / 15 * (e * R / n) * (n * N) = R * (e * (16 / 15 * N)) := by field_simp
      rw [h3]
      refine mul_le_mul_of_nonneg_left (h2.trans (mul_le_mul_of_nonneg_left (by linarith) he0.le)) hR0
    refine (abs_add_le _ _).trans ((add_le_add b1 b2).trans ?_)
    have : 16 / 15 * ((E + e * (R + E)) / n) + 16 / 15 * (e * R / n) = 16 / 15 * ((E + e * (R + E) + e * R) / n) := by ring
    rw [this]
    refine mul_le_mul_of_nonneg_left (div_le_div_of_nonneg_right ?_ (by linarith)) (by norm_num)
    nlinarith
  have hsn : |s / N| ≤ 2 * (R + E) := by
    rw [abs_div, abs_of_pos hN0, div_le_iff₀ hN0]
    have h1 := abs_le_add_sub s (δ - γ)
    have h2 := mul_le_mul_of_nonneg_left hdR he0.le
    nlinarith
  have hdiv := P.div _ _ _ _ hs1 hN1 hN0.ne'
  obtain ⟨t, ht1⟩ := hdiv.1 (h1e _ (by have := mul_le_mul_of_nonneg_right hsn he0.le; nlinarith))
  refine ⟨t, ht1, ?_⟩
  have ht2 := hdiv.2 t ht1
  have h1 := abs_le_add_sub (s / N) ((A - B) / n)
  have h2 : |(A - B) / (n : ℝ)| = R / n := by rw [abs_div, ← hR, abs_of_pos (by linarith : (0 : ℝ) < n)]
  rw [h2] at h1
  have e1 : t - (A - B) / n = (t - s / N) + (s / N - (A - B) / n) := by ring
  rw [e1]
  refine (abs_add_le _ _).trans ?_
  have h3 : 16 / 15 * ((17 / 16 * E + 2 * (e * R)) / n) = 17 / 15 * (E / n) + 32 / 15 * (e * (R / n)) := by ring
  rw [h3] at hq
  have hEn : 0 ≤ E / n := by positivity
  have hRn : 0 ≤ e * (R / n) := by positivity
  have h4 : e * (|s / N| + 1) ≤ e * (R / n + (17 / 15 * (E / n) + 32 / 15 * (e * (R / n))) + 1) :=
    mul_le_mul_of_nonneg_left (by linarith) he0.le
  have h5 : e * (17 / 15 * (E / n)) ≤ 1 / 16 * (17 / 15 * (E / n)) := mul_le_mul_of_nonneg_right (by linarith) (by positivity)
  have h6 : e * (32 / 15 * (e * (R / n))) ≤ 1 / 16 * (32 / 15 * (e * (R / n))) := mul_le_mul_of_nonneg_right (by linarith) (by positivity)
  have h7 : e * (R / n + (17 / 15 * (E / n) + 32 / 15 * (e * (R / n))) + 1) =
    e * (R / n) + e * (17 / 15 * (E / n)) + e * (32 / 15 * (e * (R / n))) + e := by ring
  rw [h7] at h4
  linarith

/-- The computed gradient. -/
theorem grad_err (P : Precise F e) (hn : 0 < n) {d c : F} {δ γ A B S N : ℝ} (hd : Den d δ) (hc : Den c γ) {Pz Py : ℝ}
    (hN : 0 ≤ N) (hNn : N ≤ n) (hz : |δ - A| ≤ 4 * (N * e) * (Pz + 1)) (hy : |γ - B| ≤ 4 * (N * e) * (Py + 1)) (hA : |A| ≤ Pz)
    (hB : |B| ≤ Py) (hS : Pz + Py + 1 ≤ S) (hne : 8 * (n * e) ≤ 1) (hs : 64 * (S * e) ≤ 1) :
    ∃ t, Den ((d -. c) /. Scalar.ofNat n) t ∧ |t - (A - B) / n| ≤ 17 * (e * S) := by
  have he := P.pos
  have hn1 : (1 : ℝ) ≤ n := by exact_mod_cast hn
  have hPz : 0 ≤ Pz := (abs_nonneg _).trans hA
  have hPy : 0 ≤ Py := (abs_nonneg _).trans hB
  have hS1 : 1 ≤ S := by linarith
  have h16 : 16 * e ≤ 1 := by nlinarith
  have hNe : N * e ≤ n * e := mul_le_mul_of_nonneg_right hNn he.le
  have hNe0 : 0 ≤ N * e := mul_nonneg hN he.le
  have hAB : |A - B| ≤ Pz + Py := (abs_sub _ _).trans (add_le_add hA hB)
  have hE0 : 0 ≤ 4 * (N * e) * (Pz + Py + 2) := by positivity
  have hE1 : 4 * (N * e) * (Pz + Py + 2) ≤ (Pz + Py + 2) / 2 := by nlinarith
  obtain ⟨t, h1, h2⟩ := quot_err P hn hd hc (E := 4 * (N * e) * (Pz + Py + 2)) (by linarith) (by
    have : |A - B| + 4 * (N * e) * (Pz + Py + 2) ≤ 2 * S := by linarith
    nlinarith [mul_le_mul_of_nonneg_right this he.le]) h16
  refine ⟨t, h1, h2.trans ?_⟩
  have h3 : 4 * (N * e) * (Pz + Py + 2) / n ≤ 4 * (e * (Pz + Py + 2)) := by
    rw [div_le_iff₀ (by linarith)]
    have : 4 * (e * (Pz + Py + 2)) * n = 4 * (n * e) * (Pz + Py + 2) := by ring
    rw [this]
    exact mul_le_mul_of_nonneg_right (by linarith) (by linarith)
  have h4 : |A - B| / n ≤ Pz + Py := by
    rw [div_le_iff₀ (by linarith)]
    nlinarith
  have h5 := mul_le_mul_of_nonneg_left h4 (by linarith : 0 ≤ 4 * e)
  have h6 := mul_le_mul_of_nonneg_left hS he.le
  nlinarith

/-- The sign of a coefficient. -/
theorem signum_den (P : Precise F e) {w : F} {v : ℝ} (hw : Den w v) (h0 : v ≠ 0) :
    Den (signum w) (if v < 0 then -1 else 1) := by
  rcases lt_or_gt_of_ne h0 with h | h
  · rw [if_pos h]; exact P.signum_neg _ _ hw h
  · rw [if_neg (not_lt.mpr h.le)]; exact P.signum_pos _ _ hw h

theorem sgn_abs (v : ℝ) : |(if v < 0 then -1 else 1 : ℝ)| = 1 := by split <;> simp

theorem abs_max_sub (a b : ℝ) : |max 0 a - max 0 b| ≤ |a - b| := by
  have := abs_max_sub_max_le_max 0 a 0 b
  rw [sub_self, abs_zero] at this
  exact this.trans (max_le (abs_nonneg _) le_rfl)

/-- The last subtraction of a score. -/
theorem score_sub (P : Precise F e) {g m : F} {t μ M Q B : ℝ} (hg : Den g t) (hm : Den m μ) (hμ : |μ - M| ≤ Q * e) (hB : |M| ≤ B)
    (hQ : 0 ≤ Q) (he16 : 16 * e ≤ 1) (hs : (|t| + B + Q) * e ≤ 1) :
    ∃ κ, Den (g -. m) κ ∧ |κ - (t - M)| ≤ (|t| + B + 2 * Q) * e := by
  have he := P.pos
  have hQe : Q * e ≤ Q * (1 / 16) := mul_le_mul_of_nonneg_left (by linarith) hQ
  have h1 : |t - μ| ≤ |t| + B + Q := by
    have a1 := abs_sub t μ
    have a2 := abs_le_add_sub μ M
    linarith
  have hsub := P.sub _ _ _ _ hg hm
  obtain ⟨κ, hκ⟩ := hsub.1 (by
    rw [le_div_iff₀ he]
    exact (mul_le_mul_of_nonneg_right h1 he.le).trans hs)
  refine ⟨κ, hκ, ?_⟩
  have h2 := hsub.2 κ hκ
  have h3 := mul_le_mul_of_nonneg_left h1 he.le
  have e1 : κ - (t - M) = (κ - (t - μ)) - (μ - M) := by ring
  rw [e1]
  refine (abs_sub _ _).trans ?_
  linarith

theorem l1_score_err (P : Precise F e) {w g a : F} {v t α : ℝ} (hw : Den w v) (hg : Den g t) (ha : Den a α) (hα : 0 ≤ α)
    (he16 : 16 * e ≤ 1) (hs : 8 * ((|t| + α * (|v| + 1) + 1) * e) ≤ 1) :
    ∃ κ, Den ((L1.mk a).dist w g) κ ∧ |κ - l1Score α v t| ≤ 20 * (e * (|t| + α * (|v| + 1) + 1)) := by
  have he := P.pos
  have ht0 := abs_nonneg t
  have hαv : 0 ≤ α * |v| := mul_nonneg hα (abs_nonneg v)
  obtain ⟨S, hS⟩ : ∃ S, S = |t| + α * (|v| + 1) + 1 := ⟨_, rfl⟩
  rw [← hS] at hs ⊢
  have hS1 : |t| + α + 1 ≤ S := by rw [hS]; linarith
  have hSe : 0 ≤ S * e := mul_nonneg (by linarith) he.le
  have fin : ∀ q, q ≤ 4 * S → q * e ≤ 1 := fun q hq => by
    have := mul_le_mul_of_nonneg_right hq he.le
    linarith
  have small : ∀ q, q ≤ 20 * S → q * e ≤ 20 * (e * S) := fun q hq => by
    have := mul_le_mul_of_nonneg_right hq he.le
    linarith
  unfold L1.dist l1Score
  by_cases h0 : v = 0
  · rw [if_pos ((den_beq hw den_zero).mpr h0), if_pos h0]
    obtain ⟨κ, h1, h2⟩ := score_sub P (Q := 0) (M := α) (B := α) (P.abs _ _ hg) ha (by simp) (by rw [abs_of_nonneg hα]) le_rfl he16
      (fin _ (by rw [abs_abs]; linarith))
    exact ⟨_, den_fmax den_zero h1, (abs_max_sub _ _).trans (h2.trans (small _ (by rw [abs_abs]; linarith)))⟩
  · rw [if_neg (fun h => h0 ((den_beq hw den_zero).mp h)), if_neg h0]
    have hm := P.mul _ _ _ _ (signum_den P hw h0) ha
    have hma : |(if v < 0 then -1 else 1 : ℝ) * α| = α := by rw [abs_mul, sgn_abs, one_mul, abs_of_nonneg hα]
    rw [hma] at hm
    obtain ⟨μ, hμ⟩ := hm.1 (by rw [hma, le_div_iff₀ he]; exact fin _ (by linarith))
    have hμ2 := hm.2 μ hμ
    obtain ⟨κ, h1, h2⟩ := score_sub P (Q := α + 1) (B := α) (P.neg _ _ hg) hμ (by linarith) hma.le (by linarith) he16
      (fin _ (by rw [abs_neg]; linarith))
    exact ⟨_, P.abs _ _ h1, (abs_abs_sub_abs_le_abs_sub _ _).trans (h2.trans (small _ (by rw [abs_neg]; linarith)))⟩

/-- The subgradient of the elastic net at a nonzero coefficient. -/
theorem enet_inner (P : Precise F e) {w r : F} {v ρ : ℝ} (hw : Den w v) (hr : Den r ρ) (h0 : v ≠ 0) (hρ0 : 0 ≤ ρ) (hρ1 : ρ ≤ 1)
    (he16 : 16 * e ≤ 1) (hv : 8 * ((|v| + 1) * e) ≤ 1) :
    ∃ s, Den (signum w *. r +. (one -. r) *. w) s ∧
      |s - ((if v < 0 then -1 else 1) * ρ + (1 - ρ) * v)| ≤ 5 * ((|v| + 1) * e) := by
  have he := P.pos
  have hv0 := abs_nonneg v
  have hve0 : 0 ≤ |v| * e := mul_nonneg hv0 he.le
  have hve : |v| * e ≤ 1 / 16 * |v| := by
    have := mul_le_mul_of_nonneg_left (by linarith : e ≤ 1 / 16) hv0
    linarith
  have hee : e * e ≤ 1 / 16 * e := mul_le_mul_of_nonneg_right (by linarith) he.le
  have hvee : |v| * e * e ≤ 1 / 16 * (|v| * e) := by
    have := mul_le_mul_of_nonneg_left (by linarith : e ≤ 1 / 16) hve0
    linarith
  obtain ⟨σ, hσ⟩ : ∃ σ, σ = (if v < 0 then -1 else 1 : ℝ) := ⟨_, rfl⟩
  have hσ1 : |σ| = 1 := by rw [hσ]; exact sgn_abs v
  have hσd := signum_den P hw h0
  rw [← hσ] at hσd ⊢
  have h1e : ∀ q b : ℝ, |q| ≤ b → b * e ≤ 1 → |q| ≤ 1 / e := fun q b h1 h2 => by
    rw [le_div_iff₀ he]; exact (mul_le_mul_of_nonneg_right h1 he.le).trans h2
  -- `sign * ratio`
  have m1 := P.mul _ _ _ _ hσd hr
  have hσρ : |σ * ρ| ≤ 1 := by rw [abs_mul, hσ1, one_mul, abs_of_nonneg hρ0]; exact hρ1
  obtain ⟨a1, ha1⟩ := m1.1 (h1e _ 1 hσρ (by linarith))
  have ea1 : |a1 - σ * ρ| ≤ 2 * e := (m1.2 _ ha1).trans (by
    have := mul_le_mul_of_nonneg_left hσρ he.le
    linarith)
  -- `1 - ratio`
  have m2 := P.sub _ _ _ _ P.one hr
  have hρ' : |1 - ρ| ≤ 1 := by rw [abs_of_nonneg (by linarith)]; linarith
  obtain ⟨b1, hb1⟩ := m2.1 (h1e _ 1 hρ' (by linarith))
  have eb1 : |b1 - (1 - ρ)| ≤ e := (m2.2 _ hb1).trans (by
    have := mul_le_mul_of_nonneg_left hρ' he.le
    linarith)
  have bb1 : |b1| ≤ 17 / 16 := by have := abs_le_add_sub b1 (1 - ρ); linarith
  -- `(1 - ratio) * w`
  have m3 := P.mul _ _ _ _ hb1 hw
  have hbv : |b1 * v| ≤ 17 / 16 * |v| := by rw [abs_mul]; exact mul_le_mul_of_nonneg_right bb1 hv0
  obtain ⟨b2, hb2⟩ := m3.1 (h1e _ _ hbv (by linarith))
  have eb2 : |b2 - (1 - ρ) * v| ≤ 33 / 16 * (|v| * e) + e := by
    have a1 := m3.2 _ hb2
    have e1 : b2 - (1 - ρ) * v = (b2 - b1 * v) + (b1 - (1 - ρ)) * v := by ring
    rw [e1]
    refine (abs_add_le _ _).trans ?_
    rw [abs_mul (b1 - (1 - ρ)) v]
    have a2 := mul_le_mul_of_nonneg_right eb1 hv0
    have a3 := mul_le_mul_of_nonneg_left hbv he.le
    linarith
  -- the sum
  have m4 := P.add _ _ _ _ ha1 hb2
  obtain ⟨I, hI⟩ : ∃ I, I = σ * ρ + (1 - ρ) * v := ⟨_, rfl⟩
  have hIb : |I| ≤ 1 + |v| := by
    rw [hI]
    refine (abs_add_le _ _).trans (add_le_add hσρ ?_)
    rw [abs_mul]
    exact mul_le_of_le_one_left hv0 hρ'
  have es : |a1 + b2 - I| ≤ 33 / 16 * (|v| * e) + 3 * e := by
    have e1 : a1 + b2 - I = (a1 - σ * ρ) + (b2 - (1 - ρ) * v) := by rw [hI]; ring
    rw [e1]
    refine (abs_add_le _ _).trans ?_
    linarith
  have bs : |a1 + b2| ≤ 5 / 4 * (1 + |v|) := by
    have := abs_le_add_sub (a1 + b2) I
    linarith
  obtain ⟨s, hs1⟩ := m4.1 (h1e _ _ bs (by linarith))
  refine ⟨s, hs1, ?_⟩
  rw [← hI]
  have a1' := m4.2 _ hs1
  have a2 := mul_le_mul_of_nonneg_left bs he.le
  rw [← sub_add_sub_cancel s (a1 + b2) I]
  refine (abs_add_le _ _).trans ((add_le_add a1' es).trans ?_)
  linarith

theorem enet_score_err (P : Precise F e) {w g a r : F} {v t α ρ : ℝ} (hw : Den w v) (hg : Den g t) (ha : Den a α) (hr : Den r ρ)
    (hα : 0 ≤ α) (hρ0 : 0 ≤ ρ) (hρ1 : ρ ≤ 1) (he16 : 16 * e ≤ 1) (hs : 8 * ((|t| + α * (|v| + 1) + 1) * e) ≤ 1)
    (hv : 8 * ((|v| + 1) * e) ≤ 1) :
    ∃ κ, Den ((L1PlusL2.mk a r).dist w g) κ ∧ |κ - enetScore α ρ v t| ≤ 20 * (e * (|t| + α * (|v| + 1) + 1)) := by
  have he := P.pos
  have ht0 := abs_nonneg t
  have hv0 := abs_nonneg v
  obtain ⟨A, hA⟩ : ∃ A, A = α * (|v| + 1) := ⟨_, rfl⟩
  have hαA : α ≤ A := by rw [hA]; exact le_mul_of_one_le_right hα (by linarith)
  rw [← hA] at hs ⊢
  obtain ⟨S, hS⟩ : ∃ S, S = |t| + A + 1 := ⟨_, rfl⟩
  rw [← hS] at hs ⊢
  have hSe : 0 ≤ S * e := mul_nonneg (by linarith) he.le
  have fin : ∀ q, q ≤ 8 * S → q * e ≤ 1 := fun q hq => by
    have := mul_le_mul_of_nonneg_right hq he.le
    linarith
  have small : ∀ q, q ≤ 20 * S → q * e ≤ 20 * (e * S) := fun q hq => by
    have := mul_le_mul_of_nonneg_right hq he.le
    linarith
  unfold L1PlusL2.dist enetScore
  have hαρ : |α * ρ| ≤ A := by
    rw [abs_of_nonneg (mul_nonneg hα hρ0)]
    exact (mul_le_of_le_one_right hα hρ1).trans hαA
  by_cases h0 : v = 0
  · rw [if_pos ((den_beq hw den_zero).mpr h0), if_pos h0]
    have hm := P.mul _ _ _ _ ha hr
    obtain ⟨μ, hμ⟩ := hm.1 (by rw [le_div_iff₀ he]; exact fin _ (by linarith))
    have hμ2 := hm.2 μ hμ
    have hμ3 : |μ - α * ρ| ≤ (A + 1) * e := hμ2.trans (by
      have := mul_le_mul_of_nonneg_left hαρ he.le
      linarith)
    obtain ⟨κ, h1, h2⟩ := score_sub P (Q := A + 1) (P.abs _ _ hg) hμ hμ3 hαρ (by linarith) he16
      (fin _ (by rw [abs_abs]; linarith))
    exact ⟨_, den_fmax den_zero h1, (abs_max_sub _ _).trans (h2.trans (small _ (by rw [abs_abs]; linarith)))⟩
  · rw [if_neg (fun h => h0 ((den_beq hw den_zero).mp h)), if_neg h0]
    obtain ⟨s, hs1, hs2⟩ := enet_inner P hw hr h0 hρ0 hρ1 he16 hv
    obtain ⟨I, hI⟩ : ∃ I, I = (if v < 0 then -1 else 1) * ρ + (1 - ρ) * v := ⟨_, rfl⟩
    rw [← hI] at hs2 ⊢
    have hIb : |I| ≤ |v| + 1 := by
      rw [hI]
      refine (abs_add_le _ _).trans ?_
      rw [abs_mul, abs_mul, sgn_abs, one_mul, abs_of_nonneg hρ0, abs_of_nonneg (by linarith : 0 ≤ 1 - ρ)]
      have := mul_le_of_le_one_left hv0 (by linarith : 1 - ρ ≤ 1)
      linarith
    have bs : |s| ≤ 2 * (|v| + 1) := by
      have := abs_le_add_sub s I
      have h5 : 5 * ((|v| + 1) * e) ≤ 5 * ((|v| + 1) * (1 / 16)) :=
        mul_le_mul_of_nonneg_left (mul_le_mul_of_nonneg_left (by linarith) (by linarith)) (by norm_num)
      linarith
    have m5 := P.mul _ _ _ _ ha hs1
    have has : |α * s| ≤ 2 * A := by
      rw [abs_mul, abs_of_nonneg hα]
      have := mul_le_mul_of_nonneg_left bs hα
      rw [hA]
      linarith
    obtain ⟨m, hm⟩ := m5.1 (by
      rw [le_div_iff₀ he]
      exact (mul_le_mul_of_nonneg_right has he.le).trans (fin _ (by linarith)))
    have em : |m - α * I| ≤ (7 * A + 1) * e := by
      have a1 := m5.2 _ hm
      have e1 : m - α * I = (m - α * s) + α * (s - I) := by ring
      rw [e1]
      refine (abs_add_le _ _).trans ?_
      rw [abs_mul α (s - I), abs_of_nonneg hα]
      have a2 := mul_le_mul_of_nonneg_left hs2 hα
      have a3 := mul_le_mul_of_nonneg_left has he.le
      have a4 : α * (5 * ((|v| + 1) * e)) = 5 * (A * e) := by rw [hA]; ring
      linarith
    have hIα : |α * I| ≤ A := by
      rw [abs_mul, abs_of_nonneg hα, hA]
      exact mul_le_mul_of_nonneg_left hIb hα
    obtain ⟨κ, h1, h2⟩ := score_sub P (Q := 7 * A + 1) (P.neg _ _ hg) hm em hIα (by linarith) he16
      (fin _ (by rw [abs_neg]; linarith))
    exact ⟨_, P.abs _ _ h1, (abs_abs_sub_abs_le_abs_sub _ _).trans (h2.trans (small _ (by rw [abs_neg]; linarith)))⟩

/-- The penalty of a call. -/
def PenOf.distOf : PenOf F → F → F → F
  | .l1 a => (L1.mk a).dist
  | .enet a r => (L1PlusL2.mk a r).dist

theorem score_err (P : Precise F e) {pen' : PenOf F} {pen : Pen} (hp : pen'.Holds pen) (hv : pen.Valid) {w g : F} {v t : ℝ}
    (hw : Den w v) (hg : Den g t) (he16 : 16 * e ≤ 1) (hs : 8 * ((|t| + pen.alpha * (|v| + 1) + 1) * e) ≤ 1)
    (hv8 : 8 * ((|v| + 1) * e) ≤ 1) :
    ∃ κ, Den (PenOf.distOf pen' w g) κ ∧ |κ - scoreOf pen v t| ≤ 20 * (e * (|t| + pen.alpha * (|v| + 1) + 1)) := by
  cases pen' with
  | l1 a =>
    cases pen with
    | l1 α => exact l1_score_err P hw hg hp hv he16 hs
    | enet α ρ => exact hp.elim
    | mcp α γ => exact hp.elim
    | l05 α => exact hp.elim
  | enet a r =>
    cases pen with
    | l1 α => exact hp.elim
    | enet α ρ => exact enet_score_err P hw hg hp.1 hp.2 hv.1 hv.2.1 hv.2.2 he16 hs hv8
    | mcp α γ => exact hp.elim
    | l05 α => exact hp.elim

/-- Scores are 1-Lipschitz in the gradient. -/
theorem scoreOf_lip (pen : Pen) (hc : pen.Convex) (v t t' : ℝ) : |scoreOf pen v t - scoreOf pen v t'| ≤ |t - t'| := by
  cases pen with
  | l1 α =>
    show |l1Score α v t - l1Score α v t'| ≤ _
    unfold l1Score
    split
    · refine (abs_max_sub _ _).trans ?_
      rw [sub_sub_sub_cancel_right]
      exact abs_abs_sub_abs_le_abs_sub _ _
    · refine (abs_abs_sub_abs_le_abs_sub _ _).trans (le_of_eq ?_)
      rw [sub_sub_sub_cancel_right, ← abs_neg]
      ring_nf
  | enet α ρ =>
    show |enetScore α ρ v t - enetScore α ρ v t'| ≤ _
    unfold enetScore
    split
    · refine (abs_max_sub _ _).trans ?_
      rw [sub_sub_sub_cancel_right]
      exact abs_abs_sub_abs_le_abs_sub _ _
    · refine (abs_abs_sub_abs_le_abs_sub _ _).trans (le_of_eq ?_)
      rw [sub_sub_sub_cancel_right, ← abs_neg]
      ring_nf
  | mcp α γ => exact hc.elim
  | l05 α => exact hc.elim

/-! ## Columns of sparse matrices -/

/-- The same pattern with the absolute values of the entries. -/
def absCSC (A : CSCData n p) : CSCData n p := { A with data := fun k => |A.data k| }

theorem dense_noDup (A : CSCData n p) (hA : A.NoDup) {j : Fin p} {k : Fin A.nnz} (hk : A.InCol j k) :
    A.dense (A.row k) j = A.data k := by
  unfold CSCData.dense
  rw [Finset.sum_eq_single k]
  · rw [if_pos ⟨hk, rfl⟩]
  · intro k' _ hne
    rw [if_neg]
    rintro ⟨h1, h2⟩
    exact hne (hA j k' k h1 hk h2)
  · simp

theorem abs_dense (A : CSCData n p) (hA : A.NoDup) (i : Fin n) (j : Fin p) : (absCSC A).dense i j = |A.dense i j| := by
  by_cases h : ∃ k, A.InCol j k ∧ A.row k = i
  · obtain ⟨k, h1, rfl⟩ := h
    rw [dense_noDup A hA h1]
    exact dense_noDup (absCSC A) hA h1
  · have h0 : A.dense i j = 0 := Finset.sum_eq_zero fun k _ => if_neg fun hk => h ⟨k, hk⟩
    have h1 : (absCSC A).dense i j = 0 := Finset.sum_eq_zero fun k _ => if_neg fun hk => h ⟨k, hk⟩
    rw [h0, h1, abs_zero]

theorem sum_colList_abs (A : CSCData n p) (hA : A.NoDup) (j : Fin p) (f : Fin n → ℝ) :
    ((colList A j).map (fun k => |A.data k * f (A.row k)|)).sum = ∑ i, |A.dense i j| * |f i| := by
  have h := sum_colList (absCSC A) j (fun i => |f i|)
  simp only [abs_dense A hA] at h
  rw [← h]
  congr 1
  refine List.map_congr_left fun k _ => ?_
  rw [abs_mul]
  rfl

theorem colList_length (A : CSCData n p) (hA : A.NoDup) (j : Fin p) : (colList A j).length ≤ n := by
  have hnd : ((colList A j).map A.row).Nodup := by
    refine (List.nodup_map_iff_inj_on ?_).mpr ?_
    · unfold colList
      exact (List.nodup_finRange _).filter _
    · intro k hk k' hk' h
      exact hA j k k' (by simpa [colList] using hk) (by simpa [colList] using hk') h
  have := List.Nodup.length_le_card hnd
  simpa using this

/-! ## The violation -/

/-- A design for which the errors of the gradients are bounded. -/
theorem grad_dense (P : Precise F e) (hn : 0 < n) (x : Fin n → Fin p → F) (X : Fin n → Fin p → ℝ) (hx : ∀ i j, Den (x i j) (X i j))
    (y z : Fin n → F) (Y Z : Fin n → ℝ) (hy : ∀ i, Den (y i) (Y i)) (hz : ∀ i, Den (z i) (Z i)) (hne : 8 * (n * e) ≤ 1) (j : Fin p)
    {S : ℝ} (hS : ∑ i, |X i j| * (|Z i| + |Y i|) + 1 ≤ S) (hs : 64 * (S * e) ≤ 1) :
    ∃ t, Den ((dot (List.ofFn fun i => x i j) (List.ofFn z) -. dot (List.ofFn fun i => x i j) (List.ofFn y)) /. Scalar.ofNat n) t ∧
      |t - lsqGrad X Y Z j| ≤ 17 * (e * S) := by
  have he := P.pos
  have hnn : (0 : ℝ) ≤ n := Nat.cast_nonneg n
  have hne0 : (0 : ℝ) ≤ n * e := mul_nonneg hnn he.le
  have hPz : 0 ≤ ∑ i, |X i j * Z i| := Finset.sum_nonneg fun i _ => abs_nonneg _
  have hPy : 0 ≤ ∑ i, |X i j * Y i| := Finset.sum_nonneg fun i _ => abs_nonneg _
  have hsum : ∑ i, |X i j| * (|Z i| + |Y i|) = ∑ i, |X i j * Z i| + ∑ i, |X i j * Y i| := by
    rw [← Finset.sum_add_distrib]
    exact Finset.sum_congr rfl fun i _ => by rw [abs_mul, abs_mul]; ring
  rw [hsum] at hS
  have h1 : n * e ≤ 1 := by linarith
  have fin : ∀ q : ℝ, q ≤ S → q ≤ 1 / e := fun q hq => by
    rw [le_div_iff₀ he]
    have := mul_le_mul_of_nonneg_right hq he.le
    linarith [mul_nonneg (by linarith : 0 ≤ S) he.le]
  have dz := P.dot n (fun i => x i j) z (fun i => X i j) Z (fun i => hx i j) hz h1
  have dy := P.dot n (fun i => x i j) y (fun i => X i j) Y (fun i => hx i j) hy h1
  obtain ⟨δ, hδ⟩ := dz.1 (fin _ (by linarith))
  obtain ⟨γ, hγ⟩ := dy.1 (fin _ (by linarith))
  have hδ2 := dz.2 δ hδ
  have hγ2 := dy.2 γ hγ
  obtain ⟨t, h2, h3⟩ := grad_err P hn hδ hγ (N := n) (A := ∑ i, X i j * Z i) (B := ∑ i, X i j * Y i) (Pz := ∑ i, |X i j * Z i|)
    (Py := ∑ i, |X i j * Y i|) hnn le_rfl (hδ2.trans (by nlinarith)) (hγ2.trans (by nlinarith)) (Finset.abs_sum_le_sum_abs _ _)
    (Finset.abs_sum_le_sum_abs _ _) hS hne hs
  refine ⟨t, h2, ?_⟩
  have : lsqGrad X Y Z j = (∑ i, X i j * Z i - ∑ i, X i j * Y i) / n := by
    unfold lsqGrad
    rw [← Finset.sum_sub_distrib]
    exact congrArg (· / (n : ℝ)) (Finset.sum_congr rfl fun i _ => by ring)
  rw [this]
  exact h3

theorem grad_csc (P : Precise F e) (hn : 0 < n) (A : CSCData n p) (hA : A.NoDup) (x : Fin A.nnz → F) (hx : ∀ k, Den (x k) (A.data k))
    (y z : Fin n → F) (Y Z : Fin n → ℝ) (hy : ∀ i, Den (y i) (Y i)) (hz : ∀ i, Den (z i) (Z i)) (hne : 8 * (n * e) ≤ 1) (j : Fin p)
    {S : ℝ} (hS : ∑ i, |A.dense i j| * (|Z i| + |Y i|) + 1 ≤ S) (hs : 64 * (S * e) ≤ 1) :
    ∃ t, Den ((colFold A x (fun k => z (A.row k)) j -. colFold A x (fun k => y (A.row k)) j) /. Scalar.ofNat n) t ∧
      |t - lsqGrad A.dense Y Z j| ≤ 17 * (e * S) := by
  have he := P.pos
  have hnn : (0 : ℝ) ≤ n := Nat.cast_nonneg n
  have hlen : ((colList A j).length : ℝ) ≤ n := by exact_mod_cast colList_length A hA j
  have hl0 : (0 : ℝ) ≤ (colList A j).length := Nat.cast_nonneg _
  have hPz : 0 ≤ ∑ i, |A.dense i j| * |Z i| := Finset.sum_nonneg fun i _ => by positivity
  have hPy : 0 ≤ ∑ i, |A.dense i j| * |Y i| := Finset.sum_nonneg fun i _ => by positivity
  have hsum : ∑ i, |A.dense i j| * (|Z i| + |Y i|) = ∑ i, |A.dense i j| * |Z i| + ∑ i, |A.dense i j| * |Y i| := by
    rw [← Finset.sum_add_distrib]
    exact Finset.sum_congr rfl fun i _ => by ring
  rw [hsum] at hS
  have hle : 8 * ((colList A j).length * e) ≤ 1 := by
    have := mul_le_mul_of_nonneg_right hlen he.le
    linarith
  have habs : ∀ U : Fin n → ℝ, |∑ i, A.dense i j * U i| ≤ ∑ i, |A.dense i j| * |U i| := fun U => by
    refine (Finset.abs_sum_le_sum_abs _ _).trans (le_of_eq (Finset.sum_congr rfl fun i _ => abs_mul _ _))
  have part : ∀ (u : Fin n → F) (U : Fin n → ℝ), (∀ i, Den (u i) (U i)) → ∑ i, |A.dense i j| * |U i| + 1 ≤ S →
      ∃ t, Den (colFold A x (fun k => u (A.row k)) j) t ∧
        |t - ∑ i, A.dense i j * U i| ≤ 4 * ((colList A j).length * e) * (∑ i, |A.dense i j| * |U i| + 1) := by
    intro u U hu hU
    have := foldProd_err P x (fun k => u (A.row k)) A.data (fun k => U (A.row k)) (colList A j) (fun k _ => ⟨hx k, hu _⟩) hle (by
      rw [sum_colList_abs A hA]
      have := mul_le_mul_of_nonneg_right hU he.le
      nlinarith)
    rwa [sum_colList_abs A hA, sum_colList] at this
  obtain ⟨δ, hδ, hδ2⟩ := part z Z hz (by linarith)
  obtain ⟨γ, hγ, hγ2⟩ := part y Y hy (by linarith)
  obtain ⟨t, h2, h3⟩ := grad_err P hn hδ hγ hl0 hlen hδ2 hγ2 (habs Z) (habs Y) hS hne hs
  refine ⟨t, h2, ?_⟩
  have : lsqGrad A.dense Y Z j = (∑ i, A.dense i j * Z i - ∑ i, A.dense i j * Y i) / n := by
    unfold lsqGrad
    rw [← Finset.sum_sub_distrib]
    exact congrArg (· / (n : ℝ)) (Finset.sum_congr rfl fun i _ => by ring)
  rw [this]
  exact h3

omit [LawfulCmp F] in
theorem quad_init_dense (x : Fin n → Fin p → F) (y : Fin n → F) (df : Quadratic F) :
    Datafit.init df (⟨matOf x, Targets.one (List.ofFn y)⟩ : Dataset (Mat F) F) =
      .ok (⟨List.ofFn fun j => dot (List.ofFn fun i => x i j) (List.ofFn fun i => x i j) /. Scalar.ofNat n,
        List.ofFn fun j => dot (List.ofFn fun i => x i j) (List.ofFn y)⟩ : Quadratic F) := by
  show Quadratic.initDense _ = _
  unfold Quadratic.initDense
  simp only [single_oneOf, bind, Except.bind, tMulVec_matOf, one_nSamplesOf, colSqNorms_matOf, pure, Except.pure]

omit [LawfulCmp F] in
theorem quad_init_csc (A : CSCData n p) (x : Fin A.nnz → F) (y : Fin n → F) (df : Quadratic F) :
    Datafit.init df (⟨A.toCSCOf x, Targets.one (List.ofFn y)⟩ : Dataset (CSC F) F) =
      .ok (⟨List.ofFn fun j => colFold A x x j /. Scalar.ofNat n,
        List.ofFn fun j => colFold A x (fun k => y (A.row k)) j⟩ : Quadratic F) := by
  show Quadratic.initCSC _ = _
  unfold Quadratic.initCSC
  have hnf : DesignMatrix.nFeatures (A.toCSCOf x) = .ok p := nFeatures_toCSCOf A x
  simp only [single_oneOf, one_nSamplesOf]
  rw [show (A.toCSCOf x).nFeatures = .ok p from hnf]
  simp only [bind, Except.bind]
  rw [mapM_range (fun j => (colFold A x x j /. Scalar.ofNat n, colFold A x (fun k => y (A.row k)) j))]
  · simp only [pure, Except.pure, List.map_ofFn]
    rfl
  · intro j
    rw [colRange_toCSCOf]
    dsimp only
    have := foldlM_col A j (fun s : F × F => s) (fun acc idx => do
        let d ← (A.toCSCOf x).dataAt idx
        let i ← (A.toCSCOf x).rowAt idx
        let yi ← getM (List.ofFn y) i
        pure (acc.1 +. d *. d, acc.2 +. d *. yi))
      (fun s k => (s.1 +. x k *. x k, s.2 +. x k *. y (A.row k))) (by
        intro t k
        simp only [dataAt_toCSCOf, rowAt_toCSCOf, bind, Except.bind, getM_ofFn]
        rfl) (zero, zero)
    simp only [bind, Except.bind] at this
    rw [this]
    simp only [foldl_pair (colList A j) (fun a k => a +. x k *. x k) (fun b k => b +. x k *. y (A.row k))]
    rfl

omit [LawfulCmp F] in
theorem quad_grad_dense (x : Fin n → Fin p → F) (y z : Fin n → F) (L c : Fin p → F) (j : Fin p) :
    Datafit.gradientJ (⟨List.ofFn L, List.ofFn c⟩ : Quadratic F) (⟨matOf x, Targets.one (List.ofFn y)⟩ : Dataset (Mat F) F) (List.ofFn z) j =
      .ok ((dot (List.ofFn fun i => x i j) (List.ofFn z) -. c j) /. Scalar.ofNat n) := by
  show Quadratic.gradDense _ _ _ _ = _
  unfold Quadratic.gradDense
  simp only [colM_matOf, bind, Except.bind, dotM_ofFn, getM_ofFn, pure, Except.pure, one_nSamplesOf]

omit [LawfulCmp F] in
theorem quad_grad_csc (A : CSCData n p) (x : Fin A.nnz → F) (y z : Fin n → F) (L c : Fin p → F) (j : Fin p) :
    Datafit.gradientJ (⟨List.ofFn L, List.ofFn c⟩ : Quadratic F) (⟨A.toCSCOf x, Targets.one (List.ofFn y)⟩ : Dataset (CSC F) F)
      (List.ofFn z) j = .ok ((colFold A x (fun k => z (A.row k)) j -. c j) /. Scalar.ofNat n) := by
  show Quadratic.gradCSC _ _ _ _ = _
  unfold Quadratic.gradCSC
  simp only [one_nSamplesOf, colRange_toCSCOf, bind, Except.bind, getM_ofFn]
  have := foldlM_col A j (fun s : F => s) (fun acc idx => do
      let d ← (A.toCSCOf x).dataAt idx
      let i ← (A.toCSCOf x).rowAt idx
      let xw ← getM (List.ofFn z) i
      pure (acc +. d *. xw))
    (fun s k => s +. x k *. z (A.row k)) (by
      intro t k
      simp only [dataAt_toCSCOf, rowAt_toCSCOf, bind, Except.bind, getM_ofFn]
      rfl) zero
  simp only [bind, Except.bind] at this
  rw [this]
  rfl

/-- The violation in terms of gradients. -/
theorem check_eq {DM DF Q : Type} [DesignMatrix F DM] [Datafit F DM DF] [Penalty F Q] (ds : Dataset DM F) (df : DF) (pn : Q)
    (f : F → F → F) (hf : ∀ w g ws, Penalty.subdiffDistance pn w g ws = sepDistances f w g ws) (w : Fin p → F) (z : Fin n → F)
    (g : Fin p → F) (hg : ∀ j : Fin p, Datafit.gradientJ df ds (List.ofFn z) j = .ok (g j)) :
    optCondViolation ds (List.ofFn w) (List.ofFn z) (List.range p) df pn =
      .ok (List.ofFn fun j => f (w j) (g j), maxDist (List.ofFn fun j => f (w j) (g j))) := by
  unfold optCondViolation constructGrad
  rw [mapM_range g hg]
  simp only [bind, Except.bind]
  rw [hf]
  exact sepDistances_all f _ g

/-- The computed violations of least squares problems. -/
theorem check_scores (P : Precise F e) (hn : 0 < n) (hne : 8 * (n * e) ≤ 1) (D : Design n p) (hD : D.Canonical) (x : D.Entries F)
    (hx : D.Holds x) (y : Fin n → F) (Y : Fin n → ℝ) (hy : ∀ i, Den (y i) (Y i)) (pen' : PenOf F) (pen : Pen) (hp : pen'.Holds pen)
    (hv : pen.Valid) (w : Fin p → F) (v : Fin p → ℝ) (hw : ∀ j, Den (w j) (v j)) (z : Fin n → F) (Z : Fin n → ℝ)
    (hz : ∀ i, Den (z i) (Z i)) (hs : ∀ j, 64 * (checkSize D.matrix Y pen v Z j * e) ≤ 1) :
    ∃ (κ : Fin p → F) (k : Fin p → ℝ), (∀ j, Den (κ j) (k j)) ∧
      checkOf D x y .quadratic pen' w z = .ok (maxDist (List.ofFn κ)) ∧
      ∀ j, |k j - scoreOf pen (v j) (lsqGrad D.matrix Y Z j)| ≤ 50 * (e * checkSize D.matrix Y pen v Z j) := by
  have he := P.pos
  have hα : 0 ≤ pen.alpha := by
    cases pen with
    | l1 α => exact hv
    | enet α ρ => exact hv.1
    | mcp α γ => exact hv.1
    | l05 α => exact hv.le
  have hc : pen.Convex := by
    cases pen <;> cases pen' <;> first | exact trivial | exact hp.elim
  -- the gradients
  have key : ∃ g : Fin p → F, (∀ j, ∃ t, Den (g j) t ∧ |t - lsqGrad D.matrix Y Z j| ≤ 17 * (e * checkSize D.matrix Y pen v Z j)) ∧
      checkOf D x y .quadratic pen' w z = .ok (maxDist (List.ofFn fun j => PenOf.distOf pen' (w j) (g j))) := by
    have hS : ∀ j, ∑ i, |D.matrix i j| * (|Z i| + |Y i|) + 1 ≤ checkSize D.matrix Y pen v Z j := fun j => by
      unfold checkSize
      have := abs_nonneg (v j)
      nlinarith [mul_nonneg hα this]
    cases D with
    | dense X =>
      change Fin n → Fin p → F at x
      refine ⟨fun j => _, fun j => grad_dense P hn x X hx y z Y Z hy hz hne j (hS j) (hs j), ?_⟩
      unfold checkOf callOf
      cases pen' with
      | l1 a =>
        show (Datafit.init _ _ >>= _) = _
        rw [quad_init_dense]
        simp only [bind, Except.bind]
        rw [check_eq _ _ (L1.mk a) (L1.mk a).dist (fun _ _ _ => rfl) w z _ (fun j => quad_grad_dense x y z _ _ j)]
        rfl
      | enet a r =>
        show (Datafit.init _ _ >>= _) = _
        rw [quad_init_dense]
        simp only [bind, Except.bind]
        rw [check_eq _ _ (L1PlusL2.mk a r) (L1PlusL2.mk a r).dist (fun _ _ _ => rfl) w z _ (fun j => quad_grad_dense x y z _ _ j)]
        rfl
    | csc A =>
      change Fin A.nnz → F at x
      refine ⟨fun j => _, fun j => grad_csc P hn A hD x hx y z Y Z hy hz hne j (hS j) (hs j), ?_⟩
      unfold checkOf callOf
      cases pen' with
      | l1 a =>
        show (Datafit.init _ _ >>= _) = _
        rw [quad_init_csc]
        simp only [bind, Except.bind]
        rw [check_eq _ _ (L1.mk a) (L1.mk a).dist (fun _ _ _ => rfl) w z _ (fun j => quad_grad_csc A x y z _ _ j)]
        rfl
      | enet a r =>
        show (Datafit.init _ _ >>= _) = _
        rw [quad_init_csc]
        simp only [bind, Except.bind]
        rw [check_eq _ _ (L1PlusL2.mk a r) (L1PlusL2.mk a r).dist (fun _ _ _ => rfl) w z _ (fun j => quad_grad_csc A x y z _ _ j)]
        rfl
  obtain ⟨g, hg, hck⟩ := key
  have hsc : ∀ j, ∃ κ, Den (PenOf.distOf pen' (w j) (g j)) κ ∧
      |κ - scoreOf pen (v j) (lsqGrad D.matrix Y Z j)| ≤ 50 * (e * checkSize D.matrix Y pen v Z j) := by
    intro j
    obtain ⟨t, ht, htG⟩ := hg j
    obtain ⟨S, hS⟩ : ∃ S, S = checkSize D.matrix Y pen v Z j := ⟨_, rfl⟩
    have hsj := hs j
    rw [← hS] at hsj htG ⊢
    have hv0 := abs_nonneg (v j)
    have hαv := mul_nonneg hα hv0
    have hG : |lsqGrad D.matrix Y Z j| + (pen.alpha + 1) * (|v j| + 1) ≤ S := by
      rw [hS]
      unfold checkSize lsqGrad
      refine add_le_add ?_ le_rfl
      have hn1 : (1 : ℝ) ≤ n := by exact_mod_cast hn
      rw [abs_div, abs_of_pos (by linarith : (0 : ℝ) < n), div_le_iff₀ (by linarith)]
      have h1 : |∑ i, D.matrix i j * (Z i - Y i)| ≤ ∑ i, |D.matrix i j| * (|Z i| + |Y i|) := by
        refine (Finset.abs_sum_le_sum_abs _ _).trans (Finset.sum_le_sum fun i _ => ?_)
        rw [abs_mul]
        exact mul_le_mul_of_nonneg_left (abs_sub _ _) (abs_nonneg _)
      have h2 : 0 ≤ ∑ i, |D.matrix i j| * (|Z i| + |Y i|) := Finset.sum_nonneg fun i _ => by positivity
      nlinarith
    have hS1 : 1 ≤ S := by nlinarith [abs_nonneg (lsqGrad D.matrix Y Z j)]
    have hSe : e ≤ S * e := le_mul_of_one_le_left he.le hS1
    have htS : |t| + pen.alpha * (|v j| + 1) + 1 ≤ 82 / 64 * S := by
      have := abs_le_add_sub t (lsqGrad D.matrix Y Z j)
      nlinarith
    have hvS : |v j| + 1 ≤ S := by nlinarith [abs_nonneg (lsqGrad D.matrix Y Z j)]
    obtain ⟨κ, h1, h2⟩ := score_err P hp hv (hw j) ht (by linarith) (by
      have := mul_le_mul_of_nonneg_right htS he.le
      nlinarith) (by
      have := mul_le_mul_of_nonneg_right hvS he.le
      linarith)
    refine ⟨κ, h1, ?_⟩
    have h3 := scoreOf_lip pen hc (v j) t (lsqGrad D.matrix Y Z j)
    have e1 : κ - scoreOf pen (v j) (lsqGrad D.matrix Y Z j) =
      (κ - scoreOf pen (v j) t) + (scoreOf pen (v j) t - scoreOf pen (v j) (lsqGrad D.matrix Y Z j)) := by ring
    rw [e1]
    refine (abs_add_le _ _).trans ?_
    have h4 := mul_le_mul_of_nonneg_left htS he.le
    nlinarith
  choose k hk1 hk2 using hsc
  exact ⟨fun j => PenOf.distOf pen' (w j) (g j), k, hk1, hck, hk2⟩

end Sglm
