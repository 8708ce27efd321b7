import Verif.Props.NullFloat
import Verif.Props.Rounding
import Verif.Proofs.IEEELaws
import Verif.Summation

/-!
# The floating-point theorems for IEEE 754 arithmetic

The theorems C62, C63, C65, C67 and so on are stated for arithmetic with certain laws.  Here the laws are derived for IEEE 754
`binary64` (`f64`) and `binary32` (`f32`) arithmetic: numbers are of the form `± m 2^k` with bounded `m` and `k`, results are rounded to
nearest, ties to even, with overflow to infinity, gradual underflow, signed zeros and NaN.  Sums and dot products may be computed in
any order (`Summation`).  `exp` and `ln` are taken to be correctly rounded, which the libraries only approximate.
-/

namespace Sglm
open Scalar Spec
variable {n p : ℕ}

/-- The laws of rounded arithmetic used by C62, C63, C65, …, for any binary format with at most 53 significant bits. -/
theorem ieee_laws (f : Format) (S : Summation f) (h : f.t ≤ 52) (k : LossKind) : FloatLaws k (IEEE f S) f.eps :=
  ⟨IEEE.precise f S, IEEE.propagates f S, fun _ => IEEE.preciseExp f S h⟩

/-- `f64`: the laws hold with relative precision `2⁻⁵⁰`. -/
theorem ieee_binary64 (S : Summation binary64) (k : LossKind) : FloatLaws k (IEEE binary64 S) (1 / 2 ^ 50) :=
  ieee_laws binary64 S le_rfl k

/-- `f32`: the laws hold with relative precision `2⁻²¹`. -/
theorem ieee_binary32 (S : Summation binary32) (k : LossKind) : FloatLaws k (IEEE binary32 S) (1 / 2 ^ 21) :=
  ieee_laws binary32 S (by show 23 ≤ 52; norm_num) k

/-- **C67 for `f64` and `f32`**: `Lasso::fit` with `alpha = compute_alpha_max(X, y)`, or more, returns zeros, whatever the order of
the summations. -/
theorem C67_lasso_ieee (f : Format) (S : Summation f) (hn : 0 < n) (hnf : (n : ℝ) ≤ 1 / f.eps) (x : Fin n → Fin p → IEEE f S)
    (y : Fin n → IEEE f S) (X : Fin n → Fin p → ℝ) (Y : Fin n → ℝ) (hx : ∀ i j, Den (x i j) (X i j)) (hy : ∀ i, Den (y i) (Y i))
    (hb : ∀ j, ∑ i, |X i j * Y i| ≤ 1 / f.eps) :
    ∃ a, computeAlphaMax (matOf x) (List.ofFn y) = .ok a ∧ ∀ (ps : LassoParams (IEEE f S)), ps.checkRef = .ok ps →
      (a <=. ps.alpha) = true → (∃ r, Den ps.alpha r) → (∃ τ, Den ps.tolerance τ ∧ 0 ≤ τ) → ∀ srt,
      Lasso.fit srt ps ⟨matOf x, Targets.one (List.ofFn y)⟩ = .ok (.ok (List.replicate p zero)) := by
  have P := IEEE.precise f S
  have ha : ∃ a, computeAlphaMax (matOf x) (List.ofFn y) = .ok a := by
    unfold computeAlphaMax
    rw [tMulVec_matOf, matOf_nrows]
    exact ⟨_, rfl⟩
  obtain ⟨a, ha⟩ := ha
  refine ⟨a, ha, fun ps hok hle hα ht srt => ?_⟩
  refine C67_lasso (IEEE.monoRounded f S) hn x y (fun i j => ⟨_, hx i j⟩) (fun j => ?_) ((P.ofNat n).1 ?_) a ha ps ps hok hle hα ht srt
  · refine (P.dot n (fun i => x i j) y (fun i => X i j) Y (fun i => hx i j) hy ?_).1 (hb j)
    have := mul_le_mul_of_nonneg_right hnf f.eps_pos.le
    rwa [div_mul_cancel₀ _ f.eps_pos.ne'] at this
  · rwa [abs_of_nonneg (Nat.cast_nonneg n)]

/-- The same for the elastic net. -/
theorem C67_elastic_net_ieee (f : Format) (S : Summation f) (hn : 0 < n) (hnf : (n : ℝ) ≤ 1 / f.eps) (x : Fin n → Fin p → IEEE f S)
    (y : Fin n → IEEE f S) (X : Fin n → Fin p → ℝ) (Y : Fin n → ℝ) (hx : ∀ i j, Den (x i j) (X i j)) (hy : ∀ i, Den (y i) (Y i))
    (hb : ∀ j, ∑ i, |X i j * Y i| ≤ 1 / f.eps) :
    ∃ a, computeAlphaMax (matOf x) (List.ofFn y) = .ok a ∧ ∀ (ps : ElasticNetParams (IEEE f S)), ps.checkRef = .ok ps →
      (a <=. ps.alpha *. ps.l1Ratio) = true → (∃ r, Den (ps.alpha *. ps.l1Ratio) r) → (∃ τ, Den ps.tolerance τ ∧ 0 ≤ τ) → ∀ srt,
      ElasticNet.fit srt ps ⟨matOf x, Targets.one (List.ofFn y)⟩ = .ok (.ok (List.replicate p zero)) := by
  have P := IEEE.precise f S
  have ha : ∃ a, computeAlphaMax (matOf x) (List.ofFn y) = .ok a := by
    unfold computeAlphaMax
    rw [tMulVec_matOf, matOf_nrows]
    exact ⟨_, rfl⟩
  obtain ⟨a, ha⟩ := ha
  refine ⟨a, ha, fun ps hok hle hα ht srt => ?_⟩
  refine C67_elastic_net (IEEE.monoRounded f S) hn x y (fun i j => ⟨_, hx i j⟩) (fun j => ?_) ((P.ofNat n).1 ?_) a ha ps ps hok hle hα ht srt
  · refine (P.dot n (fun i => x i j) y (fun i => X i j) Y (fun i => hx i j) hy ?_).1 (hb j)
    have := mul_le_mul_of_nonneg_right hnf f.eps_pos.le
    rwa [div_mul_cancel₀ _ f.eps_pos.ne'] at this
  · rwa [abs_of_nonneg (Nat.cast_nonneg n)]

theorem signBit_ieee {f : Format} (S : Summation f) {x : ℝ} (hx : 0 ≤ x) : signBit (IEEE.of S x) = false := by
  show Num.signBit (Num.ofReal false x : Num f) = false
  have h : (if x = 0 then false else decide (x < 0)) = false := by
    split
    · rfl
    · exact decide_eq_false (not_lt.mpr hx)
  unfold Num.ofReal Num.mk
  split <;> exact h

theorem eps64 : binary64.eps = 1 / 2 ^ 50 := rfl

theorem of_le {S : Summation binary64} {x : ℝ} (hx : 0 ≤ x) (h : x ≤ 2 ^ 50) : Stores (1 / 2 ^ 50) (IEEE.of S x) x := by
  have := IEEE.stores S (x := x) (le_trans (by rw [abs_of_nonneg hx, eps64]; norm_num; linarith) (IEEE.top_ge_inv (f := binary64)))
  exact this

/-- Three samples, one feature, `X = (1/3, 1/3, 1/3)ᵀ` and `y = (1/7, 1/7, 1/7)` rounded to `f64`, with the unrolled sums:
`alpha = 10` exceeds `alpha_max`. -/
example (srt : Argsort (IEEE binary64 (.unrolled _))) :
    Lasso.fit srt (⟨IEEE.of _ 10, 50, 1000, 10, IEEE.of _ (1 / 10000), 5, true, false⟩ : LassoParams (IEEE binary64 (.unrolled _)))
      ⟨matOf fun (_ : Fin 3) (_ : Fin 1) => IEEE.of _ (1 / 3), Targets.one (List.ofFn fun _ : Fin 3 => IEEE.of _ (1 / 7))⟩ =
      .ok (.ok (List.replicate 1 zero)) := by
  have heps : 1 / binary64.eps = 2 ^ 50 := by rw [eps64]; norm_num
  have P : Precise (IEEE binary64 (.unrolled _)) (1 / 2 ^ 50) := IEEE.precise binary64 _
  obtain ⟨r, hr, hr'⟩ := (of_le (S := .unrolled _) (x := 1 / 3) (by norm_num) (by norm_num)).near
  obtain ⟨s, hs, hs'⟩ := (of_le (S := .unrolled _) (x := 1 / 7) (by norm_num) (by norm_num)).near
  obtain ⟨α, hα, hα'⟩ := (of_le (S := .unrolled _) (x := 10) (by norm_num) (by norm_num)).near
  obtain ⟨τ, hτ, hτ'⟩ := (of_le (S := .unrolled _) (x := 1 / 10000) (by norm_num) (by norm_num)).near
  rw [abs_of_nonneg (by norm_num : (0 : ℝ) ≤ 1 / 3), abs_le] at hr'
  rw [abs_of_nonneg (by norm_num : (0 : ℝ) ≤ 1 / 7), abs_le] at hs'
  rw [abs_of_nonneg (by norm_num : (0 : ℝ) ≤ 10), abs_le] at hα'
  rw [abs_of_nonneg (by norm_num : (0 : ℝ) ≤ 1 / 10000), abs_le] at hτ'
  norm_num at hr' hs' hα' hτ'
  have hrs : |r * s| ≤ 1 := by
    rw [abs_mul]
    exact mul_le_one₀ (abs_le.mpr ⟨by linarith, by linarith⟩) (abs_nonneg _) (abs_le.mpr ⟨by linarith, by linarith⟩)
  obtain ⟨a, h1, h2⟩ := C67_lasso_ieee binary64 (.unrolled _) (n := 3) (p := 1) (by norm_num) (by rw [heps]; norm_num) _ _
    (fun _ _ => r) (fun _ => s) (fun _ _ => hr) (fun _ => hs) (fun j => by
      rw [heps, Finset.sum_const, Finset.card_univ, Fintype.card_fin, nsmul_eq_mul]
      push_cast
      linarith)
  -- the computed value of `alpha_max` is at most 9
  have ha : ∃ q, Den a q ∧ q ≤ 9 := by
    have hd := P.dot 3 (fun _ => IEEE.of _ (1 / 3)) (fun _ => IEEE.of _ (1 / 7)) (fun _ => r) (fun _ => s) (fun _ => hr) (fun _ => hs)
      (by norm_num)
    simp only [Finset.sum_const, Finset.card_univ, Fintype.card_fin, nsmul_eq_mul] at hd
    obtain ⟨t, ht⟩ := hd.1 (le_trans (b := 3) (by push_cast; linarith) (by norm_num))
    have ht2 := hd.2 t ht
    have ht3 : |t| ≤ 4 := by
      have := abs_sub_abs_le_abs_sub t (((3 : ℕ) : ℝ) * (r * s))
      rw [abs_mul ((3 : ℕ) : ℝ)] at this
      have hb : ((3 : ℕ) : ℝ) * (1 / 2 ^ 50) * (((3 : ℕ) : ℝ) * |r * s| + 1) ≤ 1 := by push_cast; linarith
      push_cast at this ht2 hb
      rw [abs_of_nonneg (by norm_num : (0 : ℝ) ≤ 3)] at this
      linarith
    obtain ⟨N, hN⟩ := (P.ofNat 3).1 (by norm_num)
    have hN' := (P.ofNat 3).2 N hN
    rw [abs_le] at hN'
    norm_num at hN'
    have hN1 : 1 ≤ N := by linarith
    have hm := den_fmax (P.abs _ _ ht) (LawfulCmp.key_zero (F := IEEE binary64 (.unrolled _)))
    rw [max_eq_left (abs_nonneg t)] at hm
    have hq4 : |t| / N ≤ 4 := by rw [div_le_iff₀ (by linarith)]; nlinarith [abs_nonneg t]
    have hq0 : 0 ≤ |t| / N := by positivity
    have hv := P.div _ _ _ _ hm hN (by linarith)
    obtain ⟨q, hq⟩ := hv.1 (by rw [abs_of_nonneg hq0]; norm_num; linarith)
    have hq' := hv.2 q hq
    rw [abs_of_nonneg hq0, abs_le] at hq'
    have : a = fmax (Scalar.abs (dot (List.ofFn fun _ : Fin 3 => IEEE.of (.unrolled binary64) (1 / 3))
        (List.ofFn fun _ : Fin 3 => IEEE.of (.unrolled binary64) (1 / 7)))) zero /. Scalar.ofNat 3 := by
      unfold computeAlphaMax at h1
      rw [tMulVec_matOf, matOf_nrows] at h1
      injection h1 with h1
      exact h1.symm
    exact ⟨q, this ▸ hq, by norm_num at hq'; linarith⟩
  obtain ⟨q, hq, hq9⟩ := ha
  refine h2 ⟨IEEE.of _ 10, 50, 1000, 10, IEEE.of _ (1 / 10000), 5, true, false⟩ ?_ ((LawfulCmp.le_iff _ _).mpr ⟨q, α, hq, hα, ?_⟩)
    ⟨α, hα⟩ ⟨τ, hτ, by linarith⟩ srt
  · unfold LassoParams.checkRef checkTail
    have e1 : signBit (IEEE.of (.unrolled binary64) 10) = false := signBit_ieee _ (by norm_num)
    have e2 : signBit (IEEE.of (.unrolled binary64) (1 / 10000)) = false := signBit_ieee _ (by norm_num)
    simp only [e1, e2]
    rfl
  · rw [EReal.coe_le_coe_iff]; linarith

end Sglm
