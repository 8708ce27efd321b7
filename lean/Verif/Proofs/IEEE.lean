import Verif.IEEE
import Verif.Proofs.Fl
import Verif.Spec.MonoRounding

/-!
# IEEE 754 arithmetic satisfies the assumptions of the theorems on floating point
-/

namespace Sglm
open Scalar Spec

/-! ## Rounding -/

theorem roundEven_nearest (x : ℝ) (z : ℤ) : |(roundEven x : ℝ) - x| ≤ |(z : ℝ) - x| := by
  by_cases h : z = roundEven x
  · rw [h]
  · have h1 : 1 ≤ |((z - roundEven x : ℤ) : ℝ)| := by
      rw [← Int.cast_abs]
      exact_mod_cast Int.one_le_abs (sub_ne_zero.mpr h)
    have h2 := roundEven_err x
    have h3 : |((z - roundEven x : ℤ) : ℝ)| ≤ |(z : ℝ) - x| + |(roundEven x : ℝ) - x| := by
      push_cast
      rw [abs_sub_comm (roundEven x : ℝ) x]
      exact abs_sub_le _ _ _
    linarith

namespace Format
variable (f : Format)

theorem IsMag.nonneg {f : Format} {x : ℝ} (h : f.IsMag x) : 0 ≤ x := by
  obtain ⟨m, k, -, -, rfl⟩ := h
  positivity

/-- Unit roundoff. -/
noncomputable def u : ℝ := 1 / 2 ^ (f.t + 1)

theorem u_pos : 0 < f.u := by unfold u; positivity

theorem u_small : f.u ≤ 1 / 32 := by
  unfold u
  refine one_div_le_one_div_of_le (by norm_num) ?_
  calc (32 : ℝ) = 2 ^ 5 := by norm_num
    _ ≤ 2 ^ (f.t + 1) := pow_le_pow_right₀ (by norm_num) (by have := f.ht; omega)

/-- `near` is a multiple of the spacing. -/
theorem near_nearest_int (x : ℝ) (z : ℤ) : |f.near x - x| ≤ |z * (2 : ℝ) ^ f.scale x - x| := by
  have hpos : (0 : ℝ) < 2 ^ f.scale x := by positivity
  have h := roundEven_nearest (x / 2 ^ f.scale x) z
  have e : ∀ a : ℝ, |a * 2 ^ f.scale x - x| = |a - x / 2 ^ f.scale x| * 2 ^ f.scale x := fun a => by
    rw [← abs_of_pos hpos, ← abs_mul, abs_of_pos hpos, sub_mul, div_mul_cancel₀ _ hpos.ne']
  unfold near
  rw [e, e]
  exact mul_le_mul_of_nonneg_right h hpos.le

/-- A number of the format above the power of two below `x` is a multiple of the spacing at `x`. -/
theorem mag_multiple {x y : ℝ} (hy : f.IsMag y) (h : (2 : ℝ) ^ Int.log 2 x ≤ y) : ∃ z : ℤ, y = z * (2 : ℝ) ^ f.scale x := by
  obtain ⟨m, k, hm, hk, rfl⟩ := hy
  have hk2 : f.scale x ≤ k := by
    refine max_le hk ?_
    have h1 : (2 : ℝ) ^ Int.log 2 x < 2 ^ (((f.t + 1 : ℕ) : ℤ) + k) := by
      refine lt_of_le_of_lt h ?_
      rw [zpow_add₀ (by norm_num), zpow_natCast]
      have : (m : ℝ) < 2 ^ (f.t + 1) := by exact_mod_cast hm
      exact mul_lt_mul_of_pos_right this (by positivity)
    have h2 := (zpow_lt_zpow_iff_right₀ (by norm_num : (1 : ℝ) < 2)).mp h1
    push_cast at h2
    omega
  obtain ⟨d, hd⟩ := Int.eq_ofNat_of_zero_le (sub_nonneg.mpr hk2)
  refine ⟨m * 2 ^ d, ?_⟩
  have : k = d + f.scale x := by omega
  rw [this, zpow_add₀ (by norm_num)]
  push_cast
  rw [zpow_natCast]
  ring

/-- `near x` is a nearest number of the format. -/
theorem near_nearest {x y : ℝ} (hx : 0 ≤ x) (hy : f.IsMag y) : |f.near x - x| ≤ |y - x| := by
  rcases hx.eq_or_lt with rfl | hx
  · have : f.near 0 = 0 := by
      unfold near
      have := roundEven_nearest 0 0
      simp at this
      rw [zero_div, this, Int.cast_zero, zero_mul]
    rw [this]; simp
  · by_cases h : (2 : ℝ) ^ Int.log 2 x ≤ y
    · obtain ⟨z, hz⟩ := f.mag_multiple hy h
      rw [hz]
      exact f.near_nearest_int x z
    · push Not at h
      have h3 : (2 : ℝ) ^ Int.log 2 x ≤ x := by
        exact_mod_cast Int.zpow_log_le_self (b := 2) (by norm_num) hx
      rcases le_total (f.emin) (Int.log 2 x - f.t) with hs | hs
      · have e : f.scale x = Int.log 2 x - f.t := max_eq_right hs
        have h4 := f.near_nearest_int x (2 ^ f.t)
        have h5 : (((2 : ℤ) ^ f.t : ℤ) : ℝ) * 2 ^ f.scale x = 2 ^ Int.log 2 x := by
          rw [e, zpow_sub₀ (by norm_num), zpow_natCast]
          push_cast
          field_simp
        rw [h5] at h4
        refine h4.trans ?_
        rw [abs_of_nonpos (by linarith), abs_of_nonpos (by linarith)]
        linarith
      · have e : f.scale x = f.emin := max_eq_left hs
        obtain ⟨m, k, hm, hk, rfl⟩ := hy
        obtain ⟨d, hd⟩ := Int.eq_ofNat_of_zero_le (sub_nonneg.mpr hk)
        have h4 := f.near_nearest_int x (m * 2 ^ d)
        have h5 : (((m : ℤ) * (2 : ℤ) ^ d : ℤ) : ℝ) * 2 ^ f.scale x = m * 2 ^ k := by
          have : k = d + f.emin := by omega
          rw [e, this, zpow_add₀ (by norm_num)]
          push_cast
          rw [zpow_natCast]
          ring
        rwa [h5] at h4

theorem near_idem {y : ℝ} (hy : f.IsMag y) : f.near y = y := by
  have := f.near_nearest hy.nonneg hy
  rw [sub_self, abs_zero] at this
  have := abs_nonpos_iff.mp this
  linarith

theorem near_nonneg {x : ℝ} (hx : 0 ≤ x) : 0 ≤ f.near x := (f.near_mag hx).nonneg

theorem near_mono {x y : ℝ} (hx : 0 ≤ x) (hxy : x ≤ y) : f.near x ≤ f.near y := by
  by_contra hc
  push Not at hc
  have hy : 0 ≤ y := hx.trans hxy
  have h1 := f.near_nearest hx (f.near_mag hy)
  have h2 := f.near_nearest hy (f.near_mag hx)
  have h3 : (f.near x + f.near y) / 2 ≤ x := by
    by_contra h
    push Not at h
    rw [← sq_le_sq] at h1
    nlinarith
  have h4 : y ≤ (f.near x + f.near y) / 2 := by
    by_contra h
    push Not at h
    rw [← sq_le_sq] at h2
    nlinarith
  have : x = y := by linarith
  rw [this] at hc
  exact lt_irrefl _ hc

/-- Smallest rounding error of underflow. -/
noncomputable def η : ℝ := (2 : ℝ) ^ (f.emin - 1)

theorem η_pos : 0 < f.η := by unfold η; positivity

theorem near_err_scale (x : ℝ) : |f.near x - x| ≤ (2 : ℝ) ^ f.scale x / 2 := by
  have hpos : (0 : ℝ) < 2 ^ f.scale x := by positivity
  have h := roundEven_err (x / 2 ^ f.scale x)
  have e : f.near x - x = (roundEven (x / 2 ^ f.scale x) - x / 2 ^ f.scale x) * 2 ^ f.scale x := by
    unfold near
    rw [sub_mul, div_mul_cancel₀ _ hpos.ne']
  rw [e, abs_mul, abs_of_pos hpos]
  calc _ ≤ 1 / 2 * (2 : ℝ) ^ f.scale x := mul_le_mul_of_nonneg_right h hpos.le
    _ = _ := by ring

/-- Above the subnormal numbers the error is relative. -/
theorem near_err_rel {x : ℝ} (hx : (2 : ℝ) ^ (f.emin + f.t) ≤ x) : |f.near x - x| ≤ f.u * x := by
  have hx0 : 0 < x := lt_of_lt_of_le (by positivity) hx
  have h3 : (2 : ℝ) ^ Int.log 2 x ≤ x := by
    exact_mod_cast Int.zpow_log_le_self (b := 2) (by norm_num) hx0
  have hl : f.emin + f.t ≤ Int.log 2 x := (Int.zpow_le_iff_le_log (b := 2) (by norm_num) hx0).mp (by exact_mod_cast hx)
  have e : f.scale x = Int.log 2 x - f.t := max_eq_right (by omega)
  refine (f.near_err_scale x).trans ?_
  rw [e, zpow_sub₀ (by norm_num), zpow_natCast]
  unfold u
  rw [pow_succ]
  calc (2 : ℝ) ^ Int.log 2 x / 2 ^ f.t / 2 = 1 / (2 ^ f.t * 2) * 2 ^ Int.log 2 x := by field_simp
    _ ≤ _ := mul_le_mul_of_nonneg_left h3 (by positivity)

theorem near_err {x : ℝ} (hx : 0 ≤ x) : |f.near x - x| ≤ f.u * x + f.η := by
  have hu := f.u_pos
  have hη := f.η_pos
  by_cases h : (2 : ℝ) ^ (f.emin + f.t) ≤ x
  · have := f.near_err_rel h
    linarith
  · push Not at h
    rcases hx.eq_or_lt with rfl | hx0
    · rw [f.near_idem ⟨0, f.emin, by positivity, le_rfl, by simp⟩, sub_self, abs_zero]
      linarith
    have hl : Int.log 2 x < f.emin + f.t := by
      by_contra hc
      push Not at hc
      have := (Int.zpow_le_iff_le_log (b := 2) (by norm_num) hx0).mpr hc
      have : (2 : ℝ) ^ (f.emin + f.t) ≤ x := by exact_mod_cast this
      linarith
    have e : f.scale x = f.emin := max_eq_left (by omega)
    have := f.near_err_scale x
    rw [e] at this
    have e2 : (2 : ℝ) ^ f.emin / 2 = f.η := by
      unfold η
      rw [zpow_sub₀ (by norm_num), zpow_one]
    rw [e2] at this
    nlinarith

/-- Multiples of the smallest number: the error is relative. -/
theorem near_err_multiple {x : ℝ} (hx : 0 ≤ x) {z : ℤ} (hz : x = z * (2 : ℝ) ^ f.emin) : |f.near x - x| ≤ f.u * x := by
  by_cases h : (2 : ℝ) ^ (f.emin + f.t) ≤ x
  · exact f.near_err_rel h
  · push Not at h
    have hpos : (0 : ℝ) < 2 ^ f.emin := by positivity
    have hz0 : 0 ≤ z := by
      by_contra hc
      push Not at hc
      have : (z : ℝ) < 0 := by exact_mod_cast hc
      nlinarith
    obtain ⟨m, rfl⟩ := Int.eq_ofNat_of_zero_le hz0
    have hm : m < 2 ^ (f.t + 1) := by
      rw [hz, zpow_add₀ (by norm_num), zpow_natCast, mul_comm (2 ^ f.emin)] at h
      have h1 : ((m : ℤ) : ℝ) < 2 ^ f.t := lt_of_mul_lt_mul_right h hpos.le
      have h2 : (m : ℝ) < ((2 ^ f.t : ℕ) : ℝ) := by push_cast; exact_mod_cast h1
      have h3 : m < 2 ^ f.t := by exact_mod_cast h2
      rw [pow_succ]; omega
    rw [f.near_idem ⟨m, f.emin, hm, le_rfl, by rw [hz]; norm_cast⟩, sub_self, abs_zero]
    exact mul_nonneg f.u_pos.le hx

/-- Powers of two are numbers of the format. -/
theorem mag_pow {k : ℤ} (hk : f.emin ≤ k) : f.IsMag ((2 : ℝ) ^ k) :=
  ⟨1, k, Nat.one_lt_two_pow (by omega), hk, by simp⟩

theorem near_small {x : ℝ} (hx : 0 ≤ x) (h : x ≤ (2 : ℝ) ^ (f.emax - 1)) : f.near x < (2 : ℝ) ^ f.emax := by
  have h1 := f.near_mono hx h
  rw [f.near_idem (f.mag_pow (by have := f.hmax; have := f.hmin; omega))] at h1
  refine lt_of_le_of_lt h1 ?_
  exact zpow_lt_zpow_right₀ (by norm_num) (by omega)

theorem mag_zero : f.IsMag 0 := ⟨0, f.emin, by positivity, le_rfl, by simp⟩

theorem mag_nat_one : f.IsMag 1 := by
  have := f.mag_pow (k := 0) (by have := f.hmin; omega)
  simpa using this

/-- Rounding of real numbers of either sign. -/
noncomputable def rd (r : ℝ) : ℝ := signed (decide (r < 0)) (f.near |r|)

theorem rd_nonneg {r : ℝ} (h : 0 ≤ r) : f.rd r = f.near r := by
  unfold rd signed
  rw [decide_eq_false (by linarith), abs_of_nonneg h]
  rfl

theorem rd_zero : f.rd 0 = 0 := by rw [f.rd_nonneg le_rfl, f.near_idem f.mag_zero]

theorem rd_neg (r : ℝ) : f.rd (-r) = -f.rd r := by
  rcases lt_trichotomy r 0 with h | rfl | h
  · unfold rd signed
    rw [decide_eq_false (by linarith), decide_eq_true h, abs_neg]
    simp
  · rw [neg_zero, rd_zero, neg_zero]
  · unfold rd signed
    rw [decide_eq_true (by linarith), decide_eq_false (by linarith), abs_neg]
    simp

theorem rd_abs (r : ℝ) : |f.rd r| = f.near |r| := by
  have := f.near_nonneg (abs_nonneg r)
  unfold rd signed
  split
  · rw [abs_neg, abs_of_nonneg this]
  · rw [abs_of_nonneg this]

theorem rd_sub_abs (r : ℝ) : |f.rd r - r| = _root_.abs (f.near |r| - |r|) := by
  rcases le_or_gt 0 r with h | h
  · rw [f.rd_nonneg h, abs_of_nonneg h]
  · have e : f.rd r = -f.near (-r) := by rw [← f.rd_nonneg (by linarith : 0 ≤ -r), f.rd_neg, neg_neg]
    rw [e, abs_of_neg h, show -f.near (-r) - r = -(f.near (-r) - -r) by ring, abs_neg]

theorem rd_err (r : ℝ) : |f.rd r - r| ≤ f.u * |r| + f.η := by
  rw [f.rd_sub_abs]; exact f.near_err (abs_nonneg r)

theorem rd_mono {r s : ℝ} (h : r ≤ s) : f.rd r ≤ f.rd s := by
  rcases le_or_gt 0 r with hr | hr
  · rw [f.rd_nonneg hr, f.rd_nonneg (hr.trans h)]
    exact f.near_mono hr h
  · have e : f.rd r = -f.near (-r) := by rw [← f.rd_nonneg (by linarith : 0 ≤ -r), f.rd_neg, neg_neg]
    rcases le_or_gt 0 s with hs | hs
    · rw [e, f.rd_nonneg hs]
      have := f.near_nonneg (by linarith : 0 ≤ -r)
      have := f.near_nonneg hs
      linarith
    · have e' : f.rd s = -f.near (-s) := by rw [← f.rd_nonneg (by linarith : 0 ≤ -s), f.rd_neg, neg_neg]
      rw [e, e', neg_le_neg_iff]
      exact f.near_mono (by linarith) (by linarith)

theorem rd_idem {s : Bool} {x : ℝ} (h : f.IsMag x) : f.rd (signed s x) = signed s x := by
  cases s with
  | false => show f.rd x = x; rw [f.rd_nonneg h.nonneg, f.near_idem h]
  | true => show f.rd (-x) = -x; rw [f.rd_neg, f.rd_nonneg h.nonneg, f.near_idem h]

theorem rd_ne_zero_sign {r : ℝ} : 0 ≤ f.rd r * r := by
  have h := f.near_nonneg (abs_nonneg r)
  unfold rd signed
  split
  · rename_i hr
    have := of_decide_eq_true hr
    nlinarith
  · rename_i hr
    have : ¬ r < 0 := fun h' => hr (decide_eq_true h')
    push Not at this
    positivity

/-- Precision of the arithmetic in the sense of `Precise`: `2⁻⁵⁰` for `f64`, `2⁻²¹` for `f32`. -/
noncomputable def eps : ℝ := 1 / 2 ^ (f.t - 2)

theorem eps_eq : f.eps = 8 * f.u := by
  unfold eps u
  have : f.t + 1 = (f.t - 2) + 3 := by have := f.ht; omega
  rw [this, pow_add]
  field_simp
  norm_num

theorem eps_pos : 0 < f.eps := by unfold eps; positivity

theorem eps_small : f.eps ≤ 1 / 4 := by rw [eps_eq]; have := f.u_small; linarith

theorem η_le : f.η ≤ f.u := by
  unfold η u
  rw [one_div, ← zpow_natCast, ← zpow_neg]
  refine zpow_le_zpow_right₀ (by norm_num) ?_
  have := f.hmin
  push_cast
  omega

/-- Largest number certain not to overflow. -/
noncomputable def top : ℝ := (2 : ℝ) ^ (f.emax - 1)

theorem top_ge : 8 / f.eps ≤ f.top := by
  unfold eps top
  have : (8 : ℝ) / (1 / 2 ^ (f.t - 2)) = 2 ^ ((f.t + 1 : ℕ) : ℤ) := by
    rw [zpow_natCast]
    have : f.t + 1 = (f.t - 2) + 3 := by have := f.ht; omega
    rw [this, pow_add]
    simp
    norm_num
    ring
  rw [this]
  refine zpow_le_zpow_right₀ (by norm_num) ?_
  have := f.hmax
  push_cast
  omega

end Format

/-! ## Values -/

namespace Num
variable {f : Format}

/-- `x` is finite, with value `r`. -/
def D (x : Num f) (r : ℝ) : Prop := x.key = some (r : EReal)

theorem D.unique {x : Num f} {r s : ℝ} (h : D x r) (h' : D x s) : r = s := by
  have := Option.some.inj (h.symm.trans h')
  exact_mod_cast this

theorem D.elim {x : Num f} {r : ℝ} (h : D x r) : ∃ s a ha ha', x = fin s a ha ha' ∧ signed s a = r := by
  cases x with
  | nan => simp [D, key] at h
  | inf s => cases s <;> simp [D, key] at h
  | fin s a ha ha' =>
    refine ⟨s, a, ha, ha', rfl, ?_⟩
    have := Option.some.inj h
    exact_mod_cast this

theorem signed_abs {s : Bool} {x : ℝ} (h : 0 ≤ x) : |signed s x| = x := by
  cases s <;> simp [signed, abs_of_nonneg h]

theorem mk_eq_ofReal (b : Bool) {x : ℝ} (h : 0 ≤ x) : (mk b x : Num f) = ofReal b (signed b x) := by
  unfold ofReal
  rcases h.eq_or_lt with rfl | h
  · cases b <;> simp [signed]
  · cases b with
    | false => simp [signed, h.ne', not_lt.mpr h.le]
    | true =>
      simp only [signed, if_true, neg_eq_zero, h.ne', if_false, Left.neg_neg_iff, h, decide_true]
      unfold mk
      simp only [abs_neg]

theorem key_ofReal_small (z : Bool) {r : ℝ} (h : f.near |r| < (2 : ℝ) ^ f.emax) : (ofReal z r : Num f).key = some (f.rd r : ℝ) := by
  unfold ofReal mk
  rw [dif_pos h]
  by_cases h0 : r = 0
  · subst h0
    have : f.near |(0 : ℝ)| = 0 := by rw [abs_zero, f.near_idem f.mag_zero]
    simp only [key, if_true]
    rw [f.rd_zero, this]
    cases z <;> simp [signed]
  · rw [if_neg h0]; rfl

theorem key_ofReal_big (z : Bool) {r : ℝ} (h : ¬ f.near |r| < (2 : ℝ) ^ f.emax) :
    (ofReal z r : Num f).key = some (if r < 0 then ⊥ else ⊤) := by
  unfold ofReal mk
  rw [dif_neg h]
  have h0 : r ≠ 0 := by
    rintro rfl
    apply h
    rw [abs_zero, f.near_idem f.mag_zero]
    positivity
  simp only [key, if_neg h0, decide_eq_true_eq]

theorem D_ofReal {z : Bool} {r t : ℝ} (h : D (ofReal z r : Num f) t) : t = f.rd r := by
  by_cases hs : f.near |r| < (2 : ℝ) ^ f.emax
  · exact h.unique (key_ofReal_small z hs)
  · have := key_ofReal_big z hs
    unfold D at h
    rw [this] at h
    split at h <;> simp at h

theorem ofReal_fin (z : Bool) {r : ℝ} (h : |r| ≤ f.top) : D (ofReal z r : Num f) (f.rd r) :=
  key_ofReal_small z (f.near_small (abs_nonneg r) h)

theorem ofReal_mono (z z' : Bool) {r s : ℝ} (h : r ≤ s) :
    ∃ k k', (ofReal z r : Num f).key = some k ∧ (ofReal z' s : Num f).key = some k' ∧ k ≤ k' := by
  by_cases hr : f.near |r| < (2 : ℝ) ^ f.emax <;> by_cases hs : f.near |s| < (2 : ℝ) ^ f.emax
  · exact ⟨_, _, key_ofReal_small z hr, key_ofReal_small z' hs, by exact_mod_cast f.rd_mono h⟩
  · refine ⟨_, _, key_ofReal_small z hr, key_ofReal_big z' hs, ?_⟩
    split
    · rename_i h0
      exfalso
      apply hs
      refine lt_of_le_of_lt (f.near_mono (abs_nonneg s) ?_) hr
      rw [abs_of_neg h0, abs_of_neg (by linarith)]
      linarith
    · exact le_top
  · refine ⟨_, _, key_ofReal_big z hr, key_ofReal_small z' hs, ?_⟩
    split
    · exact bot_le
    · rename_i h0
      exfalso
      push Not at h0
      apply hr
      refine lt_of_le_of_lt (f.near_mono (abs_nonneg r) ?_) hs
      rw [abs_of_nonneg h0, abs_of_nonneg (h0.trans h)]
      exact h
  · refine ⟨_, _, key_ofReal_big z hr, key_ofReal_big z' hs, ?_⟩
    split
    · exact bot_le
    · rename_i h0
      rw [if_neg (by linarith)]

theorem ofReal_zero_key (z : Bool) : (ofReal z 0 : Num f).key = some ((0 : ℝ) : EReal) := by
  have := ofReal_fin (f := f) z (r := 0) (by rw [abs_zero]; unfold Format.top; positivity)
  rwa [f.rd_zero] at this

theorem ofReal_nonneg (z : Bool) {r : ℝ} (h : 0 ≤ r) : ∃ k, (ofReal z r : Num f).key = some k ∧ 0 ≤ k := by
  obtain ⟨k, k', h1, h2, h3⟩ := ofReal_mono (f := f) z z h
  rw [ofReal_zero_key] at h1
  refine ⟨k', h2, ?_⟩
  have := Option.some.inj h1
  rw [← this] at h3
  exact_mod_cast h3

theorem D_zero : D (zero : Num f) 0 := by
  unfold zero
  rw [mk_eq_ofReal false le_rfl]
  exact ofReal_zero_key false

theorem D_mk_one (s : Bool) : D (mk s 1 : Num f) (signed s 1) := by
  rw [mk_eq_ofReal s zero_le_one]
  have h := ofReal_fin (f := f) s (r := signed s 1) (by
    rw [signed_abs zero_le_one]
    unfold Format.top
    exact one_le_zpow₀ (by norm_num) (by have := f.hmax; omega))
  rwa [f.rd_idem f.mag_nat_one] at h

theorem add_D {x y : Num f} {a b : ℝ} (hx : D x a) (hy : D y b) : ∃ z, add x y = ofReal z (a + b) := by
  obtain ⟨s, m, _, _, rfl, rfl⟩ := hx.elim
  obtain ⟨s', m', _, _, rfl, rfl⟩ := hy.elim
  exact ⟨_, rfl⟩

theorem neg_D {x : Num f} {a : ℝ} (hx : D x a) : D (neg x) (-a) := by
  obtain ⟨s, m, _, _, rfl, rfl⟩ := hx.elim
  cases s <;> simp [D, neg, key, signed]

theorem abs_D {x : Num f} {a : ℝ} (hx : D x a) : D (abs x) |a| := by
  obtain ⟨s, m, hm, _, rfl, rfl⟩ := hx.elim
  have := hm.nonneg
  rw [signed_abs this]
  simp [D, abs, key, signed]

theorem signed_mul (s s' : Bool) (x x' : ℝ) : signed (s ^^ s') (x * x') = signed s x * signed s' x' := by
  cases s <;> cases s' <;> simp [signed]

theorem signed_div (s s' : Bool) (x x' : ℝ) : signed (s ^^ s') (x / x') = signed s x / signed s' x' := by
  cases s <;> cases s' <;> simp [signed, div_neg, neg_div]

theorem signed_eq_zero {s : Bool} {x : ℝ} : signed s x = 0 ↔ x = 0 := by
  cases s <;> simp [signed]

theorem mul_D {x y : Num f} {a b : ℝ} (hx : D x a) (hy : D y b) : ∃ z, mul x y = ofReal z (a * b) := by
  obtain ⟨s, m, hm, _, rfl, rfl⟩ := hx.elim
  obtain ⟨s', m', hm', _, rfl, rfl⟩ := hy.elim
  refine ⟨s ^^ s', ?_⟩
  rw [← signed_mul, ← mk_eq_ofReal _ (mul_nonneg hm.nonneg hm'.nonneg)]
  rfl

theorem div_D {x y : Num f} {a b : ℝ} (hx : D x a) (hy : D y b) (hb : b ≠ 0) : ∃ z, div x y = ofReal z (a / b) := by
  obtain ⟨s, m, hm, _, rfl, rfl⟩ := hx.elim
  obtain ⟨s', m', hm', _, rfl, rfl⟩ := hy.elim
  refine ⟨s ^^ s', ?_⟩
  rw [← signed_div, ← mk_eq_ofReal _ (div_nonneg hm.nonneg hm'.nonneg)]
  have : m' ≠ 0 := fun h => hb (signed_eq_zero.mpr h)
  simp [div, this]

theorem D.rep {x : Num f} {a : ℝ} (hx : D x a) : f.rd a = a := by
  obtain ⟨s, m, hm, _, rfl, rfl⟩ := hx.elim
  exact f.rd_idem hm

/-- Sums of numbers of the format have a relative error, also in the subnormal range. -/
theorem rd_add_err {x y : Num f} {a b : ℝ} (hx : D x a) (hy : D y b) : |f.rd (a + b) - (a + b)| ≤ f.u * |a + b| := by
  have hmul : ∀ {x : Num f} {a : ℝ}, D x a → ∃ z : ℤ, a = z * (2 : ℝ) ^ f.emin := by
    intro x a hx
    obtain ⟨s, m, ⟨c, k, _, hk, rfl⟩, _, rfl, rfl⟩ := hx.elim
    obtain ⟨d, hd⟩ := Int.eq_ofNat_of_zero_le (sub_nonneg.mpr hk)
    have e : (2 : ℝ) ^ k = 2 ^ d * 2 ^ f.emin := by
      rw [show k = d + f.emin by omega, zpow_add₀ (by norm_num), zpow_natCast]
    cases s with
    | false => exact ⟨c * 2 ^ d, by show (c : ℝ) * 2 ^ k = _; rw [e]; push_cast; ring⟩
    | true => exact ⟨-(c * 2 ^ d), by show -((c : ℝ) * 2 ^ k) = _; rw [e]; push_cast; ring⟩
  obtain ⟨z, hz⟩ := hmul hx
  obtain ⟨z', hz'⟩ := hmul hy
  rw [f.rd_sub_abs]
  rcases le_total 0 (a + b) with h | h
  · refine f.near_err_multiple (abs_nonneg _) (z := z + z') ?_
    rw [abs_of_nonneg h, hz, hz']
    push_cast
    ring
  · refine f.near_err_multiple (abs_nonneg _) (z := -(z + z')) ?_
    rw [abs_of_nonpos h, hz, hz']
    push_cast
    ring

theorem add_fin {x y : Num f} {t : ℝ} (h : D (add x y) t) : ∃ a b, D x a ∧ D y b := by
  cases x with
  | nan => simp [add, D, key] at h
  | inf s =>
    cases y with
    | nan => simp [add, D, key] at h
    | inf s' => cases s <;> cases s' <;> simp [add, D, key] at h
    | fin => cases s <;> simp [add, D, key] at h
  | fin s a ha ha' =>
    cases y with
    | nan => simp [add, D, key] at h
    | inf s' => cases s' <;> simp [add, D, key] at h
    | fin s' b hb hb' => exact ⟨_, _, rfl, rfl⟩

theorem mul_fin {x y : Num f} {t : ℝ} (h : D (mul x y) t) : ∃ a b, D x a ∧ D y b := by
  have hi : ∀ s, ¬ D (inf s : Num f) t := fun s => by cases s <;> simp [D, key]
  have hn : ¬ D (nan : Num f) t := by simp [D, key]
  cases x with
  | nan => exact absurd h hn
  | inf s =>
    cases y with
    | nan => exact absurd h hn
    | inf s' => exact absurd h (hi _)
    | fin =>
      simp only [mul] at h
      split at h
      · exact absurd h hn
      · exact absurd h (hi _)
  | fin s a ha ha' =>
    cases y with
    | nan => exact absurd h hn
    | inf s' =>
      simp only [mul] at h
      split at h
      · exact absurd h hn
      · exact absurd h (hi _)
    | fin s' b hb hb' => exact ⟨_, _, rfl, rfl⟩

theorem abs_fin {x : Num f} {t : ℝ} (h : D (abs x) t) : ∃ a, D x a := by
  cases x with
  | nan => simp [abs, D, key] at h
  | inf s => simp [abs, D, key] at h
  | fin s a ha ha' => exact ⟨_, rfl⟩

/-! ## Sums -/

/-- The value, zero if not finite. -/
noncomputable def val : Num f → ℝ
  | fin s x _ _ => signed s x
  | _ => 0

theorem D.val_eq {x : Num f} {a : ℝ} (h : D x a) : val x = a := by
  obtain ⟨s, m, hm, _, rfl, rfl⟩ := h.elim
  rfl

theorem D.self {x : Num f} {a : ℝ} (h : D x a) : D x (val x) := by rw [h.val_eq]; exact h

theorem abs_sum_map_le : ∀ l : List (Num f), |(l.map val).sum| ≤ (l.map fun x => |val x|).sum
  | [] => by simp
  | x :: l => by
    simp only [List.map_cons, List.sum_cons]
    exact (abs_add_le _ _).trans (add_le_add le_rfl (abs_sum_map_le l))

theorem sumOf_err {l : List (Num f)} {s : Num f} (h : SumOf l s) : ∀ {t}, D s t →
    (∀ x ∈ l, D x (val x)) ∧ |t - (l.map val).sum| ≤ ((1 + f.u) ^ l.length - 1) * (l.map fun x => |val x|).sum := by
  have hu := f.u_pos
  induction h with
  | zero => intro t ht; have := ht.unique D_zero; subst this; simp
  | single x =>
    intro t ht
    have e := ht.val_eq
    refine ⟨by simpa using ht.self, ?_⟩
    simp [e]
    positivity
  | perm _ hp ih =>
    intro t ht
    obtain ⟨h1, h2⟩ := ih ht
    refine ⟨fun x hx => h1 x (hp.mem_iff.mpr hx), ?_⟩
    rw [← (hp.map val).sum_eq, ← (hp.map fun x => |val x|).sum_eq, ← hp.length_eq]
    exact h2
  | @add l l' a b ha hb iha ihb =>
    intro t ht
    obtain ⟨p, q, hp, hq⟩ := add_fin ht
    obtain ⟨h1, h2⟩ := iha hp
    obtain ⟨h3, h4⟩ := ihb hq
    refine ⟨fun x hx => (List.mem_append.mp hx).elim (h1 x) (h3 x), ?_⟩
    obtain ⟨z, hz⟩ := add_D hp hq
    rw [hz] at ht
    have et := D_ofReal ht
    rw [List.map_append, List.map_append, List.sum_append, List.sum_append, List.length_append]
    set A := (l.map fun x => |val x|).sum
    set A' := (l'.map fun x => |val x|).sum
    set S := (l.map val).sum
    set S' := (l'.map val).sum
    have hA : 0 ≤ A := List.sum_nonneg (by simp)
    have hA' : 0 ≤ A' := List.sum_nonneg (by simp)
    have hSA : |S| ≤ A := abs_sum_map_le _
    have hSA' : |S'| ≤ A' := abs_sum_map_le _
    have hone : ∀ m : ℕ, (1 : ℝ) ≤ (1 + f.u) ^ m := fun m => one_le_pow₀ (by linarith)
    by_cases hl : l = []
    · subst hl
      have : p = 0 := by
        have e : S = 0 := rfl
        rw [e] at h2
        simpa using h2
      subst this
      rw [zero_add, hq.rep] at et
      subst et
      have e1 : S = 0 := rfl
      have e2 : A = 0 := rfl
      rw [e1, e2]
      simpa using h4
    by_cases hl' : l' = []
    · subst hl'
      have : q = 0 := by
        have e : S' = 0 := rfl
        rw [e] at h4
        simpa using h4
      subst this
      rw [add_zero, hp.rep] at et
      subst et
      have e1 : S' = 0 := rfl
      have e2 : A' = 0 := rfl
      rw [e1, e2]
      simpa using h2
    have hm : 1 ≤ l.length := List.length_pos_of_ne_nil hl
    have hm' : 1 ≤ l'.length := List.length_pos_of_ne_nil hl'
    have he := rd_add_err hp hq
    rw [← et] at he
    have hpa : |p| ≤ (1 + f.u) ^ l.length * A := by
      have := abs_sub_abs_le_abs_sub p S
      linarith
    have hqa : |q| ≤ (1 + f.u) ^ l'.length * A' := by
      have := abs_sub_abs_le_abs_sub q S'
      linarith
    have hpw : (1 + f.u) ^ (l.length + 1) ≤ (1 + f.u) ^ (l.length + l'.length) := pow_le_pow_right₀ (by linarith) (by omega)
    have hpw' : (1 + f.u) ^ (l'.length + 1) ≤ (1 + f.u) ^ (l.length + l'.length) := pow_le_pow_right₀ (by linarith) (by omega)
    rw [pow_succ] at hpw hpw'
    have h5 : |t - (S + S')| ≤ |t - (p + q)| + |p - S| + |q - S'| := by
      have e : t - (S + S') = (t - (p + q)) + (p - S) + (q - S') := by ring
      rw [e]
      exact abs_add_three _ _ _
    have h6 : f.u * |p + q| ≤ f.u * ((1 + f.u) ^ l.length * A + (1 + f.u) ^ l'.length * A') :=
      mul_le_mul_of_nonneg_left ((abs_add_le p q).trans (add_le_add hpa hqa)) hu.le
    have h7 := mul_le_mul_of_nonneg_right hpw hA
    have h8 := mul_le_mul_of_nonneg_right hpw' hA'
    nlinarith

theorem sumOf_fin {l : List (Num f)} {s : Num f} (h : SumOf l s) : (∀ x ∈ l, D x (val x)) →
    (1 + f.u) ^ l.length * (l.map fun x => |val x|).sum ≤ f.top → ∃ t, D s t := by
  have hu := f.u_pos
  induction h with
  | zero => intro _ _; exact ⟨0, D_zero⟩
  | single x => intro hx _; exact ⟨_, hx x (by simp)⟩
  | perm _ hp ih =>
    intro h1 h2
    refine ih (fun x hx => h1 x (hp.mem_iff.mp hx)) ?_
    rw [(hp.map fun x => |val x|).sum_eq, hp.length_eq]
    exact h2
  | @add l l' a b ha hb iha ihb =>
    intro h1 h2
    rw [List.map_append, List.sum_append, List.length_append] at h2
    set A := (l.map fun x => |val x|).sum with eA
    set A' := (l'.map fun x => |val x|).sum with eA'
    have hA : 0 ≤ A := List.sum_nonneg (by simp)
    have hA' : 0 ≤ A' := List.sum_nonneg (by simp)
    have hone : ∀ m : ℕ, (1 : ℝ) ≤ (1 + f.u) ^ m := fun m => one_le_pow₀ (by linarith)
    have g1 : (1 + f.u) ^ l.length * A ≤ (1 + f.u) ^ (l.length + l'.length) * A :=
      mul_le_mul_of_nonneg_right (pow_le_pow_right₀ (by linarith) (by omega)) hA
    have g2 : (1 + f.u) ^ l'.length * A' ≤ (1 + f.u) ^ (l.length + l'.length) * A' :=
      mul_le_mul_of_nonneg_right (pow_le_pow_right₀ (by linarith) (by omega)) hA'
    have g3 : 0 ≤ (1 + f.u) ^ l.length * A := mul_nonneg (zero_le_one.trans (hone _)) hA
    have g4 : 0 ≤ (1 + f.u) ^ l'.length * A' := mul_nonneg (zero_le_one.trans (hone _)) hA'
    obtain ⟨p, hp⟩ := iha (fun x hx => h1 x (by simp [hx])) (by linarith)
    obtain ⟨q, hq⟩ := ihb (fun x hx => h1 x (by simp [hx])) (by linarith)
    obtain ⟨-, e1⟩ := sumOf_err ha hp
    obtain ⟨-, e2⟩ := sumOf_err hb hq
    rw [← eA] at e1
    rw [← eA'] at e2
    have hSA : |(l.map val).sum| ≤ A := abs_sum_map_le _
    have hSA' : |(l'.map val).sum| ≤ A' := abs_sum_map_le _
    have hpa : |p| ≤ (1 + f.u) ^ l.length * A := by
      have := abs_sub_abs_le_abs_sub p (l.map val).sum
      linarith
    have hqa : |q| ≤ (1 + f.u) ^ l'.length * A' := by
      have := abs_sub_abs_le_abs_sub q (l'.map val).sum
      linarith
    obtain ⟨z, hz⟩ := add_D hp hq
    rw [hz]
    exact ⟨_, ofReal_fin z (by have := abs_add_le p q; linarith)⟩

theorem add_nn {a b : Num f} (h1 : ∀ k, key a = some k → 0 ≤ k) (h2 : ∀ k, key b = some k → 0 ≤ k) : ∀ k, key (add a b) = some k → 0 ≤ k := by
  cases a with
  | nan => simp [add, key]
  | inf s =>
    have e : s = false := by cases s with
      | false => rfl
      | true => have := h1 ⊥ (by simp [key]); simp at this
    subst e
    cases b with
    | nan => simp [add, key]
    | inf s' => cases s' <;> simp [add, key]
    | fin => simp [add, key]
  | fin s x hx hx' =>
    cases b with
    | nan => simp [add, key]
    | inf s' =>
      have e : s' = false := by cases s' with
        | false => rfl
        | true => have := h2 ⊥ (by simp [key]); simp at this
      subst e
      simp [add, key]
    | fin s' y hy hy' =>
      intro k hk
      have e1 : (0 : EReal) ≤ (signed s x : ℝ) := h1 _ rfl
      have e2 : (0 : EReal) ≤ (signed s' y : ℝ) := h2 _ rfl
      obtain ⟨k', hk', h0⟩ := ofReal_nonneg (f := f) (s && s') (r := signed s x + signed s' y)
        (add_nonneg (by exact_mod_cast e1) (by exact_mod_cast e2))
      have := hk.symm.trans hk'
      rw [Option.some.inj this]
      exact h0

theorem sumOf_nonneg {l : List (Num f)} {s : Num f} (h : SumOf l s) (hl : ∀ x ∈ l, ∀ k, key x = some k → 0 ≤ k) :
    ∀ k, key s = some k → 0 ≤ k := by
  induction h with
  | zero => intro k hk; have := (show key (zero : Num f) = _ from D_zero).symm.trans hk; have := Option.some.inj this; rw [← this]; simp
  | single x => exact hl x (by simp)
  | perm _ hp ih => exact ih fun x hx => hl x (hp.mem_iff.mp hx)
  | @add l l' a b ha hb iha ihb =>
    have h1 := iha fun x hx => hl x (by simp [hx])
    have h2 := ihb fun x hx => hl x (by simp [hx])
    exact add_nn h1 h2

theorem sumOf_zero {l : List (Num f)} {s : Num f} (h : SumOf l s) (hl : ∀ x ∈ l, D x 0) : D s 0 := by
  induction h with
  | zero => exact D_zero
  | single x => exact hl x (by simp)
  | perm _ hp ih => exact ih fun x hx => hl x (hp.mem_iff.mp hx)
  | @add l l' a b ha hb iha ihb =>
    obtain ⟨z, hz⟩ := add_D (iha fun x hx => hl x (by simp [hx])) (ihb fun x hx => hl x (by simp [hx]))
    rw [hz, add_zero]
    exact ofReal_zero_key z

end Num
end Sglm
