import Verif.Proofs.FloatLogValue
import Verif.Props.IEEE

/-!
# The value of the logistic loss in floating point (C81)

The library computes `log(1 + exp(-y u))` literally.  The exponential overflows for badly misclassified samples although the loss itself
is moderate (about `-y u`), and the value is then infinite.  For moderate margins the value is finite and accurate, with an explicit
bound.
-/

namespace Sglm
open Scalar Spec
variable {n : ℕ}

/-- The full claim: the value of the logistic loss is finite if the exact value is not huge. -/
def C81_full (f : Format) : Prop :=
  ∀ (S : Summation f) (n : ℕ) (_ : 0 < n) (_ : 8 * (n * f.eps) ≤ 1) (y' u : Fin n → IEEE f S) (y U : Fin n → ℝ),
    (∀ i, Den (y' i) (y i)) → (∀ i, Den (u i) (U i)) → (∑ i, (|y i * U i| + 1)) * (64 * f.eps) ≤ 1 →
    ∀ (DM : Type) (X : DM), ∃ v t, Logistic.value (⟨X, Targets.one (List.ofFn y')⟩ : Dataset DM (IEEE f S)) (List.ofFn u) = .ok v ∧ Den v t

theorem exp_overflow {f : Format} {x : Num f} {t : ℝ} (hx : Num.D x t) (h : (2 : ℝ) ^ f.emax ≤ Real.exp t) : Num.exp x = Num.inf false := by
  obtain ⟨s, m, hm, hm', rfl, rfl⟩ := hx.elim
  show Num.mk false _ = _
  unfold Num.mk
  have hp := (Real.exp_pos (signed s m)).le
  have h1 := f.near_mono (by positivity) h
  rw [f.near_idem (f.mag_pow (by have := f.hmax; have := f.hmin; omega))] at h1
  have h2 : ¬ f.near |Real.exp (signed s m)| < (2 : ℝ) ^ f.emax := by
    rw [abs_of_nonneg hp]
    exact not_lt.mpr h1
  rw [dif_neg h2]

theorem add_inf_right {f : Format} {x : Num f} {t : ℝ} (hx : Num.D x t) (s : Bool) : Num.add x (Num.inf s) = Num.inf s := by
  obtain ⟨s', m, hm, hm', rfl, rfl⟩ := hx.elim
  rfl

theorem div_inf_left {f : Format} {x : Num f} {t : ℝ} (hx : Num.D x t) (ht : 0 < t) : Num.div (Num.inf false) x = Num.inf false := by
  obtain ⟨s', m, hm, hm', rfl, rfl⟩ := hx.elim
  cases s' with
  | false => rfl
  | true =>
    have := hm.nonneg
    simp only [signed, if_true] at ht
    linarith

/-- One sample, misclassified with a large margin: the value is infinite. -/
theorem C81_overflow {f : Format} (S : Summation f) (h52 : f.t ≤ 52) (he : 64 * f.eps ≤ 1) (u : IEEE f S) (s : ℝ) (hu : Den u s)
    (hs : |s| ≤ 1 / f.eps) (h : (2 : ℝ) ^ f.emax ≤ Real.exp (-s - f.eps * (|s| + 1))) (DM : Type) (X : DM) :
    Logistic.value (⟨X, Targets.one (List.ofFn fun _ : Fin 1 => (one : IEEE f S))⟩ : Dataset DM (IEEE f S)) (List.ofFn fun _ : Fin 1 => u) =
      .ok (Scalar.inf : IEEE f S) := by
  have P := IEEE.precise f S
  have E := IEEE.preciseExp f S h52
  rw [log_value_eq]
  congr 1
  have r1 := P.mul _ _ _ _ (P.neg _ _ hu) P.one
  rw [mul_one, abs_neg] at r1
  obtain ⟨t, ht⟩ := r1.1 (by rwa [abs_neg])
  have ht2 := (abs_le.mp (r1.2 t ht)).1
  have h1 : Scalar.exp ((-.u) *. (one : IEEE f S)) = (Num.inf false : Num f) :=
    exp_overflow ht (h.trans (Real.exp_le_exp.mpr (by linarith)))
  have h2 : (one : IEEE f S) +. Scalar.exp ((-.u) *. (one : IEEE f S)) = (Num.inf false : Num f) := by
    rw [h1]
    exact add_inf_right P.one false
  obtain ⟨d, hd, hd2⟩ := log_e_err P E he
  have h3 : Logistic.logE ((one : IEEE f S) +. Scalar.exp ((-.u) *. (one : IEEE f S))) = (Num.inf false : Num f) := by
    unfold Logistic.logE
    rw [h2]
    exact div_inf_left hd (by linarith [(abs_le.mp hd2).1])
  show (zero +. Logistic.logE ((one : IEEE f S) +. Scalar.exp ((-.u) *. (one : IEEE f S)))) /. Scalar.ofNat 1 = _
  rw [h3]
  have h4 : (zero : IEEE f S) +. (Num.inf false : Num f) = (Num.inf false : Num f) := add_inf_right (den_zero (F := IEEE f S)) false
  rw [h4]
  obtain ⟨N, hN⟩ := (P.ofNat 1).1 (by
    rw [Nat.cast_one, abs_one, le_div_iff₀ P.pos]
    linarith [P.pos])
  have hN2 := (abs_le.mp ((P.ofNat 1).2 N hN)).1
  rw [Nat.cast_one] at hN2
  exact div_inf_left hN (by linarith)

/-- `exp 3 ≥ 16`. -/
theorem exp_three_pow (k : ℕ) : (16 : ℝ) ^ k ≤ Real.exp (3 * k) := by
  have h1 : (16 : ℝ) ≤ Real.exp 3 := by
    have h2 := Real.exp_one_gt_d9
    have h3 : Real.exp 3 = Real.exp 1 ^ 3 := by rw [← Real.exp_nat_mul]; norm_num
    rw [h3]
    calc (16 : ℝ) ≤ 2.7 ^ 3 := by norm_num
      _ ≤ _ := pow_le_pow_left₀ (by norm_num) (by linarith) 3
  rw [mul_comm, Real.exp_nat_mul]
  exact pow_le_pow_left₀ (by norm_num) h1 k

/-- In double precision the loss of one sample with margin `-1000` is infinite (the exact value is about 1000). -/
theorem C81_overflow64 (S : Summation binary64) (DM : Type) (X : DM) :
    ∃ u : IEEE binary64 S, Den u (-1000) ∧
      Logistic.value (⟨X, Targets.one (List.ofFn fun _ : Fin 1 => (one : IEEE binary64 S))⟩ : Dataset DM (IEEE binary64 S))
        (List.ofFn fun _ : Fin 1 => u) = .ok (Scalar.inf : IEEE binary64 S) := by
  have hm : binary64.IsMag 1000 := ⟨1000, 0, by norm_num [binary64], by norm_num [binary64], by norm_num⟩
  have hm' : (1000 : ℝ) < 2 ^ binary64.emax := by
    refine lt_of_lt_of_le (show (1000 : ℝ) < 2 ^ (10 : ℤ) by norm_num) (zpow_le_zpow_right₀ (by norm_num) (by norm_num [binary64]))
  refine ⟨(Num.fin true 1000 hm hm' : Num binary64), ?_, ?_⟩
  · show some _ = some _
    simp [signed]
  · refine C81_overflow S (by norm_num [binary64]) (by rw [eps64]; norm_num) _ (-1000) (by show some _ = some _; simp [signed]) ?_ ?_ DM X
    · rw [eps64]; norm_num
    · rw [eps64]
      refine le_trans ?_ ((exp_three_pow 333).trans (Real.exp_le_exp.mpr (by norm_num)))
      show (2 : ℝ) ^ (1024 : ℤ) ≤ _
      rw [show (16 : ℝ) = 2 ^ 4 by norm_num, ← pow_mul]
      exact_mod_cast pow_le_pow_right₀ (by norm_num : (1 : ℝ) ≤ 2) (by norm_num)

/-- In single precision a margin of `-100` is enough. -/
theorem C81_overflow32 (S : Summation binary32) (DM : Type) (X : DM) :
    ∃ u : IEEE binary32 S, Den u (-100) ∧
      Logistic.value (⟨X, Targets.one (List.ofFn fun _ : Fin 1 => (one : IEEE binary32 S))⟩ : Dataset DM (IEEE binary32 S))
        (List.ofFn fun _ : Fin 1 => u) = .ok (Scalar.inf : IEEE binary32 S) := by
  have hm : binary32.IsMag 100 := ⟨100, 0, by norm_num [binary32], by norm_num [binary32], by norm_num⟩
  have he : binary32.eps = 1 / 2 ^ 21 := rfl
  refine ⟨(Num.fin true 100 hm (by norm_num [binary32]) : Num binary32), ?_, ?_⟩
  · show some _ = some _
    simp [signed]
  · refine C81_overflow S (by norm_num [binary32]) (by rw [he]; norm_num) _ (-100) (by show some _ = some _; simp [signed]) ?_ ?_ DM X
    · rw [he]; norm_num
    · rw [he]
      refine le_trans ?_ ((exp_three_pow 33).trans (Real.exp_le_exp.mpr (by norm_num)))
      show (2 : ℝ) ^ (128 : ℤ) ≤ _
      rw [show (16 : ℝ) = 2 ^ 4 by norm_num, ← pow_mul]
      exact_mod_cast pow_le_pow_right₀ (by norm_num : (1 : ℝ) ≤ 2) (by norm_num)

/-- The full claim fails in double precision and in single precision. -/
theorem C81_false : ¬ C81_full binary64 ∧ ¬ C81_full binary32 := by
  constructor
  · intro h
    obtain ⟨u, hu, hv⟩ := C81_overflow64 (Summation.sequential binary64) Unit ()
    have P := IEEE.precise binary64 (Summation.sequential binary64)
    obtain ⟨v, t, h1, h2⟩ := h (Summation.sequential binary64) 1 (by norm_num) (by rw [eps64]; norm_num) (fun _ => one) (fun _ => u) (fun _ => 1)
      (fun _ => -1000) (fun _ => P.one) (fun _ => hu) (by rw [eps64]; norm_num) Unit ()
    rw [hv] at h1
    cases h1
    unfold Den at h2
    exact EReal.coe_ne_top t (Option.some.inj h2).symm
  · intro h
    obtain ⟨u, hu, hv⟩ := C81_overflow32 (Summation.sequential binary32) Unit ()
    have P := IEEE.precise binary32 (Summation.sequential binary32)
    have he : binary32.eps = 1 / 2 ^ 21 := rfl
    obtain ⟨v, t, h1, h2⟩ := h (Summation.sequential binary32) 1 (by norm_num) (by rw [he]; norm_num) (fun _ => one) (fun _ => u) (fun _ => 1)
      (fun _ => -100) (fun _ => P.one) (fun _ => hu) (by rw [he]; norm_num) Unit ()
    rw [hv] at h1
    cases h1
    unfold Den at h2
    exact EReal.coe_ne_top t (Option.some.inj h2).symm

/-- What holds: if no exponential overflows (`exp(-y u) ≤ 1/(4e)`), the value is finite and its error is at most
`(80 + 4n) e` times the mean of `|y u| + 1`.  Missing: samples misclassified with a large margin, where the value is infinite. -/
theorem C81_partial {F : Type} [Scalar F] [LawfulCmp F] {e : ℝ} {DM : Type} (X : DM) (P : Precise F e) (E : PreciseExp F e) (hn : 0 < n)
    (y' u : Fin n → F) (y U : Fin n → ℝ) (hy : ∀ i, Den (y' i) (y i)) (hu : ∀ i, Den (u i) (U i)) (hne : 8 * (n * e) ≤ 1)
    (hm : 64 * ((∑ i, (|y i * U i| + 1)) * e) ≤ 1) (hx : ∀ i, 4 * (Real.exp (-(y i * U i)) * e) ≤ 1) :
    ∃ v t, Logistic.value (⟨X, Targets.one (List.ofFn y')⟩ : Dataset DM F) (List.ofFn u) = .ok v ∧ Den v t ∧
      |t - logLoss y U| ≤ (80 + 4 * n) * (e * ((∑ i, (|y i * U i| + 1)) / n)) :=
  log_value_err P E hn hy hu hne hm hx

/-- In double precision, two samples with margins `1` and `-1`: the value is off by at most `2⁻⁴²`. -/
example (S : Summation binary64) (DM : Type) (X : DM) :
    ∃ v t, Logistic.value (⟨X, Targets.one (List.ofFn ![(one : IEEE binary64 S), -.one])⟩ : Dataset DM (IEEE binary64 S))
        (List.ofFn fun _ : Fin 2 => (one : IEEE binary64 S)) = .ok v ∧ Den v t ∧
      |t - (Real.log (1 + Real.exp (-1)) + Real.log (1 + Real.exp 1)) / 2| ≤ 1 / 2 ^ 42 := by
  have P := IEEE.precise binary64 S
  have E := IEEE.preciseExp binary64 S (by norm_num [binary64])
  have h1 : Real.exp (-1) ≤ 3 := (Real.exp_le_exp.mpr (by norm_num : (-1 : ℝ) ≤ 1)).trans (by linarith [Real.exp_one_lt_d9])
  have h2 : Real.exp 1 ≤ 3 := by linarith [Real.exp_one_lt_d9]
  rw [eps64] at P E
  obtain ⟨v, t, hv, ht, hb⟩ := C81_partial X P E (n := 2) (by norm_num) ![one, -.one] (fun _ => one) ![1, -1] (fun _ => 1)
    (by intro i; fin_cases i; exacts [P.one, P.neg _ _ P.one]) (fun _ => P.one) (by norm_num) (by simp [Fin.sum_univ_two]; norm_num)
    (by
      intro i
      fin_cases i
      · simp only [Fin.zero_eta, Matrix.cons_val_zero, mul_one]; linarith
      · simp only [Fin.mk_one, Matrix.cons_val_one, mul_one]; norm_num; linarith)
  refine ⟨v, t, hv, ht, ?_⟩
  have e1 : logLoss ![1, -1] (fun _ : Fin 2 => (1 : ℝ)) = (Real.log (1 + Real.exp (-1)) + Real.log (1 + Real.exp 1)) / 2 := by
    simp [logLoss, Fin.sum_univ_two]
  rw [e1] at hb
  refine hb.trans ?_
  simp [Fin.sum_univ_two]
  norm_num

end Sglm
