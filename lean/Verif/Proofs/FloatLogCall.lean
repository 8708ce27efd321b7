import Verif.Proofs.FloatLog
import Verif.Proofs.FloatEnd

/-!
# Calls with floating point data: the logistic loss
-/

set_option linter.unusedSectionVars false

namespace Sglm
open Scalar Spec
variable {n p : ℕ}

theorem lchain_exists (b0 : ℝ) (m : ℕ) : ∃ b B K C : ℝ, 1 ≤ b ∧ b0 ≤ b ∧ LMags b B m ∧ 1 ≤ C ∧
    ∀ e d : ℝ, 0 < e → 1 ≤ d → C * d * e ≤ 1 → Chain e B K ((b + 4) * d) m 10 ∧ K ^ 10 * ((b + 4) * d) = C * d := by
  obtain ⟨b, hb⟩ : ∃ b : ℝ, b = 1 + |b0| := ⟨_, rfl⟩
  have a1 := abs_nonneg b0
  have a2 := le_abs_self b0
  have hb1 : 1 ≤ b := by linarith
  obtain ⟨B, hB⟩ : ∃ B : ℝ, B = (m + 1) * (Real.exp (b ^ 2 + 1) + 3) := ⟨_, rfl⟩
  have hm0 : (0 : ℝ) ≤ m := Nat.cast_nonneg m
  have hB1 : 1 ≤ B := by
    rw [hB]
    exact one_le_mul_of_one_le_of_one_le (by linarith) (by linarith [Real.exp_pos (b ^ 2 + 1)])
  obtain ⟨K, hK⟩ : ∃ K : ℝ, K = 10 * (m + 1) ^ 2 * (B + 1) ^ 3 := ⟨_, rfl⟩
  have hK1 := one_le_K hB1 hK
  refine ⟨b, B, K, K ^ 10 * (b + 4), hb1, by linarith, ⟨hb1, hB.ge⟩,
    one_le_mul_of_one_le_of_one_le (one_le_pow₀ hK1) (by linarith), fun e d he hd hs => ⟨⟨Consts.mk' he hB1 hK,
      one_le_mul_of_one_le_of_one_le (by linarith) hd, ?_⟩, by ring⟩⟩
  rw [← mul_assoc]
  exact hs

section
variable {F : Type} [Scalar F] [LawfulCmp F] {e B K b d : ℝ} {N : ℕ}

theorem nat_pos (P : Precise F e) {c : ℝ} (ch : Chain e B K c N 10) {a : ℕ} (ha : 0 < a) (haB : (a : ℝ) ≤ B) :
    ∃ t, Den (Scalar.ofNat a : F) t ∧ t ≠ 0 := by
  obtain ⟨t, h1, h2⟩ := ch.nat P (F := F) a haB (by norm_num)
  obtain ⟨-, -, hce⟩ := ch.k.small (ch.ge 1) (ch.sm' (i := 1) (by norm_num))
  have hn1 : (1 : ℝ) ≤ a := by exact_mod_cast ha
  exact ⟨t, h1, by have := (abs_le.mp h2).1; intro h; linarith⟩

theorem quart_inv (ch : Chain e B K d N 10) (hn : 0 < n) : 1 / B ≤ |((4 * n : ℕ) : ℝ)| := by
  have hn1 : (1 : ℝ) ≤ n := by exact_mod_cast hn
  have hB1 := ch.k.B1
  have : 1 / B ≤ 1 := (div_le_one (by linarith)).mpr hB1
  push_cast
  rw [abs_of_nonneg (by linarith)]
  linarith

/-- The logistic loss, dense design. -/
theorem log_dense_core (hn : 0 < n) (X : Fin n → Fin p → ℝ) (P : Precise F e) (hm : LMags b B n)
    (ch : Chain e B K ((b + 4) * 1) n 10) (bn : 4 * (n : ℝ) ≤ b) (bX : ∀ i j, |X i j| ≤ b)
    (x : Fin n → Fin p → F) (y' : Fin n → F) (hx : ∀ i j, Stores e (x i j) (X i j)) (df0 : Logistic F) :
    ∃ df, Datafit.init df0 (⟨matOf x, Targets.one (List.ofFn y')⟩ : Dataset (Mat F) F) = .ok df ∧
      SafeFit (⟨matOf x, Targets.one (List.ofFn y')⟩ : Dataset (Mat F) F) df n p ∧
      ∃ l : Fin p → F, Datafit.stepSize (DM := Mat F) df = List.ofFn l ∧
        ∀ j, Apx e (l j) (logStep X j) (K ^ 10 * ((b + 4) * 1)) ∧ (logStep X j = 0 → Den (l j) 0) := by
  have he := P.pos
  have hb := hm.b_le
  have hn4 : (((4 * n : ℕ) : ℝ)) ≤ B := by push_cast; linarith
  have hinit : Datafit.init df0 (⟨matOf x, Targets.one (List.ofFn y')⟩ : Dataset (Mat F) F) =
      .ok (⟨List.ofFn fun j => dot (List.ofFn fun i => x i j) (List.ofFn fun i => x i j) /. Scalar.ofNat (4 * n)⟩ : Logistic F) := by
    show Logistic.initDense _ = _
    unfold Logistic.initDense
    simp only [bind, Except.bind, one_nSamplesOf, colSqNorms_matOf, pure, Except.pure]
  have hsafe := log_dense_safe (shaped_matOf x) (shaped_oneOf y') df0
  rw [hinit] at hsafe
  refine ⟨_, hinit, hsafe, _, rfl, fun j => ⟨?_, fun h0 => ?_⟩⟩
  · have ax := fun i => ch.base le_rfl ((hx i j).apx he.le (bX i j) (c := (b + 4) * 1) (by linarith))
    have d1 := ch.dot P le_rfl 0 ax ax (fun i => (bX i j).trans hb) (fun i => (bX i j).trans hb) ⟨le_rfl, le_rfl, by norm_num⟩
    have d2 := ch.div P 1 d1 (ch.nat P (4 * n) hn4 (by norm_num))
      ((abs_sum_le_card _ _ fun i => abs_mul_le (bX i j) (bX i j)).trans (hm.mul_sq le_rfl)) (quart_inv ch hn) ⟨le_rfl, le_rfl, by norm_num⟩
    have := ch.up (j := 10) (by norm_num) d2
    push_cast at this
    exact this
  · have hz := quadStep_zero hn X j (by
      unfold logStep at h0
      unfold quadStep
      have hn' : (4 * (n : ℝ)) ≠ 0 := by positivity
      rw [(div_eq_zero_iff.mp h0).resolve_right hn', zero_div])
    obtain ⟨t, ht, ht0⟩ := nat_pos P ch (a := 4 * n) (by omega) hn4
    exact P.div_zero _ _ t (P.dot_zero n _ _ (fun _ => 0) (fun _ => 0) (fun i => (hx i j).zero (hz i))
      (fun i => (hx i j).zero (hz i)) (fun i => by simp)) ht ht0

/-- The logistic loss, sparse design. -/
theorem log_csc_core (hn : 0 < n) (A : CSCData n p) (P : Precise F e) (hm : LMags b B (n + A.nnz))
    (ch : Chain e B K ((b + 4) * 1) (n + A.nnz) 10) (bn : 4 * (n : ℝ) ≤ b) (bA : ∀ k, |A.data k| ≤ b)
    (x : Fin A.nnz → F) (y' : Fin n → F) (hx : ∀ k, Stores e (x k) (A.data k)) (df0 : Logistic F) :
    ∃ df, Datafit.init df0 (⟨A.toCSCOf x, Targets.one (List.ofFn y')⟩ : Dataset (CSC F) F) = .ok df ∧
      SafeFit (⟨A.toCSCOf x, Targets.one (List.ofFn y')⟩ : Dataset (CSC F) F) df n p ∧
      ∃ l : Fin p → F, Datafit.stepSize (DM := CSC F) df = List.ofFn l ∧
        ∀ j, Apx e (l j) (cscLogStep A j) (K ^ 10 * ((b + 4) * 1)) ∧ (cscLogStep A j = 0 → Den (l j) 0) := by
  have he := P.pos
  have hb := hm.b_le
  have hn4 : (((4 * n : ℕ) : ℝ)) ≤ B := by push_cast; linarith
  have hinit : Datafit.init df0 (⟨A.toCSCOf x, Targets.one (List.ofFn y')⟩ : Dataset (CSC F) F) =
      .ok (⟨List.ofFn fun j => colFold A x x j /. Scalar.ofNat (4 * n)⟩ : Logistic F) := by
    show Logistic.initCSC _ = _
    unfold Logistic.initCSC
    have hnf : DesignMatrix.nFeatures (A.toCSCOf x) = .ok p := nFeatures_toCSCOf A x
    simp only [one_nSamplesOf]
    rw [show (A.toCSCOf x).nFeatures = .ok p from hnf]
    simp only [bind, Except.bind]
    rw [mapM_range (fun j => colFold A x x j /. Scalar.ofNat (4 * n))]
    · rfl
    · intro j
      rw [colRange_toCSCOf]
      dsimp only
      have := foldlM_col A j (fun s : F => s) (fun acc idx => do
          let d ← (A.toCSCOf x).dataAt idx
          pure (acc +. d *. d))
        (fun s k => s +. x k *. x k) (by
          intro t k
          simp only [dataAt_toCSCOf, bind, Except.bind]
          rfl) zero
      simp only [bind, Except.bind] at this
      rw [this]
      rfl
  have hsafe := log_csc_safe (shaped_toCSCOf A x) (shaped_oneOf y') df0
  rw [hinit] at hsafe
  refine ⟨_, hinit, hsafe, _, rfl, fun j => ⟨?_, fun h0 => ?_⟩⟩
  · have ax := fun k => ch.base le_rfl ((hx k).apx he.le (bA k) (c := (b + 4) * 1) (by linarith))
    have m1 := fun k => ch.mul P 0 (ax k) (ax k) ((bA k).trans hb) ((bA k).trans hb) ⟨le_rfl, le_rfl, by norm_num⟩
    have hlen : (colList A j).length ≤ n + A.nnz := (colList_len A j).trans (Nat.le_add_left _ _)
    have d1 := ch.fsum P 1 (colList A j) hlen (fun k _ => ⟨m1 k, abs_mul_le (bA k) (bA k)⟩) (hm.mul_sq hlen) (by norm_num)
    have hs : |((colList A j).map fun k => A.data k * A.data k).sum| ≤ B := by
      have : |((colList A j).map fun k => A.data k * A.data k).sum| ≤ A.nnz * b ^ 2 := by
        unfold colList
        rw [sum_filter_list]
        refine abs_sum_le_card _ _ fun k => ?_
        split
        · exact abs_mul_le (bA k) (bA k)
        · rw [abs_zero]; positivity
      exact this.trans (hm.mul_sq (Nat.le_add_left _ _))
    have d2 := ch.div P 3 d1 (ch.nat P (4 * n) hn4 (by norm_num)) hs (quart_inv ch hn) ⟨le_rfl, by norm_num, by norm_num⟩
    have := ch.up (j := 10) (by norm_num) d2
    push_cast at this
    exact this
  · have hz := cscStep_zero hn A j (by
      unfold cscLogStep at h0
      unfold cscStep
      have hn' : (4 * (n : ℝ)) ≠ 0 := by positivity
      rw [(div_eq_zero_iff.mp h0).resolve_right hn', zero_div])
    obtain ⟨t, ht, ht0⟩ := nat_pos P ch (a := 4 * n) (by omega) hn4
    exact P.div_zero _ _ t (Consts.fold_zero P (r := fun _ => 0) (s := fun _ => 0) (colList A j)
      (fun k hk => ⟨(hx k).zero (hz k hk), (hx k).zero (hz k hk), by simp⟩) zero den_zero) ht ht0

end

/-- Gradient and steps of the logistic loss in floating point. -/
theorem log_exists (hn : 0 < n) (D : Design n p) (y : Fin n → ℝ) (B : ℝ) (hB : 1 ≤ B) :
    ∃ C : ℝ, 1 ≤ C ∧ ∀ {F : Type} [Scalar F] [LawfulCmp F] {e : ℝ}, Precise F e → PreciseExp F e → C * e ≤ 1 →
      ∀ (y' : Fin n → F), (∀ i, Stores e (y' i) (y i)) →
      match D with
      | .dense X => ∀ x : Fin n → Fin p → F, (∀ i j, Stores e (x i j) (X i j)) → ∀ df0 : Logistic F,
        ∃ df, Datafit.init df0 (⟨matOf x, Targets.one (List.ofFn y')⟩ : Dataset (Mat F) F) = .ok df ∧
          FitApx e B C (⟨matOf x, Targets.one (List.ofFn y')⟩ : Dataset (Mat F) F) df X (logGrad X y) (logStep X)
      | .csc A => ∀ x : Fin A.nnz → F, (∀ k, Stores e (x k) (A.data k)) → ∀ df0 : Logistic F,
        ∃ df, Datafit.init df0 (⟨A.toCSCOf x, Targets.one (List.ofFn y')⟩ : Dataset (CSC F) F) = .ok df ∧
          FitApx e B C (⟨A.toCSCOf x, Targets.one (List.ofFn y')⟩ : Dataset (CSC F) F) df A.dense (logGrad A.dense y)
            (cscLogStep A) := by
  have hy0 : 0 ≤ ∑ i, |y i| := Finset.sum_nonneg fun i _ => abs_nonneg _
  have hn0 : (0 : ℝ) ≤ n := Nat.cast_nonneg n
  obtain ⟨C1, h1, H1⟩ := quad_exists hn D y B hB
  cases D with
  | dense X =>
    have hX : ∀ i j, |X i j| ≤ ∑ i, ∑ j, |X i j| := fun i j => (sum_abs_ge (X i) j).trans
      (Finset.single_le_sum (f := fun i => ∑ j, |X i j|) (fun i _ => Finset.sum_nonneg fun j _ => abs_nonneg _) (Finset.mem_univ i))
    have hX0 : 0 ≤ ∑ i, ∑ j, |X i j| := Finset.sum_nonneg fun i _ => Finset.sum_nonneg fun j _ => abs_nonneg _
    obtain ⟨b, B', K, C, hb1, hb, hm, hC, hch⟩ := lchain_exists (∑ i, ∑ j, |X i j| + ∑ i, |y i| + 4 * n + B) n
    refine ⟨C + C1, by linarith, ?_⟩
    intro F _ _ e Pr E hCe y' hy x hx df0
    have he := Pr.pos
    have sm : ∀ {z d : ℝ}, 1 ≤ d → z ≤ C + C1 → (C + C1) * d * e ≤ 1 → z * d * e ≤ 1 := fun hd h hs =>
      (mul_le_mul_of_nonneg_right (mul_le_mul_of_nonneg_right h (by linarith)) he.le).trans hs
    have hCe1 : (C + C1) * 1 * e ≤ 1 := by rw [mul_one]; exact hCe
    obtain ⟨ch1, ce1⟩ := hch e 1 he le_rfl (sm le_rfl (by linarith) hCe1)
    obtain ⟨df, k1, k2, l, k3, k4⟩ := log_dense_core hn X Pr hm ch1 (by linarith) (fun i j => (hX i j).trans (by linarith)) x y' hx df0
    rw [mul_one] at ce1
    obtain ⟨dq, q1, q2⟩ := H1 Pr (by have := sm le_rfl (by linarith) hCe1 (z := C1); rwa [mul_one] at this) y' hy x hx Quadratic.new
    refine ⟨df, k1, k2, ⟨l, k3, fun j => ⟨(k4 j).1.mono he.le ?_, (k4 j).2⟩⟩, fun u U d hd hs hU hu j => ?_,
      ((FitApx.mono q2 he.le (by linarith : C1 ≤ C + C1))).upd⟩
    · rw [mul_one, ce1]; linarith
    · obtain ⟨ch, ce⟩ := hch e d he hd (sm hd (by linarith) hs)
      refine Tri.mono (log_grad_dense hn X Pr E hm ch le_rfl hd (by linarith) (fun i j => (hX i j).trans (by linarith))
        (fun i => (sum_abs_ge y i).trans (by linarith)) hy x hx (fun i => (hU i).trans (by linarith)) hu j) fun z hz => hz.mono he.le ?_
      rw [ce]
      exact mul_le_mul_of_nonneg_right (by linarith) (by linarith)
  | csc A =>
    have hX0 : 0 ≤ ∑ k, |A.data k| := Finset.sum_nonneg fun i _ => abs_nonneg _
    obtain ⟨b, B', K, C, hb1, hb, hm, hC, hch⟩ := lchain_exists (∑ k, |A.data k| + ∑ i, |y i| + 4 * n + B) (n + A.nnz)
    refine ⟨C + C1, by linarith, ?_⟩
    intro F _ _ e Pr E hCe y' hy x hx df0
    have he := Pr.pos
    have sm : ∀ {z d : ℝ}, 1 ≤ d → z ≤ C + C1 → (C + C1) * d * e ≤ 1 → z * d * e ≤ 1 := fun hd h hs =>
      (mul_le_mul_of_nonneg_right (mul_le_mul_of_nonneg_right h (by linarith)) he.le).trans hs
    have hCe1 : (C + C1) * 1 * e ≤ 1 := by rw [mul_one]; exact hCe
    obtain ⟨ch1, ce1⟩ := hch e 1 he le_rfl (sm le_rfl (by linarith) hCe1)
    have bA : ∀ k, |A.data k| ≤ b := fun k => (sum_abs_ge A.data k).trans (by linarith)
    obtain ⟨df, k1, k2, l, k3, k4⟩ := log_csc_core hn A Pr hm ch1 (by linarith) bA x y' hx df0
    rw [mul_one] at ce1
    obtain ⟨dq, q1, q2⟩ := H1 Pr (by have := sm le_rfl (by linarith) hCe1 (z := C1); rwa [mul_one] at this) y' hy x hx Quadratic.new
    refine ⟨df, k1, k2, ⟨l, k3, fun j => ⟨(k4 j).1.mono he.le ?_, (k4 j).2⟩⟩, fun u U d hd hs hU hu j => ?_,
      ((FitApx.mono q2 he.le (by linarith : C1 ≤ C + C1))).upd⟩
    · rw [mul_one, ce1]; linarith
    · obtain ⟨ch, ce⟩ := hch e d he hd (sm hd (by linarith) hs)
      refine Tri.mono (log_grad_csc hn A Pr E hm ch le_rfl hd (by linarith) bA
        (fun i => (sum_abs_ge y i).trans (by linarith)) hy x hx (fun i => (hU i).trans (by linarith)) hu j) fun z hz => hz.mono he.le ?_
      rw [ce]
      exact mul_le_mul_of_nonneg_right (by linarith) (by linarith)

/-- Values of the logistic loss in floating point. -/
theorem log_fitVal (hn : 0 < n) (D : Design n p) (y : Fin n → ℝ) (Bv Bu : ℝ) :
    ∃ C : ℝ, 1 ≤ C ∧ ∀ {F : Type} [Scalar F] [LawfulCmp F] {e : ℝ}, Precise F e → Propagates F → PreciseExp F e → C * e ≤ 1 →
      ∀ (y' : Fin n → F), (∀ i, Stores e (y' i) (y i)) →
      match D with
      | .dense X => ∀ x : Fin n → Fin p → F, (∀ i j, Stores e (x i j) (X i j)) → ∀ df : Logistic F,
        FitVal e Bv Bu C (⟨matOf x, Targets.one (List.ofFn y')⟩ : Dataset (Mat F) F) df X (logLoss y)
      | .csc A => ∀ x : Fin A.nnz → F, (∀ k, Stores e (x k) (A.data k)) → ∀ df : Logistic F,
        FitVal e Bv Bu C (⟨A.toCSCOf x, Targets.one (List.ofFn y')⟩ : Dataset (CSC F) F) df A.dense (logLoss y) := by
  have hy0 : 0 ≤ ∑ i, |y i| := Finset.sum_nonneg fun i _ => abs_nonneg _
  have hn0 : (0 : ℝ) ≤ n := Nat.cast_nonneg n
  obtain ⟨b, B', K, C, hb1, hb, hm, hC, hch⟩ := lchain_exists (∑ i, |y i| + n + |Bu|) n
  have a1 := abs_nonneg Bu
  have a2 := le_abs_self Bu
  have key : ∀ {F : Type} [Scalar F] [LawfulCmp F] {e : ℝ}, Precise F e → Propagates F → PreciseExp F e → C * e ≤ 1 →
      ∀ (y' : Fin n → F), (∀ i, Stores e (y' i) (y i)) → ∀ {DM : Type} (X : DM),
      (∀ u : Fin n → F, Ok (Logistic.value (⟨X, Targets.one (List.ofFn y')⟩ : Dataset DM F) (List.ofFn u)) NonNeg) ∧
      ∀ (u : Fin n → F) (U : Fin n → ℝ) d, 1 ≤ d → C * d * e ≤ 1 → (∀ i, |U i| ≤ Bu) → (∀ i, Apx e (u i) (U i) d) →
        Ok (Logistic.value (⟨X, Targets.one (List.ofFn y')⟩ : Dataset DM F) (List.ofFn u)) (fun x => Apx e x (logLoss y U) (C * d)) := by
    intro F _ _ e Pr S E hCe y' hy DM X
    have he := Pr.pos
    constructor
    · intro u
      obtain ⟨ch, ce⟩ := hch e 1 he le_rfl (by rwa [mul_one])
      exact log_value_nonneg hn Pr S E ch (by linarith) (by linarith [hm.exp_le, Real.exp_pos (b ^ 2 + 1)]) (by linarith [hm.b_le]) y' u
    · intro u U d hd hs hU hu
      obtain ⟨ch, ce⟩ := hch e d he hd hs
      refine Tri.mono (log_value_apx hn Pr E hm ch le_rfl hd (by linarith) (fun i => (sum_abs_ge y i).trans (by linarith)) hy
        (fun i => (hU i).trans (by linarith)) hu) fun z hz => hz.mono he.le ce.le
  cases D with
  | dense X =>
    obtain ⟨C1, h1, H1⟩ := dense_fitVal hn X y Bv Bu
    refine ⟨C + C1, by linarith, ?_⟩
    intro F _ _ e Pr S E hCe y' hy x hx df
    have he := Pr.pos
    have sm : ∀ {z d : ℝ}, 1 ≤ d → z ≤ C + C1 → (C + C1) * d * e ≤ 1 → z * d * e ≤ 1 := fun hd h hs =>
      (mul_le_mul_of_nonneg_right (mul_le_mul_of_nonneg_right h (by linarith)) he.le).trans hs
    have hCe1 : (C + C1) * 1 * e ≤ 1 := by rw [mul_one]; exact hCe
    have c1 : C * e ≤ 1 := by have := sm le_rfl (by linarith) hCe1 (z := C); rwa [mul_one] at this
    have c2 : C1 * e ≤ 1 := by have := sm le_rfl (by linarith) hCe1 (z := C1); rwa [mul_one] at this
    obtain ⟨k1, k2⟩ := key Pr S E c1 y' hy (matOf x)
    exact ⟨k1, fun u U d hd hs hU hu => Tri.mono (k2 u U d hd (sm hd (by linarith) hs) hU hu) fun z hz => hz.mono he.le
      (mul_le_mul_of_nonneg_right (by linarith) (by linarith)),
      (FitVal.mono (H1 Pr S c2 y' hy x hx Quadratic.new) he.le (by linarith : C1 ≤ C + C1)).extra⟩
  | csc A =>
    obtain ⟨C1, h1, H1⟩ := csc_fitVal hn A y Bv Bu
    refine ⟨C + C1, by linarith, ?_⟩
    intro F _ _ e Pr S E hCe y' hy x hx df
    have he := Pr.pos
    have sm : ∀ {z d : ℝ}, 1 ≤ d → z ≤ C + C1 → (C + C1) * d * e ≤ 1 → z * d * e ≤ 1 := fun hd h hs =>
      (mul_le_mul_of_nonneg_right (mul_le_mul_of_nonneg_right h (by linarith)) he.le).trans hs
    have hCe1 : (C + C1) * 1 * e ≤ 1 := by rw [mul_one]; exact hCe
    have c1 : C * e ≤ 1 := by have := sm le_rfl (by linarith) hCe1 (z := C); rwa [mul_one] at this
    have c2 : C1 * e ≤ 1 := by have := sm le_rfl (by linarith) hCe1 (z := C1); rwa [mul_one] at this
    obtain ⟨k1, k2⟩ := key Pr S E c1 y' hy (A.toCSCOf x)
    exact ⟨k1, fun u U d hd hs hU hu => Tri.mono (k2 u U d hd (sm hd (by linarith) hs) hU hu) fun z hz => hz.mono he.le
      (mul_le_mul_of_nonneg_right (by linarith) (by linarith)),
      (FitVal.mono (H1 Pr S c2 y' hy x hx Quadratic.new) he.le (by linarith : C1 ≤ C + C1)).extra⟩

/-- The objects of a call satisfy the contracts, logistic loss. -/
theorem callOf_log (hn : 0 < n) (D : Design n p) (y : Fin n → ℝ) (pen : Pen) (hv : pen.Valid) (hα : 0 < pen.fn 1) (B m : ℝ) (hB : 1 ≤ B)
    (hm : 0 ≤ m) :
    ∃ Bv Bu C : ℝ, B ≤ Bv ∧ B ≤ Bu ∧ (∀ v : Fin p → ℝ, (∀ j, |v j| ≤ Bv) → ∀ i, |fit D.matrix v i| ≤ Bu) ∧ 1 ≤ C ∧
      ∀ {F : Type} [Scalar F] [LawfulCmp F] {e : ℝ}, FloatLaws .logistic F e → C * e ≤ 1 →
      ∀ (x : D.Entries F) (y' : Fin n → F) (pen' : PenOf F), D.StoredAs e x → (∀ i, Stores e (y' i) (y i)) → pen'.Stored e pen →
      ∀ {α : Type} (run : ∀ {DM DF P : Type} [DesignMatrix F DM] [Datafit F DM DF] [Penalty F P], Dataset DM F → DF → P → α)
        (Q : α → Prop),
        (∀ {DM DF P : Type} [DesignMatrix F DM] [Datafit F DM DF] [Penalty F P] (ds : Dataset DM F) (df0 df : DF) (pn : P),
          CallApx e B C m Bv Bu ds df0 df pn D y .logistic pen → Q (run ds df0 pn)) →
        Q (callOf D x y' .logistic pen' run) := by
  obtain ⟨Bv, C3, hBv, hBv1, h3, H3⟩ := penVal_exists p pen hv hα m B hm
  have hA0 : 0 ≤ ∑ i, ∑ j, |D.matrix i j| := Finset.sum_nonneg fun i _ => Finset.sum_nonneg fun j _ => abs_nonneg _
  obtain ⟨Bu, hBu⟩ : ∃ Bu : ℝ, Bu = B + (∑ i, ∑ j, |D.matrix i j|) * Bv := ⟨_, rfl⟩
  have hfit : ∀ v : Fin p → ℝ, (∀ j, |v j| ≤ Bv) → ∀ i, |fit D.matrix v i| ≤ Bu := by
    intro v hv i
    have h1 : |fit D.matrix v i| ≤ ∑ j, |D.matrix i j| * Bv := by
      refine (Finset.abs_sum_le_sum_abs _ _).trans (Finset.sum_le_sum fun j _ => ?_)
      rw [abs_mul]
      exact mul_le_mul_of_nonneg_left (hv j) (abs_nonneg _)
    rw [← Finset.sum_mul] at h1
    have h2 : ∑ j, |D.matrix i j| ≤ ∑ i, ∑ j, |D.matrix i j| :=
      Finset.single_le_sum (f := fun i => ∑ j, |D.matrix i j|) (fun i _ => Finset.sum_nonneg fun j _ => abs_nonneg _) (Finset.mem_univ i)
    have h3 := mul_le_mul_of_nonneg_right h2 (by linarith : 0 ≤ Bv)
    linarith
  obtain ⟨C1, h1, H1⟩ := log_exists hn D y B hB
  obtain ⟨C2, h2, H2⟩ := pen_exists pen hv B hB
  obtain ⟨C4, h4, H4⟩ := log_fitVal hn D y Bv Bu
  have hBu1 : B ≤ Bu := by
    have : 0 ≤ (∑ i, ∑ j, |D.matrix i j|) * Bv := mul_nonneg hA0 (by linarith)
    linarith
  refine ⟨Bv, Bu, C1 + C2 + C3 + C4, hBv, hBu1, hfit, by linarith, ?_⟩
  intro F _ _ e Lw hCe x y' pen' hx hy hp α run Q hQ
  have Pr := Lw.precise
  have S := Lw.propagates
  have E := Lw.explog rfl
  have he := Pr.pos
  have e1 : C1 * e ≤ 1 := (mul_le_mul_of_nonneg_right (by linarith) he.le).trans hCe
  have e2 : C2 * e ≤ 1 := (mul_le_mul_of_nonneg_right (by linarith) he.le).trans hCe
  have e3 : C3 * e ≤ 1 := (mul_le_mul_of_nonneg_right (by linarith) he.le).trans hCe
  have e4 : C4 * e ≤ 1 := (mul_le_mul_of_nonneg_right (by linarith) he.le).trans hCe
  have P2 := H2 Pr e2 pen' hp
  have P1 := H1 Pr E e1 y' hy
  have P3 := H3 Pr S e3 pen' hp
  have P4 := H4 Pr S E e4 y' hy
  have l1 : C1 ≤ C1 + C2 + C3 + C4 := by linarith
  have l2 : C2 ≤ C1 + C2 + C3 + C4 := by linarith
  have l3 : C3 ≤ C1 + C2 + C3 + C4 := by linarith
  have l4 : C4 ≤ C1 + C2 + C3 + C4 := by linarith
  cases D with
  | dense X =>
    obtain ⟨df, k1, k2⟩ := P1 x hx Logistic.new
    cases pen' with
    | l1 a => exact hQ _ _ df (L1.mk a) ⟨one_nSamplesOf y', rfl, k1, k2.mono he.le l1, PenApx.mono P2 he.le l2,
        (P4 x hx df).mono he.le l4, PenVal.mono P3 he.le l3⟩
    | enet a r => exact hQ _ _ df (L1PlusL2.mk a r) ⟨one_nSamplesOf y', rfl, k1, k2.mono he.le l1, PenApx.mono P2 he.le l2,
        (P4 x hx df).mono he.le l4, PenVal.mono P3 he.le l3⟩
  | csc A =>
    obtain ⟨df, k1, k2⟩ := P1 x hx Logistic.new
    cases pen' with
    | l1 a => exact hQ _ _ df (L1.mk a) ⟨one_nSamplesOf y', nFeatures_toCSCOf A x, k1, k2.mono he.le l1, PenApx.mono P2 he.le l2,
        (P4 x hx df).mono he.le l4, PenVal.mono P3 he.le l3⟩
    | enet a r => exact hQ _ _ df (L1PlusL2.mk a r) ⟨one_nSamplesOf y', nFeatures_toCSCOf A x, k1, k2.mono he.le l1, PenApx.mono P2 he.le l2,
        (P4 x hx df).mono he.le l4, PenVal.mono P3 he.le l3⟩

/-- Both losses. -/
theorem callable (hn : 0 < n) (D : Design n p) (y : Fin n → ℝ) (k : LossKind) (pen : Pen) (hv : pen.Valid) (hα : 0 < pen.fn 1) :
    Callable (fun F _ _ e => FloatLaws k F e) D y k pen := by
  intro B m hB hm
  cases k with
  | quadratic =>
    obtain ⟨Bv, Bu, C, h1, h2, h3, h4, h5⟩ := callOf_elim hn D y pen hv hα B m hB hm
    exact ⟨Bv, Bu, C, h1, h2, h3, h4, fun Lw => h5 Lw.precise Lw.propagates⟩
  | logistic => exact callOf_log hn D y pen hv hα B m hB hm

end Sglm
