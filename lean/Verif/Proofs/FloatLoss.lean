import Verif.Proofs.FloatVal
import Verif.Proofs.MatN

/-!
# The least squares loss and the extrapolated fit in floating point
-/

set_option linter.unusedSectionVars false

namespace Sglm
open Scalar Spec
variable {n p : ℕ}

section
variable {F : Type} [Scalar F] [LawfulCmp F] {e b B K : ℝ}

theorem quad_value_eq {DM : Type} {X : DM} (y' u : Fin n → F) :
    Quadratic.value (⟨X, Targets.one (List.ofFn y')⟩ : Dataset DM F) (List.ofFn u) =
      .ok (Scalar.dot (List.ofFn fun i => y' i -. u i) (List.ofFn fun i => y' i -. u i) /. Scalar.ofNat (2 * n)) := by
  unfold Quadratic.value
  simp only [single_oneOf, one_nSamplesOf, bind, Except.bind, bop_ofFn, dotM_ofFn]
  rfl

/-- Magnitudes. -/
theorem loss_mags (hb : 1 ≤ b) (hB : 4 * ((n + 1) * b ^ 2) ≤ B) {y U : Fin n → ℝ} (hy : ∀ i, |y i| ≤ b) (hU : ∀ i, |U i| ≤ b) :
    b ≤ B ∧ (∀ i, |y i - U i| ≤ B) ∧ |∑ i, (y i - U i) * (y i - U i)| ≤ B := by
  have hn0 : (0 : ℝ) ≤ n := Nat.cast_nonneg n
  have h2 : b ≤ b ^ 2 := by nlinarith
  have h3 : 0 ≤ n * b ^ 2 := by positivity
  have h4 : ∀ i, |y i - U i| ≤ 2 * b := fun i => by
    have := abs_sub (y i) (U i); have := hy i; have := hU i; linarith
  refine ⟨by linarith, fun i => (h4 i).trans (by linarith), ?_⟩
  have := abs_sum_le_card (fun i => (y i - U i) * (y i - U i)) ((2 * b) ^ 2) fun i => abs_mul_le (h4 i) (h4 i)
  nlinarith

theorem quad_value_apx {DM : Type} {X : DM} (hn : 0 < n) (Pr : Precise F e) (kk : Consts e B K n) (hb : 1 ≤ b) (hnb : 2 * (n : ℝ) ≤ b)
    (hB : 4 * ((n + 1) * b ^ 2) ≤ B) {y : Fin n → ℝ} (hy : ∀ i, |y i| ≤ b) {y' : Fin n → F} (hy' : ∀ i, Stores e (y' i) (y i))
    {u : Fin n → F} {U : Fin n → ℝ} {d : ℝ} (hd : 1 ≤ d) (hU : ∀ i, |U i| ≤ b) (hu : ∀ i, Apx e (u i) (U i) d)
    (hs : K * (K * (K * ((b + 1) * d))) * e ≤ 1) :
    Ok (Quadratic.value (⟨X, Targets.one (List.ofFn y')⟩ : Dataset DM F) (List.ofFn u))
      (fun x => Apx e x (quadLoss y U) (K * (K * (K * ((b + 1) * d))))) := by
  have he := Pr.pos
  have hK := kk.K1
  obtain ⟨m1, m2, m3⟩ := loss_mags hb hB hy hU
  have c0 : 1 ≤ (b + 1) * d := one_le_mul_of_one_le_of_one_le (by linarith) hd
  have g : ∀ {z : ℝ}, 1 ≤ z → z ≤ K * z := fun hz => le_mul_of_one_le_left (by linarith) hK
  have c1 := one_le_mul_of_one_le_of_one_le hK c0
  have c2 := one_le_mul_of_one_le_of_one_le hK c1
  have s2 : K * (K * ((b + 1) * d)) * e ≤ 1 := le_trans (mul_le_mul_of_nonneg_right (g c2) he.le) hs
  have s1 : K * ((b + 1) * d) * e ≤ 1 := le_trans (mul_le_mul_of_nonneg_right (g c1) he.le) s2
  rw [quad_value_eq]
  have t1 : ∀ i, Apx e (y' i -. u i) (y i - U i) (K * ((b + 1) * d)) := fun i =>
    kk.sub Pr ((hy' i).apx he.le (hy i) (le_mul_of_one_le_right (by linarith) hd))
      ((hu i).mono he.le (le_mul_of_one_le_left (by linarith) (by linarith))) c0 (m2 i) s1
  have t2 := kk.dot Pr le_rfl t1 t1 c1 m2 m2 s2
  have hn1 : (1 : ℝ) ≤ n := by exact_mod_cast hn
  have t3 := kk.nat Pr (2 * n) (by push_cast; linarith) c0 s1
  have hB1 := kk.B1
  have t4 := kk.div Pr t2 (t3.mono he.le (g c1)) c2 m3 (by
    rw [abs_of_nonneg (Nat.cast_nonneg _)]
    push_cast
    have : 1 / B ≤ 1 := (div_le_one (by linarith)).mpr hB1
    linarith) hs
  have e1 : quadLoss y U = (∑ i, (y i - U i) * (y i - U i)) / ((2 * n : ℕ) : ℝ) := by
    unfold quadLoss
    push_cast
    simp only [pow_two]
  rw [e1]
  exact t4

theorem quad_value_nonneg {DM : Type} {X : DM} (hn : 0 < n) (Pr : Precise F e) (S : Propagates F) (hne : 2 * (n : ℝ) * e ≤ 1)
    (he1 : e ≤ 1 / 2) (y' u : Fin n → F) :
    Ok (Quadratic.value (⟨X, Targets.one (List.ofFn y')⟩ : Dataset DM F) (List.ofFn u)) NonNeg := by
  have he := Pr.pos
  have hn1 : (1 : ℝ) ≤ n := by exact_mod_cast hn
  rw [quad_value_eq]
  have h := Pr.ofNat (2 * n)
  push_cast at h
  obtain ⟨t, ht⟩ := h.1 (by rw [abs_of_nonneg (by linarith), le_div_iff₀ he]; exact hne)
  have h2 := abs_le.mp (h.2 t ht)
  exact S.div_nonneg _ _ t (S.dot_nonneg _) ht (by nlinarith)

/-! ## The fit of an extrapolated point -/

theorem dense_extra_eq (x : Fin n → Fin p → F) (w : Fin p → F) (l : List (Fin p)) :
    (matOf x).extrapolatedFit (l.map Fin.val) (List.ofFn w) = .ok (List.ofFn fun i => l.foldl (fun acc j => acc +. x i j *. w j) zero) := by
  unfold Mat.extrapolatedFit
  refine mapM_ofFn _ _ fun i => ?_
  rw [List.mapM_map, mapM_ok' (g := fun j : Fin p => x i j *. w j) (fun j _ => by
    show (do let x ← getM (List.ofFn (x i)) (j : ℕ); let w ← getM (List.ofFn w) (j : ℕ); pure (x *. w)) = _
    simp only [getM_ofFn, bind, Except.bind]; rfl)]
  simp only [bind, Except.bind, pure, Except.pure, iterSum, List.foldl_map]

theorem csc_extra_eq (A : CSCData n p) (x : Fin A.nnz → F) (w : Fin p → F) (l : List (Fin p)) :
    (A.toCSCOf x).extrapolatedFit (l.map Fin.val) (List.ofFn w) n = .ok (List.ofFn
      ((l.flatMap fun j => (colList A j).map fun k => (j, k)).foldl
        (fun u jk => Function.update u (A.row jk.2) (u (A.row jk.2) +. x jk.2 *. w jk.1)) fun _ => zero)) := by
  unfold CSC.extrapolatedFit
  rw [List.foldlM_map, List.foldl_flatMap]
  have h := foldlM_ok (fun u : Fin n → F => List.ofFn u) (fun (acc : List F) (j : Fin p) => (do
    let r ← (A.toCSCOf x).colRange j
    r.foldlM (fun acc idx => do
      let i ← (A.toCSCOf x).rowAt idx
      let a ← getM acc i
      let d ← (A.toCSCOf x).dataAt idx
      let w ← getM (List.ofFn w) (j : ℕ)
      setM acc i (a +. d *. w)) acc : M (List F)))
    (fun u j => ((colList A j).map fun k => (j, k)).foldl
        (fun u jk => Function.update u (A.row jk.2) (u (A.row jk.2) +. x jk.2 *. w jk.1)) u) l (fun _ => True)
    (fun u _ j _ => ⟨by
      rw [colRange_toCSCOf]
      rw [List.foldl_map]
      exact foldlM_col A j (fun u : Fin n → F => List.ofFn u) _
        (fun u k => Function.update u (A.row k) (u (A.row k) +. x k *. w j)) (by
          intro t k
          rw [rowAt_toCSCOf]
          simp only [bind, Except.bind, getM_ofFn, dataAt_toCSCOf, setM_ofFn]) u, trivial⟩) (fun _ => zero) trivial
  have e0 : List.ofFn (fun _ : Fin n => (zero : F)) = List.replicate n zero := by simp
  rw [← e0]
  exact h.1

theorem sum_support (l : List (Fin p)) (hl : l.Nodup) (f : Fin p → ℝ) (h : ∀ j ∉ l, f j = 0) : (l.map f).sum = ∑ j, f j := by
  rw [← List.sum_toFinset f hl]
  exact Finset.sum_subset (Finset.subset_univ _) fun j _ hj => h j (by simpa using hj)

theorem nodup_len {l : List (Fin p)} (hl : l.Nodup) : (l.length : ℝ) ≤ p := by
  have := List.Nodup.length_le_card hl
  rw [Fintype.card_fin] at this
  exact_mod_cast this

theorem dense_extra_apx {N : ℕ} (X : Fin n → Fin p → ℝ) (Pr : Precise F e) (kk : Consts e B K N) (hb : 1 ≤ b) (hB : (p + 1) * b ^ 2 ≤ B)
    (hX : ∀ i j, |X i j| ≤ b) (x : Fin n → Fin p → F) (hx : ∀ i j, Stores e (x i j) (X i j)) {l : List (Fin p)} (hl : l.Nodup)
    {w : Fin p → F} {v : Fin p → ℝ} (hw : ∀ j, Den (w j) (v j)) (hv : ∀ j, |v j| ≤ b) (hoff : ∀ j ∉ l, v j = 0)
    (hs : (p + 1) * (K * (K * (K * (b + 1)))) * e ≤ 1) :
    Ok ((matOf x).extrapolatedFit (l.map Fin.val) (List.ofFn w)) (fun r =>
      ∃ u : Fin n → F, r = List.ofFn u ∧ ∀ i, Apx e (u i) (fit X v i) ((p + 1) * (K * (K * (K * (b + 1)))))) := by
  have he := Pr.pos
  have hK := kk.K1
  have hp0 : (0 : ℝ) ≤ p := Nat.cast_nonneg p
  have hlen := nodup_len hl
  have hl0 : (0 : ℝ) ≤ l.length := Nat.cast_nonneg _
  have hb2 : b ≤ b ^ 2 := by nlinarith
  have c1 : 0 ≤ K * (K * (b + 1)) := by positivity
  have c2 : K * (K * (b + 1)) ≤ K * (K * (K * (b + 1))) := le_mul_of_one_le_left c1 hK
  have hpb : 0 ≤ p * b ^ 2 := by positivity
  rw [dense_extra_eq]
  refine ⟨_, rfl, fun i => ?_⟩
  have h := kk.fold Pr (x := fun j => x i j) (v := w) (r := X i) (s := v) (c := b + 1) (b := b) (by linarith) (by linarith) l
    (fun j _ => ⟨(hx i j).apx he.le (hX i j) le_rfl, Den.apx he.le (hw j) (by linarith), hX i j, hv j⟩) zero 0 0
    (Den.apx he.le den_zero le_rfl) le_rfl (by
      rw [abs_zero, zero_add]
      refine le_trans (mul_le_mul_of_nonneg_right hlen (sq_nonneg b)) ?_
      nlinarith [sq_nonneg b]) (by
      refine le_trans (mul_le_mul_of_nonneg_right ?_ he.le) hs
      rw [zero_add]
      have h3 : K * (l.length * (K * (K * (b + 1)))) ≤ p * (K * (K * (K * (b + 1)))) := by
        calc K * (l.length * (K * (K * (b + 1)))) = l.length * (K * (K * (K * (b + 1)))) := by ring
          _ ≤ _ := mul_le_mul_of_nonneg_right hlen (c1.trans c2)
      linarith)
  rw [zero_add, zero_add, sum_support l hl _ fun j hj => by rw [hoff j hj, mul_zero]] at h
  refine h.mono he.le ?_
  have h4 : l.length * (K * (K * (b + 1))) ≤ p * (K * (K * (b + 1))) := mul_le_mul_of_nonneg_right hlen c1
  have h5 : p * (K * (K * (b + 1))) ≤ p * (K * (K * (K * (b + 1)))) := mul_le_mul_of_nonneg_left c2 hp0
  linarith [c1.trans c2]

theorem flat_sum (A : CSCData n p) (l : List (Fin p)) (hl : l.Nodup) (v : Fin p → ℝ) (hoff : ∀ j ∉ l, v j = 0) (i : Fin n) :
    ((l.flatMap fun j => (colList A j).map fun k => (j, k)).map fun jk : Fin p × Fin A.nnz =>
      if A.row jk.2 = i then A.data jk.2 * v jk.1 else 0).sum = fit A.dense v i := by
  have h1 : ∀ j, ((colList A j).map fun k => if A.row k = i then A.data k * v j else 0).sum = A.dense i j * v j := by
    intro j
    have := sum_colList A j fun i' => if i' = i then v j else 0
    simp only [mul_ite, mul_zero] at this
    rw [this]
    simp
  rw [List.map_flatMap, List.flatMap_def, List.sum_flatten]
  simp only [List.map_map, Function.comp_def, h1]
  rw [sum_support l hl _ fun j hj => by rw [hoff j hj, mul_zero]]
  rfl

theorem colList_len (A : CSCData n p) (j : Fin p) : (colList A j).length ≤ A.nnz := by
  unfold colList
  refine (List.length_filter_le _ _).trans ?_
  simp

theorem flat_len (A : CSCData n p) : ∀ l : List (Fin p),
    (l.flatMap fun j => (colList A j).map fun k => (j, k)).length ≤ l.length * A.nnz
  | [] => by simp
  | j :: l => by
    rw [List.flatMap_cons, List.length_append, List.length_map, List.length_cons, Nat.succ_mul]
    have := colList_len A j
    have := flat_len A l
    omega

theorem csc_extra_apx {N : ℕ} (A : CSCData n p) (Pr : Precise F e) (kk : Consts e B K N) (hb : 1 ≤ b)
    (hB : (p * A.nnz + 1) * b ^ 2 ≤ B)
    (hX : ∀ k, |A.data k| ≤ b) (x : Fin A.nnz → F) (hx : ∀ k, Stores e (x k) (A.data k)) {l : List (Fin p)} (hl : l.Nodup)
    {w : Fin p → F} {v : Fin p → ℝ} (hw : ∀ j, Den (w j) (v j)) (hv : ∀ j, |v j| ≤ b) (hoff : ∀ j ∉ l, v j = 0)
    (hs : (p * A.nnz + 1) * (K * (K * (K * (b + 1)))) * e ≤ 1) :
    Ok ((A.toCSCOf x).extrapolatedFit (l.map Fin.val) (List.ofFn w) n) (fun r =>
      ∃ u : Fin n → F, r = List.ofFn u ∧ ∀ i, Apx e (u i) (fit A.dense v i) ((p * A.nnz + 1) * (K * (K * (K * (b + 1)))))) := by
  have he := Pr.pos
  have hK := kk.K1
  have hp0 : (0 : ℝ) ≤ p * A.nnz := by positivity
  have hlen : (((l.flatMap fun j => (colList A j).map fun k => (j, k)).length : ℕ) : ℝ) ≤ p * A.nnz := by
    have h1 := flat_len A l
    have h2 := List.Nodup.length_le_card hl
    rw [Fintype.card_fin] at h2
    have h3 := h1.trans (Nat.mul_le_mul_right A.nnz h2)
    exact_mod_cast h3
  have hb2 : b ≤ b ^ 2 := by nlinarith
  have c1 : 0 ≤ K * (K * (b + 1)) := by positivity
  have c2 : K * (K * (b + 1)) ≤ K * (K * (K * (b + 1))) := le_mul_of_one_le_left c1 hK
  have hpb : 0 ≤ p * A.nnz * b ^ 2 := by positivity
  have c3 : 1 ≤ K * (b + 1) := one_le_mul_of_one_le_of_one_le hK (by linarith)
  have hs1 : K * (b + 1) * e ≤ 1 := by
    refine le_trans (mul_le_mul_of_nonneg_right ?_ he.le) hs
    have h1 : K * (b + 1) ≤ K * (K * (b + 1)) := le_mul_of_one_le_left (by linarith) hK
    have h2 : 0 ≤ p * A.nnz * (K * (K * (K * (b + 1)))) := mul_nonneg hp0 (c1.trans c2)
    linarith
  rw [csc_extra_eq]
  refine ⟨_, rfl, fun i => ?_⟩
  have h := kk.fold_terms Pr (x := fun jk : Fin p × Fin A.nnz => x jk.2 *. w jk.1) (r := fun jk => A.data jk.2 * v jk.1)
    (fun jk => A.row jk.2) (b := b ^ 2) (c := K * (b + 1)) c3 (l.flatMap fun j => (colList A j).map fun k => (j, k))
    (fun jk _ => ⟨kk.mul Pr ((hx jk.2).apx he.le (hX jk.2) le_rfl) (Den.apx he.le (hw jk.1) (by linarith)) (by linarith)
      ((hX _).trans (by linarith)) ((hv _).trans (by linarith)) hs1, abs_mul_le (hX _) (hv _)⟩) (fun _ => zero) (fun _ => 0) 0
    (fun i => Den.apx he.le den_zero le_rfl) le_rfl (fun i => by
      rw [abs_zero, zero_add]
      refine le_trans (mul_le_mul_of_nonneg_right hlen (sq_nonneg b)) ?_
      nlinarith [sq_nonneg b]) (by
      refine le_trans (mul_le_mul_of_nonneg_right ?_ he.le) hs
      rw [zero_add]
      have h3 : K * (((l.flatMap fun j => (colList A j).map fun k => (j, k)).length : ℕ) * (K * (K * (b + 1)))) ≤
          p * A.nnz * (K * (K * (K * (b + 1)))) := by
        calc K * (((l.flatMap fun j => (colList A j).map fun k => (j, k)).length : ℕ) * (K * (K * (b + 1)))) =
            ((l.flatMap fun j => (colList A j).map fun k => (j, k)).length : ℕ) * (K * (K * (K * (b + 1)))) := by ring
          _ ≤ _ := mul_le_mul_of_nonneg_right hlen (c1.trans c2)
      linarith) i
  rw [zero_add, zero_add, flat_sum A l hl v hoff i] at h
  refine h.mono he.le ?_
  have h4 := mul_le_mul_of_nonneg_right hlen c1
  have h5 : p * A.nnz * (K * (K * (b + 1))) ≤ p * A.nnz * (K * (K * (K * (b + 1)))) := mul_le_mul_of_nonneg_left c2 hp0
  linarith [c1.trans c2]


/-- Values for dense designs. -/
theorem dense_fitVal (hn : 0 < n) (X : Fin n → Fin p → ℝ) (y : Fin n → ℝ) (Bv Bu : ℝ) :
    ∃ C : ℝ, 1 ≤ C ∧ ∀ {F : Type} [Scalar F] [LawfulCmp F] {e : ℝ}, Precise F e → Propagates F → C * e ≤ 1 →
      ∀ (y' : Fin n → F), (∀ i, Stores e (y' i) (y i)) → ∀ x : Fin n → Fin p → F, (∀ i j, Stores e (x i j) (X i j)) → ∀ df : Quadratic F,
        FitVal e Bv Bu C (⟨matOf x, Targets.one (List.ofFn y')⟩ : Dataset (Mat F) F) df X (quadLoss y) := by
  have hy0 : 0 ≤ ∑ i, |y i| := Finset.sum_nonneg fun i _ => abs_nonneg _
  have hn0 : (0 : ℝ) ≤ n := Nat.cast_nonneg n
  have hp0 : (0 : ℝ) ≤ p := Nat.cast_nonneg p
  have hX : ∀ i j, |X i j| ≤ ∑ i, ∑ j, |X i j| := fun i j => (le_sum_abs (X i) j).trans
    (Finset.single_le_sum (f := fun i => ∑ j, |X i j|) (fun i _ => Finset.sum_nonneg fun j _ => abs_nonneg _) (Finset.mem_univ i))
  have hX0 : 0 ≤ ∑ i, ∑ j, |X i j| := Finset.sum_nonneg fun i _ => Finset.sum_nonneg fun j _ => abs_nonneg _
  obtain ⟨b, hb⟩ : ∃ b : ℝ, b = 1 + ∑ i, ∑ j, |X i j| + ∑ i, |y i| + 2 * n + |Bv| + |Bu| := ⟨_, rfl⟩
  have a1 := abs_nonneg Bv
  have a2 := abs_nonneg Bu
  have a3 := le_abs_self Bv
  have a4 := le_abs_self Bu
  have hb1 : 1 ≤ b := by rw [hb]; linarith
  obtain ⟨B, hB⟩ : ∃ B : ℝ, B = 4 * ((n + 1) * b ^ 2) + (p + 1) * b ^ 2 := ⟨_, rfl⟩
  have hb2 : 1 ≤ b ^ 2 := one_le_pow₀ hb1
  have hB1 : 4 * ((n + 1) * b ^ 2) ≤ B := by rw [hB]; nlinarith
  have hB2 : (p + 1) * b ^ 2 ≤ B := by rw [hB]; nlinarith
  have hB0 : 1 ≤ B := by nlinarith
  obtain ⟨K, hK⟩ : ∃ K : ℝ, K = 10 * (n + 1) ^ 2 * (B + 1) ^ 3 := ⟨_, rfl⟩
  have hK1 := one_le_K hB0 hK
  have q1 : 1 ≤ K * (K * (K * (b + 1))) := by
    have := fun {x : ℝ} (hx : 1 ≤ x) => one_le_mul_of_one_le_of_one_le hK1 hx
    exact this (this (this (by linarith)))
  have q2 : 0 ≤ p * (K * (K * (K * (b + 1)))) := by positivity
  refine ⟨(p + 1) * (K * (K * (K * (b + 1)))) + 2 * n + 2, by linarith, ?_⟩
  intro F _ _ e Pr S hCe y' hy' x hx df
  have he := Pr.pos
  have kk : Consts e B K n := Consts.mk' Pr.pos hB0 hK
  have sm : ∀ {z : ℝ}, z ≤ (p + 1) * (K * (K * (K * (b + 1)))) + 2 * n + 2 → z * e ≤ 1 := fun h =>
    (mul_le_mul_of_nonneg_right h he.le).trans hCe
  have he2 : 2 * e ≤ 1 := sm (by linarith)
  have hyb : ∀ i, |y i| ≤ b := fun i => (le_sum_abs y i).trans (by rw [hb]; linarith)
  refine ⟨fun u => quad_value_nonneg hn Pr S (sm (by linarith)) (by linarith) y' u, fun u U d hd hs hU hu => ?_, fun l w v hl hw hv hoff => ?_⟩
  · have hle : K * (K * (K * ((b + 1) * d))) ≤ ((p + 1) * (K * (K * (K * (b + 1)))) + 2 * n + 2) * d := by
      calc K * (K * (K * ((b + 1) * d))) = K * (K * (K * (b + 1))) * d := by ring
        _ ≤ _ := mul_le_mul_of_nonneg_right (by linarith) (by linarith)
    exact Tri.mono (quad_value_apx hn Pr kk hb1 (by rw [hb]; linarith) hB1 hyb hy' hd (fun i => (hU i).trans (by rw [hb]; linarith)) hu
      ((mul_le_mul_of_nonneg_right hle he.le).trans hs)) fun z hz => hz.mono he.le hle
  · refine Tri.mono (dense_extra_apx X Pr kk hb1 hB2 (fun i j => (hX i j).trans (by rw [hb]; linarith)) x hx hl hw
      (fun j => (hv j).trans (by rw [hb]; linarith)) hoff (sm (by linarith))) ?_
    rintro r ⟨u, h1, h2⟩
    exact ⟨u, h1, fun i => (h2 i).mono he.le (by linarith)⟩

/-- Values for sparse designs. -/
theorem csc_fitVal (hn : 0 < n) (A : CSCData n p) (y : Fin n → ℝ) (Bv Bu : ℝ) :
    ∃ C : ℝ, 1 ≤ C ∧ ∀ {F : Type} [Scalar F] [LawfulCmp F] {e : ℝ}, Precise F e → Propagates F → C * e ≤ 1 →
      ∀ (y' : Fin n → F), (∀ i, Stores e (y' i) (y i)) → ∀ x : Fin A.nnz → F, (∀ k, Stores e (x k) (A.data k)) → ∀ df : Quadratic F,
        FitVal e Bv Bu C (⟨A.toCSCOf x, Targets.one (List.ofFn y')⟩ : Dataset (CSC F) F) df A.dense (quadLoss y) := by
  have hy0 : 0 ≤ ∑ i, |y i| := Finset.sum_nonneg fun i _ => abs_nonneg _
  have hn0 : (0 : ℝ) ≤ n := Nat.cast_nonneg n
  have hp0 : (0 : ℝ) ≤ p * A.nnz := by positivity
  have hX : ∀ k, |A.data k| ≤ ∑ k, |A.data k| := fun k => le_sum_abs A.data k
  have hX0 : 0 ≤ ∑ k, |A.data k| := Finset.sum_nonneg fun i _ => abs_nonneg _
  obtain ⟨b, hb⟩ : ∃ b : ℝ, b = 1 + ∑ k, |A.data k| + ∑ i, |y i| + 2 * n + |Bv| + |Bu| := ⟨_, rfl⟩
  have a1 := abs_nonneg Bv
  have a2 := abs_nonneg Bu
  have a3 := le_abs_self Bv
  have a4 := le_abs_self Bu
  have hb1 : 1 ≤ b := by rw [hb]; linarith
  obtain ⟨B, hB⟩ : ∃ B : ℝ, B = 4 * ((n + 1) * b ^ 2) + (p * A.nnz + 1) * b ^ 2 := ⟨_, rfl⟩
  have hb2 : 1 ≤ b ^ 2 := one_le_pow₀ hb1
  have hB1 : 4 * ((n + 1) * b ^ 2) ≤ B := by rw [hB]; nlinarith
  have hB2 : (p * A.nnz + 1) * b ^ 2 ≤ B := by rw [hB]; nlinarith
  have hB0 : 1 ≤ B := by nlinarith
  obtain ⟨K, hK⟩ : ∃ K : ℝ, K = 10 * (n + 1) ^ 2 * (B + 1) ^ 3 := ⟨_, rfl⟩
  have hK1 := one_le_K hB0 hK
  have q1 : 1 ≤ K * (K * (K * (b + 1))) := by
    have := fun {x : ℝ} (hx : 1 ≤ x) => one_le_mul_of_one_le_of_one_le hK1 hx
    exact this (this (this (by linarith)))
  have q2 : 0 ≤ p * A.nnz * (K * (K * (K * (b + 1)))) := by positivity
  refine ⟨(p * A.nnz + 1) * (K * (K * (K * (b + 1)))) + 2 * n + 2, by linarith, ?_⟩
  intro F _ _ e Pr S hCe y' hy' x hx df
  have he := Pr.pos
  have kk : Consts e B K n := Consts.mk' Pr.pos hB0 hK
  have sm : ∀ {z : ℝ}, z ≤ (p * A.nnz + 1) * (K * (K * (K * (b + 1)))) + 2 * n + 2 → z * e ≤ 1 := fun h =>
    (mul_le_mul_of_nonneg_right h he.le).trans hCe
  have he2 : 2 * e ≤ 1 := sm (by linarith)
  have hyb : ∀ i, |y i| ≤ b := fun i => (le_sum_abs y i).trans (by rw [hb]; linarith)
  refine ⟨fun u => quad_value_nonneg hn Pr S (sm (by linarith)) (by linarith) y' u, fun u U d hd hs hU hu => ?_, fun l w v hl hw hv hoff => ?_⟩
  · have hle : K * (K * (K * ((b + 1) * d))) ≤ ((p * A.nnz + 1) * (K * (K * (K * (b + 1)))) + 2 * n + 2) * d := by
      calc K * (K * (K * ((b + 1) * d))) = K * (K * (K * (b + 1))) * d := by ring
        _ ≤ _ := mul_le_mul_of_nonneg_right (by linarith) (by linarith)
    exact Tri.mono (quad_value_apx hn Pr kk hb1 (by rw [hb]; linarith) hB1 hyb hy' hd (fun i => (hU i).trans (by rw [hb]; linarith)) hu
      ((mul_le_mul_of_nonneg_right hle he.le).trans hs)) fun z hz => hz.mono he.le hle
  · refine Tri.mono (csc_extra_apx A Pr kk hb1 hB2 (fun k => (hX k).trans (by rw [hb]; linarith)) x hx hl hw
      (fun j => (hv j).trans (by rw [hb]; linarith)) hoff (sm (by linarith))) ?_
    rintro r ⟨u, h1, h2⟩
    exact ⟨u, h1, fun i => (h2 i).mono he.le (by linarith)⟩

/-- Values of the penalties. -/
theorem penVal_exists (p : ℕ) (pen : Pen) (hv : pen.Valid) (hα : 0 < pen.fn 1) (m B : ℝ) (hm : 0 ≤ m) :
    ∃ Bv C : ℝ, B ≤ Bv ∧ 1 ≤ Bv ∧ 1 ≤ C ∧ ∀ {F : Type} [Scalar F] [LawfulCmp F] {e : ℝ}, Precise F e → Propagates F → C * e ≤ 1 →
      ∀ pen' : PenOf F, pen'.Stored e pen →
      match pen' with
      | .l1 a => PenVal p e m Bv C (L1.mk a) pen.fn
      | .enet a r => PenVal p e m Bv C (L1PlusL2.mk a r) pen.fn := by
  have hp0 : (0 : ℝ) ≤ p := Nat.cast_nonneg p
  have a1 := abs_nonneg B
  have a2 := le_abs_self B
  cases pen with
  | l1 α =>
    have hα' : 0 < α := by
      have : (0 : ℝ) < α * |1| := hα
      rwa [abs_one, mul_one] at this
    have hbig : 0 ≤ 2 ^ p * (2 * (2 * m + 1) / α) := by positivity
    obtain ⟨Bv, hBv⟩ : ∃ Bv : ℝ, Bv = 2 ^ p * (2 * (2 * m + 1) / α) + |B| + 1 := ⟨_, rfl⟩
    have hBv1 : 1 ≤ Bv := by linarith
    have hpB : 0 ≤ p * Bv := by positivity
    obtain ⟨K, hK⟩ : ∃ K : ℝ, K = 10 * ((0 : ℕ) + 1) ^ 2 * (α + p * Bv + 1 + 1) ^ 3 := ⟨_, rfl⟩
    have hK1 := one_le_K (by linarith : 1 ≤ α + p * Bv + 1) hK
    have hq : 0 < 2 * (α + 1) / α := by positivity
    have hc : 1 ≤ p * K + K + (α + p * Bv + 1) + 1 := by
      have : 0 ≤ p * K := by positivity
      linarith
    have hC1 := one_le_mul_of_one_le_of_one_le hK1 hc
    refine ⟨Bv, K * (p * K + K + (α + p * Bv + 1) + 1) + 2 * (α + 1) / α, by linarith, hBv1, by linarith, ?_⟩
    intro F _ _ e Pr S hCe pen' hs
    cases pen' with
    | l1 a =>
      exact l1_val hα' Pr S (Consts.mk' Pr.pos (by linarith) hK) (by linarith) (by linarith) (by linarith) hs le_rfl hCe
    | enet a r => exact hs.elim
  | enet α ρ =>
    obtain ⟨hα0, hρ, hρ1⟩ := hv
    have hα' : 0 < α := by
      refine lt_of_le_of_ne hα0 fun h0 => ?_
      have h1 : (0 : ℝ) < Spec.enet α ρ (1 : ℝ) := hα
      unfold Spec.enet at h1
      rw [← h0, zero_mul] at h1
      exact lt_irrefl _ h1
    have hM : 0 ≤ 2 * (2 * m + 1) / α := by positivity
    have hbig : 0 ≤ 2 ^ p * (8 * (4 * (2 * (2 * m + 1) / α) + 1)) + (64 * (4 * (2 * (2 * m + 1) / α) + 1) + 3) := by positivity
    obtain ⟨Bv, hBv⟩ : ∃ Bv : ℝ, Bv = 2 ^ p * (8 * (4 * (2 * (2 * m + 1) / α) + 1)) + (64 * (4 * (2 * (2 * m + 1) / α) + 1) + 3) + |B| + 1 :=
      ⟨_, rfl⟩
    have hBv1 : 1 ≤ Bv := by linarith
    have hpB : 0 ≤ 2 * ((p + 1) * Bv ^ 2) := by positivity
    obtain ⟨B', hB'⟩ : ∃ B' : ℝ, B' = α + 2 * ((p + 1) * Bv ^ 2) + 1 := ⟨_, rfl⟩
    have hB1 : 1 ≤ B' := by linarith
    obtain ⟨K, hK⟩ : ∃ K : ℝ, K = 10 * (p + 1) ^ 2 * (B' + 1) ^ 3 := ⟨_, rfl⟩
    have hK1 := one_le_K hB1 hK
    have hq : 0 < 2 * (α + 1) / α := by positivity
    have hc : 1 ≤ p * K + K + B' + 2 := by
      have : 0 ≤ p * K := by positivity
      linarith
    have this := fun {x : ℝ} (hx : 1 ≤ x) => one_le_mul_of_one_le_of_one_le hK1 hx
    have hC1 := this (this (this (this (this hc))))
    refine ⟨Bv, K * (K * (K * (K * (K * (p * K + K + B' + 2))))) + 2 * (α + 1) / α + 64 * (p + 1), by linarith, hBv1, by linarith, ?_⟩
    intro F _ _ e Pr S hCe pen' hs
    cases pen' with
    | l1 a => exact hs.elim
    | enet a r =>
      exact enet_val hα' hρ hρ1 hm Pr S (Consts.mk' Pr.pos hB1 hK) (by linarith) hBv1 (by linarith) (by linarith) hs.1 hs.2.1 hs.2.2 rfl
        le_rfl hCe
  | mcp α γ =>
    refine ⟨|B| + 1, 1, by linarith, by linarith, le_rfl, fun Pr S hCe pen' hs => ?_⟩
    cases pen' <;> exact hs.elim
  | l05 α =>
    refine ⟨|B| + 1, 1, by linarith, by linarith, le_rfl, fun Pr S hCe pen' hs => ?_⟩
    cases pen' <;> exact hs.elim

end
end Sglm
