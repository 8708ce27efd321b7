import Verif.Proofs.FloatMTFit

/-!
# Values of the objective of the multi-task Lasso in floating point
-/

set_option linter.unusedSectionVars false

namespace Sglm
open Scalar Spec
variable {n p T : ℕ}

/-! ## The fit of an extrapolated point -/

section
variable {F : Type} [Scalar F]

theorem dense_extraMT_eq (x : Fin n → Fin p → F) (w : Fin p → Fin T → F) (l : List (Fin p)) :
    (matOf x).extrapolatedFitMT (l.map Fin.val) (matOf w) n T =
      .ok (matOf fun i t => l.foldl (fun acc j => acc +. x i j *. w j t) zero) := by
  unfold Mat.extrapolatedFitMT
  have h : (matOf x).rows.mapM (fun row =>
    (List.range (matOf w).ncols).mapM (fun t => do
      let col ← (matOf w).colM t
      let ts ← (l.map Fin.val).mapM (fun j => do
        let x ← getM row j
        let w ← getM col j
        pure (x *. w))
      pure (iterSum ts))) =
      .ok (List.ofFn fun i => List.ofFn fun t => l.foldl (fun acc j => acc +. x i j *. w j t) zero) := by
    refine mapM_ofFn _ _ fun i => ?_
    rw [matOf_ncols]
    apply mapM_range
    intro t
    rw [colM_matOf]
    simp only [bind, Except.bind]
    rw [List.mapM_map, mapM_ok' (g := fun j : Fin p => x i j *. w j t) (fun j _ => by
      simp only [Function.comp, getM_ofFn]; rfl)]
    simp only [pure, Except.pure, iterSum, List.foldl_map]
  rw [h]
  simp only [bind, Except.bind]
  exact fromShapeVec_matOf _

theorem csc_extraMT_eq (A : CSCData n p) (x : Fin A.nnz → F) (w : Fin p → Fin T → F) (l : List (Fin p)) :
    (A.toCSCOf x).extrapolatedFitMT (l.map Fin.val) (matOf w) n T = .ok (matOf
      ((l.flatMap fun j => (colList A j).map fun k => (j, k)).foldl
        (fun u jk => Function.update u (A.row jk.2) fun t => u (A.row jk.2) t +. x jk.2 *. w jk.1 t) fun _ _ => zero)) := by
  unfold CSC.extrapolatedFitMT
  rw [List.foldlM_map, List.foldl_flatMap]
  have h := foldlM_ok (fun u : Fin n → Fin T → F => matOf u) (fun (acc : Mat F) (j : Fin p) => (do
    let r ← (A.toCSCOf x).colRange j
    r.foldlM (fun acc idx =>
      (List.range T).foldlM (fun acc t => do
        let i ← (A.toCSCOf x).rowAt idx
        let a ← acc.get2 i t
        let d ← (A.toCSCOf x).dataAt idx
        let w ← (matOf w).get2 j t
        acc.set2 i t (a +. d *. w)) acc) acc : M (Mat F)))
    (fun u j => ((colList A j).map fun k => (j, k)).foldl
        (fun u jk => Function.update u (A.row jk.2) fun t => u (A.row jk.2) t +. x jk.2 *. w jk.1 t) u) l (fun _ => True)
    (fun u _ j _ => ⟨by
      rw [colRange_toCSCOf]
      rw [List.foldl_map]
      exact foldlM_col A j (fun u : Fin n → Fin T → F => matOf u) _
        (fun u k => Function.update u (A.row k) fun t => u (A.row k) t +. x k *. w j t) (by
          intro u k
          apply fold_matOf (fun t a => a +. x k *. w j t)
          intro u t
          simp only [rowAt_toCSCOf, bind, Except.bind, get2_matOf, dataAt_toCSCOf, set2_matOf]) u, trivial⟩) (fun _ _ => zero) trivial
  have e0 : matOf (fun (_ : Fin n) (_ : Fin T) => (zero : F)) = Mat.zeros n T := by
    unfold matOf Mat.zeros
    simp
  rw [← e0]
  exact h.1

/-! ## The loss -/

/-- Positions of a matrix in row order. -/
def posList (n T : ℕ) : List (Fin n × Fin T) := (List.finRange n).flatMap fun i => (List.finRange T).map fun t => (i, t)

theorem posList_length : (posList n T).length = n * T := by
  unfold posList
  rw [List.length_flatMap]
  simp

theorem flatten_posList {α : Type} (r : Fin n → Fin T → α) :
    (List.ofFn fun i => List.ofFn (r i)).flatten = (posList n T).map fun q => r q.1 q.2 := by
  unfold posList
  rw [List.map_flatMap, List.flatMap_def, List.ofFn_eq_map]
  congr 1
  apply List.map_congr_left
  intro i _
  rw [List.ofFn_eq_map, List.map_map]
  rfl

theorem posList_sum (f : Fin n × Fin T → ℝ) : ((posList n T).map f).sum = ∑ i, ∑ t, f (i, t) := by
  unfold posList
  rw [List.map_flatMap, List.flatMap_def, List.sum_flatten, List.map_map, ← List.sum_ofFn, List.ofFn_eq_map]
  congr 1
  apply List.map_congr_left
  intro i _
  simp only [Function.comp, List.map_map]
  rw [← List.sum_ofFn, List.ofFn_eq_map]
  rfl

theorem bopMat_matOf (f : F → F → F) (x y : Fin n → Fin T → F) : bopMat f (matOf x) (matOf y) = .ok (matOf fun i t => f (x i t) (y i t)) := by
  unfold bopMat
  rw [if_pos (by simp)]
  unfold matOf
  simp only [zipWith_ofFn]

theorem mt_value_eq {DM : Type} {X : DM} (y u : Fin n → Fin T → F) :
    QuadraticMT.value (⟨X, Targets.two (matOf y)⟩ : Dataset DM F) (matOf u) =
      .ok ((posList n T).foldl (fun acc q => acc +. sq (y q.1 q.2 -. u q.1 q.2)) zero /. Scalar.ofNat (2 * n)) := by
  unfold QuadraticMT.value
  simp only [Targets.two, bopMat_matOf, bind, Except.bind, pure, Except.pure, matOf_nrows]
  congr 2
  show iterSum ((List.ofFn fun i => List.ofFn fun t => y i t -. u i t).flatten.map sq) = _
  rw [flatten_posList, List.map_map]
  unfold iterSum
  rw [List.foldl_map]
  rfl

end

/-! ## Contracts -/

/-- Values of the L21 penalty in floating point. -/
structure PenMTVal {F P : Type} [Scalar F] [LawfulCmp F] [MTPenalty F P] (p T : ℕ) (e m Bv C : ℝ) (pn : P) (α : ℝ) : Prop where
  nonneg : ∀ w : Fin p → Fin T → F, Ok (MTPenalty.value pn (matOf w)) NonNeg
  val : ∀ (w : Fin p → Fin T → F) (v : Fin p → Euc T), (∀ j t, Den (w j t) ((v j).ofLp t)) → (∀ j, ‖v j‖ ≤ Bv) →
    Ok (MTPenalty.value pn (matOf w)) (fun x => Apx e x (∑ j, α * ‖v j‖) C)
  back : ∀ w : Fin p → Fin T → F, Ok (MTPenalty.value pn (matOf w)) (fun x => ∀ t, Den x t → t ≤ m →
    ∃ v : Fin p → Euc T, (∀ j t, Den (w j t) ((v j).ofLp t)) ∧ ∀ j, ‖v j‖ ≤ Bv)

structure FitMTVal {F DM DF : Type} [Scalar F] [LawfulCmp F] [DesignMatrix F DM] [MTDatafit F DM DF] (e Bv Bu C : ℝ)
    (ds : Dataset DM F) (df : DF) (A : Fin n → Fin p → ℝ) (f : (Fin n → Fin T → ℝ) → ℝ) : Prop where
  nonneg : ∀ u : Fin n → Fin T → F, Ok (MTDatafit.value df ds (matOf u)) NonNeg
  val : ∀ (u : Fin n → Fin T → F) (U : Fin n → Fin T → ℝ) d, 1 ≤ d → C * d * e ≤ 1 → (∀ i t, |U i t| ≤ Bu) →
    (∀ i t, Apx e (u i t) (U i t) d) → Ok (MTDatafit.value df ds (matOf u)) (fun x => Apx e x (f U) (C * d))
  extra : ∀ (l : List (Fin p)) (w : Fin p → Fin T → F) (v : Fin p → Fin T → ℝ), l.Nodup → (∀ j t, Den (w j t) (v j t)) →
    (∀ j t, |v j t| ≤ Bv) → (∀ j ∉ l, v j = 0) →
    ∃ u : Fin n → Fin T → F, DesignMatrix.extrapolatedFitMT ds.designMatrix (l.map Fin.val) (matOf w) n T = .ok (matOf u) ∧
      ∀ i t, Apx e (u i t) (fitMT A v i t) C

/-! ## The penalty -/

section
variable {F : Type} [Scalar F] [LawfulCmp F] {e η : ℝ}

theorem l21_value_eq (a : F) (w : Fin p → Fin T → F) :
    MTPenalty.value (L21.mk a) (matOf w) = .ok (a *. sum (List.ofFn fun j => norm2 (List.ofFn (w j)))) := by
  show Except.ok ((L21.mk a).value (matOf w)) = _
  unfold L21.value matOf
  simp only [List.map_ofFn]
  rfl

/-- A finite norm bounds the row. -/
theorem norm2_back (P : Precise F e) (M : PreciseMT F e η) (hT : 16 * ((T + 1) * e) ≤ 1) (x : Fin T → F) {N : ℝ}
    (h : Den (norm2 (List.ofFn x)) N) : ∃ v : Euc T, (∀ t, Den (x t) (v.ofLp t)) ∧ ‖v‖ ≤ 4 * N + 1 := by
  have he := P.pos
  have hT0 : (0 : ℝ) ≤ T := Nat.cast_nonneg T
  have hTe : 0 ≤ T * e := by positivity
  have he1 : e ≤ 1 / 16 := by linarith
  obtain ⟨q, hq⟩ := M.sqrt_fin _ _ h
  have hq0 : 0 ≤ q := (M.norm.dot_nonneg _).den hq
  obtain ⟨N', h1, h2⟩ := M.norm.sqrt _ q hq hq0
  have hN := h1.unique h
  subst hN
  have hN0 : 0 ≤ N' := (M.sqrt_nonneg _).den h1
  have h3 := (abs_le.mp h2).1
  have hs0 := Real.sqrt_nonneg q
  have h4 : Real.sqrt q ≤ 2 * N' := by
    have := mul_le_mul_of_nonneg_right he1 hs0
    linarith
  have h5 : q ≤ (2 * N') ^ 2 := by
    have := Real.sq_sqrt hq0
    nlinarith
  have h6 := M.dot_fin _ _ hq
  have h7 : ∀ t, ∃ r, Den (x t) r := fun t => h6 _ (List.mem_ofFn.mpr ⟨t, rfl⟩)
  choose r hr using h7
  refine ⟨WithLp.toLp 2 r, hr, ?_⟩
  have h8 := (M.norm.dot T x x r r hr hr (by linarith)).2 q hq
  simp only [abs_mul_self] at h8
  have h9 := (abs_le.mp h8).1
  have hS := euc_sq r
  have hS0 : 0 ≤ ∑ t, r t * r t := Finset.sum_nonneg fun t _ => mul_self_nonneg _
  have hη : T * η ≤ 1 / 2 := by
    have h10 : η ≤ e := M.small.trans (by
      have : e ^ 4 ≤ 1 := pow_le_one₀ he.le (by linarith)
      calc e ^ 5 = e ^ 4 * e := by ring
        _ ≤ 1 * e := mul_le_mul_of_nonneg_right this he.le
        _ = e := one_mul e)
    have := mul_le_mul_of_nonneg_left h10 hT0
    linarith
  have hTS : T * (e * ∑ t, r t * r t) ≤ 1 / 2 * ∑ t, r t * r t := by
    rw [← mul_assoc]
    exact mul_le_mul_of_nonneg_right (by linarith) hS0
  have hle : ∑ t, r t * r t ≤ 2 * (2 * N') ^ 2 + 1 := by linarith
  rw [← hS] at hle
  refine abs_le_of_sq_le_sq' ?_ (by linarith) |>.2
  nlinarith

theorem penMTVal_exists (p T : ℕ) (α : ℝ) (hα : 0 < α) (m : ℝ) (hm : 0 ≤ m) :
    ∃ Bv C : ℝ, 1 ≤ Bv ∧ m ≤ α * Bv ∧ 1 ≤ C ∧ ∀ {F : Type} [Scalar F] [LawfulCmp F] {e η : ℝ}, Precise F e → Propagates F → PreciseMT F e η → C * e ≤ 1 →
      ∀ a : F, Stores e a α → PenMTVal p T e m Bv C (L21.mk a) α := by
  have hT0 : (0 : ℝ) ≤ T := Nat.cast_nonneg T
  have hp0 : (0 : ℝ) ≤ p := Nat.cast_nonneg p
  obtain ⟨Bv, hBv⟩ : ∃ Bv : ℝ, Bv = 4 * (2 * (2 * (2 * m + 1) / α)) + 1 := ⟨_, rfl⟩
  have hM0 : 0 ≤ 2 * (2 * m + 1) / α := by positivity
  have hBv1 : 1 ≤ Bv := by rw [hBv]; linarith
  obtain ⟨c2, hc2⟩ : ∃ c2 : ℝ, c2 = (T + 2) * Bv + 2 := ⟨_, rfl⟩
  have hc21 : 1 ≤ c2 := by
    have : 0 ≤ (T + 2) * Bv := by positivity
    rw [hc2]; linarith
  obtain ⟨c3, hc3⟩ : ∃ c3 : ℝ, c3 = p * c2 + p * (p * (Bv + 1)) := ⟨_, rfl⟩
  have hc30 : 0 ≤ c3 := by rw [hc3]; positivity
  obtain ⟨B, hB⟩ : ∃ B : ℝ, B = α + 1 + p * Bv := ⟨_, rfl⟩
  have hB1 : 1 ≤ B := by
    have : 0 ≤ p * Bv := by positivity
    rw [hB]; linarith
  obtain ⟨K, hK⟩ : ∃ K : ℝ, K = 10 * ((0 : ℕ) + 1) ^ 2 * (B + 1) ^ 3 := ⟨_, rfl⟩
  have hK1 := one_le_K hB1 hK
  have hKc : 0 ≤ K * (c3 + B + 1) := by positivity
  have hq : 0 < 2 * (α + 1) / α := by positivity
  have hpB : 0 ≤ (p : ℝ) * (Bv + 1) := by positivity
  have hBT : 0 ≤ Bv ^ 2 * (T + 1) := by positivity
  have hc2p : 0 ≤ p * c2 := by positivity
  refine ⟨Bv, K * (c3 + B + 1) + 2 * (α + 1) / α + 16 * (T + 1) + c2 + 2 * p + Bv ^ 2 * (T + 1) + p * (Bv + 1), hBv1, ?_, by linarith, ?_⟩
  · rw [hBv]
    have : α * (4 * (2 * (2 * (2 * m + 1) / α)) + 1) = 16 * (2 * m + 1) + α := by field_simp; ring
    linarith
  intro F _ _ e η P S M hCe a ha
  have he := P.pos
  have hη0 := M.norm.pos
  have sm : ∀ {z : ℝ}, z ≤ K * (c3 + B + 1) + 2 * (α + 1) / α + 16 * (T + 1) + c2 + 2 * p + Bv ^ 2 * (T + 1) + p * (Bv + 1) → z * e ≤ 1 := fun h =>
    (mul_le_mul_of_nonneg_right h he.le).trans hCe
  have hT16 : 16 * (T + 1) * e ≤ 1 := sm (by linarith)
  have hTe : 0 ≤ T * e := by positivity
  have he16 : 16 * e ≤ 1 := by linarith
  have h2p : 2 * p * e ≤ 1 := sm (by linarith)
  have hpe : p * e ≤ 1 / 2 := by linarith
  have kk : Consts e B K 0 := Consts.mk' he hB1 hK
  obtain ⟨a', ha1, ha2⟩ := stores_half hα ha (sm (by linarith))
  have hηe : η ≤ e ^ 3 := M.small.trans (by
    have : e ^ 2 ≤ 1 := pow_le_one₀ he.le (by linarith)
    calc e ^ 5 = e ^ 2 * e ^ 3 := by ring
      _ ≤ 1 * e ^ 3 := mul_le_mul_of_nonneg_right this (by positivity)
      _ = e ^ 3 := one_mul _)
  have hηe1 : η ≤ e := hηe.trans (by
    have : e ^ 2 ≤ 1 := pow_le_one₀ he.le (by linarith)
    calc e ^ 3 = e ^ 2 * e := by ring
      _ ≤ 1 * e := mul_le_mul_of_nonneg_right this he.le
      _ = e := one_mul _)
  have hsum0 : ∀ w : Fin p → Fin T → F, NonNeg (sum (List.ofFn fun j => norm2 (List.ofFn (w j)))) := fun w =>
    M.sum_nonneg _ fun x hx => by
      obtain ⟨j, rfl⟩ := List.mem_ofFn.mp hx
      exact M.sqrt_nonneg _
  refine ⟨fun w => ?_, fun w v hw hv => ?_, fun w => ?_⟩
  · rw [l21_value_eq]
    exact S.mul_nonneg _ _ (nonneg_of_den ha1 (by linarith)) (hsum0 w)
  · rw [l21_value_eq]
    show Apx e _ _ _
    have h1 : ∀ j, ∃ N, Den (norm2 (List.ofFn (w j))) N ∧ |N - ‖v j‖| ≤ c2 * e := fun j => by
      obtain ⟨N, h1, h2⟩ := norm2_err P M.norm (w j) (v j).ofLp (hw j) (by linarith) he16 (by
        have hvj := hv j
        have hv0 := norm_nonneg (v j)
        rw [le_div_iff₀ hη0]
        have e1 : ‖(WithLp.toLp 2 (v j).ofLp : Euc T)‖ ^ 2 ≤ Bv ^ 2 := pow_le_pow_left₀ hv0 hvj 2
        have e2 : Bv ^ 2 * e ≤ 1 := sm (by
          have : 0 ≤ Bv ^ 2 * T := by positivity
          linarith)
        have e3 : ‖(WithLp.toLp 2 (v j).ofLp : Euc T)‖ ^ 2 * η ≤ Bv ^ 2 * e := mul_le_mul e1 hηe1 hη0.le (by positivity)
        linarith) (b := e) he.le (by
        have e1 : T * η ≤ T * e ^ 3 := mul_le_mul_of_nonneg_left hηe hT0
        have e2 : T * e ^ 3 = T * e * e ^ 2 := by ring
        have e3 : T * e * e ^ 2 ≤ 1 * e ^ 2 := mul_le_mul_of_nonneg_right (by linarith) (by positivity)
        linarith)
      refine ⟨N, h1, h2.trans ?_⟩
      have e1 : (T + 2) * e * ‖(WithLp.toLp 2 (v j).ofLp : Euc T)‖ ≤ (T + 2) * e * Bv := mul_le_mul_of_nonneg_left (hv j) (by positivity)
      rw [hc2]
      linarith
    choose N hN1 hN2 using h1
    have hc2e : c2 * e ≤ 1 := sm (by linarith)
    have hNb : ∀ j, |N j| ≤ Bv + 1 := fun j => by
      have e1 := abs_sub_abs_le_abs_sub (N j) ‖v j‖
      rw [abs_of_nonneg (norm_nonneg (v j))] at e1
      have := hN2 j
      have := hv j
      linarith
    have hNs : ∑ j, |N j| ≤ p * (Bv + 1) := by
      refine (Finset.sum_le_sum fun j _ => hNb j).trans (le_of_eq ?_)
      rw [Finset.sum_const, Finset.card_univ, Fintype.card_fin, nsmul_eq_mul]
    obtain ⟨s1, s2⟩ := M.sum p _ N hN1 (by linarith)
    obtain ⟨t, ht⟩ := s1 (hNs.trans (by
      rw [le_div_iff₀ hη0]
      have e1 : p * (Bv + 1) * η ≤ p * (Bv + 1) * e := mul_le_mul_of_nonneg_left hηe1 hpB
      have e2 : p * (Bv + 1) * e ≤ 1 := sm (by linarith)
      linarith))
    have hS : Apx e (sum (List.ofFn fun j => norm2 (List.ofFn (w j)))) (∑ j, ‖v j‖) c3 := by
      refine ⟨t, ht, ?_⟩
      have e1 := s2 t ht
      have e2 : p * e * ∑ j, |N j| ≤ p * e * (p * (Bv + 1)) := mul_le_mul_of_nonneg_left hNs (by positivity)
      have e3 : |∑ j, N j - ∑ j, ‖v j‖| ≤ p * (c2 * e) := by
        rw [← Finset.sum_sub_distrib]
        exact abs_sum_le_card _ _ hN2
      have e4 := abs_add_le (t - ∑ j, N j) (∑ j, N j - ∑ j, ‖v j‖)
      rw [sub_add_sub_cancel] at e4
      rw [hc3]
      linarith
    have hsb : |∑ j, ‖v j‖| ≤ B := (abs_sum_le_card _ Bv fun j => by rw [abs_of_nonneg (norm_nonneg _)]; exact hv j).trans (by rw [hB]; linarith)
    have hαB : |α| ≤ B := by
      have : 0 ≤ p * Bv := by positivity
      rw [abs_of_pos hα, hB]; linarith
    have h3 := kk.mul P (ha.apx he.le (B := B) hαB (c := c3 + B + 1) (by linarith)) (hS.mono he.le (by linarith : c3 ≤ c3 + B + 1)) (by linarith)
      hαB hsb (sm (by linarith))
    rw [Finset.mul_sum] at h3
    exact h3.mono he.le (by linarith)
  · rw [l21_value_eq]
    intro t ht htm
    obtain ⟨r, s, h1, h2, h3, h4, h5⟩ := mul_back P S (by linarith) (nonneg_of_den ha1 (by linarith)) (hsum0 w) ht
    rw [h1.unique ha1] at h5
    have hs : s ≤ 2 * (2 * m + 1) / α := by
      rw [le_div_iff₀ hα]
      have := mul_le_mul_of_nonneg_right ha2 h4
      linarith
    have hf : ∀ j, ∃ N, Den (norm2 (List.ofFn (w j))) N := fun j => M.sum_fin _ _ h2 _ (List.mem_ofFn.mpr ⟨j, rfl⟩)
    choose N hN using hf
    have hN0 : ∀ j, 0 ≤ N j := fun j => (M.sqrt_nonneg _).den (hN j)
    have h6 := (M.sum p _ N hN (by linarith)).2 s h2
    simp only [abs_of_nonneg (hN0 _)] at h6
    have h7 := (abs_le.mp h6).1
    have hNs0 : 0 ≤ ∑ j, N j := Finset.sum_nonneg fun j _ => hN0 j
    have h8 : p * e * ∑ j, N j ≤ 1 / 2 * ∑ j, N j := mul_le_mul_of_nonneg_right hpe hNs0
    have hNj : ∀ j, N j ≤ 2 * (2 * (2 * m + 1) / α) := fun j => by
      have := Finset.single_le_sum (f := N) (fun j _ => hN0 j) (Finset.mem_univ j)
      linarith
    have h9 := fun j => norm2_back P M (by linarith) (w j) (hN j)
    choose v h10 h11 using h9
    refine ⟨v, h10, fun j => (h11 j).trans ?_⟩
    rw [hBv]
    linarith [hNj j]

end

/-! ## The loss -/

section
variable {F : Type} [Scalar F] [LawfulCmp F] {e η b B K : ℝ}

theorem mt_value_apx {DM : Type} {X : DM} {N : ℕ} (hn : 0 < n) (Pr : Precise F e) (kk : Consts e B K N) (hb : 1 ≤ b) (hnb : 2 * (n : ℝ) ≤ b)
    (hB : 4 * ((n * T + 1) * b ^ 2) ≤ B) {y : Fin n → Fin T → ℝ} (hy : ∀ i t, |y i t| ≤ b) {y' : Fin n → Fin T → F}
    (hy' : ∀ i t, Stores e (y' i t) (y i t)) {u : Fin n → Fin T → F} {U : Fin n → Fin T → ℝ} {d : ℝ} (hd : 1 ≤ d) (hU : ∀ i t, |U i t| ≤ b)
    (hu : ∀ i t, Apx e (u i t) (U i t) d) (hs : K * ((n * T + 1) * (K * (K * (K * ((b + 1) * d))))) * e ≤ 1) :
    Ok (QuadraticMT.value (⟨X, Targets.two (matOf y')⟩ : Dataset DM F) (matOf u))
      (fun x => Apx e x (mtLoss y U) (K * ((n * T + 1) * (K * (K * (K * ((b + 1) * d))))))) := by
  have he := Pr.pos
  have hK := kk.K1
  have hK0 : 0 ≤ K := by linarith
  have hB1 := kk.B1
  have hnT : (0 : ℝ) ≤ n * T := by positivity
  have hn1 : (1 : ℝ) ≤ n := by exact_mod_cast hn
  have hb2 : b ≤ b ^ 2 := by nlinarith
  have hnb2 : 0 ≤ n * T * b ^ 2 := by positivity
  have m1 : ∀ i t, |y i t - U i t| ≤ 2 * b := fun i t => by
    have := abs_sub (y i t) (U i t); have := hy i t; have := hU i t; linarith
  have m2 : ∀ i t, |y i t - U i t| ≤ B := fun i t => (m1 i t).trans (by linarith)
  have c0 : 1 ≤ (b + 1) * d := one_le_mul_of_one_le_of_one_le (by linarith) hd
  have g : ∀ {z : ℝ}, 1 ≤ z → z ≤ K * z := fun hz => le_mul_of_one_le_left (by linarith) hK
  have c1 := one_le_mul_of_one_le_of_one_le hK c0
  have c2 := one_le_mul_of_one_le_of_one_le hK c1
  have c3 := one_le_mul_of_one_le_of_one_le hK c2
  have hq : K * (K * (K * ((b + 1) * d))) ≤ (n * T + 1) * (K * (K * (K * ((b + 1) * d)))) := le_mul_of_one_le_left (by linarith) (by linarith)
  have c4 : 1 ≤ (n * T + 1) * (K * (K * (K * ((b + 1) * d)))) := c3.trans hq
  have s4 : (n * T + 1) * (K * (K * (K * ((b + 1) * d)))) * e ≤ 1 := le_trans (mul_le_mul_of_nonneg_right (g c4) he.le) hs
  have s3 : K * (K * (K * ((b + 1) * d))) * e ≤ 1 := le_trans (mul_le_mul_of_nonneg_right hq he.le) s4
  have s2 : K * (K * ((b + 1) * d)) * e ≤ 1 := le_trans (mul_le_mul_of_nonneg_right (g c2) he.le) s3
  have s1 : K * ((b + 1) * d) * e ≤ 1 := le_trans (mul_le_mul_of_nonneg_right (g c1) he.le) s2
  rw [mt_value_eq]
  have t1 : ∀ i t, Apx e (y' i t -. u i t) (y i t - U i t) (K * ((b + 1) * d)) := fun i t =>
    kk.sub Pr ((hy' i t).apx he.le (hy i t) (le_mul_of_one_le_right (by linarith) hd))
      ((hu i t).mono he.le (le_mul_of_one_le_left (by linarith) (by linarith))) c0 (m2 i t) s1
  have t2 : ∀ i t, Apx e (sq (y' i t -. u i t)) ((y i t - U i t) * (y i t - U i t)) (K * (K * ((b + 1) * d))) := fun i t =>
    kk.mul Pr (t1 i t) (t1 i t) c1 (m2 i t) (m2 i t) s2
  have hlen : ((posList n T).length : ℝ) = n * T := by rw [posList_length]; push_cast; rfl
  have t3 := kk.fsum Pr (x := fun q : Fin n × Fin T => sq (y' q.1 q.2 -. u q.1 q.2)) (r := fun q => (y q.1 q.2 - U q.1 q.2) * (y q.1 q.2 - U q.1 q.2))
    (b := (2 * b) ^ 2) c2 (posList n T) (fun q _ => ⟨t2 q.1 q.2, abs_mul_le (m1 q.1 q.2) (m1 q.1 q.2)⟩) zero 0 0 (Den.apx he.le den_zero le_rfl)
    le_rfl (by
      rw [abs_zero, zero_add, hlen]
      have : n * T * (2 * b) ^ 2 = 4 * (n * T * b ^ 2) := by ring
      rw [this]
      linarith [sq_nonneg b]) (by
      refine le_trans (mul_le_mul_of_nonneg_right ?_ he.le) hs
      rw [hlen, zero_add]
      have h1 : K * (K * (K * ((b + 1) * d))) ≤ K * (K * (K * (K * ((b + 1) * d)))) := g c3
      calc K * (K * (K * ((b + 1) * d))) + K * (n * T * (K * (K * (K * ((b + 1) * d)))))
          ≤ K * (K * (K * (K * ((b + 1) * d)))) + K * (n * T * (K * (K * (K * ((b + 1) * d))))) := by linarith
        _ = _ := by ring)
  rw [hlen, zero_add, zero_add, posList_sum] at t3
  have hsum : |∑ i, ∑ t, (y i t - U i t) * (y i t - U i t)| ≤ B := by
    refine (abs_sum_le_card _ (T * (2 * b) ^ 2) fun i => abs_sum_le_card _ _ fun t => abs_mul_le (m1 i t) (m1 i t)).trans ?_
    have : (n : ℝ) * (T * (2 * b) ^ 2) = 4 * (n * T * b ^ 2) := by ring
    rw [this]
    linarith [sq_nonneg b]
  have t4 := kk.nat Pr (2 * n) (by push_cast; linarith) c0 s1
  have t5 := kk.div Pr (t3.mono he.le (by linarith : n * T * (K * (K * (K * ((b + 1) * d)))) ≤ (n * T + 1) * (K * (K * (K * ((b + 1) * d))))))
    (t4.mono he.le (by linarith [g c1, g c2])) c4 hsum (by
    rw [abs_of_nonneg (Nat.cast_nonneg _)]
    push_cast
    have : 1 / B ≤ 1 := (div_le_one (by linarith)).mpr hB1
    linarith) hs
  have e1 : mtLoss y U = (∑ i, ∑ t, (y i t - U i t) * (y i t - U i t)) / ((2 * n : ℕ) : ℝ) := by
    unfold mtLoss
    push_cast
    simp only [pow_two]
  rw [e1]
  exact t5

theorem mt_value_nonneg {DM : Type} {X : DM} (hn : 0 < n) (Pr : Precise F e) (S : Propagates F) (PN : PreciseNorm F e η)
    (hne : 2 * (n : ℝ) * e ≤ 1) (he1 : e ≤ 1 / 2) (y' u : Fin n → Fin T → F) :
    Ok (QuadraticMT.value (⟨X, Targets.two (matOf y')⟩ : Dataset DM F) (matOf u)) NonNeg := by
  have he := Pr.pos
  have hn1 : (1 : ℝ) ≤ n := by exact_mod_cast hn
  rw [mt_value_eq]
  have h := Pr.ofNat (2 * n)
  push_cast at h
  obtain ⟨t, ht⟩ := h.1 (by rw [abs_of_nonneg (by linarith), le_div_iff₀ he]; exact hne)
  have h2 := abs_le.mp (h.2 t ht)
  exact S.div_nonneg _ _ t (foldSq_nonneg PN _ _) ht (by nlinarith)

theorem fitMTVal_core {DM : Type} [DesignMatrix F DM] [MTDatafit F DM (QuadraticMT F)] (A : Fin n → Fin p → ℝ) (Y : Fin n → Fin T → ℝ)
    {Bv Bu C1 C2 : ℝ} (ds : Dataset DM F) (df : QuadraticMT F)
    (he : 0 ≤ e) (hC1 : 0 ≤ C1) (hC2 : 0 ≤ C2)
    (h1 : ∀ u : Fin n → Fin T → F, Ok (MTDatafit.value df ds (matOf u)) NonNeg)
    (h2 : ∀ (u : Fin n → Fin T → F) (U : Fin n → Fin T → ℝ) d, 1 ≤ d → C1 * d * e ≤ 1 → (∀ i t, |U i t| ≤ Bu) →
      (∀ i t, Apx e (u i t) (U i t) d) → Ok (MTDatafit.value df ds (matOf u)) (fun x => Apx e x (mtLoss Y U) (C1 * d)))
    (h3 : ∀ (l : List (Fin p)) (w : Fin p → Fin T → F) (v : Fin p → Fin T → ℝ), l.Nodup → (∀ j t, Den (w j t) (v j t)) →
      (∀ j t, |v j t| ≤ Bv) → (∀ j ∉ l, v j = 0) →
      ∃ u : Fin n → Fin T → F, DesignMatrix.extrapolatedFitMT ds.designMatrix (l.map Fin.val) (matOf w) n T = .ok (matOf u) ∧
        ∀ i t, Apx e (u i t) (fitMT A v i t) C2) : FitMTVal e Bv Bu (C1 + C2) ds df A (mtLoss Y) := by
  refine ⟨h1, fun u U d hd hs hU hu => ?_, fun l w v k1 k2 k3 k4 => ?_⟩
  · have hle : C1 * d ≤ (C1 + C2) * d := mul_le_mul_of_nonneg_right (by linarith) (by linarith)
    exact Tri.mono (h2 u U d hd ((mul_le_mul_of_nonneg_right hle he).trans hs) hU hu) fun x hx => hx.mono he hle
  · obtain ⟨u, k5, k6⟩ := h3 l w v k1 k2 k3 k4
    exact ⟨u, k5, fun i t => (k6 i t).mono he (by linarith)⟩

end

theorem mt_loss_exists (hn : 0 < n) (Y : Fin n → Fin T → ℝ) (Bu : ℝ) :
    ∃ C : ℝ, 1 ≤ C ∧ ∀ {F : Type} [Scalar F] [LawfulCmp F] {e η : ℝ}, Precise F e → Propagates F → PreciseMT F e η → C * e ≤ 1 →
      ∀ (y' : Fin n → Fin T → F), (∀ i t, Stores e (y' i t) (Y i t)) → ∀ {DM : Type} (X : DM),
      (∀ u : Fin n → Fin T → F, Ok (QuadraticMT.value (⟨X, Targets.two (matOf y')⟩ : Dataset DM F) (matOf u)) NonNeg) ∧
      ∀ (u : Fin n → Fin T → F) (U : Fin n → Fin T → ℝ) d, 1 ≤ d → C * d * e ≤ 1 → (∀ i t, |U i t| ≤ Bu) →
      (∀ i t, Apx e (u i t) (U i t) d) → Ok (QuadraticMT.value (⟨X, Targets.two (matOf y')⟩ : Dataset DM F) (matOf u))
        (fun x => Apx e x (mtLoss Y U) (C * d)) := by
  have hY : ∀ i t, |Y i t| ≤ ∑ i, ∑ t, |Y i t| := fun i j => (le_sum_abs (Y i) j).trans
    (Finset.single_le_sum (f := fun i => ∑ j, |Y i j|) (fun i _ => Finset.sum_nonneg fun j _ => abs_nonneg _) (Finset.mem_univ i))
  have hY0 : 0 ≤ ∑ i, ∑ t, |Y i t| := Finset.sum_nonneg fun i _ => Finset.sum_nonneg fun j _ => abs_nonneg _
  have hn0 : (0 : ℝ) ≤ n := Nat.cast_nonneg n
  have hnT : (0 : ℝ) ≤ n * T := by positivity
  obtain ⟨b, hb⟩ : ∃ b : ℝ, b = 1 + ∑ i, ∑ t, |Y i t| + 2 * n + |Bu| := ⟨_, rfl⟩
  have a2 := abs_nonneg Bu
  have a4 := le_abs_self Bu
  have hb1 : 1 ≤ b := by rw [hb]; linarith
  obtain ⟨B, hB⟩ : ∃ B : ℝ, B = 4 * ((n * T + 1) * b ^ 2) := ⟨_, rfl⟩
  have hb2 : 1 ≤ b ^ 2 := one_le_pow₀ hb1
  have hB0 : 1 ≤ B := by
    have : 0 ≤ n * T * b ^ 2 := by positivity
    rw [hB]; linarith
  obtain ⟨K, hK⟩ : ∃ K : ℝ, K = 10 * ((0 : ℕ) + 1) ^ 2 * (B + 1) ^ 3 := ⟨_, rfl⟩
  have hK1 := one_le_K hB0 hK
  have q1 : 0 ≤ K * ((n * T + 1) * (K * (K * (K * (b + 1))))) := by positivity
  refine ⟨K * ((n * T + 1) * (K * (K * (K * (b + 1))))) + 2 * n + 2, by linarith, ?_⟩
  intro F _ _ e η Pr S M hCe y' hy' DM X
  have he := Pr.pos
  have kk : Consts e B K 0 := Consts.mk' Pr.pos hB0 hK
  have sm : ∀ {z : ℝ}, z ≤ K * ((n * T + 1) * (K * (K * (K * (b + 1))))) + 2 * n + 2 → z * e ≤ 1 := fun h =>
    (mul_le_mul_of_nonneg_right h he.le).trans hCe
  have he2 : 2 * e ≤ 1 := sm (by linarith)
  refine ⟨fun u => mt_value_nonneg hn Pr S M.norm (sm (by linarith)) (by linarith) y' u, fun u U d hd hs hU hu => ?_⟩
  have hle : K * ((n * T + 1) * (K * (K * (K * ((b + 1) * d))))) ≤ (K * ((n * T + 1) * (K * (K * (K * (b + 1))))) + 2 * n + 2) * d := by
    calc K * ((n * T + 1) * (K * (K * (K * ((b + 1) * d))))) = K * ((n * T + 1) * (K * (K * (K * (b + 1))))) * d := by ring
      _ ≤ _ := mul_le_mul_of_nonneg_right (by linarith) (by linarith)
  exact Tri.mono (mt_value_apx hn Pr kk hb1 (by rw [hb]; linarith) hB.ge (fun i t => (hY i t).trans (by rw [hb]; linarith)) hy' hd
    (fun i t => (hU i t).trans (by rw [hb]; linarith)) hu ((mul_le_mul_of_nonneg_right hle he.le).trans hs)) fun z hz => hz.mono he.le hle

theorem fitMTVal_exists (hn : 0 < n) (D : Design n p) (Y : Fin n → Fin T → ℝ) (Bv Bu : ℝ) :
    ∃ C : ℝ, 1 ≤ C ∧ ∀ {F : Type} [Scalar F] [LawfulCmp F] {e η : ℝ}, Precise F e → Propagates F → PreciseMT F e η → C * e ≤ 1 →
      ∀ (y' : Fin n → Fin T → F), (∀ i t, Stores e (y' i t) (Y i t)) →
      match D with
      | .dense X => ∀ x : Fin n → Fin p → F, (∀ i j, Stores e (x i j) (X i j)) → ∀ df : QuadraticMT F,
        FitMTVal e Bv Bu C (⟨matOf x, Targets.two (matOf y')⟩ : Dataset (Mat F) F) df X (mtLoss Y)
      | .csc A => ∀ x : Fin A.nnz → F, (∀ k, Stores e (x k) (A.data k)) → ∀ df : QuadraticMT F,
        FitMTVal e Bv Bu C (⟨A.toCSCOf x, Targets.two (matOf y')⟩ : Dataset (CSC F) F) df A.dense (mtLoss Y) := by
  obtain ⟨C1, hC1, H1⟩ := mt_loss_exists hn Y Bu
  cases D with
  | dense X =>
    obtain ⟨C2, hC2, H2⟩ := dense_fitVal hn X (fun _ => 0) Bv Bu
    refine ⟨C1 + C2, by linarith, ?_⟩
    intro F _ _ e η Pr S M hCe y' hy' x hx df
    have he := Pr.pos
    have sm : ∀ {z : ℝ}, z ≤ C1 + C2 → z * e ≤ 1 := fun h => (mul_le_mul_of_nonneg_right h he.le).trans hCe
    obtain ⟨h1, h2⟩ := H1 Pr S M (sm (by linarith)) y' hy' (matOf x)
    have h3 := H2 Pr S (sm (by linarith)) (fun _ => zero) (fun _ => stores_zero he.le) x hx (Quadratic.new : Quadratic F)
    refine fitMTVal_core X Y _ df he.le (by linarith) (by linarith) h1 h2 fun l w v k1 k2 k3 k4 => ?_
    refine ⟨_, dense_extraMT_eq x w l, fun i t => ?_⟩
    have h4 := h3.extra l (fun j => w j t) (fun j => v j t) k1 (fun j => k2 j t) (fun j => k3 j t) (fun j hj => by rw [k4 j hj]; rfl)
    have e1 : DesignMatrix.extrapolatedFit (matOf x) (l.map Fin.val) (List.ofFn fun j => w j t) n = _ := dense_extra_eq x (fun j => w j t) l
    simp only at h4
    rw [e1] at h4
    obtain ⟨u, h5, h6⟩ := h4
    have h7 := List.ofFn_injective h5
    have := h6 i
    rw [← h7] at this
    exact this
  | csc A =>
    obtain ⟨C2, hC2, H2⟩ := csc_fitVal hn A (fun _ => 0) Bv Bu
    refine ⟨C1 + C2, by linarith, ?_⟩
    intro F _ _ e η Pr S M hCe y' hy' x hx df
    have he := Pr.pos
    have sm : ∀ {z : ℝ}, z ≤ C1 + C2 → z * e ≤ 1 := fun h => (mul_le_mul_of_nonneg_right h he.le).trans hCe
    obtain ⟨h1, h2⟩ := H1 Pr S M (sm (by linarith)) y' hy' (A.toCSCOf x)
    have h3 := H2 Pr S (sm (by linarith)) (fun _ => zero) (fun _ => stores_zero he.le) x hx (Quadratic.new : Quadratic F)
    refine fitMTVal_core A.dense Y _ df he.le (by linarith) (by linarith) h1 h2 fun l w v k1 k2 k3 k4 => ?_
    refine ⟨_, csc_extraMT_eq A x w l, fun i t => ?_⟩
    have h4 := h3.extra l (fun j => w j t) (fun j => v j t) k1 (fun j => k2 j t) (fun j => k3 j t) (fun j hj => by rw [k4 j hj]; rfl)
    have e1 : DesignMatrix.extrapolatedFit (A.toCSCOf x) (l.map Fin.val) (List.ofFn fun j => w j t) n = _ := csc_extra_eq A x (fun j => w j t) l
    simp only at h4
    rw [e1] at h4
    obtain ⟨u, h5, h6⟩ := h4
    have h7 := List.ofFn_injective h5
    have := h6 i
    rw [← h7] at this
    rw [congrFun (foldl_col_update (l.flatMap fun j => (colList A j).map fun k => (j, k)) (fun jk => A.row jk.2)
      (fun jk t a => a +. x jk.2 *. w jk.1 t) t (fun _ _ => zero)) i]
    exact this

end Sglm
