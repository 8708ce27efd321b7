import Verif.Proofs.FloatMTCheck
import Verif.Proofs.FloatCall
import Verif.Spec.MTFloat

/-!
# The multi-task least squares datafit in floating point
-/

set_option linter.unusedSectionVars false

namespace Sglm
open Scalar Spec
variable {n p T : ℕ}

/-! ## Arrays -/

section
variable {F : Type} [Scalar F]

omit [Scalar F] in
theorem set2_matOf (x : Fin n → Fin p → F) (i : Fin n) (j : Fin p) (a : F) :
    (matOf x).set2 i j a = .ok (matOf (Function.update x i (Function.update (x i) j a))) := by
  unfold Mat.set2 matOf
  rw [getM_ofFn]
  simp only [bind, Except.bind]
  rw [setM_ofFn']
  simp only
  rw [setM_ofFn']
  simp only [pure, Except.pure]
  congr 2
  congr 1
  funext k
  by_cases h : k = i
  · subst h; simp
  · simp [h]

omit [Scalar F] in
theorem matOf_inj {x y : Fin n → Fin p → F} (h : matOf x = matOf y) : x = y := by
  have h1 : (matOf x).rows = (matOf y).rows := by rw [h]
  funext i
  exact List.ofFn_injective (congrFun (List.ofFn_injective h1) i)

omit [Scalar F] in
theorem fold_matOf (f : Fin T → F → F) (u : Fin n → Fin T → F) (i : Fin n) (body : Mat F → ℕ → M (Mat F))
    (hb : ∀ u (t : Fin T), body (matOf u) t = .ok (matOf (Function.update u i (Function.update (u i) t (f t (u i t)))))) :
    (List.range T).foldlM body (matOf u) = .ok (matOf (Function.update u i fun t => f t (u i t))) := by
  rw [range_eq_finRange, List.foldlM_map]
  have h := (foldlM_ok (fun r : Fin T → F => matOf (Function.update u i r)) (fun acc (t : Fin T) => body acc t)
    (fun r t => Function.update r t (f t (r t))) (List.finRange T)
    (fun _ => True) (fun r _ t _ => ⟨by rw [hb]; simp, trivial⟩) (u i) trivial).1
  rw [Function.update_eq_self] at h
  rw [h, foldl_update_each f _ (List.nodup_finRange T)]
  simp

theorem updateDenseMT_of (x : Fin n → Fin p → F) (u : Fin n → Fin T → F) (δ : Fin T → F) (j : Fin p) :
    (matOf x).updateModelFitMT (matOf u) (List.ofFn δ) j = .ok (matOf fun i t => u i t +. δ t *. x i j) := by
  unfold Mat.updateModelFitMT
  rw [matOf_nrows, matOf_ncols, range_eq_finRange n, List.foldlM_map]
  have h := (foldlM_ok (fun u : Fin n → Fin T → F => matOf u) (fun A (i : Fin n) =>
    (List.range T).foldlM (fun A t => do
      let a ← A.get2 i t
      let d ← getM (List.ofFn δ) t
      let x ← (matOf x).get2 i j
      A.set2 i t (a +. d *. x)) A) (fun u i => Function.update u i fun t => u i t +. δ t *. x i j) (List.finRange n)
    (fun _ => True) (fun u _ i _ => ⟨by
      apply fold_matOf (fun t a => a +. δ t *. x i j)
      intro u t
      simp only [get2_matOf, bind, Except.bind, getM_ofFn, set2_matOf], trivial⟩) u trivial).1
  rw [h, foldl_update_each (fun i r t => r t +. δ t *. x i j) _ (List.nodup_finRange n)]
  simp

theorem updateCSCMT_of (A : CSCData n p) (x : Fin A.nnz → F) (u : Fin n → Fin T → F) (δ : Fin T → F) (j : Fin p) :
    (A.toCSCOf x).updateModelFitMT (matOf u) (List.ofFn δ) j = .ok (matOf ((colList A j).foldl
      (fun u k => Function.update u (A.row k) fun t => u (A.row k) t +. δ t *. x k) u)) := by
  unfold CSC.updateModelFitMT
  rw [colRange_toCSCOf, matOf_ncols]
  exact foldlM_col A j (fun u : Fin n → Fin T → F => matOf u) _
    (fun u k => Function.update u (A.row k) fun t => u (A.row k) t +. δ t *. x k) (by
      intro u k
      apply fold_matOf (fun t a => a +. δ t *. x k)
      intro u t
      simp only [rowAt_toCSCOf, bind, Except.bind, getM_ofFn, get2_matOf, dataAt_toCSCOf, set2_matOf]) u

omit [Scalar F] in
/-- The columns of a matrix updated row by row. -/
theorem foldl_col_update {β : Type} (l : List β) (pos : β → Fin n) (f : β → Fin T → F → F) (t : Fin T) (u : Fin n → Fin T → F) :
    (fun i => (l.foldl (fun (u : Fin n → Fin T → F) k => Function.update u (pos k) fun t => f k t (u (pos k) t)) u) i t) =
      l.foldl (fun v k => Function.update v (pos k) (f k t (v (pos k)))) (fun i => u i t) := by
  induction l generalizing u with
  | nil => rfl
  | cons k l ih =>
    rw [List.foldl_cons, ih, List.foldl_cons]
    congr 1
    funext i
    by_cases h : i = pos k
    · subst h; simp
    · simp [h]

end

/-! ## Contract -/

/-- The datafit computes gradient `g`, step constants `L` and updates of the fit up to `C e`, while magnitudes are below `B`. -/
structure FitMTApx {F DM DF : Type} [Scalar F] [LawfulCmp F] [DesignMatrix F DM] [MTDatafit F DM DF] (e B C : ℝ) (ds : Dataset DM F)
    (df : DF) (A : Fin n → Fin p → ℝ) (g : (Fin n → Fin T → ℝ) → Fin p → Fin T → ℝ) (L : Fin p → ℝ) : Prop where
  safe : MT.SafeFit ds df n p T
  tasks : ds.targets.nTasks = T
  samples : ds.targets.nSamples = n
  feats : DesignMatrix.nFeatures (F := F) ds.designMatrix = .ok p
  step : ∃ l : Fin p → F, MTDatafit.stepSize (DM := DM) df = List.ofFn l ∧
    ∀ j, Apx e (l j) (L j) C ∧ (L j = 0 → Den (l j) 0)
  grad : ∀ (u : Fin n → Fin T → F) (U : Fin n → Fin T → ℝ) d, 1 ≤ d → C * d * e ≤ 1 → (∀ i t, |U i t| ≤ B) →
    (∀ i t, Apx e (u i t) (U i t) d) → ∀ j : Fin p, ∃ γ : Fin T → F, MTDatafit.gradientJ df ds (matOf u) j = .ok (List.ofFn γ) ∧
      ∀ t, Apx e (γ t) (g U j t) (C * d)
  upd : ∀ (u : Fin n → Fin T → F) (U : Fin n → Fin T → ℝ) d c (δ : Fin T → F) (s : Fin T → ℝ), 1 ≤ d → 1 ≤ c →
    C * (d + c) * e ≤ 1 → (∀ i t, |U i t| ≤ B) → (∀ t, |s t| ≤ B) → (∀ i t, Apx e (u i t) (U i t) d) → (∀ t, Apx e (δ t) (s t) c) →
    ∀ j : Fin p, ∃ u' : Fin n → Fin T → F,
      DesignMatrix.updateModelFitMT ds.designMatrix (matOf u) (List.ofFn δ) j = .ok (matOf u') ∧
      ∀ i t, Apx e (u' i t) (U i t + s t * A i j) (d + C * c)

section
variable {F : Type} [Scalar F] [LawfulCmp F]

theorem Consts.mmdot {e B K c : ℝ} {N : ℕ} (k : Consts e B K N) {η : ℝ} (P : PreciseNorm F e η) {n : ℕ} (hn : n ≤ N) {x y : Fin n → F} {r s : Fin n → ℝ} (hx : ∀ i, Apx e (x i) (r i) c)
    (hy : ∀ i, Apx e (y i) (s i) c) (hc : 1 ≤ c) (hr : ∀ i, |r i| ≤ B) (hs : ∀ i, |s i| ≤ B) (hsm : K * c * e ≤ 1) :
    Apx e (Scalar.mmdot (List.ofFn x) (List.ofFn y)) (∑ i, r i * s i) (K * c) := by
  choose t h1 h2 using hx
  choose u h3 h4 using hy
  have he := k.e0
  have hB := k.B1
  have hK := k.hK
  have hcp : 0 < c * e := mul_pos (by linarith) he
  have hK1 := k.K1
  have hce : c * e ≤ 1 := by nlinarith
  have hee : e ≤ c * e := by nlinarith
  have hnN : (n : ℝ) ≤ N := by exact_mod_cast hn
  have hn0 : (0 : ℝ) ≤ n := Nat.cast_nonneg n
  have hN0 : (0 : ℝ) ≤ N := Nat.cast_nonneg N
  have hKce : K * (c * e) ≤ 1 := by rw [← mul_assoc]; exact hsm
  have key := fun i => k.prod_near (hr i) (hs i) hce (h2 i) (h4 i)
  have hsum : |∑ i, t i * u i - ∑ i, r i * s i| ≤ n * ((2 * B + 1) * (c * e)) := by
    rw [← Finset.sum_sub_distrib]
    refine (Finset.abs_sum_le_sum_abs _ _).trans ?_
    refine (Finset.sum_le_sum fun i _ => (key i).1).trans (le_of_eq ?_)
    rw [Finset.sum_const, Finset.card_univ, Fintype.card_fin, nsmul_eq_mul]
  have habs : ∑ i, |t i * u i| ≤ n * (B + 1) ^ 2 := by
    refine (Finset.sum_le_sum fun i _ => (key i).2).trans (le_of_eq ?_)
    rw [Finset.sum_const, Finset.card_univ, Fintype.card_fin, nsmul_eq_mul]
  have hB3 : (1 : ℝ) ≤ (B + 1) ^ 2 := one_le_pow₀ (by linarith)
  have hN1 : (1 : ℝ) ≤ (N + 1 : ℝ) := by linarith
  -- everything is below `K`
  have hbig : n * (2 * B + 1) + n * (n * (B + 1) ^ 2 + 1) ≤ K := by
    refine le_trans ?_ hK
    have a1 : n * (2 * B + 1) + n * (n * (B + 1) ^ 2 + 1) ≤ N * (2 * B + 1) + N * (N * (B + 1) ^ 2 + 1) := by
      have b1 : (n : ℝ) * (2 * B + 1) ≤ N * (2 * B + 1) := mul_le_mul_of_nonneg_right hnN (by linarith)
      have b2 : (n : ℝ) * (B + 1) ^ 2 + 1 ≤ N * (B + 1) ^ 2 + 1 := by
        have := mul_le_mul_of_nonneg_right hnN (by positivity : (0 : ℝ) ≤ (B + 1) ^ 2)
        linarith
      have b3 : (n : ℝ) * (n * (B + 1) ^ 2 + 1) ≤ N * (N * (B + 1) ^ 2 + 1) :=
        mul_le_mul hnN b2 (by positivity) hN0
      linarith
    refine a1.trans ?_
    have a2 : 2 * B + 1 ≤ 2 * (B + 1) ^ 2 := by nlinarith
    have a3 : (B + 1) ^ 2 ≤ (B + 1) ^ 3 := by
      have : (B + 1) ^ 3 = (B + 1) ^ 2 * (B + 1) := by ring
      nlinarith
    have a4 : N * (2 * B + 1) + N * (N * (B + 1) ^ 2 + 1) ≤ 10 * (N + 1) ^ 2 * (B + 1) ^ 2 := by
      have : (N : ℝ) * (2 * B + 1) ≤ N * (2 * (B + 1) ^ 2) := mul_le_mul_of_nonneg_left a2 hN0
      nlinarith [mul_nonneg hN0 (by positivity : (0 : ℝ) ≤ (B + 1) ^ 2)]
    refine a4.trans (mul_le_mul_of_nonneg_left a3 (by positivity))
  have hbig2 : (n : ℝ) * (B + 1) ^ 2 + n + 1 ≤ K := by
    refine le_trans ?_ hK
    have a1 : (n : ℝ) * (B + 1) ^ 2 ≤ N * (B + 1) ^ 2 := mul_le_mul_of_nonneg_right hnN (by positivity)
    have a3 : (B + 1) ^ 2 ≤ (B + 1) ^ 3 := by
      have : (B + 1) ^ 3 = (B + 1) ^ 2 * (B + 1) := by ring
      nlinarith
    have a4 : N * (B + 1) ^ 2 + N + 1 ≤ 10 * (N + 1) ^ 2 * (B + 1) ^ 2 := by
      nlinarith [mul_nonneg hN0 (by positivity : (0 : ℝ) ≤ (B + 1) ^ 2)]
    have a5 : 10 * (N + 1 : ℝ) ^ 2 * (B + 1) ^ 2 ≤ 10 * (N + 1) ^ 2 * (B + 1) ^ 3 :=
      mul_le_mul_of_nonneg_left a3 (by positivity)
    linarith
  have hKe : K * e ≤ 1 := by
    have := mul_le_mul_of_nonneg_left hee (by linarith : 0 ≤ K)
    linarith
  have hbe : (n * (B + 1) ^ 2 + n + 1) * e ≤ 1 := (mul_le_mul_of_nonneg_right hbig2 he.le).trans hKe
  have hq : 0 ≤ n * (B + 1) ^ 2 := by positivity
  have hne : n * e ≤ 1 := by nlinarith
  obtain ⟨d1, d2⟩ := P.mmdot n x y t u h1 h3 hne
  obtain ⟨v, hv⟩ := d1 (habs.trans (by rw [le_div_iff₀ he]; nlinarith))
  have h7 := d2 v hv
  refine ⟨v, hv, ?_⟩
  have h8 : |v - ∑ i, r i * s i| ≤ |v - ∑ i, t i * u i| + |∑ i, t i * u i - ∑ i, r i * s i| := by
    have := abs_add_le (v - ∑ i, t i * u i) (∑ i, t i * u i - ∑ i, r i * s i); simpa using this
  have h9 : n * e * ((∑ i, |t i * u i|) + 1) ≤ n * (n * (B + 1) ^ 2 + 1) * (c * e) := by
    have b1 : n * e * ((∑ i, |t i * u i|) + 1) ≤ n * e * (n * (B + 1) ^ 2 + 1) :=
      mul_le_mul_of_nonneg_left (by linarith) (by positivity)
    have b2 : n * (n * (B + 1) ^ 2 + 1) * e ≤ n * (n * (B + 1) ^ 2 + 1) * (c * e) :=
      mul_le_mul_of_nonneg_left hee (by positivity)
    linarith
  have h10 := mul_le_mul_of_nonneg_right hbig hcp.le
  rw [mul_assoc]
  linarith

theorem stores_zero {e : ℝ} (he : 0 ≤ e) : Stores e (zero : F) 0 := by
  refine ⟨⟨0, den_zero, ?_⟩, fun _ => den_zero⟩
  simpa using he

/-- A gradient of the multi-task loss is a gradient per task. -/
theorem mtGrad_task (X : Fin n → Fin p → ℝ) (Y U : Fin n → Fin T → ℝ) (j : Fin p) (t : Fin T) :
    mtGrad X Y U j t = quadGrad X (fun i => Y i t) (fun i => U i t) j := by
  unfold mtGrad quadGrad
  rfl

theorem fitMT_dense (hn : 0 < n) (X : Fin n → Fin p → ℝ) (Y : Fin n → Fin T → ℝ) (B : ℝ) (hB : 1 ≤ B) :
    ∃ C : ℝ, 1 ≤ C ∧ ∀ {F : Type} [Scalar F] [LawfulCmp F] {e η : ℝ}, Precise F e → PreciseNorm F e η → C * e ≤ 1 →
      ∀ (y : Fin n → Fin T → F), (∀ i t, Stores e (y i t) (Y i t)) → ∀ x : Fin n → Fin p → F, (∀ i j, Stores e (x i j) (X i j)) →
      ∀ df0 : QuadraticMT F, ∃ df, MTDatafit.init df0 (⟨matOf x, Targets.two (matOf y)⟩ : Dataset (Mat F) F) = .ok df ∧
        FitMTApx e B C (⟨matOf x, Targets.two (matOf y)⟩ : Dataset (Mat F) F) df X (mtGrad X Y) (quadStep X) := by
  obtain ⟨C0, hC0, H⟩ := quad_exists hn (.dense X) (fun _ => 0) B hB
  have hX : ∀ i j, |X i j| ≤ ∑ i, ∑ j, |X i j| := fun i j => (le_sum_abs (X i) j).trans
    (Finset.single_le_sum (f := fun i => ∑ j, |X i j|) (fun i _ => Finset.sum_nonneg fun j _ => abs_nonneg _) (Finset.mem_univ i))
  have hX0 : 0 ≤ ∑ i, ∑ j, |X i j| := Finset.sum_nonneg fun i _ => Finset.sum_nonneg fun j _ => abs_nonneg _
  have hY : ∀ i t, |Y i t| ≤ ∑ i, ∑ t, |Y i t| := fun i j => (le_sum_abs (Y i) j).trans
    (Finset.single_le_sum (f := fun i => ∑ j, |Y i j|) (fun i _ => Finset.sum_nonneg fun j _ => abs_nonneg _) (Finset.mem_univ i))
  have hY0 : 0 ≤ ∑ i, ∑ t, |Y i t| := Finset.sum_nonneg fun i _ => Finset.sum_nonneg fun j _ => abs_nonneg _
  have hn0 : (0 : ℝ) ≤ n := Nat.cast_nonneg n
  have hn1 : (1 : ℝ) ≤ n := by exact_mod_cast hn
  obtain ⟨B1, B2, hm, hS⟩ := mags_exists B (∑ i, ∑ j, |X i j| + ∑ i, ∑ t, |Y i t| + n) hB (by linarith) n
  obtain ⟨K, hK⟩ : ∃ K : ℝ, K = 10 * (n + 1) ^ 2 * (B2 + 1) ^ 3 := ⟨_, rfl⟩
  have hK1 := one_le_K hm.one2 hK
  obtain ⟨c1, hc1⟩ : ∃ c1 : ℝ, c1 = B2 + 1 := ⟨_, rfl⟩
  have B12 := hm.le
  have B11 := hm.one
  have hc11 : 1 ≤ c1 := by linarith
  have bX : ∀ i j, |X i j| ≤ B1 := fun i j => (hX i j).trans (by linarith)
  have bY : ∀ i j, |Y i j| ≤ B1 := fun i j => (hY i j).trans (by linarith)
  obtain ⟨C1, hC1⟩ : ∃ C1 : ℝ, C1 = K * (K * (K * c1)) := ⟨_, rfl⟩
  have k1 : c1 ≤ K * c1 := le_mul_of_one_le_left (by linarith) hK1
  have k2 : K * c1 ≤ K * (K * c1) := le_mul_of_one_le_left (by linarith) hK1
  have k3 : K * (K * c1) ≤ K * (K * (K * c1)) := le_mul_of_one_le_left (by linarith) hK1
  have hC10 : 0 ≤ C1 := by linarith
  refine ⟨C0 + C1, by linarith, ?_⟩
  intro F _ _ e η P PN hCe y hy x hx df0
  have he := P.pos
  have smul : ∀ {a b : ℝ}, a ≤ b → b * e ≤ 1 → a * e ≤ 1 := fun h h2 =>
    le_trans (mul_le_mul_of_nonneg_right h he.le) h2
  obtain ⟨df1, i1, A1⟩ := H P (smul (by linarith) hCe) (fun _ => zero) (fun _ => stores_zero he.le) x hx (Quadratic.new : Quadratic F)
  rw [quad_init_dense] at i1
  injection i1 with i1
  subst i1
  have kk : Consts e B2 K n := Consts.mk' he hm.one2 hK
  refine ⟨_, mt_init_dense_eq x y df0, ?_, rfl, matOf_nrows y, rfl, ?_, ?_, ?_⟩
  · have := MT.quad_dense_safe (shaped_matOf x) (shaped_two (shaped_matOf y)) df0
    rw [mt_init_dense_eq] at this
    exact this
  · obtain ⟨l, h1, h2⟩ := A1.step
    exact ⟨l, h1, fun j => ⟨(h2 j).1.mono he.le (by linarith), (h2 j).2⟩⟩
  · intro u U d hd hs hU hu j
    refine ⟨_, mt_grad_dense x y u _ _ j, fun t => ?_⟩
    have hK0 : 0 ≤ K := by linarith
    have hcd : 1 ≤ c1 * d := one_le_mul_of_one_le_of_one_le hc11 hd
    have hs' : K * (K * (K * (c1 * d))) * e ≤ 1 := by
      refine smul ?_ hs
      have : 0 ≤ C0 * d := by positivity
      have e1 : K * (K * (K * (c1 * d))) = C1 * d := by rw [hC1]; ring
      rw [e1, add_mul]
      linarith
    have q1 : c1 * d ≤ K * (c1 * d) := le_mul_of_one_le_left (by linarith) hK1
    have q2 : K * (c1 * d) ≤ K * (K * (c1 * d)) := le_mul_of_one_le_left (by linarith) hK1
    have q3 : K * (K * (c1 * d)) ≤ K * (K * (K * (c1 * d))) := le_mul_of_one_le_left (by linarith) hK1
    have hcc : c1 ≤ c1 * d := le_mul_of_one_le_right (by linarith) hd
    have hKcc : K * c1 ≤ K * (c1 * d) := mul_le_mul_of_nonneg_left hcc hK0
    have hU' : ∀ i, |U i t| ≤ B1 := fun i => (hU i t).trans hm.base
    have ax : ∀ i j, Apx e (x i j) (X i j) c1 := fun i j => (hx i j).apx he.le ((bX i j).trans B12) hc1.ge
    have ay : ∀ i, Apx e (y i t) (Y i t) c1 := fun i => (hy i t).apx he.le ((bY i t).trans B12) hc1.ge
    have s1 : K * c1 * e ≤ 1 := smul (by linarith) hs'
    have anat : Apx e (Scalar.ofNat n : F) n (K * c1) := kk.nat P n (by linarith) hc11 s1
    have axty := kk.mmdot PN le_rfl (fun i => ax i j) ay hc11 (fun i => (bX i j).trans B12) (fun i => (bY i t).trans B12) s1
    have hninv : 1 / B2 ≤ |(n : ℝ)| := by
      rw [abs_of_nonneg (by linarith), div_le_iff₀ (by linarith)]; nlinarith
    have d1 := kk.dot P le_rfl (fun i => (ax i j).mono he.le hcc)
      (fun i => (hu i t).mono he.le (le_mul_of_one_le_left (by linarith) hc11)) hcd
      (fun i => (bX i j).trans B12) (fun i => (hU' i).trans B12) (smul (by linarith) hs')
    have b1 : |∑ i, X i j * U i t - ∑ i, X i j * Y i t| ≤ B2 := by
      have a1 := abs_sum_le_card (fun i => X i j * U i t) _ fun i => abs_mul_le (bX i j) (hU' i)
      have a2 := abs_sum_le_card (fun i => X i j * Y i t) _ fun i => abs_mul_le (bX i j) (bY i t)
      have a3 := abs_sub (∑ i, X i j * U i t) (∑ i, X i j * Y i t)
      linarith [hm.two_le]
    have d2 := kk.sub P d1 (axty.mono he.le hKcc) (by linarith) b1 (smul (by linarith) hs')
    have d3 := kk.div P d2 (anat.mono he.le (by linarith)) (by linarith) b1 hninv hs'
    refine d3.mono he.le ?_
    have : 0 ≤ C0 * d := by positivity
    have e1 : K * (K * (K * (c1 * d))) = C1 * d := by rw [hC1]; ring
    rw [e1, add_mul]
    linarith
  · intro u U d c δ s hd hc hs hU hsB hu hδ j
    refine ⟨_, updateDenseMT_of x u δ j, fun i t => ?_⟩
    have h := A1.upd (fun i => u i t) (fun i => U i t) d c (δ t) (s t) hd hc (smul (by
      have : 0 ≤ C1 * (d + c) := by positivity
      linarith) hs) (fun i => hU i t) (hsB t) (fun i => hu i t) (hδ t) j
    have e1 : DesignMatrix.updateModelFit (matOf x) (List.ofFn fun i => u i t) (δ t) (j : ℕ) =
        .ok (List.ofFn fun i => u i t +. δ t *. x i j) := by
      show Mat.updateModelFit _ _ _ _ = _
      unfold Mat.updateModelFit
      rw [colM_matOf]
      simp only [bind, Except.bind]
      rw [scaledAdd_ofFn]
    simp only at h
    rw [e1] at h
    obtain ⟨u', h1, h2⟩ := h
    have h3 := List.ofFn_injective h1
    have := h2 i
    rw [← h3] at this
    refine this.mono he.le ?_
    have : 0 ≤ C1 * c := by positivity
    linarith

theorem fitMT_csc (hn : 0 < n) (A : CSCData n p) (Y : Fin n → Fin T → ℝ) (B : ℝ) (hB : 1 ≤ B) :
    ∃ C : ℝ, 1 ≤ C ∧ ∀ {F : Type} [Scalar F] [LawfulCmp F] {e : ℝ}, Precise F e → C * e ≤ 1 →
      ∀ (y : Fin n → Fin T → F), (∀ i t, Stores e (y i t) (Y i t)) → ∀ x : Fin A.nnz → F, (∀ k, Stores e (x k) (A.data k)) →
      ∀ df0 : QuadraticMT F, ∃ df, MTDatafit.init df0 (⟨A.toCSCOf x, Targets.two (matOf y)⟩ : Dataset (CSC F) F) = .ok df ∧
        FitMTApx e B C (⟨A.toCSCOf x, Targets.two (matOf y)⟩ : Dataset (CSC F) F) df A.dense (mtGrad A.dense Y) (cscStep A) := by
  obtain ⟨C0, hC0, H⟩ := quad_exists hn (.csc A) (fun _ => 0) B hB
  have Hx := fun t : Fin T => quad_exists hn (.csc A) (fun i => Y i t) B hB
  choose Ct hCt Ht using Hx
  have hsum : ∀ t, Ct t ≤ ∑ t, Ct t := fun t =>
    Finset.single_le_sum (f := Ct) (fun i _ => by linarith [hCt i]) (Finset.mem_univ t)
  have hsum0 : 0 ≤ ∑ t, Ct t := Finset.sum_nonneg fun i _ => by linarith [hCt i]
  refine ⟨C0 + ∑ t, Ct t, by linarith, ?_⟩
  intro F _ _ e P hCe y hy x hx df0
  have he := P.pos
  have smul : ∀ {a b : ℝ}, a ≤ b → b * e ≤ 1 → a * e ≤ 1 := fun h h2 =>
    le_trans (mul_le_mul_of_nonneg_right h he.le) h2
  obtain ⟨df1, i1, A1⟩ := H P (smul (by linarith) hCe) (fun _ => zero) (fun _ => stores_zero he.le) x hx (Quadratic.new : Quadratic F)
  rw [quad_init_csc] at i1
  injection i1 with i1
  subst i1
  refine ⟨_, mt_init_csc_eq A x y df0, ?_, rfl, matOf_nrows y, nFeatures_toCSCOf A x, ?_, ?_, ?_⟩
  · have := MT.quad_csc_safe (shaped_toCSCOf A x) (shaped_two (shaped_matOf y)) df0
    rw [mt_init_csc_eq] at this
    exact this
  · obtain ⟨l, h1, h2⟩ := A1.step
    exact ⟨l, h1, fun j => ⟨(h2 j).1.mono he.le (by linarith), (h2 j).2⟩⟩
  · intro u U d hd hs hU hu j
    refine ⟨_, mt_grad_csc A x y u _ _ j, fun t => ?_⟩
    have hC : Ct t ≤ C0 + ∑ t, Ct t := by linarith [hsum t]
    have hCd : Ct t * d ≤ (C0 + ∑ t, Ct t) * d := mul_le_mul_of_nonneg_right hC (by linarith)
    obtain ⟨df2, i2, A2⟩ := Ht t P (smul hC hCe) (fun i => y i t) (fun i => hy i t) x hx (Quadratic.new : Quadratic F)
    rw [quad_init_csc] at i2
    injection i2 with i2
    subst i2
    have h := A2.grad (fun i => u i t) (fun i => U i t) d hd (smul hCd hs) (fun i => hU i t) (fun i => hu i t) j
    rw [quad_grad_csc] at h
    rw [mtGrad_task]
    exact Apx.mono he.le h hCd
  · intro u U d c δ s hd hc hs hU hsB hu hδ j
    refine ⟨_, updateCSCMT_of A x u δ j, fun i t => ?_⟩
    have h := A1.upd (fun i => u i t) (fun i => U i t) d c (δ t) (s t) hd hc (smul (by
      have : 0 ≤ (∑ t, Ct t) * (d + c) := mul_nonneg hsum0 (by linarith)
      linarith) hs) (fun i => hU i t) (hsB t) (fun i => hu i t) (hδ t) j
    have e1 : DesignMatrix.updateModelFit (A.toCSCOf x) (List.ofFn fun i => u i t) (δ t) (j : ℕ) = _ := updateCSC_of A x _ _ j
    simp only at h
    rw [e1] at h
    obtain ⟨u', h1, h2⟩ := h
    have h3 := List.ofFn_injective h1
    have := h2 i
    rw [← h3] at this
    rw [congrFun (foldl_col_update (colList A j) A.row (fun k t a => a +. δ t *. x k) t u) i]
    refine this.mono he.le ?_
    have : 0 ≤ (∑ t, Ct t) * c := mul_nonneg hsum0 (by linarith)
    linarith

end
end Sglm
