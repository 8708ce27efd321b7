import Verif.Proofs.FloatMTScore

/-!
# Explicit error bounds for the violation of the optimality conditions of the multi-task Lasso
-/

namespace Sglm
open Scalar Spec
variable {n p T : ℕ} {F : Type} [Scalar F]

/-! ## Arrays -/

omit [Scalar F] in
theorem foldl_update_each {α : Type} (f : Fin T → α → α) (l : List (Fin T)) (hl : l.Nodup) (u : Fin T → α) :
    l.foldl (fun u t => Function.update u t (f t (u t))) u = fun t => if t ∈ l then f t (u t) else u t := by
  induction l generalizing u with
  | nil => simp
  | cons a l ih =>
    rw [List.foldl_cons, ih (List.nodup_cons.mp hl).2]
    have ha := (List.nodup_cons.mp hl).1
    funext t
    by_cases h : t = a
    · subst h
      simp [ha]
    · simp [h]

omit [Scalar F] in
theorem setM_ofFn' {α : Type} (u : Fin n → α) (i : Fin n) (a : α) :
    setM (List.ofFn u) i a = .ok (List.ofFn (Function.update u i a)) := setM_ofFn u i a

omit [Scalar F] in
theorem fold_vecOf (f : Fin T → F → F) (u : Fin T → F) (body : List F → ℕ → M (List F))
    (hb : ∀ u (t : Fin T), body (List.ofFn u) t = .ok (List.ofFn (Function.update u t (f t (u t))))) :
    (List.range T).foldlM body (List.ofFn u) = .ok (List.ofFn fun t => f t (u t)) := by
  rw [range_eq_finRange, List.foldlM_map]
  rw [(foldlM_ok (fun u : Fin T → F => List.ofFn u) (fun acc (t : Fin T) => body acc t) (fun u t => Function.update u t (f t (u t))) _
    (fun _ => True) (fun u _ t _ => ⟨hb u t, trivial⟩) u trivial).1]
  rw [foldl_update_each f _ (List.nodup_finRange T)]
  simp

omit [Scalar F] in
theorem rowM_matOf (x : Fin n → Fin p → F) (i : Fin n) : (matOf x).rowM i = .ok (List.ofFn (x i)) :=
  getM_ofFn _ i

omit [Scalar F] in
theorem get2_matOf (x : Fin n → Fin p → F) (i : Fin n) (j : Fin p) : (matOf x).get2 i j = .ok (x i j) := by
  unfold Mat.get2 matOf
  rw [getM_ofFn]
  exact getM_ofFn _ _

theorem vecMul_matOf (v : Fin n → F) (x : Fin n → Fin p → F) :
    vecMul (List.ofFn v) (matOf x) = .ok (List.ofFn fun j => dot (List.ofFn v) (List.ofFn fun i => x i j)) := by
  unfold vecMul
  rw [if_neg (by simp)]
  simp only [matOf_ncols]
  apply mapM_range
  intro j
  rw [colM_matOf]
  rfl

theorem tMulMat_matOf (x : Fin n → Fin p → F) (y : Fin n → Fin T → F) :
    tMulMat (matOf x) (matOf y) = .ok (matOf fun a b => mmdot (List.ofFn fun i => x i a) (List.ofFn fun i => y i b)) := by
  unfold tMulMat
  rw [if_neg (by simp)]
  simp only [matOf_ncols]
  rw [mapM_range (fun a => List.ofFn (fun b => mmdot (List.ofFn fun i => x i a) (List.ofFn fun i => y i b)))]
  · rfl
  · intro a
    rw [colM_matOf]
    simp only [bind, Except.bind]
    apply mapM_range
    intro b
    rw [colM_matOf]
    rfl

omit [Scalar F] in
theorem fromShapeVec_matOf (x : Fin n → Fin p → F) :
    Mat.fromShapeVec n p (List.ofFn (fun i => List.ofFn (x i))).flatten = .ok (matOf x) := by
  rw [fromShapeVec_flatten _ (by simp)]
  · rfl
  · intro q hq
    rw [List.mem_ofFn] at hq
    obtain ⟨i, rfl⟩ := hq
    simp

/-! ## Gradients -/

theorem mt_init_dense_eq (x : Fin n → Fin p → F) (y : Fin n → Fin T → F) (df : QuadraticMT F) :
    MTDatafit.init df (⟨matOf x, Targets.two (matOf y)⟩ : Dataset (Mat F) F) =
      .ok (⟨List.ofFn (fun j => dot (List.ofFn fun i => x i j) (List.ofFn fun i => x i j) /. Scalar.ofNat n),
        matOf fun j t => mmdot (List.ofFn fun i => x i j) (List.ofFn fun i => y i t)⟩ : QuadraticMT F) := by
  show QuadraticMT.initDense _ = _
  unfold QuadraticMT.initDense
  simp only [bind, Except.bind, Targets.two, tMulMat_matOf, matOf_nrows, colSqNorms_matOf, pure, Except.pure]

theorem mt_init_dense (x : Fin n → Fin p → F) (y : Fin n → Fin T → F) (df : QuadraticMT F) :
    ∃ L, MTDatafit.init df (⟨matOf x, Targets.two (matOf y)⟩ : Dataset (Mat F) F) =
      .ok (⟨L, matOf fun j t => mmdot (List.ofFn fun i => x i j) (List.ofFn fun i => y i t)⟩ : QuadraticMT F) :=
  ⟨_, mt_init_dense_eq x y df⟩

theorem mt_grad_dense (x : Fin n → Fin p → F) (y z : Fin n → Fin T → F) (L : List F) (c : Fin p → Fin T → F) (j : Fin p) :
    MTDatafit.gradientJ (⟨L, matOf c⟩ : QuadraticMT F) (⟨matOf x, Targets.two (matOf y)⟩ : Dataset (Mat F) F) (matOf z) j =
      .ok (List.ofFn fun t => (dot (List.ofFn fun i => x i j) (List.ofFn fun i => z i t) -. c j t) /. Scalar.ofNat n) := by
  show QuadraticMT.gradDense _ _ _ _ = _
  unfold QuadraticMT.gradDense
  simp only [colM_matOf, bind, Except.bind, vecMul_matOf, rowM_matOf, bop_ofFn, pure, Except.pure, Targets.two, matOf_nrows,
    List.map_ofFn]
  rfl

theorem foldl_tasks {β : Type} (l : List β) (f : β → F) (c : β → Fin T → F) (u : Fin T → F) :
    l.foldl (fun u k => fun t => u t +. f k *. c k t) u = fun t => l.foldl (fun s k => s +. f k *. c k t) (u t) := by
  induction l generalizing u with
  | nil => rfl
  | cons k l ih => rw [List.foldl_cons, ih]; rfl

theorem replicate_zero_ofFn : List.replicate T (zero : F) = List.ofFn fun _ : Fin T => (zero : F) := by
  rw [List.ofFn_const]

theorem mt_init_csc_eq (A : CSCData n p) (x : Fin A.nnz → F) (y : Fin n → Fin T → F) (df : QuadraticMT F) :
    MTDatafit.init df (⟨A.toCSCOf x, Targets.two (matOf y)⟩ : Dataset (CSC F) F) =
      .ok (⟨List.ofFn fun j => colFold A x x j /. Scalar.ofNat n,
        matOf fun j t => colFold A x (fun k => y (A.row k) t) j⟩ : QuadraticMT F) := by
  show QuadraticMT.initCSC _ = _
  unfold QuadraticMT.initCSC
  simp only [bind, Except.bind, Targets.two, matOf_ncols, matOf_nrows]
  rw [nFeatures_toCSCOf]
  simp only
  rw [mapM_range (fun j => (colFold A x x j /. Scalar.ofNat n, List.ofFn fun t => colFold A x (fun k => y (A.row k) t) j))]
  · simp only [pure, Except.pure, List.map_ofFn]
    rfl
  · intro j
    rw [colRange_toCSCOf]
    have := foldlM_col A j (fun s : F × (Fin T → F) => (s.1, List.ofFn s.2))
      (fun (acc : F × List F) idx => do
        let d ← (A.toCSCOf x).dataAt idx
        let xty ← (List.range T).foldlM (fun xty t => do
          let a ← getM xty t
          let i ← (A.toCSCOf x).rowAt idx
          let yit ← (matOf y).get2 i t
          setM xty t (a +. d *. yit)) acc.2
        pure (acc.1 +. d *. d, xty))
      (fun acc k => (acc.1 +. x k *. x k, fun t => acc.2 t +. x k *. y (A.row k) t)) (by
        intro v k
        simp only [dataAt_toCSCOf]
        show (do
          let xty ← (List.range T).foldlM (fun xty t => do
            let a ← getM xty t
            let i ← (A.toCSCOf x).rowAt ((k : ℕ) : ℤ)
            let yit ← (matOf y).get2 i t
            setM xty t (a +. x k *. yit)) (List.ofFn v.2)
          pure (v.1 +. x k *. x k, xty)) = _
        rw [fold_vecOf (fun t a => a +. x k *. y (A.row k) t)]
        · rfl
        · intro v t
          simp only [rowAt_toCSCOf, bind, Except.bind, getM_ofFn, get2_matOf, setM_ofFn']) (zero, fun _ => zero)
    simp only [bind, Except.bind] at this ⊢
    rw [replicate_zero_ofFn, this, foldl_pair (colList A j) (fun a k => a +. x k *. x k)
      (fun (b : Fin T → F) k => fun t => b t +. x k *. y (A.row k) t), foldl_tasks]
    rfl

theorem mt_init_csc (A : CSCData n p) (x : Fin A.nnz → F) (y : Fin n → Fin T → F) (df : QuadraticMT F) :
    ∃ L, MTDatafit.init df (⟨A.toCSCOf x, Targets.two (matOf y)⟩ : Dataset (CSC F) F) =
      .ok (⟨L, matOf fun j t => colFold A x (fun k => y (A.row k) t) j⟩ : QuadraticMT F) := ⟨_, mt_init_csc_eq A x y df⟩

theorem mt_grad_csc (A : CSCData n p) (x : Fin A.nnz → F) (y z : Fin n → Fin T → F) (L : List F) (c : Fin p → Fin T → F) (j : Fin p) :
    MTDatafit.gradientJ (⟨L, matOf c⟩ : QuadraticMT F) (⟨A.toCSCOf x, Targets.two (matOf y)⟩ : Dataset (CSC F) F) (matOf z) j =
      .ok (List.ofFn fun t => (colFold A x (fun k => z (A.row k) t) j -. c j t) /. Scalar.ofNat n) := by
  show QuadraticMT.gradCSC _ _ _ _ = _
  unfold QuadraticMT.gradCSC
  simp only [colRange_toCSCOf]
  have := foldlM_col A j (fun u : Fin T → F => List.ofFn u) (fun acc idx =>
    (List.range T).foldlM (fun acc t => do
      let a ← getM acc t
      let d ← (A.toCSCOf x).dataAt idx
      let i ← (A.toCSCOf x).rowAt idx
      let xw ← (matOf z).get2 i t
      setM acc t (a +. d *. xw)) acc) (fun acc k => fun t => acc t +. x k *. z (A.row k) t) (by
      intro v k
      apply fold_vecOf (fun t a => a +. x k *. z (A.row k) t)
      intro v t
      simp only [dataAt_toCSCOf, rowAt_toCSCOf, bind, Except.bind, getM_ofFn, get2_matOf, setM_ofFn']) (fun _ => zero)
  simp only [bind, Except.bind, Targets.two, matOf_ncols, matOf_nrows] at this ⊢
  rw [replicate_zero_ofFn, this, foldl_tasks]
  simp only [rowM_matOf, bop_ofFn, pure, Except.pure, List.map_ofFn]
  rfl

/-- The violation in terms of gradients. -/
theorem mt_check_eq {DM DF Q : Type} [DesignMatrix F DM] [MTDatafit F DM DF] [MTPenalty F Q] (ds : Dataset DM F) (df : DF) (pn : Q)
    (hT : ds.targets.nTasks = T) (f : List F → List F → M F) (hf : ∀ W g ws, MTPenalty.subdiffDistance pn W g ws = blockDistances f W g ws)
    (w : Fin p → Fin T → F) (Z : Mat F) (g : Fin p → Fin T → F) (hg : ∀ j : Fin p, MTDatafit.gradientJ df ds Z j = .ok (List.ofFn (g j)))
    (κ : Fin p → F) (hκ : ∀ j, f (List.ofFn (w j)) (List.ofFn (g j)) = .ok (κ j)) :
    MT.optCondViolation ds (matOf w) Z (List.range p) df pn = .ok (List.ofFn κ, maxDist (List.ofFn κ)) := by
  unfold MT.optCondViolation MT.constructGrad
  rw [mapM_range (fun j => List.ofFn (g j)) hg, hT, List.length_range]
  simp only [bind, Except.bind]
  rw [fromShapeVec_matOf]
  simp only
  rw [hf]
  unfold blockDistances
  have : (matOf g).rows.zip (List.range p) = (List.finRange p).map fun j => (List.ofFn (g j), (j : ℕ)) := by
    show (List.ofFn fun j => List.ofFn (g j)).zip (List.range p) = _
    rw [List.ofFn_eq_map, range_eq_finRange, List.zip_map']
  rw [this, List.mapM_map, mapM_ok (g := κ)]
  · rw [← List.ofFn_eq_map]
    rfl
  · intro j _
    simp only [Function.comp, rowM_matOf, bind, Except.bind]
    exact hκ j

section
variable [LawfulCmp F] {e η : ℝ}

theorem mt_dense_err (P : Precise F e) (L : PreciseNorm F e η) (hn : 0 < n) (x : Fin n → Fin p → F) (X : Fin n → Fin p → ℝ)
    (hx : ∀ i j, Den (x i j) (X i j)) (y z : Fin n → F) (Y Z : Fin n → ℝ) (hy : ∀ i, Den (y i) (Y i)) (hz : ∀ i, Den (z i) (Z i))
    (hne : 8 * (n * e) ≤ 1) (j : Fin p) {S : ℝ} (hS : ∑ i, |X i j| * (|Z i| + |Y i|) + 1 ≤ S) (hs : 64 * (S * e) ≤ 1) :
    ∃ t, Den ((dot (List.ofFn fun i => x i j) (List.ofFn z) -. mmdot (List.ofFn fun i => x i j) (List.ofFn y)) /. Scalar.ofNat n) t ∧
      |t - lsqGrad X Y Z j| ≤ 17 * (e * S) := by
  have he := P.pos
  have hnn : (0 : ℝ) ≤ n := Nat.cast_nonneg n
  have hne0 : (0 : ℝ) ≤ n * e := mul_nonneg hnn he.le
  have hPz : 0 ≤ ∑ i, |X i j * Z i| := Finset.sum_nonneg fun i _ => abs_nonneg _
  have hPy : 0 ≤ ∑ i, |X i j * Y i| := Finset.sum_nonneg fun i _ => abs_nonneg _
  have hsum : ∑ i, |X i j| * (|Z i| + |Y i|) = ∑ i, |X i j * Z i| + ∑ i, |X i j * Y i| := by
    rw [← Finset.sum_add_distrib]
    exact Finset.sum_congr rfl fun i _ => by rw [abs_mul, abs_mul]; ring
  rw [hsum] at hS
  have h1 : n * e ≤ 1 := by linarith
  have fin : ∀ q : ℝ, q ≤ S → q ≤ 1 / e := fun q hq => by
    rw [le_div_iff₀ he]
    have := mul_le_mul_of_nonneg_right hq he.le
    linarith [mul_nonneg (by linarith : 0 ≤ S) he.le]
  have dz := P.dot n (fun i => x i j) z (fun i => X i j) Z (fun i => hx i j) hz h1
  have dy := L.mmdot n (fun i => x i j) y (fun i => X i j) Y (fun i => hx i j) hy h1
  obtain ⟨δ, hδ⟩ := dz.1 (fin _ (by linarith))
  obtain ⟨γ, hγ⟩ := dy.1 (fin _ (by linarith))
  have hδ2 := dz.2 δ hδ
  have hγ2 := dy.2 γ hγ
  obtain ⟨t, h2, h3⟩ := grad_err P hn hδ hγ (N := n) (A := ∑ i, X i j * Z i) (B := ∑ i, X i j * Y i) (Pz := ∑ i, |X i j * Z i|)
    (Py := ∑ i, |X i j * Y i|) hnn le_rfl (hδ2.trans (by nlinarith)) (hγ2.trans (by nlinarith)) (Finset.abs_sum_le_sum_abs _ _)
    (Finset.abs_sum_le_sum_abs _ _) hS hne hs
  refine ⟨t, h2, ?_⟩
  have : lsqGrad X Y Z j = (∑ i, X i j * Z i - ∑ i, X i j * Y i) / n := by
    unfold lsqGrad
    rw [← Finset.sum_sub_distrib]
    exact congrArg (· / (n : ℝ)) (Finset.sum_congr rfl fun i _ => by ring)
  rw [this]
  exact h3

/-- Scores are 1-Lipschitz in the gradient. -/
theorem l21Score_lip (α : ℝ) (V G G' : Euc T) : |l21Score α V G - l21Score α V G'| ≤ ‖G - G'‖ := by
  unfold l21Score
  split
  · refine (abs_max_sub _ _).trans ?_
    rw [sub_sub_sub_cancel_right]
    exact abs_norm_sub_norm_le _ _
  · refine (abs_norm_sub_norm_le _ _).trans (le_of_eq ?_)
    rw [add_sub_add_right_eq_sub]

/-- The computed violations of multi-task Lasso problems. -/
theorem mt_check_scores (P : Precise F e) (L : PreciseNorm F e η) (hn : 0 < n) (hne : 8 * (n * e) ≤ 1) (hT : 64 * ((T + 4) * e) ≤ 1)
    (D : Design n p) (hD : D.Canonical) (x : D.Entries F) (hx : D.Holds x) (y : Fin n → Fin T → F) (Y : Fin n → Fin T → ℝ)
    (hy : ∀ i t, Den (y i t) (Y i t)) (a : F) (α : ℝ) (ha : Den a α) (hα : 0 ≤ α) (w : Fin p → Fin T → F) (V : Fin p → Euc T)
    (hw : ∀ j t, Den (w j t) ((V j).ofLp t)) (hrow : ∀ j, RowOK e η α (V j)) (z : Fin n → Fin T → F) (Z : Fin n → Fin T → ℝ)
    (hz : ∀ i t, Den (z i t) (Z i t)) (hs : ∀ j, 64 * (mtCheckSize D.matrix Y α Z j * e) ≤ 1) :
    ∃ (κ : Fin p → F) (k : Fin p → ℝ), (∀ j, Den (κ j) (k j)) ∧ checkMTOf D x y a w z = .ok (maxDist (List.ofFn κ)) ∧
      ∀ j, |k j - l21Score α (V j) (mtRowGrad D.matrix Y Z j)| ≤ (16 * T + 65) * (e * mtCheckSize D.matrix Y α Z j) := by
  have he := P.pos
  have hT0 : (0 : ℝ) ≤ T := Nat.cast_nonneg T
  obtain ⟨s, hsd⟩ : ∃ s : Fin p → Fin T → ℝ, s = fun j t => ∑ i, |D.matrix i j| * (|Z i t| + |Y i t|) + 1 := ⟨_, rfl⟩
  have hs1 : ∀ j t, 1 ≤ s j t := fun j t => by
    rw [hsd]
    have : 0 ≤ ∑ i, |D.matrix i j| * (|Z i t| + |Y i t|) := Finset.sum_nonneg fun i _ => by positivity
    simp only
    linarith
  have hsize : ∀ j, mtCheckSize D.matrix Y α Z j = ∑ t, s j t + (T + 1) * (α + 1) := fun j => by rw [hsd]; rfl
  have hss : ∀ j t, s j t ≤ ∑ t, s j t := fun j t =>
    Finset.single_le_sum (f := fun t => s j t) (fun t _ => by linarith [hs1 j t]) (Finset.mem_univ t)
  have hTα : 0 ≤ (T + 1) * (α + 1) := mul_nonneg (by linarith) (by linarith)
  have hst : ∀ j t, 64 * (s j t * e) ≤ 1 := fun j t => by
    have h1 := hs j
    rw [hsize] at h1
    have h2 := mul_le_mul_of_nonneg_right (by linarith [hss j t] : s j t ≤ ∑ t, s j t + (T + 1) * (α + 1)) he.le
    linarith
  -- the gradients
  have key : ∃ g : Fin p → Fin T → F, (∀ j t, ∃ r, Den (g j t) r ∧ |r - (mtRowGrad D.matrix Y Z j).ofLp t| ≤ 17 * (e * s j t)) ∧
      ∀ κ : Fin p → F, (∀ j, (L21.mk a).dist (List.ofFn (w j)) (List.ofFn (g j)) = .ok (κ j)) →
        checkMTOf D x y a w z = .ok (maxDist (List.ofFn κ)) := by
    cases D with
    | dense X =>
      change Fin n → Fin p → F at x
      obtain ⟨Lp, h1⟩ := mt_init_dense x y (QuadraticMT.new : QuadraticMT F)
      refine ⟨fun j t => (dot (List.ofFn fun i => x i j) (List.ofFn fun i => z i t) -.
        mmdot (List.ofFn fun i => x i j) (List.ofFn fun i => y i t)) /. Scalar.ofNat n, fun j t => ?_, fun κ hκ => ?_⟩
      · exact mt_dense_err P L hn x X hx (fun i => y i t) (fun i => z i t) (fun i => Y i t) (fun i => Z i t) (fun i => hy i t)
          (fun i => hz i t) hne j (by rw [hsd]; exact le_rfl) (hst j t)
      · unfold checkMTOf callMTOf
        show (MTDatafit.init _ _ >>= _) = _
        rw [h1]
        simp only [bind, Except.bind]
        rw [mt_check_eq (T := T) _ _ (L21.mk a) rfl (L21.mk a).dist (fun _ _ _ => rfl) w _ _ (fun j => mt_grad_dense x y z Lp _ j) κ hκ]
        rfl
    | csc A =>
      change Fin A.nnz → F at x
      obtain ⟨Lp, h1⟩ := mt_init_csc A x y (QuadraticMT.new : QuadraticMT F)
      refine ⟨fun j t => (colFold A x (fun k => z (A.row k) t) j -. colFold A x (fun k => y (A.row k) t) j) /. Scalar.ofNat n,
        fun j t => ?_, fun κ hκ => ?_⟩
      · exact grad_csc P hn A hD x hx (fun i => y i t) (fun i => z i t) (fun i => Y i t) (fun i => Z i t) (fun i => hy i t)
          (fun i => hz i t) hne j (by rw [hsd]; exact le_rfl) (hst j t)
      · unfold checkMTOf callMTOf
        show (MTDatafit.init _ _ >>= _) = _
        rw [h1]
        simp only [bind, Except.bind]
        rw [mt_check_eq (T := T) _ _ (L21.mk a) rfl (L21.mk a).dist (fun _ _ _ => rfl) w _ _ (fun j => mt_grad_csc A x y z Lp _ j) κ hκ]
        rfl
  obtain ⟨g, hg, hcheck⟩ := key
  choose r hr1 hr2 using hg
  -- sizes
  have hG : ∀ j t, |(mtRowGrad D.matrix Y Z j).ofLp t| ≤ s j t := fun j t => by
    show |(∑ i, D.matrix i j * (Z i t - Y i t)) / n| ≤ s j t
    have hn1 : (1 : ℝ) ≤ n := by exact_mod_cast hn
    rw [abs_div, abs_of_pos (by linarith : (0 : ℝ) < n), div_le_iff₀ (by linarith)]
    have h1 : |∑ i, D.matrix i j * (Z i t - Y i t)| ≤ s j t := by
      rw [hsd]
      refine (Finset.abs_sum_le_sum_abs _ _).trans ?_
      have : ∑ i, |D.matrix i j * (Z i t - Y i t)| ≤ ∑ i, |D.matrix i j| * (|Z i t| + |Y i t|) :=
        Finset.sum_le_sum fun i _ => by
          rw [abs_mul]
          exact mul_le_mul_of_nonneg_left (abs_sub _ _) (abs_nonneg _)
      simp only
      linarith
    exact h1.trans (le_mul_of_one_le_right (by linarith [hs1 j t]) hn1)
  have hr3 : ∀ j t, |r j t| ≤ 2 * s j t := fun j t => by
    have h1 := abs_le_add_sub (r j t) ((mtRowGrad D.matrix Y Z j).ofLp t)
    have h2 := hr2 j t
    have h3 := hst j t
    have h4 : e * s j t ≤ 1 / 64 * s j t := mul_le_mul_of_nonneg_right (by
      have := mul_le_mul_of_nonneg_right (hs1 j t) he.le
      linarith) (by linarith [hs1 j t])
    linarith [hG j t, hs1 j t]
  have hrsum : ∀ j, ∑ t, |r j t| + (T + 1) * (α + 1) ≤ 2 * mtCheckSize D.matrix Y α Z j := fun j => by
    rw [hsize]
    have : ∑ t, |r j t| ≤ ∑ t, 2 * s j t := Finset.sum_le_sum fun t _ => hr3 j t
    rw [← Finset.mul_sum] at this
    linarith
  have hscore := fun j => l21_score_err P L ha hα (w j) (V j) (hw j) (g j) (WithLp.toLp 2 (r j)) (hr1 j) hT (by
    have h1 := mul_le_mul_of_nonneg_right (hrsum j) he.le
    have h2 := hs j
    have h3 : 0 ≤ mtCheckSize D.matrix Y α Z j * e := by
      have : 0 ≤ ∑ t, |r j t| + (T + 1) * (α + 1) := by
        have : 0 ≤ ∑ t, |r j t| := Finset.sum_nonneg fun t _ => abs_nonneg _
        linarith
      exact mul_nonneg (by linarith [hrsum j]) he.le
    show 8 * ((∑ t, |r j t| + (T + 1) * (α + 1)) * e) ≤ 1
    linarith) (hrow j)
  choose κ hκ1 k hκ2 hκ3 using hscore
  refine ⟨κ, k, hκ2, hcheck κ hκ1, fun j => ?_⟩
  have h1 := hκ3 j
  have h2 := l21Score_lip α (V j) (WithLp.toLp 2 (r j)) (mtRowGrad D.matrix Y Z j)
  have h3 : ‖(WithLp.toLp 2 (r j) : Euc T) - mtRowGrad D.matrix Y Z j‖ ≤ 17 * (e * mtCheckSize D.matrix Y α Z j) := by
    refine (euc_le_sum fun t => r j t - (mtRowGrad D.matrix Y Z j).ofLp t).trans ?_
    refine (Finset.sum_le_sum fun t _ => hr2 j t).trans ?_
    rw [← Finset.mul_sum, ← Finset.mul_sum, hsize]
    have := mul_le_mul_of_nonneg_left (by linarith : ∑ t, s j t ≤ ∑ t, s j t + (T + 1) * (α + 1)) he.le
    linarith
  have h4 : (8 * T + 24) * (e * (∑ t, |(WithLp.toLp 2 (r j) : Euc T).ofLp t| + (T + 1) * (α + 1))) ≤
      (16 * T + 48) * (e * mtCheckSize D.matrix Y α Z j) := by
    have a1 := mul_le_mul_of_nonneg_left (mul_le_mul_of_nonneg_left (hrsum j) he.le) (by linarith : (0 : ℝ) ≤ 8 * T + 24)
    refine a1.trans (le_of_eq ?_)
    ring
  have e1 : k j - l21Score α (V j) (mtRowGrad D.matrix Y Z j) = (k j - l21Score α (V j) (WithLp.toLp 2 (r j))) +
    (l21Score α (V j) (WithLp.toLp 2 (r j)) - l21Score α (V j) (mtRowGrad D.matrix Y Z j)) := by ring
  rw [e1]
  refine (abs_add_le _ _).trans ?_
  linarith

end
end Sglm
