import Verif.Props.Python
import Verif.Props.Datafits

/-!
# C64: the helper `compute_alpha_max` of the Python package
-/

namespace Sglm
open Scalar Spec
variable {n p T : ℕ}

theorem npMax_vec (hp : 0 < p) (v : Fin p → ℝ) (hv : ∀ j, 0 ≤ v j) : Py.npMax (vec v) = .ok (XR.fin (absMax v)) := by
  obtain ⟨q, rfl⟩ : ∃ q, p = q + 1 := ⟨p - 1, by omega⟩
  have key : ∀ (l : List ℝ) (c : ℝ), (∀ x ∈ l, 0 ≤ x) → (l.map XR.fin).foldl Py.npMaximum (XR.fin c) =
      XR.fin (l.foldl (fun c a => max c |a|) c) := by
    intro l
    induction l with
    | nil => intro c _; rfl
    | cons x l ih =>
      intro c h
      have h1 : Py.npMaximum (XR.fin c) (XR.fin x) = XR.fin (max c |x|) := by
        have h2 : (XR.fin x <=. XR.fin c) = decide (x ≤ c) := XR.s_le _ _
        have h3 : Scalar.isNaN (XR.fin c) = false := by simp
        unfold Py.npMaximum
        rw [h3, Bool.false_or, h2, abs_of_nonneg (h x (by simp))]
        by_cases hx : x ≤ c
        · rw [decide_eq_true hx, if_pos rfl, max_eq_left hx]
        · rw [decide_eq_false hx, if_neg (by decide), max_eq_right (not_le.mp hx).le]
      rw [List.map_cons, List.foldl_cons, h1, ih _ (fun y hy => h y (by simp [hy]))]
      rfl
  rw [vec_eq_map, List.ofFn_succ, List.map_cons]
  show Except.ok _ = _
  rw [key _ _ (by
    intro x hx
    rw [List.mem_ofFn] at hx
    obtain ⟨i, rfl⟩ := hx
    exact hv _)]
  unfold absMax
  rw [List.ofFn_succ, List.foldl_cons, abs_of_nonneg (hv 0), max_eq_right (hv 0)]

theorem absMax_abs (v : Fin p → ℝ) : absMax (fun j => |v j|) = absMax v := by
  unfold absMax
  rw [show (List.ofFn fun j => |v j|) = (List.ofFn v).map (fun x => |x|) by rw [List.map_ofFn]; rfl, List.foldl_map]
  simp only [abs_abs]

theorem map_abs_vec (v : Fin p → ℝ) : (vec v).map Scalar.abs = vec (fun j => |v j|) := by
  unfold vec
  rw [List.map_ofFn]
  congr 1

theorem cscTMulVec_eq (A : CSCData n p) (y : Fin n → ℝ) :
    Py.cscTMulVec A.toCSC (vec y) = .ok (vec (fun j => ∑ i, A.dense i j * y i)) := by
  unfold Py.cscTMulVec
  rw [show subM A.toCSC.indptr.length 1 = .ok p from csc_nFeatures A]
  refine mapM_range _ fun j => ?_
  rw [colRange_toCSC]
  refine Eq.trans (foldlM_col A j XR.fin (fun acc idx => do
      let d ← A.toCSC.dataAt idx
      let i ← A.toCSC.rowAt idx
      let yi ← getM (vec y) i
      pure (acc +. d *. yi)) (fun acc k => acc + A.data k * y (A.row k)) (by
        intro t k
        simp only [dataAt_toCSC, rowAt_toCSC, getM_vec, bind, Except.bind, pure, Except.pure, XR.s_mul,
          XR.s_add]) 0) ?_
  rw [foldl_add_map, zero_add, sum_colList]

theorem cscTMulMat_eq (A : CSCData n p) (Y : Fin n → Fin T → ℝ) :
    Py.cscTMulMat A.toCSC (mat Y) = .ok (mat (fun j t => ∑ i, A.dense i j * Y i t)) := by
  unfold Py.cscTMulMat
  rw [show subM A.toCSC.indptr.length 1 = .ok p from csc_nFeatures A]
  dsimp only [bind, Except.bind]
  have := mapM_range (k := p) (f := fun j => do
    let r ← A.toCSC.colRange j
    (List.range (mat Y).ncols).mapM (fun t =>
      r.foldlM (fun acc idx => do
        let d ← A.toCSC.dataAt idx
        let i ← A.toCSC.rowAt idx
        let yi ← (mat Y).get2 i t
        pure (acc +. d *. yi)) zero)) (fun j => vec (fun t => ∑ i, A.dense i j * Y i t)) (by
    intro j
    rw [colRange_toCSC]
    refine mapM_range (k := T) _ fun t => ?_
    refine Eq.trans (foldlM_col A j XR.fin (fun acc idx => do
        let d ← A.toCSC.dataAt idx
        let i ← A.toCSC.rowAt idx
        let yi ← (mat Y).get2 i t
        pure (acc +. d *. yi)) (fun acc k => acc + A.data k * Y (A.row k) t) (by
          intro t k
          simp only [dataAt_toCSC, rowAt_toCSC, get2_mat, bind, Except.bind, pure, Except.pure, XR.s_mul,
            XR.s_add]) 0) ?_
    rw [foldl_add_map, zero_add, sum_colList A j (fun i => Y i t)])
  dsimp only [bind, Except.bind] at this
  rw [this]
  rfl

theorem rowNorms_mat (C : Fin p → Fin T → ℝ) : Py.rowNorms (mat C) = vec (fun j => nrm (C j)) := by
  unfold Py.rowNorms mat vec
  simp only [List.map_ofFn]
  congr 1
  funext j
  show Scalar.sqrt (Scalar.sum ((List.ofFn fun t => XR.fin (C j t)).map fun x => x *. x)) = _
  have : (List.ofFn fun t => XR.fin (C j t)).map (fun x => x *. x) = vec (fun t => C j t * C j t) := by
    unfold vec
    rw [List.map_ofFn]
    congr 1
  rw [this, sum_vec, XR.s_sqrt _ (Finset.sum_nonneg fun _ _ => mul_self_nonneg _)]
  simp only [nrm, pow_two]

/-- The design matrix as a numpy array or a scipy matrix. -/
noncomputable def pyDesign (dt : DType) (i32 : Bool) : Design n p → PyDesign XR
  | .dense X => .dense dt (mat X)
  | .csc A => .sparse dt i32 n A.toCSC

theorem py_alphaMax_eq (hn : 0 < n) (hp : 0 < p) (dt : DType) (i32 : Bool) (D : Design n p) (y : Fin n → ℝ) :
    Py.computeAlphaMax (pyDesign dt i32 D) (.one (vec y)) =
      .ok (XR.fin (absMax (fun j => ∑ i, D.matrix i j * y i) / n)) := by
  have hn' : (0:ℝ) < n := by exact_mod_cast hn
  have key := npMax_vec hp (fun j => |∑ i, D.matrix i j * y i|) (fun _ => abs_nonneg _)
  rw [absMax_abs] at key
  cases D with
  | dense X =>
    show (do
      let c ← Py.matmulOk (tMulVec (mat X) (vec y))
      let m ← Py.npMax (c.map Scalar.abs)
      pure (m /. ofNat (mat X).nrows)) = _
    rw [tMulVec_mat]
    dsimp only [Py.matmulOk, bind, Except.bind]
    rw [map_abs_vec]
    erw [key]
    dsimp only [pure, Except.pure]
    rw [mat_nrows, XR.s_ofNat, XR.s_div _ _ hn'.ne']
  | csc A =>
    show (if (vec y).length = n then (do
      let c ← Py.matmulOk (Py.cscTMulVec A.toCSC (vec y))
      let m ← Py.npMax (c.map Scalar.abs)
      pure (m /. ofNat n)) else _) = _
    rw [if_pos (vec_length y), cscTMulVec_eq]
    dsimp only [Py.matmulOk, bind, Except.bind]
    rw [map_abs_vec]
    erw [key]
    dsimp only [pure, Except.pure]
    rw [XR.s_ofNat, XR.s_div _ _ hn'.ne']

theorem py_alphaMaxMT_eq (hn : 0 < n) (hp : 0 < p) (dt : DType) (i32 : Bool) (D : Design n p) (Y : Fin n → Fin T → ℝ) :
    Py.computeAlphaMax (pyDesign dt i32 D) (.two (mat Y)) =
      .ok (XR.fin (absMax (fun j => nrm (fun t => ∑ i, D.matrix i j * Y i t)) / n)) := by
  have hn' : (0:ℝ) < n := by exact_mod_cast hn
  have key := npMax_vec hp (fun j => nrm (fun t => ∑ i, D.matrix i j * Y i t)) (fun _ => nrm_nonneg _)
  cases D with
  | dense X =>
    show (do
      let C ← Py.matmulOk (tMulMat (mat X) (mat Y))
      let m ← Py.npMax (Py.rowNorms C)
      pure (m /. ofNat (mat X).nrows)) = _
    rw [tMulMat_mat]
    dsimp only [Py.matmulOk, bind, Except.bind]
    rw [rowNorms_mat]
    erw [key]
    dsimp only [pure, Except.pure]
    rw [mat_nrows, XR.s_ofNat, XR.s_div _ _ hn'.ne']
  | csc A =>
    show (if (mat Y).nrows = n then (do
      let C ← Py.matmulOk (Py.cscTMulMat A.toCSC (mat Y))
      let m ← Py.npMax (Py.rowNorms C)
      pure (m /. ofNat n)) else _) = _
    rw [if_pos (mat_nrows Y), cscTMulMat_eq]
    dsimp only [Py.matmulOk, bind, Except.bind]
    rw [rowNorms_mat]
    erw [key]
    dsimp only [pure, Except.pure]
    rw [XR.s_ofNat, XR.s_div _ _ hn'.ne']

/-- **C64**: `compute_alpha_max(X, y)` of the Python package, for dense and sparse `X`, is the smallest `α ≥ 0` for which the null
model is optimal, and equals what the Rust helper returns. -/
theorem C64_alpha_max (hn : 0 < n) (hp : 0 < p) (dt : DType) (i32 : Bool) (D : Design n p) (y : Fin n → ℝ) :
    ∃ a, Py.computeAlphaMax (pyDesign dt i32 D) (.one (vec y)) = .ok (XR.fin a) ∧
      (∀ α, 0 ≤ α → (NullOptimal D.matrix y α ↔ a ≤ α)) ∧
      match D with
      | .dense X => computeAlphaMax (mat X) (vec y) = .ok (XR.fin a)
      | .csc A => computeAlphaMaxSparse A.toCSC (vec y) = .ok (XR.fin a) := by
  obtain ⟨a, h1, h2⟩ := C20_alpha_max hn D.matrix y
  have h3 := h1
  rw [alphaMax_eq hn] at h3
  injection h3 with h3
  refine ⟨a, by rw [py_alphaMax_eq hn hp, h3], h2, ?_⟩
  cases D with
  | dense X => exact h1
  | csc A => exact (C20_alpha_max_sparse hn A y).trans h1

/-- **C64**, multi-task: `compute_alpha_max(X, Y)` for a 2-d `Y`. -/
theorem C64_alpha_max_mt (hn : 0 < n) (hp : 0 < p) (dt : DType) (i32 : Bool) (D : Design n p) (Y : Fin n → Fin T → ℝ) :
    ∃ a, Py.computeAlphaMax (pyDesign dt i32 D) (.two (mat Y)) = .ok (XR.fin a) ∧
      (∀ α, 0 ≤ α → (NullOptimalMT D.matrix Y α ↔ a ≤ α)) ∧
      computeAlphaMaxMtl (mat D.matrix) (mat Y) = .ok (XR.fin a) := by
  obtain ⟨a, h1, h2⟩ := C20_alpha_max_mtl hn D.matrix Y
  refine ⟨a, ?_, h2, h1⟩
  rw [py_alphaMaxMT_eq hn hp]
  rw [alphaMaxMtl_eq hn] at h1
  injection h1 with h1
  rw [h1]

theorem finite_fin (x : ℝ) : FiniteVal (XR.fin x) := by
  constructor <;> simp

theorem goodDesign_of (hn : 0 < n) (hp : 0 < p) (dt : DType) (i32 : Bool) (D : Design n p) :
    GoodDesign (pyDesign dt i32 D) := by
  cases D with
  | dense X => exact goodDesign_mat hn hp dt X
  | csc A =>
    refine ⟨fun x hx => ?_, hn, ?_⟩
    · change x ∈ A.toCSC.data at hx
      change x ∈ vec A.data at hx
      obtain ⟨i, rfl⟩ := List.mem_ofFn.mp hx
      exact finite_fin _
    · have : A.toCSC.indptr.length = p + 1 := by simp [CSCData.toCSC]
      omega

/-- **C64**: the Python script `Lasso(alpha, **settings).fit(X, y).coef_` with `alpha ≥ compute_alpha_max(X, y)` gives zeros. -/
theorem C64_null_fit {srt : Argsort XR} (hs : ArgsortSpec srt) (hn : 0 < n) (hp : 0 < p) (dt : DType) (hdt : dt ≠ .f32)
    (D : Design n p) (y : Fin n → ℝ) (a α τ : ℝ)
    (ha : Py.computeAlphaMax (pyDesign dt true D) (.one (vec y)) = .ok (XR.fin a)) (hα : a ≤ α) (hα0 : 0 ≤ α) (hτ : 0 ≤ τ)
    (mi me p0 K : ℕ) (h0 : 0 < p0) (hK : 0 < K) (accel verbose : Bool) :
    pyLasso srt (.float (XR.fin α)) (pySettings mi me p0 K (XR.fin τ) accel verbose) (pyDesign dt true D) (.one (vec y)) =
      .ok (.one (vec fun _ : Fin p => 0)) := by
  have hneg : ∀ x : ℝ, 0 ≤ x → (XR.fin x <. zero) = false := by
    intro x hx
    show decide (x < 0) = false
    rw [decide_eq_false_iff_not]; linarith
  obtain ⟨a', h1, h2, h3⟩ := C64_alpha_max hn hp dt true D y
  rw [ha] at h1
  injection h1 with h1
  injection h1 with h1
  subst h1
  obtain ⟨c1, c2⟩ := C51_single srt mi me p0 K (XR.fin τ) (hneg τ hτ) accel verbose (XR.fin α) (XR.fin 0) (hneg α hα0) dt hdt
    (vec y) (goodTargets_vec hn y)
  cases D with
  | dense X =>
    have := (c1 (mat X) (goodDesign_mat hn hp dt X)).1
    rw [show (⟨mat X, Targets.one (vec y)⟩ : Dataset (Mat XR) XR) = denseDs X y from rfl,
      C32_lasso hs hn X y a α τ h3 hα hα0 hτ _ rfl rfl hK h0] at this
    exact this
  | csc A =>
    have := (c2 A.toCSC n (goodDesign_of hn hp dt true (.csc A))).1
    rw [show (⟨A.toCSC, Targets.one (vec y)⟩ : Dataset (CSC XR) XR) = cscDs A y from rfl,
      C32_lasso_sparse hs hn A y a α τ h3 hα hα0 hτ _ rfl rfl hK h0] at this
    exact this

/-- **C64**, multi-task: `coef_` of `MultiTaskLasso(alpha, **settings).fit(X, Y)` is the zero array of shape `(n_tasks, n_features)`. -/
theorem C64_null_fit_mt {srt : Argsort XR} (hs : ArgsortSpec srt) (hn : 0 < n) (hp : 0 < p) (hT : 0 < T) (dt : DType)
    (hdt : dt ≠ .f32) (D : Design n p) (Y : Fin n → Fin T → ℝ) (a α τ : ℝ)
    (ha : Py.computeAlphaMax (pyDesign dt true D) (.two (mat Y)) = .ok (XR.fin a)) (hα : a ≤ α) (hα0 : 0 < α) (hτ : 0 ≤ τ)
    (mi me p0 K : ℕ) (h0 : 0 < p0) (hK : 0 < K) (accel verbose : Bool) :
    ∃ V : Mat XR, pyMTLasso srt (.float (XR.fin α)) (pySettings mi me p0 K (XR.fin τ) accel verbose) (pyDesign dt true D)
        (.two (mat Y)) = .ok (.two V) ∧
      V.nrows = T ∧ V.ncols = p ∧ ∀ t < T, ∀ j < p, V.get2 t j = .ok (XR.fin 0) := by
  have hneg : ∀ x : ℝ, 0 ≤ x → (XR.fin x <. zero) = false := by
    intro x hx
    show decide (x < 0) = false
    rw [decide_eq_false_iff_not]; linarith
  obtain ⟨a', h1, h2, h3⟩ := C64_alpha_max_mt hn hp dt true D Y
  rw [ha] at h1
  injection h1 with h1
  injection h1 with h1
  subst h1
  obtain ⟨c1, c2⟩ := C51_multi srt mi me p0 K (XR.fin τ) (hneg τ hτ) accel verbose (XR.fin α) (XR.fin 0) (hneg α hα0.le) dt hdt
    (mat Y) (goodTargets_mat hn hT Y)
  have hc := C32_multitask hs hn D Y a α τ h3 hα hα0 hτ ⟨XR.fin α, mi, me, p0, XR.fin τ, K, accel, verbose⟩ rfl rfl hK h0
  have fin : ∀ o, SeenMT (E := EstimatorError XR) (.ok (.ok (mat fun (_ : Fin p) (_ : Fin T) => (0:ℝ)))) o →
      ∃ V : Mat XR, o = .ok (.two V) ∧ V.nrows = T ∧ V.ncols = p ∧ ∀ t < T, ∀ j < p, V.get2 t j = .ok (XR.fin 0) := by
    rintro o ⟨V, ⟨v1, v2, -, v4⟩, rfl⟩
    rw [mat_ncols] at v1 v4
    rw [mat_nrows] at v2 v4
    exact ⟨V, rfl, v1, v2, fun t ht j hj => (v4 j hj t ht).trans (get2_mat _ ⟨j, hj⟩ ⟨t, ht⟩)⟩
  cases D with
  | dense X =>
    have := (c1 (mat X) (goodDesign_mat hn hp dt X) (by rw [mat_nrows, mat_nrows])).1
    rw [show (⟨mat X, Targets.two (mat Y)⟩ : Dataset (Mat XR) XR) = denseDsMT X Y from rfl, hc] at this
    exact fin _ this
  | csc A =>
    have := (c2 A.toCSC (by rw [mat_nrows]; exact goodDesign_of hn hp dt true (.csc A))).1
    rw [show (⟨A.toCSC, Targets.two (mat Y)⟩ : Dataset (CSC XR) XR) = cscDsMT A Y from rfl, hc] at this
    rw [mat_nrows] at this
    exact fin _ this

/-- **C64**: the helper rejects data without features and mismatched sample counts. -/
theorem C64_rejects (dt : DType) (i32 : Bool) (D : Design n p) {m : ℕ} (y : Fin m → ℝ) (h : p = 0 ∨ m ≠ n) :
    ∃ s, Py.computeAlphaMax (pyDesign dt i32 D) (.one (vec y)) = .error (.valueError s) := by
  by_cases hm : m = n
  · subst hm
    have hp : p = 0 := by tauto
    subst hp
    cases D with
    | dense X =>
      refine ⟨"zero-size array to reduction operation", ?_⟩
      · show (do
          let c ← Py.matmulOk (tMulVec (mat X) (vec y))
          let m ← Py.npMax (c.map Scalar.abs)
          pure (m /. ofNat (mat X).nrows)) = _
        rw [tMulVec_mat]
        rfl
    | csc A =>
      refine ⟨"zero-size array to reduction operation", ?_⟩
      · show (if (vec y).length = m then (do
          let c ← Py.matmulOk (Py.cscTMulVec A.toCSC (vec y))
          let mx ← Py.npMax (c.map Scalar.abs)
          pure (mx /. ofNat m)) else _) = _
        rw [if_pos (vec_length y), cscTMulVec_eq]
        rfl
  · cases D with
    | dense X =>
      refine ⟨"matmul", ?_⟩
      · show (do
          let c ← Py.matmulOk (tMulVec (mat X) (vec y))
          let m ← Py.npMax (c.map Scalar.abs)
          pure (m /. ofNat (mat X).nrows)) = _
        have : tMulVec (mat X) (vec y) = .error .shape := by
          unfold tMulVec
          rw [if_pos (by rw [mat_nrows, vec_length]; omega)]
          rfl
        rw [this]
        rfl
    | csc A =>
      refine ⟨"matmul", ?_⟩
      · show (if (vec y).length = n then _ else _) = _
        rw [if_neg (by rw [vec_length]; exact hm)]

/-- **C64**: `sum_squared` is the sum of the squares, in whatever order the array is flattened. -/
theorem C64_sum_squared {N : ℕ} (X : Fin n → Fin p → ℝ) (flat : Fin N → ℝ)
    (h : (List.ofFn flat).Perm (List.ofFn fun i => List.ofFn (X i)).flatten) :
    Py.sumSquared (vec flat) = XR.fin (∑ i, ∑ j, X i j ^ 2) := by
  unfold Py.sumSquared
  rw [dot_vec]
  congr 1
  have h1 := (h.map (fun x => x * x)).sum_eq
  rw [List.map_ofFn, List.sum_ofFn] at h1
  rw [show (∑ i, flat i * flat i) = ∑ i, ((fun x => x * x) ∘ flat) i from rfl, h1, List.map_flatten, List.sum_flatten,
    List.map_map, List.map_ofFn, List.sum_ofFn]
  refine Finset.sum_congr rfl fun i _ => ?_
  simp only [Function.comp_apply, List.map_ofFn, List.sum_ofFn]
  exact Finset.sum_congr rfl fun j _ => by ring

/-! ## Examples -/

example : ∃ a, Py.computeAlphaMax (pyDesign .f64 true (.csc exCSC)) (.one (vec ![1, -1])) = .ok (XR.fin a) ∧
    (∀ α, 0 ≤ α → (NullOptimal exCSC.dense ![1, -1] α ↔ a ≤ α)) ∧
    computeAlphaMaxSparse exCSC.toCSC (vec ![1, -1]) = .ok (XR.fin a) :=
  C64_alpha_max (by norm_num) (by norm_num) .f64 true (.csc exCSC) _

example : ∃ a, Py.computeAlphaMax (pyDesign .f64 true (.dense ![![1, 0], ![2, 3]])) (.two (mat ![![1, -1], ![0, 2]])) = .ok (XR.fin a) ∧
    (∀ α, 0 ≤ α → (NullOptimalMT ![![1, 0], ![2, 3]] ![![1, -1], ![0, 2]] α ↔ a ≤ α)) ∧
    computeAlphaMaxMtl (mat ![![1, 0], ![2, 3]]) (mat ![![1, -1], ![0, 2]]) = .ok (XR.fin a) :=
  C64_alpha_max_mt (by norm_num) (by norm_num) .f64 true (.dense _) _

/-- `X = [[1], [2]]`, `y = [1, 1]`: `compute_alpha_max` is `3/2`, and a fit with `alpha = 2` gives zero. -/
example : Py.computeAlphaMax (pyDesign .f64 true (.dense ![![1], ![2]])) (.one (vec ![1, 1])) = .ok (XR.fin (3 / 2)) ∧
    pyLasso argsortIns (.float (XR.fin 2)) (pySettings 10 100 1 5 (XR.fin (1 / 100)) true false)
      (pyDesign .f64 true (.dense ![![1], ![2]])) (.one (vec ![1, 1])) = .ok (.one (vec ![0])) := by
  have h : Py.computeAlphaMax (pyDesign .f64 true (.dense ![![1], ![2]])) (.one (vec ![1, 1])) = .ok (XR.fin (3 / 2)) := by
    rw [py_alphaMax_eq (by norm_num) (by norm_num)]
    congr 2
    simp [absMax, Design.matrix, Fin.sum_univ_two]
    norm_num
  refine ⟨h, ?_⟩
  rw [C64_null_fit argsortIns_spec (by norm_num) (by norm_num) .f64 (by decide) _ _ (3 / 2) 2 (1 / 100) h (by norm_num)
    (by norm_num) (by norm_num) 10 100 1 5 (by norm_num) (by norm_num)]
  congr 3
  funext j
  fin_cases j
  rfl

example : ∃ V : Mat XR, pyMTLasso argsortIns (.float (XR.fin 2)) (pySettings 10 100 1 5 (XR.fin (1 / 100)) true false)
      (pyDesign .f64 true (.dense ![![1], ![2]])) (.two (mat ![![1, 0], ![1, 0]])) = .ok (.two V) ∧
    V.nrows = 2 ∧ V.ncols = 1 ∧ ∀ t < 2, ∀ j < 1, V.get2 t j = .ok (XR.fin 0) := by
  obtain ⟨a, h1, h2, -⟩ := C64_alpha_max_mt (n := 2) (p := 1) (by norm_num) (by norm_num) .f64 true (.dense ![![1], ![2]])
    ![![1, 0], ![1, 0]]
  refine C64_null_fit_mt argsortIns_spec (by norm_num) (by norm_num) (by norm_num) .f64 (by decide) _ _ a 2 (1 / 100) h1 ?_
    (by norm_num) (by norm_num) 10 100 1 5 (by norm_num) (by norm_num) _ _
  rw [py_alphaMaxMT_eq (by norm_num) (by norm_num)] at h1
  injection h1 with h1
  injection h1 with h1
  rw [← h1]
  simp [absMax, Design.matrix, Fin.sum_univ_two, nrm]
  norm_num
  rw [abs_of_nonneg (Real.sqrt_nonneg _), show (9:ℝ) = 3 ^ 2 by norm_num, Real.sqrt_sq (by norm_num)]
  norm_num

example : ∃ s, Py.computeAlphaMax (pyDesign .f64 true (.csc exCSC)) (.one (vec ![1, 2, 3])) = .error (.valueError s) :=
  C64_rejects .f64 true (.csc exCSC) ![1, 2, 3] (Or.inr (by norm_num))

example : Py.sumSquared (vec ![1, 3, 2, 4]) = XR.fin (∑ i, ∑ j, (![![1, 2], ![3, 4]] : Fin 2 → Fin 2 → ℝ) i j ^ 2) :=
  C64_sum_squared ![![1, 2], ![3, 4]] ![1, 3, 2, 4] (by
    simp only [List.ofFn_succ, List.ofFn_zero, Matrix.cons_val_zero, Matrix.cons_val_succ, List.flatten_cons, List.flatten_nil,
      List.append_nil, List.cons_append, List.nil_append, Matrix.cons_val_fin_one]
    exact List.Perm.cons _ (List.Perm.swap _ _ _))

end Sglm
