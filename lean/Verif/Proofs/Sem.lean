import Verif.Proofs.Arrays
import Mathlib.Tactic.Ring
import Mathlib.Tactic.FieldSimp
import Mathlib.Tactic.Linarith
import Mathlib.Tactic.Positivity

/-!
# Datafits on real data

`DSem ds df X f g L`: on the dataset `ds` the (initialised) datafit object `df` computes the loss `f`
of the model fit, its gradient `g` and the step constants `L`, for the design matrix `X`.
-/

namespace Sglm
open Scalar Spec

structure DSem {DM DF : Type} [DesignMatrix XR DM] [Datafit XR DM DF] (ds : Dataset DM XR) (df : DF)
    {n p : ℕ} (X : Fin n → Fin p → ℝ) (f : (Fin n → ℝ) → ℝ) (g : (Fin n → ℝ) → Fin p → ℝ)
    (L : Fin p → ℝ) : Prop where
  nSamples : ds.targets.nSamples = n
  nFeatures : DesignMatrix.nFeatures ds.designMatrix = .ok p
  init : ∀ df0 : DF, Datafit.init df0 ds = .ok df
  value : ∀ u, Datafit.value df ds (vec u) = .ok (XR.fin (f u))
  grad : ∀ u (j : Fin p), Datafit.gradientJ df ds (vec u) j = .ok (XR.fin (g u j))
  fullGrad : ∀ u, Datafit.fullGrad df ds (vec u) = .ok (vec (g u))
  step : Datafit.stepSize (DM := DM) df = vec L
  upd : ∀ u d (j : Fin p), DesignMatrix.updateModelFit ds.designMatrix (vec u) (XR.fin d) j =
    .ok (vec (fun i => u i + d * X i j))
  extra : ∀ (ws : List (Fin p)) w,
    DesignMatrix.extrapolatedFit ds.designMatrix (ws.map Fin.val) (vec w) n =
    .ok (vec (fun i => (ws.map (fun j => X i j * w j)).sum))

/-- Same, for multi-task datafits. -/
structure MSem {DM DF : Type} [DesignMatrix XR DM] [MTDatafit XR DM DF] (ds : Dataset DM XR) (df : DF)
    {n p T : ℕ} (X : Fin n → Fin p → ℝ) (f : (Fin n → Fin T → ℝ) → ℝ)
    (g : (Fin n → Fin T → ℝ) → Fin p → Fin T → ℝ) (L : Fin p → ℝ) : Prop where
  nSamples : ds.targets.nSamples = n
  nTasks : ds.targets.nTasks = T
  nFeatures : DesignMatrix.nFeatures ds.designMatrix = .ok p
  init : ∀ df0 : DF, MTDatafit.init df0 ds = .ok df
  value : ∀ u, MTDatafit.value df ds (mat u) = .ok (XR.fin (f u))
  grad : ∀ u (j : Fin p), MTDatafit.gradientJ df ds (mat u) j = .ok (vec (g u j))
  fullGrad : ∀ u, MTDatafit.fullGrad df ds (mat u) = .ok (mat (g u))
  step : MTDatafit.stepSize (DM := DM) df = vec L
  upd : ∀ u (d : Fin T → ℝ) (j : Fin p), DesignMatrix.updateModelFitMT ds.designMatrix (mat u) (vec d) j =
    .ok (mat (fun i t => u i t + d t * X i j))
  extra : ∀ (ws : List (Fin p)) (W : Fin p → Fin T → ℝ),
    DesignMatrix.extrapolatedFitMT ds.designMatrix (ws.map Fin.val) (mat W) n T =
    .ok (mat (fun i t => (ws.map (fun j => X i j * W j t)).sum))

section
variable {n p T : ℕ}

/-- Gradient of the least squares loss. -/
noncomputable def quadGrad (X : Fin n → Fin p → ℝ) (y u : Fin n → ℝ) (j : Fin p) : ℝ :=
  (∑ i, X i j * u i - ∑ i, X i j * y i) / n

/-- Step constants of the least squares loss. -/
noncomputable def quadStep (X : Fin n → Fin p → ℝ) (j : Fin p) : ℝ := (∑ i, X i j * X i j) / n

/-- The logistic function. -/
noncomputable def sigm (x : ℝ) : ℝ := 1 / (1 + Real.exp (-x))

/-- Gradient of the logistic loss. -/
noncomputable def logGrad (X : Fin n → Fin p → ℝ) (y u : Fin n → ℝ) (j : Fin p) : ℝ :=
  -(∑ i, X i j * (y i * sigm (-y i * u i))) / n

/-- Step constants of the logistic loss. -/
noncomputable def logStep (X : Fin n → Fin p → ℝ) (j : Fin p) : ℝ := (∑ i, X i j * X i j) / (4 * n)

/-- Gradient of the multi-task loss. -/
noncomputable def mtGrad (X : Fin n → Fin p → ℝ) (Y U : Fin n → Fin T → ℝ) (j : Fin p) (t : Fin T) : ℝ :=
  (∑ i, X i j * U i t - ∑ i, X i j * Y i t) / n

/-- Sum of the squares of the stored entries of a column. -/
noncomputable def colSq (A : CSCData n p) (j : Fin p) : ℝ :=
  ((colList A j).map (fun k => A.data k * A.data k)).sum

/-- Step constants computed from a sparse array, least squares. -/
noncomputable def cscStep (A : CSCData n p) (j : Fin p) : ℝ := colSq A j / n

/-- Step constants computed from a sparse array, logistic. -/
noncomputable def cscLogStep (A : CSCData n p) (j : Fin p) : ℝ := colSq A j / (4 * n)

theorem cscStep_eq (A : CSCData n p) (hA : A.NoDup) : cscStep A = quadStep A.dense := by
  funext j
  unfold cscStep quadStep colSq
  rw [sum_sq_colList A hA]

theorem cscLogStep_eq (A : CSCData n p) (hA : A.NoDup) : cscLogStep A = logStep A.dense := by
  funext j
  unfold cscLogStep logStep colSq
  rw [sum_sq_colList A hA]

/-! ## Design matrices -/

theorem dense_upd (X : Fin n → Fin p → ℝ) (u : Fin n → ℝ) (d : ℝ) (j : Fin p) :
    (mat X).updateModelFit (vec u) (XR.fin d) j = .ok (vec (fun i => u i + d * X i j)) := by
  unfold Mat.updateModelFit
  rw [colM_mat]
  exact scaledAdd_vec _ _ _

theorem dense_extra (X : Fin n → Fin p → ℝ) (ws : List (Fin p)) (w : Fin p → ℝ) :
    (mat X).extrapolatedFit (ws.map Fin.val) (vec w) =
    .ok (vec (fun i => (ws.map (fun j => X i j * w j)).sum)) := by
  unfold Mat.extrapolatedFit
  apply mapM_ofFn
  intro i
  rw [List.mapM_map]
  rw [mapM_ok' (g := fun j : Fin p => XR.fin (X i j * w j))]
  · show Except.ok (iterSum _) = _
    have := XR.iterSum_map_fin (ws.map (fun j => X i j * w j))
    rw [List.map_map] at this
    exact congrArg _ this
  · intro j _
    simp only [Function.comp_apply, getM_vec]
    rfl

theorem foldl_update_add {α β : Type} [DecidableEq β] (l : List α) (pos : α → β) (val : α → ℝ) (u : β → ℝ) :
    l.foldl (fun u a => Function.update u (pos a) (u (pos a) + val a)) u =
      fun b => u b + (l.map (fun a => if pos a = b then val a else 0)).sum := by
  induction l generalizing u with
  | nil => simp
  | cons a l ih =>
    rw [List.foldl_cons, ih]
    funext b
    by_cases h : pos a = b
    · subst h; simp; ring
    · simp [h, Function.update_of_ne (Ne.symm h)]

theorem sum_col_indicator (A : CSCData n p) (j : Fin p) (i : Fin n) (c : ℝ) :
    ((colList A j).map (fun k => if A.row k = i then c * A.data k else 0)).sum = c * A.dense i j := by
  have := sum_colList A j (fun i' => if i' = i then c else 0)
  rw [show (fun k => if A.row k = i then c * A.data k else 0) =
    (fun k => A.data k * (if A.row k = i then c else 0)) from by
      funext k; split <;> ring]
  rw [this]
  simp [mul_comm]

theorem csc_upd (A : CSCData n p) (u : Fin n → ℝ) (d : ℝ) (j : Fin p) :
    A.toCSC.updateModelFit (vec u) (XR.fin d) j = .ok (vec (fun i => u i + d * A.dense i j)) := by
  unfold CSC.updateModelFit
  rw [colRange_toCSC]
  simp only [bind, Except.bind]
  have := foldlM_col A j vec (fun acc idx => do
    let i ← A.toCSC.rowAt idx
    let a ← getM acc i
    let x ← A.toCSC.dataAt idx
    setM acc i (a +. XR.fin d *. x))
    (fun u k => Function.update u (A.row k) (u (A.row k) + d * A.data k)) (by
      intro t k
      rw [rowAt_toCSC]
      simp only [bind, Except.bind, getM_vec, dataAt_toCSC, XR.s_mul, XR.s_add, setM_vec]) u
  simp only [bind, Except.bind] at this
  rw [this, foldl_update_add]
  simp only [sum_col_indicator]

theorem csc_extra (A : CSCData n p) (ws : List (Fin p)) (w : Fin p → ℝ) :
    A.toCSC.extrapolatedFit (ws.map Fin.val) (vec w) n =
    .ok (vec (fun i => (ws.map (fun j => A.dense i j * w j)).sum)) := by
  unfold CSC.extrapolatedFit
  rw [List.foldlM_map, replicate_zero_vec]
  have := (foldlM_ok (vec (n := n)) (fun acc (j : Fin p) => do
    let r ← A.toCSC.colRange j
    r.foldlM (fun acc idx => do
      let i ← A.toCSC.rowAt idx
      let a ← getM acc i
      let d ← A.toCSC.dataAt idx
      let w ← getM (vec w) j
      setM acc i (a +. d *. w)) acc) (fun u j => fun i => u i + A.dense i j * w j) ws (fun _ => True) (by
        intro u _ j _
        refine ⟨?_, trivial⟩
        rw [colRange_toCSC]
        simp only [bind, Except.bind]
        have := foldlM_col A j vec (fun acc idx => do
          let i ← A.toCSC.rowAt idx
          let a ← getM acc i
          let x ← A.toCSC.dataAt idx
          let w ← getM (vec w) j
          setM acc i (a +. x *. w))
          (fun u k => Function.update u (A.row k) (u (A.row k) + w j * A.data k)) (by
            intro t k
            rw [rowAt_toCSC]
            simp only [bind, Except.bind, getM_vec, dataAt_toCSC, XR.s_mul, XR.s_add, setM_vec]
            rw [mul_comm]) u
        simp only [bind, Except.bind] at this
        rw [this, foldl_update_add]
        simp only [sum_col_indicator, mul_comm]) (fun _ => 0) trivial).1
  rw [this]
  congr 2
  clear this
  have key : ∀ (l : List (Fin p)) (u : Fin n → ℝ), l.foldl (fun u j => fun i => u i + A.dense i j * w j) u =
      fun i => u i + (l.map (fun j => A.dense i j * w j)).sum := by
    intro l
    induction l with
    | nil => intro u; simp
    | cons j l ih =>
      intro u
      rw [List.foldl_cons, ih]
      funext i
      rw [List.map_cons, List.sum_cons]; ring
  rw [key]
  simp

theorem csc_nFeatures (A : CSCData n p) : A.toCSC.nFeatures = .ok p := by
  unfold CSC.nFeatures CSCData.toCSC subM
  simp

/-! ## Quadratic -/

theorem colSqNorms_mat (X : Fin n → Fin p → ℝ) (c : ℝ) (hc : c ≠ 0) :
    colSqNorms (mat X) (XR.fin c) = .ok (vec (fun j => (∑ i, X i j * X i j) / c)) := by
  unfold colSqNorms
  simp only [mat_ncols]
  unfold vec
  apply mapM_range
  intro j
  rw [colM_mat]
  show Except.ok (dot _ _ /. _) = _
  rw [dot_vec, XR.s_div _ _ hc]

theorem quad_value {DM : Type} (dm : DM) (y u : Fin n → ℝ) (hn : 0 < n) :
    Quadratic.value (⟨dm, Targets.one (vec y)⟩ : Dataset DM XR) (vec u) = .ok (XR.fin (quadLoss y u)) := by
  unfold Quadratic.value
  simp only [single_one, bind, Except.bind, bop_sub_vec, dotM_vec, one_nSamples, pure, Except.pure, XR.s_ofNat]
  rw [XR.s_div _ _ (by positivity)]
  congr 2
  unfold quadLoss
  push_cast
  congr 1
  apply Finset.sum_congr rfl
  intro i _; ring

theorem quad_dense (X : Fin n → Fin p → ℝ) (y : Fin n → ℝ) (hn : 0 < n) :
    DSem (⟨mat X, Targets.one (vec y)⟩ : Dataset (Mat XR) XR)
      (⟨vec (quadStep X), vec (fun j => ∑ i, X i j * y i)⟩ : Quadratic XR) X (quadLoss y) (quadGrad X y)
      (quadStep X) := by
  have hn' : (n : ℝ) ≠ 0 := by positivity
  have hg : ∀ (u : Fin n → ℝ) (j : Fin p), Quadratic.gradDense
      (⟨vec (quadStep X), vec (fun j => ∑ i, X i j * y i)⟩ : Quadratic XR)
      (⟨mat X, Targets.one (vec y)⟩ : Dataset (Mat XR) XR) (vec u) j = .ok (XR.fin (quadGrad X y u j)) := by
    intro u j
    unfold Quadratic.gradDense
    simp only [colM_mat, bind, Except.bind, dotM_vec, getM_vec, pure, Except.pure, XR.s_sub, one_nSamples,
      XR.s_ofNat, XR.s_div _ _ hn']
    rfl
  constructor
  · exact one_nSamples y
  · rfl
  · intro _
    show Quadratic.initDense _ = _
    unfold Quadratic.initDense
    simp only [single_one, bind, Except.bind, tMulVec_mat, one_nSamples, XR.s_ofNat,
      colSqNorms_mat X n hn', pure, Except.pure]
    rfl
  · intro u; exact quad_value (mat X) y u hn
  · exact hg
  · intro u
    exact mapM_range _ fun j => hg u j
  · rfl
  · intro u d j; exact dense_upd X u d j
  · intro ws w; exact dense_extra X ws w

theorem list_foldl_pair {α : Type} (l : List α) (f g : α → ℝ) (a b : ℝ) :
    l.foldl (fun (acc : ℝ × ℝ) k => (acc.1 + f k, acc.2 + g k)) (a, b) =
      (a + (l.map f).sum, b + (l.map g).sum) := by
  induction l generalizing a b with
  | nil => simp
  | cons k l ih => rw [List.foldl_cons, ih]; simp only [List.map_cons, List.sum_cons, add_assoc]

theorem quad_csc_all (A : CSCData n p) (y : Fin n → ℝ) (hn : 0 < n) :
    DSem (⟨A.toCSC, Targets.one (vec y)⟩ : Dataset (CSC XR) XR)
      (⟨vec (cscStep A), vec (fun j => ∑ i, A.dense i j * y i)⟩ : Quadratic XR) A.dense (quadLoss y)
      (quadGrad A.dense y) (cscStep A) := by
  have hn' : (n : ℝ) ≠ 0 := by positivity
  have hg : ∀ (u : Fin n → ℝ) (j : Fin p), Quadratic.gradCSC
      (⟨vec (cscStep A), vec (fun j => ∑ i, A.dense i j * y i)⟩ : Quadratic XR)
      (⟨A.toCSC, Targets.one (vec y)⟩ : Dataset (CSC XR) XR) (vec u) j =
      .ok (XR.fin (quadGrad A.dense y u j)) := by
    intro u j
    unfold Quadratic.gradCSC
    simp only [colRange_toCSC]
    have := foldlM_col A j XR.fin (fun acc idx => do
      let d ← A.toCSC.dataAt idx
      let i ← A.toCSC.rowAt idx
      let xw ← getM (vec u) i
      pure (acc +. d *. xw)) (fun acc k => acc + A.data k * u (A.row k)) (by
        intro t k
        simp only [dataAt_toCSC, rowAt_toCSC, bind, Except.bind, getM_vec]
        rfl) 0
    simp only [bind, Except.bind] at this ⊢
    rw [XR.s_zero, this]
    simp only [getM_vec, foldl_add_map, sum_colList, zero_add, one_nSamples, XR.s_sub, XR.s_ofNat,
      XR.s_div _ _ hn', pure, Except.pure]
    rfl
  constructor
  · exact one_nSamples y
  · exact csc_nFeatures A
  · intro _
    show Quadratic.initCSC _ = _
    unfold Quadratic.initCSC
    simp only [csc_nFeatures, single_one, bind, Except.bind, one_nSamples]
    rw [mapM_range (fun j => (XR.fin (cscStep A j), XR.fin (∑ i, A.dense i j * y i)))]
    · simp only [pure, Except.pure, List.map_ofFn]
      rfl
    · intro j
      rw [colRange_toCSC]
      have := foldlM_col A j (fun t : ℝ × ℝ => (XR.fin t.1, XR.fin t.2)) (fun (acc : XR × XR) idx => do
        let d ← A.toCSC.dataAt idx
        let i ← A.toCSC.rowAt idx
        let yi ← getM (vec y) i
        pure (acc.1 +. d *. d, acc.2 +. d *. yi))
        (fun acc k => (acc.1 + A.data k * A.data k, acc.2 + A.data k * y (A.row k))) (by
          intro t k
          simp only [dataAt_toCSC, rowAt_toCSC, bind, Except.bind, getM_vec]
          rfl) (0, 0)
      simp only [bind, Except.bind] at this ⊢
      rw [XR.s_zero, this, list_foldl_pair, sum_colList]
      simp only [zero_add, pure, Except.pure, XR.s_ofNat, XR.s_div _ _ hn']
      rfl
  · intro u; exact quad_value _ y u hn
  · exact hg
  · intro u
    show (do
      let p ← A.toCSC.nFeatures
      (List.range p).mapM _) = _
    rw [csc_nFeatures]
    exact mapM_range _ fun j => hg u j
  · rfl
  · intro u d j; exact csc_upd A u d j
  · intro ws w; exact csc_extra A ws w

theorem quad_csc (A : CSCData n p) (hA : A.NoDup) (y : Fin n → ℝ) (hn : 0 < n) :
    DSem (⟨A.toCSC, Targets.one (vec y)⟩ : Dataset (CSC XR) XR)
      (⟨vec (quadStep A.dense), vec (fun j => ∑ i, A.dense i j * y i)⟩ : Quadratic XR) A.dense (quadLoss y)
      (quadGrad A.dense y) (quadStep A.dense) := by
  rw [← cscStep_eq A hA]
  exact quad_csc_all A y hn

/-! ## Logistic -/

theorem logE_fin (x : ℝ) (hx : 0 < x) : Logistic.logE (XR.fin x) = XR.fin (Real.log x) := by
  unfold Logistic.logE
  rw [XR.s_eConst, XR.s_ln _ hx, XR.s_ln _ (Real.exp_pos 1), Real.log_exp, XR.s_div _ _ one_ne_zero, div_one]

theorem sigmoid_fin (x : ℝ) : sigmoid (XR.fin x) = XR.fin (sigm x) := by
  unfold sigmoid sigm
  simp only [XR.s_one, XR.s_neg, XR.s_exp, XR.s_add]
  rw [XR.s_div _ _ (by positivity)]

theorem log_value {DM : Type} (dm : DM) (y u : Fin n → ℝ) (hn : 0 < n) :
    Logistic.value (⟨dm, Targets.one (vec y)⟩ : Dataset DM XR) (vec u) = .ok (XR.fin (logLoss y u)) := by
  have hn' : (n : ℝ) ≠ 0 := by positivity
  unfold Logistic.value
  simp only [single_one, bind, Except.bind, pure, Except.pure, vec_length]
  rw [zipWith_vec u y _ (fun a b => Real.log (1 + Real.exp (-(b * a)))), iterSum_vec, XR.s_ofNat, XR.s_div _ _ hn']
  · rfl
  · intro i
    simp only [XR.s_neg, XR.s_mul, XR.s_exp, XR.s_one, XR.s_add]
    rw [logE_fin _ (by positivity)]
    congr 5
    ring

theorem log_dense (X : Fin n → Fin p → ℝ) (y : Fin n → ℝ) (hn : 0 < n) :
    DSem (⟨mat X, Targets.one (vec y)⟩ : Dataset (Mat XR) XR) (⟨vec (logStep X)⟩ : Logistic XR) X
      (logLoss y) (logGrad X y) (logStep X) := by
  have hn' : (n : ℝ) ≠ 0 := by positivity
  have hg : ∀ (u : Fin n → ℝ) (j : Fin p), Logistic.gradDense
      (⟨mat X, Targets.one (vec y)⟩ : Dataset (Mat XR) XR) (vec u) j = .ok (XR.fin (logGrad X y u j)) := by
    intro u j
    unfold Logistic.gradDense
    simp only [single_one, bind, Except.bind, colM_mat]
    rw [zipWith_vec y u _ (fun a b => a * sigm (-a * b)) (by
      intro i; simp only [XR.s_neg, XR.s_mul, sigmoid_fin])]
    simp only [dotM_vec, pure, Except.pure, XR.s_neg, vec_length, XR.s_ofNat, XR.s_div _ _ hn']
    rfl
  constructor
  · exact one_nSamples y
  · rfl
  · intro _
    show Logistic.initDense _ = _
    unfold Logistic.initDense
    simp only [one_nSamples, XR.s_ofNat]
    rw [colSqNorms_mat X _ (by positivity)]
    simp only [bind, Except.bind, pure, Except.pure, Nat.cast_mul, Nat.cast_ofNat]
    rfl
  · intro u; exact log_value _ y u hn
  · exact hg
  · intro u
    exact mapM_range _ fun j => hg u j
  · rfl
  · intro u d j; exact dense_upd X u d j
  · intro ws w; exact dense_extra X ws w

theorem log_csc_all (A : CSCData n p) (y : Fin n → ℝ) (hn : 0 < n) :
    DSem (⟨A.toCSC, Targets.one (vec y)⟩ : Dataset (CSC XR) XR) (⟨vec (cscLogStep A)⟩ : Logistic XR)
      A.dense (logLoss y) (logGrad A.dense y) (cscLogStep A) := by
  have hn' : (n : ℝ) ≠ 0 := by positivity
  have h4n : ((4 * n : ℕ) : ℝ) ≠ 0 := by positivity
  have hg : ∀ (u : Fin n → ℝ) (j : Fin p), Logistic.gradCSC
      (⟨A.toCSC, Targets.one (vec y)⟩ : Dataset (CSC XR) XR) (vec u) j =
      .ok (XR.fin (logGrad A.dense y u j)) := by
    intro u j
    unfold Logistic.gradCSC
    simp only [colRange_toCSC]
    have := foldlM_col A j XR.fin (fun grad idx => do
      let d ← A.toCSC.dataAt idx
      let i ← A.toCSC.rowAt idx
      let yi ← getM (vec y) i
      let xw ← getM (vec u) i
      pure (grad -. d *. yi *. sigmoid ((-.yi) *. xw) /. ofNat n))
      (fun acc k => acc + A.data k * (-(y (A.row k) * sigm (-y (A.row k) * u (A.row k)) / n))) (by
        intro t k
        simp only [dataAt_toCSC, rowAt_toCSC, bind, Except.bind, getM_vec, XR.s_mul, XR.s_neg, sigmoid_fin,
          XR.s_ofNat, XR.s_div _ _ hn', XR.s_sub, pure, Except.pure]
        congr 2
        ring) 0
    simp only [bind, Except.bind, single_one, one_nSamples] at this ⊢
    rw [XR.s_zero, this, foldl_add_map,
      sum_colList A j (fun i => -(y i * sigm (-y i * u i) / n)), zero_add]
    congr 2
    unfold logGrad
    rw [neg_div, Finset.sum_div, ← Finset.sum_neg_distrib]
    apply Finset.sum_congr rfl
    intro i _; ring
  constructor
  · exact one_nSamples y
  · exact csc_nFeatures A
  · intro _
    show Logistic.initCSC _ = _
    unfold Logistic.initCSC
    simp only [csc_nFeatures, bind, Except.bind, one_nSamples]
    rw [mapM_range (fun j => XR.fin (cscLogStep A j))]
    · simp only [pure, Except.pure]
      rfl
    · intro j
      rw [colRange_toCSC]
      have := foldlM_col A j XR.fin (fun acc idx => do
        let d ← A.toCSC.dataAt idx
        pure (acc +. d *. d))
        (fun acc k => acc + A.data k * A.data k) (by
          intro t k
          simp only [dataAt_toCSC, bind, Except.bind]
          rfl) 0
      simp only [bind, Except.bind] at this ⊢
      rw [XR.s_zero, this, foldl_add_map]
      simp only [zero_add, pure, Except.pure, XR.s_ofNat, XR.s_div _ _ h4n]
      unfold cscLogStep colSq
      push_cast
      rfl
  · intro u; exact log_value _ y u hn
  · exact hg
  · intro u
    show (do
      let p ← A.toCSC.nFeatures
      (List.range p).mapM _) = _
    rw [csc_nFeatures]
    exact mapM_range _ fun j => hg u j
  · rfl
  · intro u d j; exact csc_upd A u d j
  · intro ws w; exact csc_extra A ws w

theorem log_csc (A : CSCData n p) (hA : A.NoDup) (y : Fin n → ℝ) (hn : 0 < n) :
    DSem (⟨A.toCSC, Targets.one (vec y)⟩ : Dataset (CSC XR) XR) (⟨vec (logStep A.dense)⟩ : Logistic XR)
      A.dense (logLoss y) (logGrad A.dense y) (logStep A.dense) := by
  rw [← cscLogStep_eq A hA]
  exact log_csc_all A y hn

/-! ## Multi-task -/

theorem finRange_sum_ite (v : Fin T → ℝ) (b : Fin T) :
    ((List.finRange T).map (fun t => if t = b then v t else 0)).sum = v b := by
  rw [← List.ofFn_eq_map, List.sum_ofFn]
  simp

theorem range_eq_finRange (k : ℕ) : List.range k = (List.finRange k).map Fin.val :=
  List.map_coe_finRange_eq_range.symm

theorem fold_vec (val : Fin T → ℝ) (u : Fin T → ℝ) (body : List XR → ℕ → M (List XR))
    (hb : ∀ u (t : Fin T), body (vec u) t = .ok (vec (Function.update u t (u t + val t)))) :
    (List.range T).foldlM body (vec u) = .ok (vec (fun t => u t + val t)) := by
  rw [range_eq_finRange, List.foldlM_map]
  rw [(foldlM_ok vec (fun acc (t : Fin T) => body acc t) (fun u t => Function.update u t (u t + val t)) _
    (fun _ => True) (fun u _ t _ => ⟨hb u t, trivial⟩) u trivial).1]
  congr 2
  refine (foldl_update_add (List.finRange T) id val u).trans ?_
  funext b
  simp only [id]
  rw [finRange_sum_ite]

theorem foldl_update_row {α : Type} (i : Fin n) (l : List α) (h : (Fin T → ℝ) → α → (Fin T → ℝ))
    (u : Fin n → Fin T → ℝ) :
    l.foldl (fun u a => Function.update u i (h (u i) a)) u = Function.update u i (l.foldl h (u i)) := by
  induction l generalizing u with
  | nil => simp
  | cons a l ih => rw [List.foldl_cons, ih]; simp

theorem fold_row (i : Fin n) (val : Fin T → ℝ) (u : Fin n → Fin T → ℝ) (body : Mat XR → ℕ → M (Mat XR))
    (hb : ∀ u (t : Fin T), body (mat u) t =
      .ok (mat (Function.update u i (Function.update (u i) t (u i t + val t))))) :
    (List.range T).foldlM body (mat u) = .ok (mat (Function.update u i (fun t => u i t + val t))) := by
  rw [range_eq_finRange, List.foldlM_map]
  rw [(foldlM_ok mat (fun acc (t : Fin T) => body acc t)
    (fun u t => Function.update u i (Function.update (u i) t (u i t + val t))) _
    (fun _ => True) (fun u _ t _ => ⟨hb u t, trivial⟩) u trivial).1]
  congr 2
  rw [foldl_update_row i _ (fun r t => Function.update r t (r t + val t))]
  congr 1
  refine (foldl_update_add (List.finRange T) id val (u i)).trans ?_
  funext b
  simp only [id]
  rw [finRange_sum_ite]

theorem foldl_rows {α : Type} (l : List α) (pos : α → Fin n) (val : α → Fin T → ℝ) (u : Fin n → Fin T → ℝ) :
    l.foldl (fun (u : Fin n → Fin T → ℝ) a => Function.update u (pos a) (fun t => u (pos a) t + val a t)) u =
      fun i t => u i t + (l.map (fun a => if pos a = i then val a t else 0)).sum := by
  induction l generalizing u with
  | nil => simp
  | cons a l ih =>
    rw [List.foldl_cons, ih]
    funext i t
    by_cases h : pos a = i
    · subst h; simp; ring
    · simp [h, Function.update_of_ne (Ne.symm h)]

theorem dense_updMT (X : Fin n → Fin p → ℝ) (u : Fin n → Fin T → ℝ) (d : Fin T → ℝ) (j : Fin p) :
    (mat X).updateModelFitMT (mat u) (vec d) j = .ok (mat (fun i t => u i t + d t * X i j)) := by
  unfold Mat.updateModelFitMT
  rw [mat_nrows, mat_ncols, range_eq_finRange n, List.foldlM_map]
  rw [(foldlM_ok (mat (n := n) (p := T)) (fun A (i : Fin n) =>
    (List.range T).foldlM (fun A t => do
      let a ← A.get2 i t
      let d ← getM (vec d) t
      let x ← (mat X).get2 i j
      A.set2 i t (a +. d *. x)) A)
    (fun u i => Function.update u i (fun t => u i t + d t * X i j)) _ (fun _ => True) (by
      intro u _ i _
      refine ⟨?_, trivial⟩
      apply fold_row
      intro u t
      simp only [get2_mat, bind, Except.bind, getM_vec, XR.s_mul, XR.s_add, set2_mat]) u trivial).1]
  congr 2
  refine (foldl_rows (List.finRange n) id (fun i t => d t * X i j) u).trans ?_
  funext i t
  simp only [id]
  rw [finRange_sum_ite (fun i => d t * X i j)]

theorem csc_updMT (A : CSCData n p) (u : Fin n → Fin T → ℝ) (d : Fin T → ℝ) (j : Fin p) :
    A.toCSC.updateModelFitMT (mat u) (vec d) j = .ok (mat (fun i t => u i t + d t * A.dense i j)) := by
  unfold CSC.updateModelFitMT
  rw [colRange_toCSC]
  simp only [mat_ncols]
  have := foldlM_col A j (mat (n := n) (p := T)) (fun M idx =>
    (List.range T).foldlM (fun M t => do
      let i ← A.toCSC.rowAt idx
      let a ← M.get2 i t
      let d ← getM (vec d) t
      let x ← A.toCSC.dataAt idx
      M.set2 i t (a +. d *. x)) M)
    (fun u k => Function.update u (A.row k) (fun t => u (A.row k) t + d t * A.data k)) (by
      intro u k
      apply fold_row
      intro u t
      simp only [rowAt_toCSC, get2_mat, bind, Except.bind, getM_vec, dataAt_toCSC, XR.s_mul, XR.s_add,
        set2_mat]) u
  refine Eq.trans this ?_
  congr 2
  rw [foldl_rows (colList A j) A.row (fun k t => d t * A.data k)]
  funext i t
  rw [sum_col_indicator]

theorem dense_extraMT (X : Fin n → Fin p → ℝ) (ws : List (Fin p)) (W : Fin p → Fin T → ℝ) :
    (mat X).extrapolatedFitMT (ws.map Fin.val) (mat W) n T =
    .ok (mat (fun i t => (ws.map (fun j => X i j * W j t)).sum)) := by
  unfold Mat.extrapolatedFitMT
  have : (mat X).rows.mapM (fun row =>
      (List.range (mat W).ncols).mapM (fun t => do
        let col ← (mat W).colM t
        let ts ← (ws.map Fin.val).mapM (fun j => do
          let x ← getM row j
          let w ← getM col j
          pure (x *. w))
        pure (iterSum ts))) =
      .ok (List.ofFn (fun i => vec (fun t => (ws.map (fun j => X i j * W j t)).sum))) := by
    apply mapM_ofFn
    intro i
    rw [mat_ncols]
    apply mapM_range
    intro t
    rw [colM_mat]
    simp only [bind, Except.bind]
    rw [List.mapM_map, mapM_ok' (g := fun j : Fin p => XR.fin (X i j * W j t))]
    · show Except.ok (iterSum _) = _
      have := XR.iterSum_map_fin (ws.map (fun j => X i j * W j t))
      rw [List.map_map] at this
      exact congrArg _ this
    · intro j _
      show (getM (vec (X i)) j >>= fun x => getM (vec fun j => W j t) j >>= fun w => pure (x *. w)) = _
      rw [getM_vec, getM_vec]
      rfl
  rw [this]
  exact fromShapeVec_mat _

theorem csc_extraMT (A : CSCData n p) (ws : List (Fin p)) (W : Fin p → Fin T → ℝ) :
    A.toCSC.extrapolatedFitMT (ws.map Fin.val) (mat W) n T =
    .ok (mat (fun i t => (ws.map (fun j => A.dense i j * W j t)).sum)) := by
  unfold CSC.extrapolatedFitMT
  rw [List.foldlM_map, zeros_eq_mat]
  have := (foldlM_ok (mat (n := n) (p := T)) (fun acc (j : Fin p) => do
    let r ← A.toCSC.colRange j
    r.foldlM (fun acc idx =>
      (List.range T).foldlM (fun acc t => do
        let i ← A.toCSC.rowAt idx
        let a ← acc.get2 i t
        let d ← A.toCSC.dataAt idx
        let w ← (mat W).get2 j t
        acc.set2 i t (a +. d *. w)) acc) acc)
      (fun u j => fun i t => u i t + A.dense i j * W j t) ws (fun _ => True) (by
        intro u _ j _
        refine ⟨?_, trivial⟩
        rw [colRange_toCSC]
        refine Eq.trans (foldlM_col A j (mat (n := n) (p := T)) (fun M idx =>
          (List.range T).foldlM (fun M t => do
            let i ← A.toCSC.rowAt idx
            let a ← M.get2 i t
            let x ← A.toCSC.dataAt idx
            let d ← (mat W).get2 j t
            M.set2 i t (a +. x *. d)) M)
          (fun u k => Function.update u (A.row k) (fun t => u (A.row k) t + W j t * A.data k)) (by
            intro u k
            apply fold_row
            intro u t
            simp only [rowAt_toCSC, get2_mat, bind, Except.bind, dataAt_toCSC, XR.s_mul, XR.s_add,
              set2_mat, mul_comm]) u) ?_
        congr 2
        rw [foldl_rows (colList A j) A.row (fun k t => W j t * A.data k)]
        funext i t
        rw [sum_col_indicator, mul_comm]) (fun _ _ => 0) trivial).1
  refine Eq.trans this ?_
  congr 2
  have key : ∀ (l : List (Fin p)) (u : Fin n → Fin T → ℝ),
      l.foldl (fun u j => fun i t => u i t + A.dense i j * W j t) u =
      fun i t => u i t + (l.map (fun j => A.dense i j * W j t)).sum := by
    intro l
    induction l with
    | nil => intro u; simp
    | cons j l ih =>
      intro u
      rw [List.foldl_cons, ih]
      funext i t
      rw [List.map_cons, List.sum_cons]; ring
  rw [key]
  simp

theorem mt_value {DM : Type} (dm : DM) (Y U : Fin n → Fin T → ℝ) (hn : 0 < n) :
    QuadraticMT.value (⟨dm, Targets.two (mat Y)⟩ : Dataset DM XR) (mat U) = .ok (XR.fin (mtLoss Y U)) := by
  unfold QuadraticMT.value
  simp only [Targets.two, mat_nrows, bopMat_sub_mat, bind, Except.bind, pure, Except.pure, XR.s_ofNat]
  rw [iterSum_flatten_mat _ _ (fun x => x ^ 2) XR.s_sq, XR.s_div _ _ (by positivity)]
  congr 2
  unfold mtLoss
  push_cast
  rfl

theorem mt_dense (X : Fin n → Fin p → ℝ) (Y : Fin n → Fin T → ℝ) (hn : 0 < n) :
    MSem (⟨mat X, Targets.two (mat Y)⟩ : Dataset (Mat XR) XR)
      (⟨vec (quadStep X), mat (fun j t => ∑ i, X i j * Y i t)⟩ : QuadraticMT XR) X (mtLoss Y) (mtGrad X Y)
      (quadStep X) := by
  have hn' : (n : ℝ) ≠ 0 := by positivity
  have hg : ∀ (u : Fin n → Fin T → ℝ) (j : Fin p), QuadraticMT.gradDense
      (⟨vec (quadStep X), mat (fun j t => ∑ i, X i j * Y i t)⟩ : QuadraticMT XR)
      (⟨mat X, Targets.two (mat Y)⟩ : Dataset (Mat XR) XR) (mat u) j = .ok (vec (mtGrad X Y u j)) := by
    intro u j
    unfold QuadraticMT.gradDense
    simp only [colM_mat, bind, Except.bind, vecMul_mat, rowM_mat, bop_sub_vec, pure, Except.pure,
      Targets.two, mat_nrows, XR.s_ofNat]
    rw [map_vec _ (fun x => x /. XR.fin (n : ℝ)) (fun x => x / n) (fun _ => XR.s_div _ _ hn')]
    rfl
  constructor
  · simp [Targets.two]
  · simp [Targets.two]
  · rfl
  · intro _
    show QuadraticMT.initDense _ = _
    unfold QuadraticMT.initDense
    simp only [bind, Except.bind, Targets.two, tMulMat_mat, mat_nrows, XR.s_ofNat,
      colSqNorms_mat X n hn', pure, Except.pure]
    rfl
  · intro u; exact mt_value (mat X) Y u hn
  · exact hg
  · intro u
    have h := mapM_range (fun j => vec (mtGrad X Y u j)) fun j : Fin p => hg u j
    show (do
      let rows ← (List.range p).mapM (fun j => QuadraticMT.gradDense _ _ (mat u) j)
      Mat.fromShapeVec p T rows.flatten) = _
    rw [h]
    exact fromShapeVec_mat _
  · rfl
  · intro u d j; exact dense_updMT X u d j
  · intro ws w; exact dense_extraMT X ws w

theorem foldl_vec_add {α : Type} (l : List α) (c : α → Fin T → ℝ) (u : Fin T → ℝ) :
    l.foldl (fun u k => fun t => u t + c k t) u = fun t => u t + (l.map (fun k => c k t)).sum := by
  induction l generalizing u with
  | nil => simp
  | cons k l ih =>
    rw [List.foldl_cons, ih]
    funext t
    rw [List.map_cons, List.sum_cons]; ring

theorem foldl_pair_vec {α : Type} (l : List α) (f : α → ℝ) (c : α → Fin T → ℝ) (a : ℝ) (u : Fin T → ℝ) :
    l.foldl (fun (acc : ℝ × (Fin T → ℝ)) k => (acc.1 + f k, fun t => acc.2 t + c k t)) (a, u) =
      (a + (l.map f).sum, fun t => u t + (l.map (fun k => c k t)).sum) := by
  induction l generalizing a u with
  | nil => simp
  | cons k l ih =>
    rw [List.foldl_cons, ih]
    simp only [List.map_cons, List.sum_cons, add_assoc]

theorem mt_csc_all (A : CSCData n p) (Y : Fin n → Fin T → ℝ) (hn : 0 < n) :
    MSem (⟨A.toCSC, Targets.two (mat Y)⟩ : Dataset (CSC XR) XR)
      (⟨vec (cscStep A), mat (fun j t => ∑ i, A.dense i j * Y i t)⟩ : QuadraticMT XR) A.dense
      (mtLoss Y) (mtGrad A.dense Y) (cscStep A) := by
  have hn' : (n : ℝ) ≠ 0 := by positivity
  have hg : ∀ (u : Fin n → Fin T → ℝ) (j : Fin p), QuadraticMT.gradCSC
      (⟨vec (cscStep A), mat (fun j t => ∑ i, A.dense i j * Y i t)⟩ : QuadraticMT XR)
      (⟨A.toCSC, Targets.two (mat Y)⟩ : Dataset (CSC XR) XR) (mat u) j =
      .ok (vec (mtGrad A.dense Y u j)) := by
    intro u j
    unfold QuadraticMT.gradCSC
    simp only [colRange_toCSC]
    have := foldlM_col A j (vec (n := T)) (fun acc idx =>
      (List.range T).foldlM (fun acc t => do
        let a ← getM acc t
        let d ← A.toCSC.dataAt idx
        let i ← A.toCSC.rowAt idx
        let xw ← (mat u).get2 i t
        setM acc t (a +. d *. xw)) acc) (fun acc k => fun t => acc t + A.data k * u (A.row k) t) (by
        intro v k
        apply fold_vec
        intro v t
        simp only [dataAt_toCSC, rowAt_toCSC, bind, Except.bind, getM_vec, get2_mat, XR.s_mul, XR.s_add,
          setM_vec]) (fun _ => 0)
    simp only [bind, Except.bind, Targets.two, mat_ncols, mat_nrows] at this ⊢
    rw [replicate_zero_vec, this, foldl_vec_add]
    simp only [rowM_mat, bop_sub_vec, pure, Except.pure, XR.s_ofNat, zero_add]
    rw [map_vec _ (fun x => x /. XR.fin (n : ℝ)) (fun x => x / n) (fun _ => XR.s_div _ _ hn')]
    congr 2
    funext t
    unfold mtGrad
    rw [sum_colList A j (fun i => u i t)]
  constructor
  · simp [Targets.two]
  · simp [Targets.two]
  · exact csc_nFeatures A
  · intro _
    show QuadraticMT.initCSC _ = _
    unfold QuadraticMT.initCSC
    simp only [csc_nFeatures, bind, Except.bind, Targets.two, mat_ncols, mat_nrows]
    rw [mapM_range (fun j => (XR.fin (cscStep A j), vec (fun t => ∑ i, A.dense i j * Y i t)))]
    · simp only [pure, Except.pure, List.map_ofFn]
      rfl
    · intro j
      rw [colRange_toCSC]
      have := foldlM_col A j (fun t : ℝ × (Fin T → ℝ) => (XR.fin t.1, vec t.2))
        (fun (acc : XR × List XR) idx => do
          let d ← A.toCSC.dataAt idx
          let xty ← (List.range T).foldlM (fun xty t => do
            let a ← getM xty t
            let i ← A.toCSC.rowAt idx
            let yit ← (mat Y).get2 i t
            setM xty t (a +. d *. yit)) acc.2
          pure (acc.1 +. d *. d, xty))
        (fun acc k => (acc.1 + A.data k * A.data k, fun t => acc.2 t + A.data k * Y (A.row k) t)) (by
          intro v k
          simp only [dataAt_toCSC]
          show (do
            let xty ← (List.range T).foldlM (fun xty t => do
              let a ← getM xty t
              let i ← A.toCSC.rowAt ((k : ℕ) : ℤ)
              let yit ← (mat Y).get2 i t
              setM xty t (a +. XR.fin (A.data k) *. yit)) (vec v.2)
            pure (XR.fin v.1 +. XR.fin (A.data k) *. XR.fin (A.data k), xty)) = _
          rw [fold_vec (fun t => A.data k * Y (A.row k) t)]
          · rfl
          · intro v t
            simp only [rowAt_toCSC, bind, Except.bind, getM_vec, get2_mat, XR.s_mul, XR.s_add,
              setM_vec]) (0, fun _ => 0)
      simp only [bind, Except.bind] at this ⊢
      rw [XR.s_zero, replicate_zero_eq_vec, this, foldl_pair_vec]
      simp only [zero_add, pure, Except.pure, XR.s_ofNat, XR.s_div _ _ hn']
      congr 3
      funext t
      rw [sum_colList A j (fun i => Y i t)]
  · intro u; exact mt_value _ Y u hn
  · exact hg
  · intro u
    have h := mapM_range (fun j => vec (mtGrad A.dense Y u j)) fun j : Fin p => hg u j
    show (do
      let p ← A.toCSC.nFeatures
      let rows ← (List.range p).mapM (fun j => QuadraticMT.gradCSC _ _ (mat u) j)
      Mat.fromShapeVec p T rows.flatten) = _
    rw [csc_nFeatures]
    show (do
      let rows ← (List.range p).mapM (fun j => QuadraticMT.gradCSC _ _ (mat u) j)
      Mat.fromShapeVec p T rows.flatten) = _
    rw [h]
    exact fromShapeVec_mat _
  · rfl
  · intro u d j; exact csc_updMT A u d j
  · intro ws w; exact csc_extraMT A ws w

theorem mt_csc (A : CSCData n p) (hA : A.NoDup) (Y : Fin n → Fin T → ℝ) (hn : 0 < n) :
    MSem (⟨A.toCSC, Targets.two (mat Y)⟩ : Dataset (CSC XR) XR)
      (⟨vec (quadStep A.dense), mat (fun j t => ∑ i, A.dense i j * Y i t)⟩ : QuadraticMT XR) A.dense
      (mtLoss Y) (mtGrad A.dense Y) (quadStep A.dense) := by
  rw [← cscStep_eq A hA]
  exact mt_csc_all A Y hn

end
end Sglm
