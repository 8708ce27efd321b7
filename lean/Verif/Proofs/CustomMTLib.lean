import Verif.Proofs.CustomMT
import Verif.Proofs.CustomLib
import Verif.Proofs.CustomHuber

/-!
# Multi-task losses which meet the contract

The quadratic multi-task datafit of the library with its L21 penalty, and an example of a user's datafit and penalty: Huber regression
for several tasks with a group elastic net whose scores are the distances they should be (those of the library are not, see C12).
The latter two do not model code in `/repo`.
-/

namespace Sglm
open Scalar Spec
variable {n p T : ℕ}

/-! ### Losses which are sums over the samples and tasks -/

section Separable
variable {ℓ ℓ' : Fin n → Fin T → ℝ → ℝ} {κ : Fin n → ℝ}

theorem sum_fderivMT (hd : ∀ i t s, HasDerivAt (ℓ i t) (ℓ' i t s) s) (u : Fin n → Fin T → ℝ) :
    HasFDerivAt (fun u : Fin n → Fin T → ℝ => ∑ i, ∑ t, ℓ i t (u i t))
      (∑ i, ∑ t, (ℓ' i t (u i t)) • ((ContinuousLinearMap.proj t : (Fin T → ℝ) →L[ℝ] ℝ).comp
        (ContinuousLinearMap.proj i : (Fin n → Fin T → ℝ) →L[ℝ] (Fin T → ℝ)))) u := by
  refine HasFDerivAt.fun_sum fun i _ => HasFDerivAt.fun_sum fun t _ => ?_
  have h1 : HasFDerivAt (fun u : Fin n → Fin T → ℝ => u i t) ((ContinuousLinearMap.proj t : (Fin T → ℝ) →L[ℝ] ℝ).comp
        (ContinuousLinearMap.proj i : (Fin n → Fin T → ℝ) →L[ℝ] (Fin T → ℝ))) u :=
    ((ContinuousLinearMap.proj t : (Fin T → ℝ) →L[ℝ] ℝ).comp
        (ContinuousLinearMap.proj i : (Fin n → Fin T → ℝ) →L[ℝ] (Fin T → ℝ))).hasFDerivAt
  exact (hd i t (u i t)).comp_hasFDerivAt u h1

theorem blockGrad_sum (hd : ∀ i t s, HasDerivAt (ℓ i t) (ℓ' i t s) s) (X : Fin n → Fin p → ℝ) (u : Fin n → Fin T → ℝ) (j : Fin p) (t : Fin T) :
    (blockGrad (fun u : Fin n → Fin T → ℝ => ∑ i, ∑ t, ℓ i t (u i t)) X u j).ofLp t = ∑ i, ℓ' i t (u i t) * X i j := by
  show fderiv ℝ _ u _ = _
  rw [(sum_fderivMT hd u).fderiv, sum_apply]
  refine Finset.sum_congr rfl fun i _ => ?_
  rw [sum_apply]
  show ∑ s, ℓ' i s (u i s) * (X i j * Pi.single (M := fun _ => ℝ) t (1 : ℝ) s) = _
  rw [Finset.sum_eq_single t]
  · rw [Pi.single_eq_same, mul_one]
  · intro s _ hs
    rw [Pi.single_eq_of_ne hs, mul_zero, mul_zero]
  · intro h; exact absurd (Finset.mem_univ t) h

/-- Sums of nonnegative convex functions of one prediction with Lipschitz derivatives. -/
theorem separable_lossMT (X : Fin n → Fin p → ℝ) (hd : ∀ i t s, HasDerivAt (ℓ i t) (ℓ' i t s) s) (hm : ∀ i t, Monotone (ℓ' i t))
    (h0 : ∀ i t s, 0 ≤ ℓ i t s) (hκ : ∀ i t r s, |ℓ' i t r - ℓ' i t s| ≤ κ i * |r - s|) (hκ0 : ∀ i, 0 ≤ κ i) {L : Fin p → ℝ}
    (hL : ∀ j, ∑ i, κ i * X i j ^ 2 ≤ L j) : LossOKMT (fun u : Fin n → Fin T → ℝ => ∑ i, ∑ t, ℓ i t (u i t)) X L where
  convex := by
    have hc : ∀ i t, ConvexOn ℝ Set.univ (ℓ i t) := fun i t => by
      refine MonotoneOn.convexOn_of_deriv convex_univ
        (continuous_iff_continuousAt.mpr fun s => (hd i t s).continuousAt).continuousOn
        (fun s _ => (hd i t s).differentiableAt.differentiableWithinAt) ?_
      rw [show deriv (ℓ i t) = ℓ' i t from funext fun s => (hd i t s).deriv]
      exact (hm i t).monotoneOn _
    refine ⟨convex_univ, fun u _ v _ a b ha hb hab => ?_⟩
    have : ∀ i t, ℓ i t ((a • u + b • v) i t) ≤ a * ℓ i t (u i t) + b * ℓ i t (v i t) := fun i t =>
      (hc i t).2 (Set.mem_univ (u i t)) (Set.mem_univ (v i t)) ha hb hab
    refine (Finset.sum_le_sum fun i _ => Finset.sum_le_sum fun t _ => this i t).trans (le_of_eq ?_)
    simp only [Finset.sum_add_distrib, ← Finset.mul_sum]
    rfl
  diff u := (sum_fderivMT hd u).differentiableAt
  nonneg u := Finset.sum_nonneg fun i _ => Finset.sum_nonneg fun t _ => h0 i t _
  steps j := le_trans (Finset.sum_nonneg fun i _ => mul_nonneg (hκ0 i) (sq_nonneg _)) (hL j)
  lipschitz u j d := by
    have hLj : 0 ≤ L j := le_trans (Finset.sum_nonneg fun i _ => mul_nonneg (hκ0 i) (sq_nonneg _)) (hL j)
    have key : ∀ t, |(blockGrad (fun u : Fin n → Fin T → ℝ => ∑ i, ∑ t, ℓ i t (u i t)) X (u + rowDir X j d.ofLp) j -
        blockGrad (fun u : Fin n → Fin T → ℝ => ∑ i, ∑ t, ℓ i t (u i t)) X u j).ofLp t| ≤ L j * |d.ofLp t| := by
      intro t
      show |(blockGrad _ X _ j).ofLp t - (blockGrad _ X _ j).ofLp t| ≤ _
      rw [blockGrad_sum hd, blockGrad_sum hd, ← Finset.sum_sub_distrib]
      refine (Finset.abs_sum_le_sum_abs _ _).trans ?_
      refine le_trans ?_ (mul_le_mul_of_nonneg_right (hL j) (abs_nonneg _))
      rw [Finset.sum_mul]
      refine Finset.sum_le_sum fun i _ => ?_
      show |ℓ' i t (u i t + X i j * d.ofLp t) * X i j - ℓ' i t (u i t) * X i j| ≤ _
      rw [← sub_mul, abs_mul]
      have h1 := mul_le_mul_of_nonneg_right (hκ i t (u i t + X i j * d.ofLp t) (u i t)) (abs_nonneg (X i j))
      rw [add_sub_cancel_left, abs_mul] at h1
      refine h1.trans (le_of_eq ?_)
      rw [← sq_abs (X i j)]
      ring
    refine le_of_sq_le_sq ?_ (mul_nonneg hLj (norm_nonneg d))
    rw [mul_pow, EuclideanSpace.real_norm_sq_eq, EuclideanSpace.real_norm_sq_eq, Finset.mul_sum]
    refine Finset.sum_le_sum fun t _ => ?_
    have h2 := key t
    rw [← sq_abs, ← sq_abs (d.ofLp t), ← mul_pow]
    exact pow_le_pow_left₀ (abs_nonneg _) h2 2
end Separable

/-! ### The library -/

theorem mtLoss_eq (Y : Fin n → Fin T → ℝ) : mtLoss Y = fun u => ∑ i, ∑ t, (Y i t - u i t) ^ 2 / (2 * n) := by
  funext u
  unfold mtLoss
  simp only [Finset.sum_div]

theorem quadMT_deriv (Y : Fin n → Fin T → ℝ) (i : Fin n) (t : Fin T) (s : ℝ) :
    HasDerivAt (fun s => (Y i t - s) ^ 2 / (2 * (n : ℝ))) ((s - Y i t) / n) s :=
  quad_deriv (fun i => Y i t) i s

theorem libraryMT_lossOK (D : Design n p) (Y : Fin n → Fin T → ℝ) : LossOKMT (mtLoss Y) D.matrix (lipschitz D .quadratic) := by
  have hn : (0 : ℝ) ≤ n := Nat.cast_nonneg n
  rw [mtLoss_eq]
  refine separable_lossMT D.matrix (ℓ := fun i t s => (Y i t - s) ^ 2 / (2 * n)) (κ := fun _ => 1 / (n : ℝ)) (quadMT_deriv Y)
    (fun i t a b h => div_le_div_of_nonneg_right (by linarith) hn) (fun i t s => by positivity) (fun i t r s => ?_) (fun _ => by positivity)
    (fun j => ?_)
  · rw [← sub_div, abs_div, abs_of_nonneg hn, one_div_mul_eq_div]
    refine le_of_eq (congrArg (· / (n : ℝ)) ?_)
    congr 1; ring
  · rw [← Finset.mul_sum, one_div_mul_eq_div]
    exact le_of_eq rfl

theorem libraryMT_grad (X : Fin n → Fin p → ℝ) (Y u : Fin n → Fin T → ℝ) (j : Fin p) :
    blockGrad (mtLoss Y) X u j = WithLp.toLp 2 (mtGrad X Y u j) := by
  refine congrArg (WithLp.toLp 2) (funext fun t => ?_)
  rw [mtLoss_eq]
  refine (blockGrad_sum (quadMT_deriv Y) X u j t).trans ?_
  unfold mtGrad
  rw [← Finset.sum_sub_distrib, Finset.sum_div]
  exact Finset.sum_congr rfl fun i _ => by ring

theorem datafitOKMT_of {DM DF : Type} [DesignMatrix XR DM] [MTDatafit XR DM DF] {ds : Dataset DM XR} {df : DF} {X : Fin n → Fin p → ℝ}
    {f : (Fin n → Fin T → ℝ) → ℝ} {g : (Fin n → Fin T → ℝ) → Fin p → Fin T → ℝ} {L : Fin p → ℝ} (h : MSem ds df X f g L)
    (hg : ∀ u j, blockGrad f X u j = WithLp.toLp 2 (g u j)) (df0 : DF) : DatafitOKMT ds df0 f X L :=
  ⟨h.nSamples, h.nTasks, df, h.init df0, h.value, fun u j => by rw [hg]; exact h.grad u j, fun u => by
    rw [show (fun j => blockGrad f X u j) = fun j => WithLp.toLp 2 (g u j) from funext (hg u)]; exact h.fullGrad u, h.step⟩

theorem storageOKMT_of {DM DF : Type} [DesignMatrix XR DM] [MTDatafit XR DM DF] {ds : Dataset DM XR} {df : DF} {X : Fin n → Fin p → ℝ}
    {f : (Fin n → Fin T → ℝ) → ℝ} {g : (Fin n → Fin T → ℝ) → Fin p → Fin T → ℝ} {L : Fin p → ℝ} (h : MSem ds df X f g L) :
    StorageOKMT T ds.designMatrix X :=
  ⟨h.nFeatures, h.upd, h.extra⟩

theorem pen2_regular {a b : ℝ} (ha : 0 ≤ a) (hb : 0 ≤ b) : RegularMT (pen2 a b : Euc T → ℝ) 0 b where
  zero := by unfold pen2; simp
  nonneg z := by unfold pen2; positivity
  convex := weaklyConvex_iff.mp (pen2_weak ha hb)
  bound := hb
  near := pen2_drop ha hb

theorem l21_pen2 (α : ℝ) : (fun z : Euc T => α * ‖z‖) = pen2 α 0 := by
  funext z; unfold pen2; ring

theorem l21_penaltyOK {α : ℝ} (hα : 0 < α) (L : Fin p → ℝ) : PenaltyOKMT (L21.mk (XR.fin α)) (fun z : Euc T => α * ‖z‖) L := by
  refine penaltyOKMT_of (l21_sem T α hα) (Or.inl rfl) (fun x g => ?_) fun j _ hs v => bproxOf_isProx (.l21 α) hα v hs fun _ _ h => by cases h
  rw [l21_pen2, pen2_frechet hα.le le_rfl, ← l21_pen2]
  exact l21Score_dist hα.le x g

theorem dense_storageOKMT (T : ℕ) (X : Fin n → Fin p → ℝ) : StorageOKMT T (mat X) X :=
  ⟨rfl, fun u d j => dense_updMT X u d j, fun ws w => dense_extraMT X ws w⟩

theorem csc_storageOKMT (T : ℕ) (A : CSCData n p) : StorageOKMT T A.toCSC A.dense :=
  ⟨csc_nFeatures A, fun u d j => csc_updMT A u d j, fun ws w => csc_extraMT A ws w⟩

/-! ### A user's datafit: Huber's loss for several tasks -/

/-- Huber's loss with threshold `delta` of the residuals of all tasks. -/
structure HuberMT (F : Type) where
  delta : F
  lipschitz : List F

/-- A group elastic net: `a ‖w‖ + b ‖w‖² / 2` for each row `w` of the coefficients. -/
structure GroupNet (F : Type) where
  a : F
  b : F

section Instances
variable {F : Type} [Scalar F]

def HuberMT.grad (df : HuberMT F) (ds : Dataset (Mat F) F) (XW : Mat F) (j : ℕ) : M (List F) := do
  let x ← ds.designMatrix.colM j
  let R ← bopMat Scalar.sub XW ds.targets.asMulti
  let v ← vecMul x ⟨R.ncols, R.rows.map fun r => r.map (Huber.clip df.delta)⟩
  pure (v.map fun s => s /. Scalar.ofNat ds.targets.nSamples)

def HuberMT.init (df : HuberMT F) (ds : Dataset (Mat F) F) : M (HuberMT F) := do
  let l ← colSqNorms ds.designMatrix (Scalar.ofNat ds.targets.nSamples)
  pure ⟨df.delta, l⟩

def HuberMT.value (df : HuberMT F) (ds : Dataset (Mat F) F) (XW : Mat F) : M F := do
  let R ← bopMat Scalar.sub XW ds.targets.asMulti
  pure (iterSum (R.rows.flatten.map (Huber.fn df.delta)) /. Scalar.ofNat ds.targets.nSamples)

def HuberMT.full (df : HuberMT F) (ds : Dataset (Mat F) F) (XW : Mat F) : M (Mat F) := do
  let rows ← (List.range ds.designMatrix.ncols).mapM (HuberMT.grad df ds XW)
  Mat.fromShapeVec ds.designMatrix.ncols ds.targets.nTasks rows.flatten

instance : MTDatafit F (Mat F) (HuberMT F) where
  init := HuberMT.init
  value := HuberMT.value
  gradientJ := HuberMT.grad
  fullGrad := HuberMT.full
  stepSize := HuberMT.lipschitz

def GroupNet.value (pen : GroupNet F) (W : Mat F) : F :=
  pen.a *. sum (W.rows.map norm2) +. pen.b *. dot (W.rows.map norm2) (W.rows.map norm2) /. Scalar.ofNat 2

def GroupNet.prox (pen : GroupNet F) (v : List F) (s : F) : List F :=
  (blockSoftThresholding v (pen.a *. s)).map fun x => x /. (one +. s *. pen.b)

def GroupNet.dist (pen : GroupNet F) (w g : List F) : M F :=
  if anyNonzero w then do
    let v ← bop Scalar.add g (w.map fun x => (pen.a /. norm2 w +. pen.b) *. x)
    pure (norm2 v)
  else .ok (fmax zero (norm2 g -. pen.a))

instance : MTPenalty F (GroupNet F) where
  value pen W := .ok (pen.value W)
  prox pen v s := .ok (pen.prox v s)
  subdiffDistance pen := blockDistances pen.dist

end Instances

/-- Huber's loss of the predictions of all tasks. -/
noncomputable def huberLossMT (d : ℝ) (Y u : Fin n → Fin T → ℝ) : ℝ := (∑ i, ∑ t, huber d (u i t - Y i t)) / n

theorem huberLossMT_eq (d : ℝ) (Y : Fin n → Fin T → ℝ) : huberLossMT d Y = fun u => ∑ i, ∑ t, huber d (u i t - Y i t) / n := by
  funext u
  unfold huberLossMT
  simp only [Finset.sum_div]

theorem huberMT_deriv (d : ℝ) (Y : Fin n → Fin T → ℝ) (i : Fin n) (t : Fin T) (s : ℝ) :
    HasDerivAt (fun s => huber d (s - Y i t) / n) (hclip d (s - Y i t) / n) s :=
  huber_deriv d (fun i => Y i t) i s

theorem huberMT_lossOK (X : Fin n → Fin p → ℝ) (Y : Fin n → Fin T → ℝ) {d : ℝ} (hd : 0 ≤ d) :
    LossOKMT (huberLossMT d Y) X (quadStep X) := by
  rw [huberLossMT_eq]
  refine separable_lossMT X (ℓ := fun i t s => huber d (s - Y i t) / n) (κ := fun _ => 1 / (n : ℝ)) (huberMT_deriv d Y)
    (fun i t a b h => ?_) (fun i t s => div_nonneg (huber_nonneg hd _) (Nat.cast_nonneg n)) (fun i t r s => ?_) (fun _ => by positivity)
    (fun j => ?_)
  · exact div_le_div_of_nonneg_right (hclip_mono hd (by linarith)) (Nat.cast_nonneg n)
  · rw [← sub_div, abs_div, abs_of_nonneg (Nat.cast_nonneg n : (0 : ℝ) ≤ n), one_div_mul_eq_div]
    refine div_le_div_of_nonneg_right ((hclip_lip hd _ _).trans (le_of_eq ?_)) (Nat.cast_nonneg n)
    congr 1; ring
  · unfold quadStep
    rw [← Finset.mul_sum, one_div_mul_eq_div]
    exact le_of_eq (congrArg (· / (n : ℝ)) (Finset.sum_congr rfl fun i _ => by ring))

theorem mat_map (A : Fin n → Fin T → ℝ) (F : XR → XR) (h : ℝ → ℝ) (hF : ∀ a, F (XR.fin a) = XR.fin (h a)) :
    (⟨T, (mat A).rows.map fun r => r.map F⟩ : Mat XR) = mat fun i t => h (A i t) := by
  unfold mat
  rw [List.map_ofFn]
  congr 2
  funext i
  exact map_vec _ _ h fun t => hF _

theorem huberMT_datafitOK (hn : 0 < n) (X : Fin n → Fin p → ℝ) (Y : Fin n → Fin T → ℝ) (d : ℝ) (l : List XR) :
    DatafitOKMT (⟨mat X, Targets.two (mat Y)⟩ : Dataset (Mat XR) XR) (⟨XR.fin d, l⟩ : HuberMT XR) (huberLossMT d Y) X (quadStep X) := by
  have hn' : (n : ℝ) ≠ 0 := by positivity
  have hg : ∀ (u : Fin n → Fin T → ℝ) (j : Fin p), HuberMT.grad (⟨XR.fin d, vec (quadStep X)⟩ : HuberMT XR)
      (⟨mat X, Targets.two (mat Y)⟩ : Dataset (Mat XR) XR) (mat u) j = .ok (evec (blockGrad (huberLossMT d Y) X u j)) := by
    intro u j
    unfold HuberMT.grad
    simp only [colM_mat, bind, Except.bind, bopMat_sub_mat, pure, Except.pure, Targets.two, mat_nrows, mat_ncols, XR.s_ofNat]
    rw [mat_map _ _ (hclip d) fun a => huber_clip_fin d a, vecMul_mat]
    dsimp only
    rw [map_vec _ (fun x => x /. XR.fin (n : ℝ)) (fun x => x / n) (fun _ => XR.s_div _ _ hn')]
    congr 2
    funext t
    rw [huberLossMT_eq, blockGrad_sum (huberMT_deriv d Y), Finset.sum_div]
    exact Finset.sum_congr rfl fun i _ => by ring
  have hi : HuberMT.init (⟨XR.fin d, l⟩ : HuberMT XR) (⟨mat X, Targets.two (mat Y)⟩ : Dataset (Mat XR) XR) =
      .ok ⟨XR.fin d, vec (quadStep X)⟩ := by
    unfold HuberMT.init
    simp only [Targets.two, mat_nrows, XR.s_ofNat, colSqNorms_mat X n hn', bind, Except.bind, pure, Except.pure]
    rfl
  have hv : ∀ u : Fin n → Fin T → ℝ, HuberMT.value (⟨XR.fin d, vec (quadStep X)⟩ : HuberMT XR)
      (⟨mat X, Targets.two (mat Y)⟩ : Dataset (Mat XR) XR) (mat u) = .ok (XR.fin (huberLossMT d Y u)) := by
    intro u
    unfold HuberMT.value
    simp only [Targets.two, mat_nrows, bind, Except.bind, bopMat_sub_mat, pure, Except.pure, XR.s_ofNat]
    rw [iterSum_flatten_mat _ _ (huber d) fun a => huber_fn_fin d a, XR.s_div _ _ hn']
    rfl
  refine ⟨by simp [Targets.two], by simp [Targets.two], ⟨XR.fin d, vec (quadStep X)⟩, hi, hv, hg, fun u => ?_, rfl⟩
  have h := mapM_range (fun j => evec (blockGrad (huberLossMT d Y) X u j)) fun j : Fin p => hg u j
  show (do
    let rows ← (List.range p).mapM (HuberMT.grad _ _ (mat u))
    Mat.fromShapeVec p T rows.flatten) = _
  rw [h]
  exact fromShapeVec_mat _

/-! ### A user's penalty: a group elastic net -/

theorem groupNet_dist_fin (a b : ℝ) (w g : Euc T) :
    (GroupNet.mk (XR.fin a) (XR.fin b)).dist (evec w) (evec g) =
      .ok (XR.fin (open Classical in if w = 0 then max 0 (‖g‖ - a) else ‖g + (a / ‖w‖ + b) • w‖)) := by
  unfold GroupNet.dist
  by_cases h : w = 0
  · have h1 : ¬ (anyNonzero (evec w) = true) := by
      rw [anyNonzero_evec]; exact not_not.mpr h
    rw [if_neg h1, if_pos h, norm2_evec, XR.s_sub, XR.s_zero, XR.s_fmax]
  · have h1 : anyNonzero (evec w) = true := (anyNonzero_evec _).mpr h
    have hN : ‖w‖ ≠ 0 := norm_ne_zero_iff.mpr h
    rw [if_pos h1, if_neg h, norm2_evec, map_evec_smul w _ (a / ‖w‖ + b) (fun x => by rw [XR.s_div _ _ hN, XR.s_add, XR.s_mul]),
      bop_add_vec]
    exact congrArg Except.ok (norm2_evec (g + (a / ‖w‖ + b) • w))

theorem groupNet_sem (T : ℕ) {a b : ℝ} (ha : 0 < a) (hb : 0 ≤ b) :
    BSem (GroupNet.mk (XR.fin a) (XR.fin b)) T (pen2 a b) (fun v s => (1 / (1 + s * b)) • blockSoftR v (a * s))
      (fun w g => open Classical in if w = 0 then max 0 (‖g‖ - a) else ‖g + (a / ‖w‖ + b) • w‖) XR.ninf where
  value W := by
    show Except.ok (GroupNet.value _ _) = _
    unfold GroupNet.value pen2
    simp only [norms_emat, sum_vec, dot_vec, XR.s_mul, XR.s_ofNat]
    rw [XR.s_div _ _ (by norm_num), XR.s_add]
    congr 2
    rw [Finset.sum_add_distrib, Finset.mul_sum, Finset.mul_sum, Finset.sum_div]
    congr 1
    exact Finset.sum_congr rfl fun j _ => by push_cast; ring
  prox v s hs := by
    have hb : 0 ≤ s * b := mul_nonneg hs.le hb
    show Except.ok (GroupNet.prox _ _ _) = _
    unfold GroupNet.prox
    simp only [XR.s_mul, XR.s_one, XR.s_add]
    rw [blockSoftThresholding_fin _ _ (Or.inl (by positivity))]
    congr 1
    apply map_evec_smul
    intro x
    rw [XR.s_div _ _ (by linarith)]
    congr 1; ring
  dist W g l := blockDistances_list _ _ (groupNet_dist_fin a b) W g l

theorem groupNet_penaltyOK {a b : ℝ} (ha : 0 < a) (hb : 0 ≤ b) (L : Fin p → ℝ) :
    PenaltyOKMT (GroupNet.mk (XR.fin a) (XR.fin b)) (pen2 a b : Euc T → ℝ) L := by
  refine penaltyOKMT_of (groupNet_sem T ha hb) (Or.inl rfl) (fun x g => ?_) fun j _ hs v => ?_
  · rw [pen2_frechet ha.le hb]
    show IsDist _ (subdiff (fun z : Euc T => a * ‖z‖ + b * ‖z‖ ^ 2 / 2) x) _
    split_ifs with h
    · rw [h, subdiff_enet_zero ha.le hb]; exact isDist_ball ha.le g
    · rw [subdiff_enet_ne ha.le hb h]; exact isDist_singleton g _
  · have ha' : 0 < a * (1 / L j) := mul_pos ha hs
    have h := block_enet_subdiff (a := a * (1 / L j)) (b := 1 / L j * b) v ha'.le (mul_nonneg hs.le hb) (Or.inl ha')
    have e : (fun z : Euc T => a * (1 / L j) * ‖z‖ + 1 / L j * b * ‖z‖ ^ 2 / 2) = fun z => 1 / L j * pen2 a b z := by
      funext z; unfold pen2; ring
    rw [e] at h
    exact IsUniqueProx.isProx (prox_of_subdiff h)

end Sglm
