import Verif.Proofs.Losses
import Verif.Spec.Datafit
import Mathlib.Tactic.NormNum

/-!
# Properties C15-C20: datafits and the critical regularization
-/

namespace Sglm
open Scalar Spec
variable {n p T : ℕ}

/-! ## Consequences of the evaluation lemmas -/

theorem computesLoss_of_sem {DM DF : Type} [DesignMatrix XR DM] [Datafit XR DM DF] {ds : Dataset DM XR}
    {df : DF} {X : Fin n → Fin p → ℝ} {f : (Fin n → ℝ) → ℝ} {g : (Fin n → ℝ) → Fin p → ℝ} {L : Fin p → ℝ}
    (h : DSem ds df X f g L)
    (hg : ∀ w j, IsPartial (fun w => f (fit X w)) w j (g (fit X w) j)) :
    ComputesLoss (DF := DF) ds X f := by
  intro df0
  exact ⟨df, h.init df0, h.value, fun w => ⟨g (fit X w), h.fullGrad _, fun j => ⟨h.grad _ j, hg w j⟩⟩⟩

theorem computesLossMT_of_sem {DM DF : Type} [DesignMatrix XR DM] [MTDatafit XR DM DF] {ds : Dataset DM XR}
    {df : DF} {X : Fin n → Fin p → ℝ} {f : (Fin n → Fin T → ℝ) → ℝ}
    {g : (Fin n → Fin T → ℝ) → Fin p → Fin T → ℝ} {L : Fin p → ℝ} (h : MSem ds df X f g L)
    (hg : ∀ W j t, IsPartialMT (fun W => f (fitMT X W)) W j t (g (fitMT X W) j t)) :
    ComputesLossMT (DF := DF) ds X f := by
  intro df0
  exact ⟨df, h.init df0, h.value, fun w => ⟨g (fitMT X w), h.fullGrad _, fun j => ⟨h.grad _ j, hg w j⟩⟩⟩

theorem stepsValid_of_sem {DM DF : Type} [DesignMatrix XR DM] [Datafit XR DM DF] {ds : Dataset DM XR}
    {df : DF} {X : Fin n → Fin p → ℝ} {f : (Fin n → ℝ) → ℝ} {g : (Fin n → ℝ) → Fin p → ℝ} {L : Fin p → ℝ}
    (h : DSem ds df X f g L) (ex : Prop) (hL : ∀ j, 0 ≤ L j)
    (hg : ∀ u j d, |g (fun i => u i + d * X i j) j - g u j| ≤ L j * |d|)
    (hex : ex → ∀ u j d, |g (fun i => u i + d * X i j) j - g u j| = L j * |d|)
    (hf : ∀ u j d, f (fun i => u i + d * X i j) ≤ f u + g u j * d + L j * d ^ 2 / 2) :
    StepsValid (DF := DF) ds X f ex := by
  intro df0
  refine ⟨df, h.init df0, L, h.step, hL, fun w j t => ⟨g (fit X w) j, g (fit X (Function.update w j t)) j,
    h.grad _ j, h.grad _ j, ?_, fun he => ?_, ?_⟩⟩
  · rw [fit_update]; exact hg _ j _
  · rw [fit_update]; exact hex he _ j _
  · rw [fit_update]; exact hf _ j _

theorem agree_of_sem {DM DM' DF : Type} [DesignMatrix XR DM] [Datafit XR DM DF] [DesignMatrix XR DM']
    [Datafit XR DM' DF] {ds : Dataset DM XR} {ds' : Dataset DM' XR}
    {df : DF} {X : Fin n → Fin p → ℝ} {f : (Fin n → ℝ) → ℝ} {g : (Fin n → ℝ) → Fin p → ℝ} {L : Fin p → ℝ}
    (h : DSem ds df X f g L) (h' : DSem ds' df X f g L) : DatafitsAgree (DF := DF) ds ds' n p := by
  intro df0 df0'
  refine ⟨df, h.init df0, h'.init df0', by rw [h.step, h'.step], fun u => ⟨?_, ?_, fun j => ?_⟩⟩
  · rw [h.value, h'.value]
  · rw [h.fullGrad, h'.fullGrad]
  · rw [h.grad, h'.grad]

theorem agreeMT_of_sem {DM DM' DF : Type} [DesignMatrix XR DM] [MTDatafit XR DM DF] [DesignMatrix XR DM']
    [MTDatafit XR DM' DF] {ds : Dataset DM XR} {ds' : Dataset DM' XR}
    {df : DF} {X : Fin n → Fin p → ℝ} {f : (Fin n → Fin T → ℝ) → ℝ}
    {g : (Fin n → Fin T → ℝ) → Fin p → Fin T → ℝ} {L : Fin p → ℝ} (h : MSem ds df X f g L)
    (h' : MSem ds' df X f g L) : DatafitsAgreeMT (DF := DF) ds ds' n p T := by
  intro df0 df0'
  refine ⟨df, h.init df0, h'.init df0', by rw [h.step, h'.step], fun u => ⟨?_, ?_, fun j => ?_⟩⟩
  · rw [h.value, h'.value]
  · rw [h.fullGrad, h'.fullGrad]
  · rw [h.grad, h'.grad]

/-! ## C15 -/

/-- **C15**, dense design. -/
theorem C15_quadratic_dense (hn : 0 < n) (X : Fin n → Fin p → ℝ) (y : Fin n → ℝ) :
    ComputesLoss (DF := Quadratic XR) (denseDs X y) X (quadLoss y) :=
  computesLoss_of_sem (quad_dense X y hn) (quad_partial hn X y)

/-- **C15**, sparse design, duplicate entries (which add up) allowed. -/
theorem C15_quadratic_csc (hn : 0 < n) (A : CSCData n p) (y : Fin n → ℝ) :
    ComputesLoss (DF := Quadratic XR) (cscDs A y) A.dense (quadLoss y) :=
  computesLoss_of_sem (quad_csc_all A y hn) (quad_partial hn A.dense y)

/-- A 2 × 2 sparse matrix with three stored entries: `[[1, 0], [2, 3]]`. -/
def exCSC : CSCData 2 2 := ⟨3, ![1, 2, 3], ![0, 1, 1], ![0, 2, 3], by decide⟩

theorem exCSC_noDup : exCSC.NoDup := by
  unfold CSCData.NoDup CSCData.InCol exCSC
  decide

theorem exCSC_dense : exCSC.dense = ![![1, 0], ![2, 3]] := by
  funext i j
  fin_cases i <;> fin_cases j <;>
    (show (∑ k : Fin 3, _) = _
     simp [CSCData.InCol, exCSC, Fin.sum_univ_three])

example : ComputesLoss (DF := Quadratic XR) (denseDs ![![1, 0], ![2, 3]] ![1, -1]) ![![1, 0], ![2, 3]]
    (quadLoss ![1, -1]) := C15_quadratic_dense (by norm_num) _ _
example : ComputesLoss (DF := Quadratic XR) (cscDs exCSC ![1, -1]) exCSC.dense (quadLoss ![1, -1]) :=
  C15_quadratic_csc (by norm_num) _ _

/-! ## C16 -/

/-- **C16**, dense design. -/
theorem C16_logistic_dense (hn : 0 < n) (X : Fin n → Fin p → ℝ) (y : Fin n → ℝ) :
    ComputesLoss (DF := Logistic XR) (denseDs X y) X (logLoss y) :=
  computesLoss_of_sem (log_dense X y hn) (log_partial X y)

/-- **C16**, sparse design. -/
theorem C16_logistic_csc (hn : 0 < n) (A : CSCData n p) (y : Fin n → ℝ) :
    ComputesLoss (DF := Logistic XR) (cscDs A y) A.dense (logLoss y) :=
  computesLoss_of_sem (log_csc_all A y hn) (log_partial A.dense y)

example : ComputesLoss (DF := Logistic XR) (denseDs ![![1, 0], ![2, 3]] ![1, -1]) ![![1, 0], ![2, 3]]
    (logLoss ![1, -1]) := C16_logistic_dense (by norm_num) _ _
example : ComputesLoss (DF := Logistic XR) (cscDs exCSC ![1, -1]) exCSC.dense (logLoss ![1, -1]) :=
  C16_logistic_csc (by norm_num) _ _

/-! ## C17 -/

/-- **C17**, least squares, dense: the constants are exact. -/
theorem C17_quadratic_dense (hn : 0 < n) (X : Fin n → Fin p → ℝ) (y : Fin n → ℝ) :
    StepsValid (DF := Quadratic XR) (denseDs X y) X (quadLoss y) True :=
  have key : ∀ u j d, |quadGrad X y (fun i => u i + d * X i j) j - quadGrad X y u j| = quadStep X j * |d| := by
    intro u j d
    rw [quadGrad_step, add_sub_cancel_left, abs_mul, abs_of_nonneg (quadStep_nonneg X j)]
  stepsValid_of_sem (quad_dense X y hn) True (quadStep_nonneg X) (fun u j d => (key u j d).le)
    (fun _ => key) (fun u j d => (quad_expand hn X y u j d).le)

/-- **C17**, least squares, sparse. -/
theorem C17_quadratic_csc (hn : 0 < n) (A : CSCData n p) (hA : A.NoDup) (y : Fin n → ℝ) :
    StepsValid (DF := Quadratic XR) (cscDs A y) A.dense (quadLoss y) True :=
  have key : ∀ u j d, |quadGrad A.dense y (fun i => u i + d * A.dense i j) j - quadGrad A.dense y u j| =
      quadStep A.dense j * |d| := by
    intro u j d
    rw [quadGrad_step, add_sub_cancel_left, abs_mul, abs_of_nonneg (quadStep_nonneg _ j)]
  stepsValid_of_sem (quad_csc A hA y hn) True (quadStep_nonneg _) (fun u j d => (key u j d).le)
    (fun _ => key) (fun u j d => (quad_expand hn _ y u j d).le)

/-- **C17**, logistic, dense, labels in `[-1, 1]`. -/
theorem C17_logistic_dense (hn : 0 < n) (X : Fin n → Fin p → ℝ) (y : Fin n → ℝ) (hy : ∀ i, |y i| ≤ 1) :
    StepsValid (DF := Logistic XR) (denseDs X y) X (logLoss y) False :=
  stepsValid_of_sem (log_dense X y hn) False (logStep_nonneg X) (logGrad_lip X y hy) (fun h => h.elim)
    (log_major X y hy)

/-- **C17**, logistic, sparse, labels in `[-1, 1]`. -/
theorem C17_logistic_csc (hn : 0 < n) (A : CSCData n p) (hA : A.NoDup) (y : Fin n → ℝ)
    (hy : ∀ i, |y i| ≤ 1) : StepsValid (DF := Logistic XR) (cscDs A y) A.dense (logLoss y) False :=
  stepsValid_of_sem (log_csc A hA y hn) False (logStep_nonneg _) (logGrad_lip _ y hy) (fun h => h.elim)
    (log_major _ y hy)

example : StepsValid (DF := Quadratic XR) (denseDs ![![1, 0], ![2, 3]] ![1, -1]) ![![1, 0], ![2, 3]]
    (quadLoss ![1, -1]) True := C17_quadratic_dense (by norm_num) _ _
example : StepsValid (DF := Quadratic XR) (cscDs exCSC ![1, -1]) exCSC.dense (quadLoss ![1, -1]) True :=
  C17_quadratic_csc (by norm_num) _ exCSC_noDup _
example : StepsValid (DF := Logistic XR) (denseDs ![![1, 0], ![2, 3]] ![1, -1]) ![![1, 0], ![2, 3]]
    (logLoss ![1, -1]) False :=
  C17_logistic_dense (by norm_num) _ _ (by intro i; fin_cases i <;> simp)
example : StepsValid (DF := Logistic XR) (cscDs exCSC ![1, -1]) exCSC.dense (logLoss ![1, -1]) False :=
  C17_logistic_csc (by norm_num) _ exCSC_noDup _ (by intro i; fin_cases i <;> simp)

/-- Constant `1 × 1` design. -/
def oneX : Fin 1 → Fin 1 → ℝ := fun _ _ => 1
/-- A label outside `[-1, 1]`. -/
def fourY : Fin 1 → ℝ := fun _ => 4

/-- The restriction on the labels is needed: with `X = [[1]]`, `y = [4]` the logistic constant `1/4` is
too small. -/
theorem C17_logistic_labels_needed :
    ¬ StepsValid (DF := Logistic XR) (denseDs oneX fourY) oneX (logLoss fourY) False := by
  intro h
  obtain ⟨df, hi, L, hL, _, h⟩ := h (Logistic.new : Logistic XR)
  have hs := log_dense oneX fourY one_pos
  have hi' := hs.init (Logistic.new : Logistic XR)
  have hi2 : Datafit.init (Logistic.new : Logistic XR)
    (⟨mat oneX, Targets.one (vec fourY)⟩ : Dataset (Mat XR) XR) = .ok df := hi
  rw [hi2] at hi'
  injection hi' with hi'
  subst hi'
  have hL' := hs.step.symm.trans hL
  rw [vec_inj] at hL'
  obtain ⟨g, g', hg, hg', hle, _, _⟩ := h (fun _ => 0) 0 (-1)
  have e1 := (hs.grad (fit oneX (fun _ : Fin 1 => (0:ℝ))) 0).symm.trans hg
  have e2 := (hs.grad (fit oneX (Function.update (fun _ : Fin 1 => (0:ℝ)) 0 (-1))) 0).symm.trans hg'
  injection e1 with e1
  injection e2 with e2
  rw [XR.fin_inj] at e1 e2
  rw [fit_update] at e2
  subst e1 e2
  rw [← hL'] at hle
  unfold logGrad logStep sigm fit oneX fourY at hle
  simp at hle
  have h3 : Real.exp (-4) ≤ 1 / 16 := by
    rw [Real.exp_neg, one_div, inv_le_inv₀ (Real.exp_pos _) (by norm_num)]
    have := Real.add_one_le_exp (1:ℝ)
    calc (16:ℝ) = (1 + 1) ^ 4 := by norm_num
      _ ≤ Real.exp 1 ^ 4 := by gcongr
      _ = Real.exp 4 := by rw [← Real.exp_nat_mul]; norm_num
  have h4 := Real.exp_pos (-4)
  have h5 : (16:ℝ) / 17 ≤ (1 + Real.exp (-4))⁻¹ := by
    rw [le_inv_comm₀ (by norm_num) (by positivity)]
    norm_num
    linarith
  rw [abs_le] at hle
  have := hle.1
  nlinarith

/-! ## C18 -/

/-- **C18**, least squares. -/
theorem C18_quadratic (hn : 0 < n) (A : CSCData n p) (hA : A.NoDup) (y : Fin n → ℝ) :
    DatafitsAgree (DF := Quadratic XR) (cscDs A y) (denseDs A.dense y) n p :=
  agree_of_sem (quad_csc A hA y hn) (quad_dense A.dense y hn)

/-- **C18**, logistic. -/
theorem C18_logistic (hn : 0 < n) (A : CSCData n p) (hA : A.NoDup) (y : Fin n → ℝ) :
    DatafitsAgree (DF := Logistic XR) (cscDs A y) (denseDs A.dense y) n p :=
  agree_of_sem (log_csc A hA y hn) (log_dense A.dense y hn)

/-- **C18**, multi-task least squares. -/
theorem C18_multitask (hn : 0 < n) (A : CSCData n p) (hA : A.NoDup) (Y : Fin n → Fin T → ℝ) :
    DatafitsAgreeMT (DF := QuadraticMT XR) (cscDsMT A Y) (denseDsMT A.dense Y) n p T :=
  agreeMT_of_sem (mt_csc A hA Y hn) (mt_dense A.dense Y hn)

example : DatafitsAgree (DF := Quadratic XR) (cscDs exCSC ![1, -1]) (denseDs exCSC.dense ![1, -1]) 2 2 :=
  C18_quadratic (by norm_num) _ exCSC_noDup _
example : DatafitsAgree (DF := Logistic XR) (cscDs exCSC ![1, -1]) (denseDs exCSC.dense ![1, -1]) 2 2 :=
  C18_logistic (by norm_num) _ exCSC_noDup _
example : DatafitsAgreeMT (DF := QuadraticMT XR) (cscDsMT exCSC ![![1, 2, 3], ![4, 5, 6]])
    (denseDsMT exCSC.dense ![![1, 2, 3], ![4, 5, 6]]) 2 2 3 :=
  C18_multitask (by norm_num) _ exCSC_noDup _

/-- One column holding two stored entries at the same position. -/
def dupCSC : CSCData 1 1 := ⟨2, ![1, 1], ![0, 0], ![0, 2], by decide⟩

/-- Duplicate entries do break the agreement (the step size is too small). -/
theorem C18_duplicates_differ :
    ¬ DatafitsAgree (DF := Quadratic XR) (cscDs dupCSC (fun _ => 1)) (denseDs dupCSC.dense (fun _ => 1)) 1 1 := by
  intro h
  obtain ⟨df, h1, h2, _⟩ := h Quadratic.new Quadratic.new
  have e1 := ((quad_dense dupCSC.dense (fun _ => 1) one_pos).init (Quadratic.new : Quadratic XR)).symm.trans h2
  have e2 := ((quad_csc_all dupCSC (fun _ => 1) one_pos).init (Quadratic.new : Quadratic XR)).symm.trans h1
  have e3 := e1.trans e2.symm
  injection e3 with e3
  injection e3 with e3 _
  rw [vec_inj] at e3
  have := congrFun e3 0
  have hd : dupCSC.dense 0 0 = 2 := by
    show (∑ k : Fin 2, _) = _
    simp [CSCData.InCol, dupCSC]
    norm_num
  have hc : colSq dupCSC 0 = 2 := by
    have : colList dupCSC 0 = [⟨0, by decide⟩, ⟨1, by decide⟩] := by decide
    unfold colSq
    rw [this]
    simp [dupCSC]
    norm_num
  unfold quadStep cscStep at this
  rw [hc] at this
  simp [hd] at this

/-! ## C19 -/

theorem stepsMT_of_sem {DM DF : Type} [DesignMatrix XR DM] [MTDatafit XR DM DF] {ds : Dataset DM XR}
    {df : DF} {X : Fin n → Fin p → ℝ} {Y : Fin n → Fin T → ℝ} (hn : 0 < n)
    (h : MSem ds df X (mtLoss Y) (mtGrad X Y) (quadStep X)) : StepsExactMT (DF := DF) ds X (mtLoss Y) := by
  intro df0
  refine ⟨df, h.init df0, quadStep X, h.step, quadStep_nonneg X, fun W j v =>
    ⟨mtGrad X Y (fitMT X W) j, mtGrad X Y (fitMT X (Function.update W j v)) j, h.grad _ j, h.grad _ j, ?_, ?_⟩⟩
  · rw [fitMT_update]
    have : ∀ t, mtGrad X Y (fun i t => fitMT X W i t + (v t - W j t) * X i j) j t - mtGrad X Y (fitMT X W) j t =
        quadStep X j * (v t - W j t) := by
      intro t
      rw [mtGrad_step X Y (fitMT X W) j (fun t => v t - W j t)]
      ring
    unfold nrm
    simp only [this, mul_pow]
    rw [← Finset.mul_sum, Real.sqrt_mul (sq_nonneg _), Real.sqrt_sq (quadStep_nonneg X j)]
  · rw [fitMT_update, mt_expand hn X Y (fitMT X W) j (fun t => v t - W j t)]
    unfold nrm
    rw [Real.sq_sqrt (Finset.sum_nonneg fun _ _ => sq_nonneg _)]

/-- **C19**, dense: value and gradient. -/
theorem C19_multitask_dense (hn : 0 < n) (X : Fin n → Fin p → ℝ) (Y : Fin n → Fin T → ℝ) :
    ComputesLossMT (DF := QuadraticMT XR) (denseDsMT X Y) X (mtLoss Y) ∧
      StepsExactMT (DF := QuadraticMT XR) (denseDsMT X Y) X (mtLoss Y) :=
  ⟨computesLossMT_of_sem (mt_dense X Y hn) (mt_partial hn X Y), stepsMT_of_sem hn (mt_dense X Y hn)⟩

/-- **C19**, sparse. -/
theorem C19_multitask_csc (hn : 0 < n) (A : CSCData n p) (Y : Fin n → Fin T → ℝ) :
    ComputesLossMT (DF := QuadraticMT XR) (cscDsMT A Y) A.dense (mtLoss Y) ∧
      (A.NoDup → StepsExactMT (DF := QuadraticMT XR) (cscDsMT A Y) A.dense (mtLoss Y)) :=
  ⟨computesLossMT_of_sem (mt_csc_all A Y hn) (mt_partial hn A.dense Y),
    fun hA => stepsMT_of_sem hn (mt_csc A hA Y hn)⟩

example : ComputesLossMT (DF := QuadraticMT XR) (denseDsMT ![![1, 0], ![2, 3]] ![![1, 2, 3], ![4, 5, 6]])
    ![![1, 0], ![2, 3]] (mtLoss ![![1, 2, 3], ![4, 5, 6]]) := (C19_multitask_dense (by norm_num) _ _).1
example : StepsExactMT (DF := QuadraticMT XR) (cscDsMT exCSC ![![1, 2, 3], ![4, 5, 6]]) exCSC.dense
    (mtLoss ![![1, 2, 3], ![4, 5, 6]]) := (C19_multitask_csc (by norm_num) _ _).2 exCSC_noDup

/-! ## C20 -/

/-- Largest absolute value. -/
noncomputable def absMax (v : Fin p → ℝ) : ℝ := (List.ofFn v).foldl (fun c a => max c |a|) 0

theorem foldl_absMax (v : Fin p → ℝ) (f : XR → XR → XR)
    (hf : ∀ c a, f (XR.fin c) (XR.fin a) = XR.fin (max c |a|)) :
    (vec v).foldl f (XR.fin 0) = XR.fin (absMax v) := by
  have key : ∀ (l : List ℝ) (c : ℝ), (l.map XR.fin).foldl f (XR.fin c) =
      XR.fin (l.foldl (fun c a => max c |a|) c) := by
    intro l
    induction l with
    | nil => intro c; rfl
    | cons x l ih => intro c; rw [List.map_cons, List.foldl_cons, hf c x, ih]; rfl
  rw [vec_eq_map]
  exact key _ 0

theorem absMax_le (v : Fin p → ℝ) {a : ℝ} (ha : 0 ≤ a) : absMax v ≤ a ↔ ∀ j, |v j| ≤ a := by
  have key : ∀ (l : List ℝ) (c : ℝ), l.foldl (fun c a => max c |a|) c ≤ a ↔ (c ≤ a ∧ ∀ x ∈ l, |x| ≤ a) := by
    intro l
    induction l with
    | nil => intro c; simp
    | cons x l ih => intro c; rw [List.foldl_cons, ih]; simp [and_assoc]
  unfold absMax
  rw [key]
  simp [ha]

/-- `w = 0` minimises the Lasso objective. -/
def NullOptimal (X : Fin n → Fin p → ℝ) (y : Fin n → ℝ) (α : ℝ) : Prop :=
  ∀ w, quadLoss y (fit X fun _ => 0) + α * l1 (fun _ : Fin p => 0) ≤ quadLoss y (fit X w) + α * l1 w

/-- `W = 0` minimises the multi-task Lasso objective. -/
def NullOptimalMT (X : Fin n → Fin p → ℝ) (Y : Fin n → Fin T → ℝ) (α : ℝ) : Prop :=
  ∀ W, mtLoss Y (fitMT X fun _ _ => 0) + α * l21 (fun (_ : Fin p) (_ : Fin T) => 0) ≤
    mtLoss Y (fitMT X W) + α * l21 W

theorem le_of_forall_small {g α L : ℝ} (h : ∀ s > 0, g * s ≤ α * s + L * s ^ 2) : g ≤ α := by
  by_contra hlt
  rw [not_le] at hlt
  have h1 : 0 < 2 * (|L| + 1) := by positivity
  set s := (g - α) / (2 * (|L| + 1)) with hs
  have hs0 : 0 < s := div_pos (by linarith) h1
  have := h s hs0
  have e : s * (2 * (|L| + 1)) = g - α := by rw [hs]; field_simp
  have hL := le_abs_self L
  have : (g - α) * s ≤ |L| * s ^ 2 := by nlinarith [sq_nonneg s]
  rw [← e] at this
  nlinarith [abs_nonneg L, mul_pos hs0 hs0]

theorem nullOptimal_iff (hn : 0 < n) (X : Fin n → Fin p → ℝ) (y : Fin n → ℝ) (α : ℝ) :
    NullOptimal X y α ↔ ∀ j, |quadGrad X y (fun _ => 0) j| ≤ α := by
  have h00 : α * l1 (fun _ : Fin p => 0) = 0 := by simp [l1]
  constructor
  · intro h j
    set g := quadGrad X y (fun _ => 0) j with hg
    have hexp : ∀ t : ℝ, 0 ≤ g * t + quadStep X j * t ^ 2 / 2 + α * |t| := by
      intro t
      have := h (Function.update (fun _ => 0) j t)
      rw [h00, fit_update, fit_zero, quad_expand hn, sub_zero, ← hg] at this
      have e : l1 (Function.update (fun _ : Fin p => (0:ℝ)) j t) = |t| := by
        unfold l1
        rw [Finset.sum_eq_single j]
        · simp
        · intro k _ hk; simp [hk]
        · simp
      rw [e] at this
      linarith
    apply le_of_forall_small (L := quadStep X j / 2)
    intro s hs
    rcases le_total 0 g with h0 | h0
    · have := hexp (-s)
      rw [abs_neg, abs_of_pos hs] at this
      rw [abs_of_nonneg h0]
      nlinarith
    · have := hexp s
      rw [abs_of_pos hs] at this
      rw [abs_of_nonpos h0]
      nlinarith
  · intro h w
    have hc := quad_convex hn X y (fun _ => 0) w
    rw [h00]
    rw [fit_zero] at hc ⊢
    have : -(α * l1 w) ≤ ∑ j, quadGrad X y (fun _ => 0) j * (w j - 0) := by
      unfold l1
      rw [Finset.mul_sum, ← Finset.sum_neg_distrib]
      apply Finset.sum_le_sum
      intro j _
      rw [sub_zero]
      have h1 := neg_abs_le (quadGrad X y (fun _ => 0) j * w j)
      rw [abs_mul] at h1
      have h2 := mul_le_mul_of_nonneg_right (h j) (abs_nonneg (w j))
      linarith
    linarith

theorem quadGrad_zero (X : Fin n → Fin p → ℝ) (y : Fin n → ℝ) (j : Fin p) :
    |quadGrad X y (fun _ => 0) j| = |∑ i, X i j * y i| / n := by
  unfold quadGrad
  simp [abs_div]

theorem alphaMax_eq (hn : 0 < n) (X : Fin n → Fin p → ℝ) (y : Fin n → ℝ) :
    computeAlphaMax (mat X) (vec y) = .ok (XR.fin (absMax (fun j => ∑ i, X i j * y i) / n)) := by
  unfold computeAlphaMax
  simp only [tMulVec_mat, bind, Except.bind, pure, Except.pure, mat_nrows, XR.s_zero, XR.s_ofNat]
  rw [foldl_absMax _ _ (fun c a => by simp [max_comm]), XR.s_div _ _ (by positivity)]

/-- **C20**: `compute_alpha_max` returns the smallest `α ≥ 0` for which the null model is optimal. -/
theorem C20_alpha_max (hn : 0 < n) (X : Fin n → Fin p → ℝ) (y : Fin n → ℝ) :
    ∃ a, computeAlphaMax (mat X) (vec y) = .ok (XR.fin a) ∧ ∀ α, 0 ≤ α → (NullOptimal X y α ↔ a ≤ α) := by
  have hn' : (0:ℝ) < n := by exact_mod_cast hn
  refine ⟨_, alphaMax_eq hn X y, fun α hα => ?_⟩
  rw [nullOptimal_iff hn, div_le_iff₀ hn', absMax_le _ (by positivity)]
  apply forall_congr'
  intro j
  rw [quadGrad_zero, div_le_iff₀ hn']

example : ∃ a, computeAlphaMax (mat ![![1, 0], ![2, 3]]) (vec ![1, -1]) = .ok (XR.fin a) ∧
    ∀ α, 0 ≤ α → (NullOptimal ![![1, 0], ![2, 3]] ![1, -1] α ↔ a ≤ α) := C20_alpha_max (by norm_num) _ _

/-- **C20**: the sparse helper agrees with the dense one. -/
theorem C20_alpha_max_sparse (hn : 0 < n) (A : CSCData n p) (y : Fin n → ℝ) :
    computeAlphaMaxSparse A.toCSC (vec y) = computeAlphaMax (mat A.dense) (vec y) := by
  rw [alphaMax_eq hn]
  unfold computeAlphaMaxSparse
  have hsub : subM A.toCSC.indptr.length 1 = .ok p := csc_nFeatures A
  have hx : (List.range p).mapM (fun j => do
      let r ← A.toCSC.colRange j
      r.foldlM (fun acc idx => do
        let d ← A.toCSC.dataAt idx
        let i ← A.toCSC.rowAt idx
        let yi ← getM (vec y) i
        pure (acc +. d *. yi)) zero) = (.ok (vec (fun j => ∑ i, A.dense i j * y i)) : M (List XR)) := by
    apply mapM_range
    intro j
    rw [colRange_toCSC]
    refine Eq.trans (foldlM_col A j XR.fin (fun acc idx => do
        let d ← A.toCSC.dataAt idx
        let i ← A.toCSC.rowAt idx
        let yi ← getM (vec y) i
        pure (acc +. d *. yi)) (fun acc k => acc + A.data k * y (A.row k)) (by
          intro t k
          simp only [dataAt_toCSC, rowAt_toCSC, getM_vec, bind, Except.bind, pure, Except.pure, XR.s_mul,
            XR.s_add]) 0) ?_
    rw [foldl_add_map, zero_add, sum_colList]
  simp only [hsub, bind, Except.bind] at hx ⊢
  rw [hx]
  simp only [pure, Except.pure, XR.s_zero, XR.s_ofNat, vec_length]
  rw [foldl_absMax _ _ (fun c a => by simp), XR.s_div _ _ (by positivity)]

example : computeAlphaMaxSparse exCSC.toCSC (vec ![1, -1]) = computeAlphaMax (mat exCSC.dense) (vec ![1, -1]) :=
  C20_alpha_max_sparse (by norm_num) _ _

theorem nrm_nonneg (v : Fin T → ℝ) : 0 ≤ nrm v := Real.sqrt_nonneg _

theorem nrm_sq (v : Fin T → ℝ) : nrm v ^ 2 = ∑ t, v t ^ 2 :=
  Real.sq_sqrt (Finset.sum_nonneg fun _ _ => sq_nonneg _)

theorem inner_le_nrm (u v : Fin T → ℝ) : |∑ t, u t * v t| ≤ nrm u * nrm v := by
  have := abs_real_inner_le_norm (WithLp.toLp 2 u : EuclideanSpace ℝ (Fin T)) (WithLp.toLp 2 v)
  simp only [PiLp.inner_apply, EuclideanSpace.norm_eq, Real.norm_eq_abs, sq_abs] at this
  unfold nrm
  convert this using 3
  simp [mul_comm]

theorem nrm_smul (c : ℝ) (v : Fin T → ℝ) : nrm (fun t => c * v t) = |c| * nrm v := by
  unfold nrm
  simp only [mul_pow]
  rw [← Finset.mul_sum, Real.sqrt_mul (sq_nonneg _), Real.sqrt_sq_eq_abs]

theorem nrm_zero : nrm (fun _ : Fin T => 0) = 0 := by simp [nrm]

theorem nullOptimalMT_iff (hn : 0 < n) (X : Fin n → Fin p → ℝ) (Y : Fin n → Fin T → ℝ) {α : ℝ} (hα : 0 ≤ α) :
    NullOptimalMT X Y α ↔ ∀ j, nrm (mtGrad X Y (fun _ _ => 0) j) ≤ α := by
  have h00 : α * l21 (fun (_ : Fin p) (_ : Fin T) => 0) = 0 := by simp [l21, nrm]
  constructor
  · intro h j
    set g := mtGrad X Y (fun _ _ => 0) j with hg
    rcases (nrm_nonneg g).eq_or_lt with h0 | h0
    · rw [← h0]; exact hα
    have hexp : ∀ d : Fin T → ℝ, 0 ≤ ∑ t, g t * d t + quadStep X j * nrm d ^ 2 / 2 + α * nrm d := by
      intro d
      have := h (Function.update (fun _ _ => 0) j d)
      rw [h00, fitMT_update, fitMT_zero, mt_expand hn X Y (fun _ _ => 0) j (fun t => d t - 0), ← hg] at this
      have e : l21 (Function.update (fun (_ : Fin p) (_ : Fin T) => (0:ℝ)) j d) = nrm d := by
        unfold l21
        rw [Finset.sum_eq_single j]
        · simp
        · intro k _ hk; rw [Function.update_of_ne hk]; exact nrm_zero
        · simp
      rw [e] at this
      simp only [sub_zero] at this
      rw [nrm_sq]
      linarith
    apply le_of_forall_small (L := quadStep X j * nrm g / 2)
    intro s hs
    have := hexp (fun t => -s * g t)
    rw [nrm_smul, abs_neg, abs_of_pos hs] at this
    have e : ∑ t, g t * (-s * g t) = -s * nrm g ^ 2 := by
      rw [nrm_sq, Finset.mul_sum]
      apply Finset.sum_congr rfl
      intro t _; ring
    rw [e] at this
    have h2 : nrm g * (nrm g * s) ≤ nrm g * (α * s + quadStep X j * nrm g / 2 * s ^ 2) := by nlinarith
    exact le_of_mul_le_mul_left h2 h0
  · intro h W
    have hc := mt_convex hn X Y (fun _ _ => 0) W
    rw [h00]
    rw [fitMT_zero] at hc ⊢
    have : -(α * l21 W) ≤ ∑ j, ∑ t, mtGrad X Y (fun _ _ => 0) j t * (W j t - 0) := by
      unfold l21
      rw [Finset.mul_sum, ← Finset.sum_neg_distrib]
      apply Finset.sum_le_sum
      intro j _
      simp only [sub_zero]
      have h1 := inner_le_nrm (mtGrad X Y (fun _ _ => 0) j) (W j)
      have h2 := mul_le_mul_of_nonneg_right (h j) (nrm_nonneg (W j))
      have h3 := neg_abs_le (∑ t, mtGrad X Y (fun _ _ => 0) j t * W j t)
      linarith
    linarith

theorem alphaMaxMtl_eq (hn : 0 < n) (X : Fin n → Fin p → ℝ) (Y : Fin n → Fin T → ℝ) :
    computeAlphaMaxMtl (mat X) (mat Y) =
      .ok (XR.fin (absMax (fun j => nrm (fun t => ∑ i, X i j * Y i t)) / n)) := by
  have hn' : (0:ℝ) < n := by exact_mod_cast hn
  unfold computeAlphaMaxMtl
  have hr : (mat (fun (j : Fin p) (t : Fin T) => ∑ i, X i j * Y i t)).rows.map
      (fun xtyj => Scalar.sqrt (dot xtyj xtyj)) = vec (fun j => nrm (fun t => ∑ i, X i j * Y i t)) := by
    unfold mat vec
    simp only [List.map_ofFn]
    congr 1
    funext j
    show Scalar.sqrt (dot (vec _) (vec _)) = _
    rw [dot_vec, XR.s_sqrt _ (Finset.sum_nonneg fun _ _ => mul_self_nonneg _)]
    simp only [nrm, pow_two]
  simp only [tMulMat_mat, bind, Except.bind, pure, Except.pure, mat_nrows, XR.s_zero, XR.s_ofNat, hr]
  rw [foldl_absMax _ _ (fun c a => by simp), XR.s_div _ _ hn'.ne']

/-- **C20**, multi-task. -/
theorem C20_alpha_max_mtl (hn : 0 < n) (X : Fin n → Fin p → ℝ) (Y : Fin n → Fin T → ℝ) :
    ∃ a, computeAlphaMaxMtl (mat X) (mat Y) = .ok (XR.fin a) ∧
      ∀ α, 0 ≤ α → (NullOptimalMT X Y α ↔ a ≤ α) := by
  have hn' : (0:ℝ) < n := by exact_mod_cast hn
  refine ⟨absMax (fun j => nrm (fun t => ∑ i, X i j * Y i t)) / n, alphaMaxMtl_eq hn X Y, fun α hα => ?_⟩
  · rw [nullOptimalMT_iff hn X Y hα, div_le_iff₀ hn', absMax_le _ (by positivity)]
    apply forall_congr'
    intro j
    rw [abs_of_nonneg (nrm_nonneg _), ← div_le_iff₀ hn']
    have : nrm (mtGrad X Y (fun _ _ => 0) j) = nrm (fun t => ∑ i, X i j * Y i t) / n := by
      have e : mtGrad X Y (fun _ _ => 0) j = fun t => (-1 / n) * ∑ i, X i j * Y i t := by
        funext t
        unfold mtGrad
        simp
        ring
      rw [e, nrm_smul, abs_div, abs_neg, abs_one, abs_of_pos hn']
      ring
    rw [this]

example : ∃ a, computeAlphaMaxMtl (mat ![![1, 0], ![2, 3]]) (mat ![![1, -1], ![0, 2]]) = .ok (XR.fin a) ∧
    ∀ α, 0 ≤ α → (NullOptimalMT ![![1, 0], ![2, 3]] ![![1, -1], ![0, 2]] α ↔ a ≤ α) :=
  C20_alpha_max_mtl (by norm_num) _ _

end Sglm
