import Verif.Proofs.NaN
import Verif.Proofs.SkelBCD
import Verif.Proofs.Sem
import Verif.Proofs.Problem

/-!
# Auxiliary lemmas: data sets without samples or without features
-/

namespace Sglm
open Scalar Spec
variable {p T : ℕ}

/-- A gradient without samples: `0 / 0`, or an empty sum. -/
def Blank (g : XR) : Prop := g = XR.nan ∨ g = XR.fin 0

theorem zero_div_zero : XR.div (XR.fin 0) (XR.fin 0) = XR.nan := by
  show (if (0 : ℝ) = 0 then XR.infTimes 0 else _) = _
  rw [if_pos rfl]
  unfold XR.infTimes
  rw [if_neg (lt_irrefl _), if_neg (lt_irrefl _)]

/-- All scores vanish at zero if the gradients are blank. -/
theorem scores_blank {f : XR → XR → XR} (hf : ∀ g, Blank g → f (XR.fin 0) g = XR.fin 0) {g : List XR} (hn : ∀ x ∈ g, Blank x) :
    Tri (fun _ => False) (sepDistances f (List.replicate p (XR.fin 0)) g (List.range p))
      (fun r => r.2 = maxDist r.1 ∧ ∀ x ∈ r.1, x = XR.fin 0) := by
  unfold sepDistances
  refine Tri.bind (Tri.mapM_len (fun x => x = XR.fin 0) _ _ fun a ha => ?_) fun l hl => ⟨rfl, hl.2⟩
  have h2 := List.of_mem_zip ha
  refine Tri.bind (Tri.getM' (by rw [List.length_replicate]; exact List.mem_range.mp h2.2)) fun b hb => ?_
  rw [List.eq_of_mem_replicate hb]
  exact hf _ (hn _ h2.1)

/-- Without samples the solver stops at once. -/
theorem solve_blank {DM DF P : Type} [DesignMatrix XR DM] [Datafit XR DM DF] [Penalty XR P] (pen : P)
    (hp : ∀ g : List XR, (∀ x ∈ g, Blank x) → Tri (fun _ => False) (Penalty.subdiffDistance pen (List.replicate p (XR.fin 0)) g (List.range p))
      (fun r => ∀ τ, (XR.fin 0 <=. τ) = true → (r.2 <=. τ) = true))
    (srt : Argsort XR) (cfg : Solver XR) (ht : (XR.fin 0 <=. cfg.tolerance) = true) (ds : Dataset DM XR) (df : DF) (h0 : ds.targets.nSamples = 0)
    (h1 : DesignMatrix.nFeatures ds.designMatrix = .ok p)
    (h2 : Tri (fun _ => False) (Datafit.init df ds) fun df' => ∀ j, j < p → Tri (fun _ => False) (Datafit.gradientJ df' ds [] j) Blank) :
    cfg.solve srt ds df pen = .ok (List.replicate p (XR.fin 0)) := by
  obtain ⟨df', h3, h4⟩ := h2.exists_ok
  have key : Tri (fun _ => False) (optCondViolation ds (List.replicate p (XR.fin 0)) (List.replicate ds.targets.nSamples (XR.fin 0))
      (List.range p) df' pen) (fun r => ∀ τ, (XR.fin 0 <=. τ) = true → (r.2 <=. τ) = true) := by
    rw [h0]
    unfold optCondViolation constructGrad
    exact Tri.bind (Tri.mapM_len Blank _ _ fun j hj => h4 j (List.mem_range.mp hj)) fun g hg => hp g hg.2
  obtain ⟨r, h5, h6⟩ := key.exists_ok
  exact solve_null srt cfg ds df df' pen p r h1 h3 h5 (h6 _ ht)

theorem fmax_blank {x : XR} (h : x = XR.nan ∨ ∃ a, x = XR.fin a ∧ a ≤ 0) : (fmax zero x : XR) = XR.fin 0 := by
  rcases h with rfl | ⟨a, rfl, h⟩
  · rfl
  · show (if XR.lt (XR.fin 0) (XR.fin a) then _ else _) = XR.fin 0
    rw [if_neg (by show ¬ decide ((0 : ℝ) < a) = true; simpa using h)]
    rfl

theorem beq_zero : ((XR.fin 0 : XR) ==. zero) = true := by
  show decide ((0 : ℝ) = 0) = true
  simp

theorem abs_sub_blank {g : XR} (h : Blank g) {a : ℝ} (ha : 0 ≤ a) :
    (Scalar.abs g -. XR.fin a : XR) = XR.nan ∨ ∃ b, (Scalar.abs g -. XR.fin a : XR) = XR.fin b ∧ b ≤ 0 := by
  rcases h with rfl | rfl
  · exact Or.inl rfl
  · exact Or.inr ⟨|0| + -a, rfl, by rw [abs_zero]; linarith⟩

/-- The penalties of the library. -/
theorem callPen_blank {α : Type} (pen : Pen) (hv : pen.Valid) (run : ∀ {P : Type} [Penalty XR P], P → α) (C : α → Prop)
    (h : ∀ {P : Type} [Penalty XR P] (pn : P), (∀ g : List XR, (∀ x ∈ g, Blank x) → Tri (fun _ => False)
      (Penalty.subdiffDistance pn (List.replicate p (XR.fin 0)) g (List.range p))
      (fun r => ∀ τ, (XR.fin 0 <=. τ) = true → (r.2 <=. τ) = true)) → C (run pn)) : C (callPen pen run) := by
  have sep : ∀ {f : XR → XR → XR}, (∀ g, Blank g → f (XR.fin 0) g = XR.fin 0) → ∀ g : List XR, (∀ x ∈ g, Blank x) → Tri (fun _ => False)
      (sepDistances f (List.replicate p (XR.fin 0)) g (List.range p)) (fun r => ∀ τ, (XR.fin 0 <=. τ) = true → (r.2 <=. τ) = true) :=
    fun hf g hg => Tri.mono (scores_blank hf hg) fun r hr τ hτ => by rw [hr.1]; exact maxDist_zeros hr.2 τ hτ
  cases pen with
  | l1 a =>
    refine h _ (sep fun g hg => ?_)
    show (if _ then _ else _) = _
    rw [if_pos beq_zero]
    exact fmax_blank (abs_sub_blank hg hv)
  | enet a ρ =>
    refine h _ (sep fun g hg => ?_)
    show (if _ then _ else _) = _
    rw [if_pos beq_zero]
    exact fmax_blank (abs_sub_blank hg (mul_nonneg hv.1 hv.2.1))
  | mcp a γ =>
    refine h _ (sep fun g hg => ?_)
    show (if _ then _ else _) = _
    rw [if_pos beq_zero]
    exact fmax_blank (abs_sub_blank hg hv.1)
  | l05 a => exact h _ fun g _ τ hτ => hτ

theorem empty_colM {X : Mat XR} (hX : X.rows = []) (hp : X.ncols = p) {j : ℕ} (hj : j < p) : X.colM j = .ok [] := by
  unfold Mat.colM
  rw [hp, if_pos hj, hX]
  rfl

theorem mapM_const {α β : Type} {f : α → M β} {b : β} (l : List α) (h : ∀ a ∈ l, f a = .ok b) : l.mapM f = .ok (List.replicate l.length b) := by
  induction l with
  | nil => rfl
  | cons a l ih =>
    rw [List.mapM_cons, h a List.mem_cons_self, ih fun x hx => h x (List.mem_cons_of_mem _ hx)]
    rfl

theorem getM_replicate {α : Type} (a : α) {k j : ℕ} (hj : j < k) : getM (List.replicate k a) j = .ok a := by
  have : (List.replicate k a)[j]? = some a := by rw [List.getElem?_replicate, if_pos hj]
  unfold getM
  rw [this]

theorem ofNat_zero_xr : (ofNat 0 : XR) = XR.fin 0 := by
  show XR.fin ((0 : ℕ) : ℝ) = XR.fin 0
  rw [Nat.cast_zero]

theorem dot_nil : (dot [] [] : XR) = XR.fin 0 := rfl

theorem blank_div : Blank ((XR.fin 0 -. XR.fin 0) /. ofNat 0 : XR) := by
  left
  rw [ofNat_zero_xr]
  show XR.div (XR.fin (0 + -0)) (XR.fin 0) = XR.nan
  rw [neg_zero, add_zero, zero_div_zero]

theorem blank_div' : Blank ((-.(XR.fin 0)) /. ofNat 0 : XR) := by
  left
  rw [ofNat_zero_xr]
  show XR.div (XR.fin (-0)) (XR.fin 0) = XR.nan
  rw [neg_zero, zero_div_zero]

section
variable {X : Mat XR}

theorem quad_dense_blank (hX : X.rows = []) (hp : X.ncols = p) :
    Tri (fun _ => False) (Datafit.init (Quadratic.new : Quadratic XR) (⟨X, Targets.one []⟩ : Dataset (Mat XR) XR))
      fun df' => ∀ j, j < p → Tri (fun _ => False) (Datafit.gradientJ df' (⟨X, Targets.one []⟩ : Dataset (Mat XR) XR) [] j) Blank := by
  have h1 : tMulVec X ([] : List XR) = .ok (List.replicate p (XR.fin 0)) := by
    unfold tMulVec
    rw [if_neg (by show ¬ X.rows.length ≠ _; rw [hX]; simp)]
    have := mapM_const (b := XR.fin 0) (f := fun j => do let c ← X.colM j; pure (dot c ([] : List XR))) (List.range p) fun j hj => by
      rw [empty_colM hX hp (List.mem_range.mp hj)]
      rfl
    rw [List.length_range] at this
    rw [hp]
    exact this
  have h2 : ∃ L, colSqNorms X (ofNat 0 : XR) = .ok L := by
    refine ⟨List.replicate (List.range p).length (dot ([] : List XR) [] /. ofNat 0), ?_⟩
    unfold colSqNorms
    rw [hp]
    exact mapM_const (b := dot ([] : List XR) [] /. ofNat 0) (List.range p) fun j hj => by
      rw [empty_colM hX hp (List.mem_range.mp hj)]
      rfl
  obtain ⟨L, h2⟩ := h2
  have e : Datafit.init (Quadratic.new : Quadratic XR) (⟨X, Targets.one []⟩ : Dataset (Mat XR) XR) =
      .ok ⟨L, List.replicate p (XR.fin 0)⟩ := by
    show Quadratic.initDense _ = _
    unfold Quadratic.initDense
    dsimp only
    rw [single_one']
    show (do let Xty ← tMulVec X ([] : List XR); let lipschitz ← colSqNorms X (ofNat 0); pure (⟨lipschitz, Xty⟩ : Quadratic XR)) = _
    rw [h1, h2]
    rfl
  rw [e]
  intro j hj
  show Tri _ (Quadratic.gradDense _ _ _ _) _
  unfold Quadratic.gradDense
  dsimp only
  rw [empty_colM hX hp hj, getM_replicate _ hj]
  exact blank_div

theorem log_dense_blank (hX : X.rows = []) (hp : X.ncols = p) :
    Tri (fun _ => False) (Datafit.init (Logistic.new : Logistic XR) (⟨X, Targets.one []⟩ : Dataset (Mat XR) XR))
      fun df' => ∀ j, j < p → Tri (fun _ => False) (Datafit.gradientJ df' (⟨X, Targets.one []⟩ : Dataset (Mat XR) XR) [] j) Blank := by
  have h2 : ∃ L, colSqNorms X (ofNat (4 * 0) : XR) = .ok L := by
    refine ⟨List.replicate (List.range p).length (dot ([] : List XR) [] /. ofNat (4 * 0)), ?_⟩
    unfold colSqNorms
    rw [hp]
    exact mapM_const (b := dot ([] : List XR) [] /. ofNat (4 * 0)) (List.range p) fun j hj => by
      rw [empty_colM hX hp (List.mem_range.mp hj)]
      rfl
  obtain ⟨L, h2⟩ := h2
  have e : Datafit.init (Logistic.new : Logistic XR) (⟨X, Targets.one []⟩ : Dataset (Mat XR) XR) = .ok ⟨L⟩ := by
    show Logistic.initDense _ = _
    unfold Logistic.initDense
    show (do let lipschitz ← colSqNorms X (ofNat (4 * 0)); pure (⟨lipschitz⟩ : Logistic XR)) = _
    rw [h2]
    rfl
  rw [e]
  intro j hj
  show Tri _ (Logistic.gradDense _ _ _) _
  unfold Logistic.gradDense
  dsimp only
  rw [single_one', empty_colM hX hp hj]
  exact blank_div'

end

section
variable (A : CSCData 0 p)

theorem empty_colRange {j : ℕ} (hj : j < p) : A.toCSC.colRange j = .ok [] := by
  have h := colRange_toCSC A ⟨j, hj⟩
  have : colList A ⟨j, hj⟩ = [] := List.eq_nil_iff_forall_not_mem.mpr fun k _ => (A.row k).elim0
  rw [this] at h
  exact h

theorem quad_csc_blank :
    Tri (fun _ => False) (Datafit.init (Quadratic.new : Quadratic XR) (⟨A.toCSC, Targets.one []⟩ : Dataset (CSC XR) XR))
      fun df' => ∀ j, j < p → Tri (fun _ => False) (Datafit.gradientJ df' (⟨A.toCSC, Targets.one []⟩ : Dataset (CSC XR) XR) [] j) Blank := by
  have e : ∃ L, Datafit.init (Quadratic.new : Quadratic XR) (⟨A.toCSC, Targets.one []⟩ : Dataset (CSC XR) XR) =
      .ok ⟨L, List.replicate p (XR.fin 0)⟩ := by
    refine ⟨List.replicate p (XR.fin 0 /. ofNat 0), ?_⟩
    show Quadratic.initCSC _ = _
    unfold Quadratic.initCSC
    dsimp only
    rw [single_one', csc_nFeatures]
    dsimp only [bind, Except.bind]
    have := mapM_const (b := ((XR.fin 0 /. ofNat 0 : XR), (XR.fin 0 : XR))) (f := fun j => do
      let r ← A.toCSC.colRange j
      let (nrm2, xty) ← r.foldlM (fun (acc : XR × XR) idx => do
        let d ← A.toCSC.dataAt idx
        let i ← A.toCSC.rowAt idx
        let yi ← getM ([] : List XR) i
        pure (acc.1 +. d *. d, acc.2 +. d *. yi)) (zero, zero)
      pure (nrm2 /. ofNat 0, xty)) (List.range p) fun j hj => by
        rw [empty_colRange A (List.mem_range.mp hj)]
        rfl
    rw [List.length_range] at this
    dsimp only [bind, Except.bind] at this
    erw [this]
    simp only [pure, Except.pure, List.map_replicate]
  obtain ⟨L, e⟩ := e
  rw [e]
  intro j hj
  show Tri _ (Quadratic.gradCSC _ _ _ _) _
  unfold Quadratic.gradCSC
  dsimp only
  rw [empty_colRange A hj, getM_replicate _ hj]
  exact blank_div

theorem log_csc_blank :
    Tri (fun _ => False) (Datafit.init (Logistic.new : Logistic XR) (⟨A.toCSC, Targets.one []⟩ : Dataset (CSC XR) XR))
      fun df' => ∀ j, j < p → Tri (fun _ => False) (Datafit.gradientJ df' (⟨A.toCSC, Targets.one []⟩ : Dataset (CSC XR) XR) [] j) Blank := by
  have e : ∃ L, Datafit.init (Logistic.new : Logistic XR) (⟨A.toCSC, Targets.one []⟩ : Dataset (CSC XR) XR) = .ok ⟨L⟩ := by
    refine ⟨List.replicate p (XR.fin 0 /. ofNat (4 * 0)), ?_⟩
    show Logistic.initCSC _ = _
    unfold Logistic.initCSC
    dsimp only
    rw [csc_nFeatures]
    dsimp only [bind, Except.bind]
    have := mapM_const (b := (XR.fin 0 /. ofNat (4 * 0) : XR)) (f := fun j => do
      let r ← A.toCSC.colRange j
      let nrm2 ← r.foldlM (fun (acc : XR) idx => do
        let d ← A.toCSC.dataAt idx
        pure (acc +. d *. d)) zero
      pure (nrm2 /. ofNat (4 * 0))) (List.range p) fun j hj => by
        rw [empty_colRange A (List.mem_range.mp hj)]
        rfl
    rw [List.length_range] at this
    dsimp only [bind, Except.bind] at this
    erw [this]
    rfl
  obtain ⟨L, e⟩ := e
  rw [e]
  intro j hj
  show Tri _ (Logistic.gradCSC _ _ _) _
  unfold Logistic.gradCSC
  dsimp only
  rw [single_one', empty_colRange A hj]
  exact Or.inr rfl

end

theorem fmax_zero_zero : (fmax (XR.fin 0) (XR.fin 0) : XR) = XR.fin 0 := fmax_blank (Or.inr ⟨0, rfl, le_refl 0⟩)

theorem abs_fin_zero : (Scalar.abs (XR.fin 0) : XR) = XR.fin 0 := by
  show XR.fin |0| = _
  rw [abs_zero]

theorem alpha_zeros : ∀ p : ℕ, (List.replicate p (XR.fin 0)).foldl (fun m x => fmax (Scalar.abs x) m) (zero : XR) = XR.fin 0
  | 0 => rfl
  | p + 1 => by
    rw [List.replicate_succ, List.foldl_cons, abs_fin_zero, show (zero : XR) = XR.fin 0 from rfl, fmax_zero_zero]
    exact alpha_zeros p

theorem alpha_zeros' : ∀ p : ℕ, (List.replicate p (XR.fin 0)).foldl (fun m x => fmax m (Scalar.abs x)) (zero : XR) = XR.fin 0
  | 0 => rfl
  | p + 1 => by
    rw [List.replicate_succ, List.foldl_cons, abs_fin_zero, show (zero : XR) = XR.fin 0 from rfl, fmax_zero_zero]
    exact alpha_zeros' p

/-! ## Several tasks -/

theorem MT.solve_null {F DM DF P : Type} [Scalar F] [DesignMatrix F DM] [MTDatafit F DM DF] [MTPenalty F P]
    (srt : Argsort F) (cfg : Solver F) (ds : Dataset DM F) (df df' : DF) (pen : P) (nf : ℕ) (r : List F × F)
    (h1 : DesignMatrix.nFeatures ds.designMatrix = .ok nf) (h2 : MTDatafit.init df ds = .ok df')
    (h3 : MT.optCondViolation ds (Mat.zeros nf ds.targets.nTasks) (Mat.zeros ds.targets.nSamples ds.targets.nTasks) (List.range nf) df' pen
      = .ok r) (h4 : (r.2 <=. cfg.tolerance) = true) :
    cfg.solveMultiTask srt ds df pen = .ok (Mat.zeros nf ds.targets.nTasks) := by
  rw [MT.solve_eq]
  unfold MT.runBCD
  rw [h1]
  dsimp only [bind, Except.bind]
  rw [h2]
  show (fun q : BCDState F × ℕ => q.1.W) <$> (MT.skelBCD srt ds df' pen cfg nf (ws0CD cfg nf)).outer cfg.maxIterations
    (MT.initBCD ds.targets.nSamples nf ds.targets.nTasks) = _
  rw [Skel.outer_done _ _ _ r.1 r.2 h3 h4]
  rfl

theorem blank_dot : ∀ T : ℕ, Blank (dot (List.replicate T XR.nan) (List.replicate T XR.nan) : XR)
  | 0 => Or.inr rfl
  | _ + 1 => Or.inl (XR.dot_nan rfl (by simp))

theorem blank_norm (T : ℕ) : Blank (norm2 (List.replicate T XR.nan) : XR) := by
  unfold norm2
  rcases blank_dot T with h | h
  · rw [h]; exact Or.inl rfl
  · rw [h]; exact Or.inr ((XR.s_sqrt 0 (le_refl (0 : ℝ))).trans (by rw [Real.sqrt_zero]))

theorem sub_blank {g : XR} (h : Blank g) {a : ℝ} (ha : 0 ≤ a) :
    (g -. XR.fin a : XR) = XR.nan ∨ ∃ b, (g -. XR.fin a : XR) = XR.fin b ∧ b ≤ 0 := by
  rcases h with rfl | rfl
  · exact Or.inl rfl
  · exact Or.inr ⟨0 + -a, rfl, by linarith⟩

theorem anyNonzero_zeros (T : ℕ) : anyNonzero (List.replicate T (XR.fin 0)) = false := by
  unfold anyNonzero
  rw [List.any_eq_false]
  intro x hx
  rw [List.eq_of_mem_replicate hx, beq_zero]
  simp

/-- All scores vanish at zero if the gradients are NaN. -/
theorem block_blank {f : List XR → List XR → M XR} (hf : f (List.replicate T (XR.fin 0)) (List.replicate T XR.nan) = .ok (XR.fin 0))
    (τ : XR) (hτ : (XR.fin 0 <=. τ) = true) :
    ∃ r, blockDistances f (Mat.zeros p T) ⟨T, List.replicate p (List.replicate T XR.nan)⟩ (List.range p) = .ok r ∧ (r.2 <=. τ) = true := by
  have h := mapM_const (b := XR.fin 0) (f := fun gj : List XR × ℕ => do
    let Wj ← (Mat.zeros p T : Mat XR).rowM gj.2
    f Wj gj.1) ((List.replicate p (List.replicate T XR.nan)).zip (List.range p)) fun a ha => by
      have h2 := List.of_mem_zip ha
      unfold Mat.rowM Mat.zeros
      dsimp only
      rw [getM_replicate _ (List.mem_range.mp h2.2), List.eq_of_mem_replicate h2.1]
      exact hf
  unfold blockDistances
  dsimp only
  rw [h]
  exact ⟨_, rfl, maxDist_zeros (fun x hx => List.eq_of_mem_replicate hx) _ hτ⟩

/-- Without samples the multi-task solver stops at once. -/
theorem solveMT_blank {DM DF P : Type} [DesignMatrix XR DM] [MTDatafit XR DM DF] [MTPenalty XR P] (pen : P)
    (srt : Argsort XR) (cfg : Solver XR)
    (hp : ∃ r, MTPenalty.subdiffDistance pen (Mat.zeros p T) (⟨T, List.replicate p (List.replicate T XR.nan)⟩ : Mat XR) (List.range p) = .ok r ∧
      (r.2 <=. cfg.tolerance) = true)
    (ds : Dataset DM XR) (df df' : DF) (h0 : ds.targets.nSamples = 0) (hT : ds.targets.nTasks = T)
    (h1 : DesignMatrix.nFeatures ds.designMatrix = .ok p) (h2 : MTDatafit.init df ds = .ok df')
    (h3 : ∀ j, j < p → MTDatafit.gradientJ df' ds (Mat.zeros 0 T) j = .ok (List.replicate T XR.nan)) :
    cfg.solveMultiTask srt ds df pen = .ok (Mat.zeros p T) := by
  obtain ⟨r, h5, h6⟩ := hp
  have := MT.solve_null srt cfg ds df df' pen p r h1 h2 (by
    rw [h0, hT]
    unfold MT.optCondViolation MT.constructGrad
    rw [mapM_const (b := List.replicate T XR.nan) (List.range p) fun j hj => h3 j (List.mem_range.mp hj)]
    dsimp only [bind, Except.bind]
    rw [hT, List.length_range, fromShapeVec_flatten _ (List.length_replicate) fun x hx => by rw [List.eq_of_mem_replicate hx, List.length_replicate]]
    exact h5) h6
  rw [hT] at this
  exact this

/-- The block penalties of the library. -/
theorem l21_blank {α : ℝ} (hα : 0 ≤ α) (τ : XR) (hτ : (XR.fin 0 <=. τ) = true) :
    ∃ r, MTPenalty.subdiffDistance (L21.mk (XR.fin α)) (Mat.zeros p T) (⟨T, List.replicate p (List.replicate T XR.nan)⟩ : Mat XR)
      (List.range p) = .ok r ∧ (r.2 <=. τ) = true := by
  refine block_blank ?_ τ hτ
  unfold L21.dist
  rw [if_neg (by rw [anyNonzero_zeros]; simp)]
  exact congrArg _ (fmax_blank (sub_blank (blank_norm T) hα))

theorem blockEnet_blank {α ρ : ℝ} (hα : 0 ≤ α) (hρ : 0 ≤ ρ) (τ : XR) (hτ : (XR.fin 0 <=. τ) = true) :
    ∃ r, MTPenalty.subdiffDistance (BlockL1PlusL2.mk (XR.fin α) (XR.fin ρ)) (Mat.zeros p T)
      (⟨T, List.replicate p (List.replicate T XR.nan)⟩ : Mat XR) (List.range p) = .ok r ∧ (r.2 <=. τ) = true := by
  refine block_blank ?_ τ hτ
  unfold BlockL1PlusL2.dist
  rw [if_neg (by rw [anyNonzero_zeros]; simp)]
  exact congrArg _ (fmax_blank (sub_blank (blank_dot T) (mul_nonneg hα hρ)))

theorem blockMCP_blank {α γ : ℝ} (hα : 0 ≤ α) (τ : XR) (hτ : (XR.fin 0 <=. τ) = true) :
    ∃ r, MTPenalty.subdiffDistance (BlockMCP.mk (XR.fin α) (XR.fin γ)) (Mat.zeros p T)
      (⟨T, List.replicate p (List.replicate T XR.nan)⟩ : Mat XR) (List.range p) = .ok r ∧ (r.2 <=. τ) = true := by
  refine block_blank ?_ τ hτ
  unfold BlockMCP.dist
  dsimp only
  rw [if_neg (by rw [anyNonzero_zeros]; simp)]
  exact congrArg _ (fmax_blank (sub_blank (blank_norm T) hα))

theorem bop_zeros (T : ℕ) : bop Scalar.sub (List.replicate T (XR.fin 0)) (List.replicate T (XR.fin 0)) = .ok (List.replicate T (XR.fin 0)) := by
  unfold bop
  rw [if_pos (by simp), List.zipWith_replicate', show (Scalar.sub (XR.fin 0) (XR.fin 0) : XR) = XR.fin 0 from by
    show XR.fin (0 + -0) = _; rw [neg_zero, add_zero]]

theorem map_div_zero (T : ℕ) : (List.replicate T (XR.fin 0)).map (fun x => x /. (ofNat 0 : XR)) = List.replicate T XR.nan := by
  rw [List.map_replicate, ofNat_zero_xr]
  exact congrArg _ zero_div_zero

theorem quadMT_dense_blank (X : Fin 0 → Fin p → ℝ) (Y : Fin 0 → Fin T → ℝ) :
    ∃ df', MTDatafit.init (QuadraticMT.new : QuadraticMT XR) (denseDsMT X Y) = .ok df' ∧
      ∀ j, j < p → MTDatafit.gradientJ df' (denseDsMT X Y) (Mat.zeros 0 T) j = .ok (List.replicate T XR.nan) := by
  have h2 : ∃ L, colSqNorms (mat X) (ofNat 0 : XR) = .ok L := by
    refine ⟨List.replicate (List.range p).length (dot ([] : List XR) [] /. ofNat 0), ?_⟩
    unfold colSqNorms
    exact mapM_const (b := dot ([] : List XR) [] /. ofNat 0) (List.range p) fun j hj => by
      rw [empty_colM rfl rfl (List.mem_range.mp hj)]
      rfl
  have h1 : tMulMat (mat X) (mat Y) = .ok ⟨T, List.replicate p (List.replicate T (XR.fin 0))⟩ := by
    unfold tMulMat
    rw [if_neg (by show ¬ (0 ≠ 0); simp)]
    have := mapM_const (b := List.replicate T (XR.fin 0)) (f := fun i => do
      let a ← (mat X).colM i
      (List.range (mat Y).ncols).mapM (fun j => do
        let b ← (mat Y).colM j
        pure (mmdot a b))) (List.range p) fun j hj => by
      rw [empty_colM rfl rfl (List.mem_range.mp hj)]
      have := mapM_const (b := XR.fin 0) (f := fun j => do
        let b ← (mat Y).colM j
        pure (mmdot [] b)) (List.range T) fun t ht => by
          rw [empty_colM rfl rfl (List.mem_range.mp ht)]
          rfl
      rw [List.length_range] at this
      exact this
    rw [List.length_range] at this
    dsimp only [bind, Except.bind] at this ⊢
    erw [this]
    rfl
  obtain ⟨L, h2⟩ := h2
  refine ⟨⟨L, ⟨T, List.replicate p (List.replicate T (XR.fin 0))⟩⟩, ?_, fun j hj => ?_⟩
  · show QuadraticMT.initDense _ = _
    unfold QuadraticMT.initDense
    dsimp only [bind, Except.bind]
    erw [h1]
    dsimp only
    erw [h2]
    rfl
  · show QuadraticMT.gradDense _ _ _ _ = _
    unfold QuadraticMT.gradDense
    dsimp only [denseDsMT]
    rw [empty_colM rfl rfl hj]
    have h3 : vecMul ([] : List XR) (Mat.zeros 0 T) = .ok (List.replicate T (XR.fin 0)) := by
      unfold vecMul
      rw [if_neg (by show ¬ (0 ≠ 0); simp)]
      have := mapM_const (b := XR.fin 0) (f := fun t => do
        let c ← (Mat.zeros 0 T : Mat XR).colM t
        pure (dot [] c)) (List.range T) fun t ht => by
          rw [empty_colM rfl rfl (List.mem_range.mp ht)]
          rfl
      rw [List.length_range] at this
      exact this
    dsimp only [bind, Except.bind]
    rw [h3]
    dsimp only [Mat.rowM]
    rw [getM_replicate _ hj]
    dsimp only
    rw [bop_zeros]
    exact congrArg _ (map_div_zero T)

theorem quadMT_csc_blank (A : CSCData 0 p) (Y : Fin 0 → Fin T → ℝ) :
    ∃ df', MTDatafit.init (QuadraticMT.new : QuadraticMT XR) (cscDsMT A Y) = .ok df' ∧
      ∀ j, j < p → MTDatafit.gradientJ df' (cscDsMT A Y) (Mat.zeros 0 T) j = .ok (List.replicate T XR.nan) := by
  refine ⟨⟨List.replicate p (XR.fin 0 /. ofNat 0), ⟨T, List.replicate p (List.replicate T (XR.fin 0))⟩⟩, ?_, fun j hj => ?_⟩
  · show QuadraticMT.initCSC _ = _
    unfold QuadraticMT.initCSC
    dsimp only [cscDsMT]
    rw [csc_nFeatures]
    dsimp only [bind, Except.bind]
    have := mapM_const (b := ((XR.fin 0 /. ofNat 0 : XR), List.replicate T (XR.fin 0 : XR))) (f := fun j => do
      let r ← A.toCSC.colRange j
      let (nrm2, xty) ← r.foldlM (fun (acc : XR × List XR) idx => do
        let d ← A.toCSC.dataAt idx
        let xty ← (List.range T).foldlM (fun xty t => do
          let a ← getM xty t
          let i ← A.toCSC.rowAt idx
          let yit ← (mat Y).get2 i t
          setM xty t (a +. d *. yit)) acc.2
        pure (acc.1 +. d *. d, xty)) (zero, List.replicate T zero)
      pure (nrm2 /. ofNat 0, xty)) (List.range p) fun j hj => by
        rw [empty_colRange A (List.mem_range.mp hj)]
        rfl
    rw [List.length_range] at this
    dsimp only [bind, Except.bind] at this
    erw [this]
    simp only [pure, Except.pure, List.map_replicate]
    rfl
  · show QuadraticMT.gradCSC _ _ _ _ = _
    unfold QuadraticMT.gradCSC
    dsimp only [cscDsMT]
    rw [empty_colRange A hj]
    dsimp only [bind, Except.bind, List.foldlM_nil, pure, Except.pure, Mat.rowM]
    rw [getM_replicate _ hj]
    dsimp only
    erw [bop_zeros]
    exact congrArg _ (map_div_zero T)

end Sglm
