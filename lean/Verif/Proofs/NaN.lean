import Verif.Proofs.SkelCD
import Verif.Proofs.Shapes
import Verif.Proofs.Runs
import Verif.XR

/-!
# Runs which stop at the start; NaN targets
-/

namespace Sglm
open Scalar Spec

/-- If the scores at zero are within the tolerance, the result is zero. -/
theorem solve_null {F DM DF P : Type} [Scalar F] [DesignMatrix F DM] [Datafit F DM DF] [Penalty F P]
    (srt : Argsort F) (cfg : Solver F) (ds : Dataset DM F) (df df' : DF) (pen : P) (nf : ℕ) (r : List F × F)
    (h1 : DesignMatrix.nFeatures ds.designMatrix = .ok nf) (h2 : Datafit.init df ds = .ok df')
    (h3 : optCondViolation ds (List.replicate nf zero) (List.replicate ds.targets.nSamples zero) (List.range nf) df' pen
      = .ok r) (h4 : (r.2 <=. cfg.tolerance) = true) :
    cfg.solve srt ds df pen = .ok (List.replicate nf zero) := by
  rw [solve_eq]
  unfold runCD
  rw [h1]
  dsimp only [bind, Except.bind]
  rw [h2]
  show (fun q : CDState F × ℕ => q.1.w) <$> (skelCD srt ds df' pen cfg nf (ws0CD cfg nf)).outer cfg.maxIterations
    (initCD ds.targets.nSamples nf) = _
  rw [Skel.outer_done _ _ _ r.1 r.2 h3 h4]
  rfl

namespace XR

theorem nan_add (a : XR) : XR.add .nan a = .nan := by cases a <;> rfl
theorem add_nan (a : XR) : XR.add a .nan = .nan := by cases a <;> rfl
theorem mul_nan (a : XR) : XR.mul a .nan = .nan := by cases a <;> rfl
theorem nan_div (a : XR) : XR.div .nan a = .nan := by cases a <;> rfl

theorem foldl_nan (l : List XR) : l.foldl XR.add .nan = .nan := by
  induction l with
  | nil => rfl
  | cons a l ih => rw [List.foldl_cons, nan_add, ih]

theorem sum_nan {l : List XR} (h : XR.nan ∈ l) (a : XR) : l.foldl XR.add a = .nan := by
  induction l generalizing a with
  | nil => cases h
  | cons b l ih =>
    rw [List.foldl_cons]
    rcases List.mem_cons.mp h with h | h
    · rw [← h, add_nan, foldl_nan]
    · exact ih h _

theorem dot_nan {a b : List XR} (hl : a.length = b.length) (h : XR.nan ∈ b) : XR.dot a b = .nan := by
  refine sum_nan ?_ _
  obtain ⟨i, hi, e⟩ := List.getElem_of_mem h
  refine List.mem_iff_getElem.mpr ⟨i, by simp; omega, ?_⟩
  rw [List.getElem_zipWith, e, mul_nan]

end XR

/-- `fmax` of zeros. -/
theorem maxDist_zeros {l : List XR} (h : ∀ x ∈ l, x = XR.fin 0) (τ : XR) (hτ : (XR.fin 0 <=. τ) = true) :
    (maxDist l <=. τ) = true := by
  have key : ∀ (l : List XR), (∀ x ∈ l, x = XR.fin 0) → l.foldl fmax (XR.fin 0) = XR.fin 0 := by
    intro l h
    induction l with
    | nil => rfl
    | cons a l ih =>
      rw [List.foldl_cons, h a List.mem_cons_self]
      have : (fmax (XR.fin 0) (XR.fin 0) : XR) = XR.fin 0 := by
        show XR.fmax _ _ = _
        show (if _ then _ else _) = _
        rw [ite_self]
      rw [this]
      exact ih fun x hx => h x (List.mem_cons_of_mem _ hx)
  unfold maxDist
  cases l with
  | nil =>
    show XR.le XR.ninf τ = true
    cases τ <;> first | rfl | exact hτ
  | cons a l =>
    rw [List.foldl_cons, h a List.mem_cons_self]
    have : (fmax negInf (XR.fin 0) : XR) = XR.fin 0 := rfl
    rw [this, key l fun x hx => h x (List.mem_cons_of_mem _ hx)]
    exact hτ

theorem single_one' {F : Type} (y : List F) : (Targets.one y).single = .ok y := by
  have : (Targets.one y).asMulti.colM 0 = .ok y := by
    unfold Mat.colM Targets.one
    rw [if_pos Nat.zero_lt_one]
    induction y with
    | nil => rfl
    | cons a y ih =>
      rw [List.map_cons, List.mapM_cons, ih]
      rfl
  unfold Targets.single Targets.trySingle
  rw [if_neg (by simp [Targets.one]), this]
  rfl

section
variable {X : Mat XR} {y : List XR} {n p : ℕ}

/-- Gradients at any point are NaN as soon as one target is. -/
theorem quad_init_nan (hX : Shaped X n p) (hy : y.length = n) (hn : XR.nan ∈ y) :
    Tri (fun _ => False) (Quadratic.initDense ⟨X, Targets.one y⟩)
      (fun df => df.Xty.length = p ∧ ∀ x ∈ df.Xty, x = XR.nan) := by
  unfold Quadratic.initDense
  dsimp only
  rw [single_one']
  show Tri _ (do let Xty ← tMulVec X y; let lipschitz ← colSqNorms X _; pure (⟨lipschitz, Xty⟩ : Quadratic XR)) _
  refine Tri.bind (Q := fun l => l.length = p ∧ ∀ x ∈ l, x = XR.nan) ?_ fun l hl => ?_
  · unfold tMulVec
    rw [if_neg (by show ¬ X.rows.length ≠ _; rw [hX.1, hy]; simp)]
    refine Tri.mono (Tri.mapM_len (fun x => x = XR.nan) _ _ fun j hj => ?_) fun l hl => ⟨?_, hl.2⟩
    · refine Tri.bind (hX.colM (by rw [List.mem_range, hX.2.1] at hj; exact hj)) fun c hc => ?_
      exact XR.dot_nan (by rw [hc, hy]) hn
    · rw [hl.1, List.length_range, hX.2.1]
  · refine Tri.bind (Q := fun _ => True) ?_ fun _ _ => hl
    unfold colSqNorms
    refine Tri.mono (Tri.mapM_len (fun _ => True) _ _ fun j hj => ?_) fun _ _ => trivial
    exact Tri.bind (hX.colM (by rw [List.mem_range, hX.2.1] at hj; exact hj)) fun c hc => trivial

theorem quad_grad_nan (hX : Shaped X n p) {T : Targets XR} {df : Quadratic XR} (hl : df.Xty.length = p)
    (hn : ∀ x ∈ df.Xty, x = XR.nan) {Xw : List XR} (hw : Xw.length = n) {j : ℕ} (hj : j < p) :
    Tri (fun _ => False) (Quadratic.gradDense df ⟨X, T⟩ Xw j) (fun g => g = XR.nan) := by
  unfold Quadratic.gradDense
  refine Tri.bind (hX.colM hj) fun c hc => ?_
  refine Tri.bind (dotM_safe (by rw [hc, hw])) fun r _ => ?_
  refine Tri.bind (Tri.getM' (by rw [hl]; exact hj)) fun a ha => ?_
  rw [hn a ha]
  show XR.div (XR.add r XR.nan) _ = XR.nan
  rw [XR.add_nan, XR.nan_div]

/-- All scores at zero vanish for NaN gradients. -/
theorem scores_nan {f : XR → XR → XR} (hf : f (XR.fin 0) XR.nan = XR.fin 0) {g : List XR}
    (hn : ∀ x ∈ g, x = XR.nan) :
    Tri (fun _ => False) (sepDistances f (List.replicate p (XR.fin 0)) g (List.range p))
      (fun r => r.2 = maxDist r.1 ∧ ∀ x ∈ r.1, x = XR.fin 0) := by
  unfold sepDistances
  refine Tri.bind (Tri.mapM_len (fun x => x = XR.fin 0) _ _ fun a ha => ?_) fun l hl => ⟨rfl, hl.2⟩
  have h2 := List.of_mem_zip ha
  refine Tri.bind (Tri.getM' (by rw [List.length_replicate]; exact List.mem_range.mp h2.2)) fun b hb => ?_
  rw [List.eq_of_mem_replicate hb, hn _ h2.1]
  exact hf

/-- Least squares with a NaN target: the result is zero. -/
theorem solve_nan {P : Type} [Penalty XR P] (pen : P) (f : XR → XR → XR)
    (hp : Penalty.subdiffDistance pen = sepDistances f) (hf : f (XR.fin 0) XR.nan = XR.fin 0) (srt : Argsort XR)
    (cfg : Solver XR) (ht : (XR.fin 0 <=. cfg.tolerance) = true)
    (hX : Shaped X n p) (hy : y.length = n) (hn : XR.nan ∈ y) :
    cfg.solve srt ⟨X, Targets.one y⟩ (Quadratic.new : Quadratic XR) pen = .ok (List.replicate p (XR.fin 0)) := by
  obtain ⟨df, h1, h2, h3⟩ := (quad_init_nan hX hy hn).exists_ok
  have key : Tri (fun _ => False) (optCondViolation (⟨X, Targets.one y⟩ : Dataset (Mat XR) XR)
      (List.replicate p (XR.fin 0)) (List.replicate y.length (XR.fin 0)) (List.range p) df pen)
      (fun r => r.2 = maxDist r.1 ∧ ∀ x ∈ r.1, x = XR.fin 0) := by
    unfold optCondViolation constructGrad
    refine Tri.bind (Tri.mapM_len (fun x => x = XR.nan) _ _ fun j hj =>
      quad_grad_nan hX h2 h3 (by rw [List.length_replicate, hy]) (List.mem_range.mp hj)) fun g hg => ?_
    rw [hp]
    exact scores_nan hf hg.2
  obtain ⟨r, h4, h5, h6⟩ := key.exists_ok
  exact solve_null srt cfg _ _ df pen p r (congrArg Except.ok hX.2.1) h1 h4
    (by rw [h5]; exact maxDist_zeros h6 _ ht)

end
end Sglm
