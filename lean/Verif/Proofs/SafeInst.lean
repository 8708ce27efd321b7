import Verif.Proofs.Safe
import Verif.Spec.Shapes

/-!
# The datafits of the crate on shape-consistent data
-/

set_option linter.unusedSectionVars false

namespace Sglm
open Scalar Spec

section
variable {F : Type} {n p t : ℕ}

theorem single_safe {T : Targets F} (h : ShapedTargets T n 1) : Ok T.single (fun y => y.length = n) := by
  unfold Targets.single Targets.trySingle
  rw [if_neg (by rw [h.multi.2.1]; simp)]
  simp only [bind_assoc]
  refine Tri.bind (h.multi.colM Nat.zero_lt_one) fun y hy => ?_
  exact hy

theorem shaped_one {y : List F} : ShapedTargets (Targets.one y) y.length 1 := by
  refine ⟨rfl, rfl, by simp [Targets.one], rfl, fun x hx => ?_⟩
  obtain ⟨v, -, rfl⟩ := List.mem_map.mp hx
  rfl

theorem shaped_two {Y : Mat F} (h : Shaped Y n t) : ShapedTargets (Targets.two Y) n t :=
  ⟨h.1, h.2.1, h⟩

namespace ShapedCSC
variable {X : CSC F}

theorem nFeatures (h : ShapedCSC X n p) : X.nFeatures = .ok p := by
  unfold CSC.nFeatures subM
  rw [h.indptr, if_pos (by omega)]
  rfl

theorem dataAt (_h : ShapedCSC X n p) {k : Int} (hk : 0 ≤ k ∧ k < X.data.length ∧ k < X.indices.length) :
    Ok (X.dataAt k) (fun _ => True) := by
  unfold CSC.dataAt toIdx
  rw [if_pos hk.1]
  refine Tri.bind (Q := fun i => i = k.toNat) rfl fun i hi => ?_
  subst hi
  exact Tri.mono (Tri.getM' (by omega)) fun _ _ => trivial

theorem rowAt (h : ShapedCSC X n p) {k : Int} (hk : 0 ≤ k ∧ k < X.data.length ∧ k < X.indices.length) :
    Ok (X.rowAt k) (fun i => i < n) := by
  unfold CSC.rowAt toIdx
  rw [if_pos hk.1]
  refine Tri.bind (Q := fun i => i = k.toNat) rfl fun i hi => ?_
  subst hi
  refine Tri.bind (Tri.getM' (by omega)) fun r hr => ?_
  obtain ⟨h1, h2⟩ := h.row r hr
  rw [if_pos h1]
  show r.toNat < n
  omega

theorem colRange (h : ShapedCSC X n p) {j : ℕ} (hj : j < p) :
    Ok (X.colRange j) (fun r => ∀ k ∈ r, 0 ≤ k ∧ k < X.data.length ∧ k < X.indices.length) := by
  unfold CSC.colRange
  refine Tri.bind (Tri.getM (by rw [h.indptr]; omega)) fun a ha => ?_
  refine Tri.bind (Tri.getM (by rw [h.indptr]; omega)) fun b hb => ?_
  intro k hk
  unfold intRange at hk
  obtain ⟨i, hi, rfl⟩ := List.mem_map.mp hk
  rw [List.mem_range] at hi
  exact h.entry j a b ha hb _ (by omega) (by omega)

end ShapedCSC

variable [Scalar F]

theorem colSqNorms_safe {X : Mat F} (hX : Shaped X n p) (c : F) :
    Ok (colSqNorms X c) (fun l => l.length = p) := by
  unfold colSqNorms
  refine Tri.mono (Tri.mapM_len (fun _ => True) _ _ fun j hj => ?_)
    fun x hx => by rw [hx.1, List.length_range, hX.2.1]
  rw [List.mem_range, hX.2.1] at hj
  exact Tri.bind (hX.colM hj) fun _ _ => trivial

theorem dense_upd_safe {X : Mat F} (hX : Shaped X n p) {Xw : List F} (d : F) {j : ℕ} (hw : Xw.length = n)
    (hj : j < p) : Ok (X.updateModelFit Xw d j) (fun v => v.length = n) := by
  unfold Mat.updateModelFit
  refine Tri.bind (hX.colM hj) fun c hc => ?_
  exact Tri.mono (scaledAdd_safe d (by rw [hw, hc])) fun v hv => by rw [hv, hw]

theorem dense_extra_safe {X : Mat F} (hX : Shaped X n p) {w : List F} {ws : List ℕ}
    (hws : ∀ j ∈ ws, j < p) (hw : w.length = p) : Ok (X.extrapolatedFit ws w) (fun v => v.length = n) := by
  unfold Mat.extrapolatedFit
  refine Tri.mono (Tri.mapM_len (fun _ => True) _ _ fun row hrow => ?_) fun v hv => by rw [hv.1, hX.1]
  refine Tri.bind (Tri.mapM_len (fun _ => True) _ _ fun j hj => ?_) fun _ _ => trivial
  refine Tri.bind (Tri.getM' (by rw [hX.2.2 row hrow]; exact hws j hj)) fun _ _ => ?_
  exact Tri.bind (Tri.getM' (by rw [hw]; exact hws j hj)) fun _ _ => trivial

theorem csc_upd_safe {X : CSC F} (hX : ShapedCSC X n p) {Xw : List F} (d : F) {j : ℕ} (hw : Xw.length = n)
    (hj : j < p) : Ok (X.updateModelFit Xw d j) (fun v => v.length = n) := by
  unfold CSC.updateModelFit
  refine Tri.bind (ShapedCSC.colRange hX hj) fun r hr => ?_
  refine Tri.foldlM (fun v : List F => v.length = n) _ _ (fun acc k hk hacc => ?_) _ hw
  refine Tri.bind (ShapedCSC.rowAt hX (hr k hk)) fun i hi => ?_
  refine Tri.bind (Tri.getM' (by rw [hacc]; exact hi)) fun a _ => ?_
  refine Tri.bind (ShapedCSC.dataAt hX (hr k hk)) fun x _ => ?_
  exact Tri.mono (Tri.setM' _ (by rw [hacc]; exact hi)) fun v hv => by rw [hv.1, hacc]

theorem csc_extra_safe {X : CSC F} (hX : ShapedCSC X n p) {w : List F} {ws : List ℕ}
    (hws : ∀ j ∈ ws, j < p) (hw : w.length = p) : Ok (X.extrapolatedFit ws w n) (fun v => v.length = n) := by
  unfold CSC.extrapolatedFit
  refine Tri.foldlM (fun v : List F => v.length = n) _ _ (fun acc j hj hacc => ?_) _ (by simp)
  refine Tri.bind (ShapedCSC.colRange hX (hws j hj)) fun r hr => ?_
  refine Tri.foldlM (fun v : List F => v.length = n) _ _ (fun acc k hk hacc => ?_) _ hacc
  refine Tri.bind (ShapedCSC.rowAt hX (hr k hk)) fun i hi => ?_
  refine Tri.bind (Tri.getM' (by rw [hacc]; exact hi)) fun a _ => ?_
  refine Tri.bind (ShapedCSC.dataAt hX (hr k hk)) fun x _ => ?_
  refine Tri.bind (Tri.getM' (by rw [hw]; exact hws j hj)) fun a _ => ?_
  exact Tri.mono (Tri.setM' _ (by rw [hacc]; exact hi)) fun v hv => by rw [hv.1, hacc]

theorem quad_value_safe {DM : Type} {ds : Dataset DM F} (hT : ShapedTargets ds.targets n 1) {Xw : List F}
    (hX : Xw.length = n) : Ok (Quadratic.value ds Xw) (fun _ => True) := by
  unfold Quadratic.value
  refine Tri.bind (single_safe hT) fun y hy => ?_
  refine Tri.bind (bop_safe _ (by rw [hy, hX])) fun r hr => ?_
  exact Tri.bind (dotM_safe rfl) fun _ _ => trivial

theorem quad_dense_safe {X : Mat F} {T : Targets F} (hX : Shaped X n p) (hT : ShapedTargets T n 1)
    (df0 : Quadratic F) : Ok (Datafit.init df0 (⟨X, T⟩ : Dataset (Mat F) F))
      (fun df => SafeFit (⟨X, T⟩ : Dataset (Mat F) F) df n p) := by
  show Ok (Quadratic.initDense _) _
  unfold Quadratic.initDense
  refine Tri.bind (single_safe hT) fun y hy => ?_
  refine Tri.bind (tMulVec_safe hX hy) fun xty hxty => ?_
  refine Tri.bind (colSqNorms_safe hX _) fun l hl => ?_
  refine ⟨hl, fun Xw j h1 h2 => ?_, fun Xw h1 => quad_value_safe hT h1,
    fun Xw d j h1 h2 => dense_upd_safe hX d h1 h2, fun ws w h1 h2 => dense_extra_safe hX h1 h2⟩
  show Ok (Quadratic.gradDense _ _ _ _) _
  unfold Quadratic.gradDense
  refine Tri.bind (hX.colM h2) fun c hc => ?_
  refine Tri.bind (dotM_safe (by rw [hc, h1])) fun _ _ => ?_
  exact Tri.bind (Tri.getM' (by rw [hxty]; exact h2)) fun _ _ => trivial

theorem quad_csc_safe {X : CSC F} {T : Targets F} (hX : ShapedCSC X n p) (hT : ShapedTargets T n 1)
    (df0 : Quadratic F) : Ok (Datafit.init df0 (⟨X, T⟩ : Dataset (CSC F) F))
      (fun df => SafeFit (⟨X, T⟩ : Dataset (CSC F) F) df n p) := by
  show Ok (Quadratic.initCSC _) _
  unfold Quadratic.initCSC
  refine Tri.bind (Q := fun k => k = p) (by rw [ShapedCSC.nFeatures hX]; rfl) fun k hk => ?_
  subst hk
  refine Tri.bind (single_safe hT) fun y hy => ?_
  refine Tri.bind (Tri.mapM_len (fun _ => True) _ _ fun j hj => ?_) fun ps hps => ?_
  · rw [List.mem_range] at hj
    refine Tri.bind (ShapedCSC.colRange hX hj) fun r hr => ?_
    refine Tri.bind (Q := fun _ => True) ?_ fun _ _ => trivial
    refine Tri.foldlM (fun _ => True) _ _ (fun acc k hk _ => ?_) _ trivial
    refine Tri.bind (ShapedCSC.dataAt hX (hr k hk)) fun x _ => ?_
    refine Tri.bind (ShapedCSC.rowAt hX (hr k hk)) fun i hi => ?_
    exact Tri.bind (Tri.getM' (by rw [hy]; exact hi)) fun _ _ => trivial
  rw [List.length_range] at hps
  refine ⟨by show (ps.map Prod.fst).length = _; rw [List.length_map, hps.1], fun Xw j h1 h2 => ?_,
    fun Xw h1 => quad_value_safe hT h1,
    fun Xw d j h1 h2 => csc_upd_safe hX d h1 h2, fun ws w h1 h2 => csc_extra_safe hX h1 h2⟩
  show Ok (Quadratic.gradCSC _ _ _ _) _
  unfold Quadratic.gradCSC
  refine Tri.bind (ShapedCSC.colRange hX h2) fun r hr => ?_
  refine Tri.bind (Q := fun _ => True) ?_ fun _ _ => ?_
  · refine Tri.foldlM (fun _ => True) _ _ (fun acc k hk _ => ?_) _ trivial
    refine Tri.bind (ShapedCSC.dataAt hX (hr k hk)) fun x _ => ?_
    refine Tri.bind (ShapedCSC.rowAt hX (hr k hk)) fun i hi => ?_
    exact Tri.bind (Tri.getM' (by rw [h1]; exact hi)) fun _ _ => trivial
  · exact Tri.bind (Tri.getM' (by rw [List.length_map, hps.1]; exact h2)) fun _ _ => trivial

theorem log_value_safe {DM : Type} {ds : Dataset DM F} (hT : ShapedTargets ds.targets n 1) (Xw : List F) :
    Ok (Logistic.value ds Xw) (fun _ => True) := by
  unfold Logistic.value
  exact Tri.bind (single_safe hT) fun y hy => trivial

theorem log_dense_safe {X : Mat F} {T : Targets F} (hX : Shaped X n p) (hT : ShapedTargets T n 1)
    (df0 : Logistic F) : Ok (Datafit.init df0 (⟨X, T⟩ : Dataset (Mat F) F))
      (fun df => SafeFit (⟨X, T⟩ : Dataset (Mat F) F) df n p) := by
  show Ok (Logistic.initDense _) _
  unfold Logistic.initDense
  refine Tri.bind (colSqNorms_safe hX _) fun l hl => ?_
  refine ⟨hl, fun Xw j h1 h2 => ?_, fun Xw h1 => log_value_safe hT _,
    fun Xw d j h1 h2 => dense_upd_safe hX d h1 h2, fun ws w h1 h2 => dense_extra_safe hX h1 h2⟩
  show Ok (Logistic.gradDense _ _ _) _
  unfold Logistic.gradDense
  refine Tri.bind (single_safe hT) fun y hy => ?_
  refine Tri.bind (hX.colM h2) fun c hc => ?_
  exact Tri.bind (dotM_safe (by rw [hc, List.length_zipWith, hy, h1, Nat.min_self])) fun _ _ => trivial

theorem log_csc_safe {X : CSC F} {T : Targets F} (hX : ShapedCSC X n p) (hT : ShapedTargets T n 1)
    (df0 : Logistic F) : Ok (Datafit.init df0 (⟨X, T⟩ : Dataset (CSC F) F))
      (fun df => SafeFit (⟨X, T⟩ : Dataset (CSC F) F) df n p) := by
  show Ok (Logistic.initCSC _) _
  unfold Logistic.initCSC
  refine Tri.bind (Q := fun k => k = p) (by rw [ShapedCSC.nFeatures hX]; rfl) fun k hk => ?_
  subst hk
  refine Tri.bind (Tri.mapM_len (fun _ => True) _ _ fun j hj => ?_) fun ps hps => ?_
  · rw [List.mem_range] at hj
    refine Tri.bind (ShapedCSC.colRange hX hj) fun r hr => ?_
    refine Tri.bind (Q := fun _ => True) ?_ fun _ _ => trivial
    refine Tri.foldlM (fun _ => True) _ _ (fun acc k hk _ => ?_) _ trivial
    exact Tri.bind (ShapedCSC.dataAt hX (hr k hk)) fun x _ => trivial
  rw [List.length_range] at hps
  refine ⟨hps.1, fun Xw j h1 h2 => ?_,
    fun Xw h1 => log_value_safe hT _,
    fun Xw d j h1 h2 => csc_upd_safe hX d h1 h2, fun ws w h1 h2 => csc_extra_safe hX h1 h2⟩
  show Ok (Logistic.gradCSC _ _ _) _
  unfold Logistic.gradCSC
  refine Tri.bind (single_safe hT) fun y hy => ?_
  refine Tri.bind (ShapedCSC.colRange hX h2) fun r hr => ?_
  refine Tri.foldlM (fun _ => True) _ _ (fun acc k hk _ => ?_) _ trivial
  refine Tri.bind (ShapedCSC.dataAt hX (hr k hk)) fun x _ => ?_
  refine Tri.bind (ShapedCSC.rowAt hX (hr k hk)) fun i hi => ?_
  refine Tri.bind (Tri.getM' (by rw [hy]; exact hi)) fun _ _ => ?_
  exact Tri.bind (Tri.getM' (by rw [h1]; exact hi)) fun _ _ => trivial

end
end Sglm
