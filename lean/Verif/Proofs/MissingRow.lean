import Verif.Proofs.MissingSparse

/-!
# Auxiliary lemmas: missing targets of samples with stored entries
-/

namespace Sglm
open Scalar Spec

/-- A coordinate with a NaN gradient stays at zero. -/
theorem idle_grad_nan {DM DF : Type} [DesignMatrix XR DM] [Datafit XR DM DF] {ds : Dataset DM XR} {df : DF} {a L : XR} {j : ℕ} {st : CDState XR}
    (h1 : getM (Datafit.stepSize (DM := DM) df) j = .ok L) (h2 : Datafit.gradientJ df ds st.Xw j = .ok XR.nan)
    (h3 : st.w[j]? = some zero) : cdStep ds df (L1.mk a) st j = .ok st := by
  unfold cdStep
  have e : getM st.w j = .ok zero := by unfold getM; rw [h3]
  have e2 : setM st.w j (XR.fin 0) = .ok st.w := by
    unfold setM
    obtain ⟨hlt, h4⟩ := List.getElem?_eq_some_iff.mp h3
    rw [if_pos hlt]
    congr 1
    have h5 : st.w.set j st.w[j] = st.w := List.set_getElem_self hlt
    rwa [h4] at h5
  rw [h1]
  dsimp only [bind, Except.bind]
  split
  · rfl
  rw [e, h2]
  dsimp only
  have hp : Penalty.prox (L1.mk a) ((zero : XR) -. XR.nan /. L) (one /. L) = .ok (XR.fin 0) := by
    have : ((zero : XR) -. XR.nan /. L) = XR.nan := by
      show XR.add (XR.fin 0) (XR.neg (XR.div XR.nan L)) = XR.nan
      rw [XR.nan_div]
      rfl
    rw [this]
    exact congrArg Except.ok (l1_prox_nan a _)
  rw [hp]
  dsimp only
  rw [e2]
  dsimp only
  rw [if_neg]
  · rfl
  · rw [XR.s_zero, XR.s_sub, XR.s_beq]
    simp

/-- A coordinate with NaN gradients ends at zero without acceleration. -/
theorem nan_grad_zero {DM DF : Type} [DesignMatrix XR DM] [Datafit XR DM DF] {ds : Dataset DM XR} {df0 df : DF} {a : XR} {n nf j : ℕ} (hj : j < nf)
    (hnf : DesignMatrix.nFeatures ds.designMatrix = .ok nf) (hi : Datafit.init df0 ds = .ok df) (hn : ds.targets.nSamples = n)
    (hf : SafeFit ds df n nf) (hl : ∀ k Xw d r, DesignMatrix.updateModelFit ds.designMatrix Xw d k = .ok r → r.length = Xw.length)
    (hg : ∀ Xw : List XR, Xw.length = n → Datafit.gradientJ df ds Xw j = .ok XR.nan) (srt : Argsort XR) (cfg : Solver XR)
    (hu : cfg.useAcceleration = false) {w : List XR} (hw : cfg.solve srt ds df0 (L1.mk a) = .ok w) : w[j]? = some (XR.fin 0) := by
  have hidle : ∀ st : CDState XR, st.w[j]? = some zero → st.Xw.length = n → cdStep ds df (L1.mk a) st j = .ok st := by
    intro st h1 h2
    have hs : j < (Datafit.stepSize (DM := DM) df).length := by rw [hf.step]; exact hj
    refine idle_grad_nan (L := (Datafit.stepSize (DM := DM) df)[j]) ?_ (hg _ h2) h1
    unfold getM
    rw [List.getElem?_eq_getElem hs]
  have H : SameBut ds ds df df (L1.mk a) (L1.dist (L1.mk a)) n j :=
    ⟨rfl, fun _ => rfl, fun _ _ _ => rfl, fun Xw hXw => ⟨_, _, hg Xw hXw, hg Xw hXw, rfl⟩, fun _ _ => rfl, fun _ _ _ _ => rfl, hl, hidle, hidle⟩
  exact (H.solve hj hnf hnf hi hi hn hn srt cfg hu).2 w hw

variable {X : CSC XR} {j n p : ℕ} {y : List XR}

theorem unseen_at (h : UnseenTarget X y j) {r : List Int} (hr : X.colRange j = .ok r) :
    ∃ idx ∈ r, ∃ i, X.rowAt idx = .ok i ∧ getM y i = .ok XR.nan := by
  obtain ⟨e, i, he, h1, h2⟩ := h
  refine ⟨e, (colRange_entry hr).mpr he, i, ?_, ?_⟩
  · unfold CSC.rowAt toIdx getM
    rw [if_pos (Int.natCast_nonneg e)]
    dsimp only [bind, Except.bind]
    rw [Int.toNat_natCast, h1]
    dsimp only
    rw [if_pos (Int.natCast_nonneg i), Int.toNat_natCast]
  · unfold getM
    rw [h2]

theorem mul_nan_xr (a : XR) : XR.mul a XR.nan = XR.nan := by cases a <;> rfl

theorem colSums_unseen (h : UnseenTarget X y j) : Tri (fun _ => True) (colSums X y n j) (fun b => b.2 = XR.nan) := by
  unfold colSums
  cases hr : X.colRange j with
  | error e => trivial
  | ok r =>
    obtain ⟨idx, hi, i, hd, hy⟩ := unseen_at h hr
    refine Tri.bind (m := .ok r) (Q := fun r' => r' = r) rfl fun r' e => ?_
    subst e
    refine Tri.bind (fold_sticky (Bad := fun b : XR × XR => b.2 = XR.nan) hi (fun s => ?_) (fun s a hs => ?_) _) fun b hb => hb
    · refine Tri.bind Tri.triv fun d _ => ?_
      rw [hd]
      refine Tri.bind (m := .ok i) (Q := fun d => d = i) rfl fun i' e => ?_
      subst e
      rw [hy]
      refine Tri.bind (m := .ok XR.nan) (Q := fun d => d = XR.nan) rfl fun yi e => ?_
      subst e
      show XR.add _ (XR.mul _ XR.nan) = _
      rw [mul_nan_xr, XR.add_nan]
    · refine Tri.bind Tri.triv fun d _ => ?_
      refine Tri.bind Tri.triv fun i _ => ?_
      refine Tri.bind Tri.triv fun yi _ => ?_
      show XR.add s.2 _ = _
      rw [hs, nan_add_xr]

theorem quad_csc_grad_unseen {df : Quadratic XR} (hx : df.Xty[j]? = some XR.nan) (T : Targets XR) (Xw : List XR) :
    Tri (fun _ => True) (Quadratic.gradCSC df ⟨X, T⟩ Xw j) (fun g => g = XR.nan) := by
  unfold Quadratic.gradCSC
  dsimp only
  refine Tri.bind Tri.triv fun r _ => ?_
  refine Tri.bind Tri.triv fun b _ => ?_
  unfold getM
  rw [hx]
  show XR.div (XR.add b (XR.neg XR.nan)) _ = _
  rw [show XR.neg XR.nan = XR.nan from rfl, XR.add_nan, XR.nan_div]

theorem log_csc_grad_unseen (h : UnseenTarget X y j) (Xw : List XR) :
    Tri (fun _ => True) (Logistic.gradCSC ⟨X, Targets.one y⟩ Xw j) (fun g => g = XR.nan) := by
  unfold Logistic.gradCSC
  dsimp only
  rw [single_one']
  refine Tri.bind (m := .ok y) (Q := fun y' => y' = y) rfl fun y' e => ?_
  subst e
  cases hr : X.colRange j with
  | error e => trivial
  | ok r =>
    obtain ⟨idx, hi, i, hd, hy⟩ := unseen_at h hr
    refine Tri.bind (m := .ok r) (Q := fun r' => r' = r) rfl fun r' e => ?_
    subst e
    refine fold_sticky (Bad := fun b : XR => b = XR.nan) hi (fun s => ?_) (fun s a hs => ?_) _
    · refine Tri.bind Tri.triv fun d _ => ?_
      rw [hd]
      refine Tri.bind (m := .ok i) (Q := fun d => d = i) rfl fun i' e => ?_
      subst e
      rw [hy]
      refine Tri.bind (m := .ok XR.nan) (Q := fun d => d = XR.nan) rfl fun yi e => ?_
      subst e
      refine Tri.bind Tri.triv fun xw _ => ?_
      show XR.add _ (XR.neg (XR.div (XR.mul (XR.mul _ XR.nan) _) _)) = _
      rw [mul_nan_xr, nan_mul_xr, XR.nan_div]
      exact XR.add_nan _
    · refine Tri.bind Tri.triv fun d _ => ?_
      refine Tri.bind Tri.triv fun i _ => ?_
      refine Tri.bind Tri.triv fun yi _ => ?_
      refine Tri.bind Tri.triv fun xw _ => ?_
      show XR.add s _ = _
      rw [hs, nan_add_xr]

end Sglm
