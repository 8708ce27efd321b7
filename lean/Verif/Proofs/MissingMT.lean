import Verif.Proofs.Missing
import Verif.Proofs.SafeMT
import Verif.Proofs.Length
import Verif.Proofs.Empty
import Verif.Proofs.FloatMTCheck
import Verif.Proofs.FloatMTAccel

/-!
# Auxiliary lemmas: features with missing values, several tasks
-/

namespace Sglm
open Scalar Spec

namespace MT
section
variable {DF P : Type} [MTDatafit XR (Mat XR) DF] [MTPenalty XR P] {ds : Dataset (Mat XR) XR} {df : DF} {pen : P} {n p T j : ℕ}

/-- Shapes. -/
def Sized (n p T : ℕ) (st : BCDState XR) : Prop := Shaped st.W p T ∧ Shaped st.XW n T

/-- The coefficients of the feature are NaN. -/
def Poisoned (n p T j : ℕ) (st : BCDState XR) : Prop := Sized n p T st ∧ st.W.rows[j]? = some (List.replicate T XR.nan)

theorem bcd_sized (ht : ds.targets.nTasks = T) (hf : SafeFit ds df n p T) (hS : SafePen pen) {st : BCDState XR} (hs : Sized n p T st) (k : ℕ) :
    Tri (fun _ => True) (bcdStep ds df pen st k) (Sized n p T) := by
  by_cases hk : k < p
  · have := bcdStep_safe ht hf hS hs.1 hs.2 hk
    revert this
    cases bcdStep ds df pen st k with
    | error e => exact fun _ => trivial
    | ok a => exact id
  · unfold bcdStep
    have : getM (MTDatafit.stepSize (DM := Mat XR) df) k = .error .index := by
      unfold getM
      rw [List.getElem?_eq_none (by rw [hf.step]; omega)]
    rw [this]
    trivial

theorem poison_row (ht : ds.targets.nTasks = T) (hj : j < p)
    (hp : MTPenalty.prox pen (List.replicate T XR.nan) XR.nan = .ok (List.replicate T XR.nan))
    (h1 : getM (MTDatafit.stepSize (DM := Mat XR) df) j = .ok XR.nan)
    (h2 : ∀ XW, Shaped XW n T → MTDatafit.gradientJ df ds XW j = .ok (List.replicate T XR.nan)) {st : BCDState XR} (hs : Sized n p T st) :
    Tri (fun _ => True) (bcdStep ds df pen st j) (fun s => s.W.rows[j]? = some (List.replicate T XR.nan)) := by
  obtain ⟨x, hx⟩ := matOf_of_shaped hs.1
  obtain ⟨j', rfl⟩ : ∃ j' : Fin p, j = j' := ⟨⟨j, hj⟩, rfl⟩
  have e0 : ∀ a : XR, List.replicate T a = List.ofFn fun _ : Fin T => a := fun a => (List.ofFn_const T a).symm
  unfold bcdStep
  rw [h1]
  dsimp only [bind, Except.bind]
  rw [if_neg (by rw [show (XR.nan ==. (zero : XR)) = false from rfl]; exact Bool.false_ne_true), hx, rowM_matOf, h2 _ hs.2]
  dsimp only
  rw [e0, List.map_ofFn, bop_ofFn]
  dsimp only
  have e1 : (List.ofFn fun i => Scalar.sub (x j' i) (((fun a : XR => a /. XR.nan) ∘ fun _ : Fin T => XR.nan) i)) = List.replicate T XR.nan := by
    rw [e0]
    congr 1
    funext i
    show XR.add (x j' i) XR.nan = XR.nan
    rw [XR.add_nan]
  rw [e1, show (one : XR) /. XR.nan = XR.nan from rfl, hp]
  dsimp only
  rw [ht]
  have hW := fold_matOf (fun (_ : Fin T) (_ : XR) => XR.nan) x j' (fun (A : Mat XR) t => do
    let u ← getM (List.replicate T XR.nan) t
    A.set2 j' t u) (by
      intro u t
      rw [e0]
      simp only [getM_ofFn, bind, Except.bind]
      exact set2_matOf u j' t XR.nan)
  dsimp only [bind, Except.bind] at hW
  rw [hW]
  dsimp only
  have hrow : (matOf (Function.update x j' fun _ => XR.nan)).rows[(j' : ℕ)]? = some (List.ofFn fun _ : Fin T => XR.nan) := by
    simp [matOf]
  refine Tri.bind Tri.triv fun d _ => ?_
  split
  · exact Tri.bind Tri.triv fun _ _ => hrow
  · exact hrow

theorem poison_off {st : BCDState XR} (hW : Shaped st.W p T) {k : ℕ} (hk : k ≠ j) :
    Tri (fun _ => True) (bcdStep ds df pen st k) (fun s => s.W.rows[j]? = st.W.rows[j]?) := by
  unfold bcdStep
  refine Tri.bind Tri.triv fun lj _ => ?_
  split
  · rfl
  · refine Tri.bind Tri.triv fun old _ => ?_
    refine Tri.bind Tri.triv fun g _ => ?_
    refine Tri.bind Tri.triv fun s1 _ => ?_
    refine Tri.bind Tri.triv fun v _ => ?_
    refine Tri.bind (Q := fun W : Mat XR => Shaped W p T ∧ W.rows[j]? = st.W.rows[j]?) ?_ fun W hk' => ?_
    · refine Tri.foldlM (fun W : Mat XR => Shaped W p T ∧ W.rows[j]? = st.W.rows[j]?) _ _ (fun A t _ hA => ?_) _ ⟨hW, rfl⟩
      refine Tri.bind Tri.triv fun u _ => ?_
      exact Tri.mono (set2_any hA.1 _ _ _) fun B hB => ⟨hB.1, (hB.2 j (Ne.symm hk)).trans hA.2⟩
    refine Tri.bind Tri.triv fun d _ => ?_
    split
    · exact Tri.bind Tri.triv fun _ _ => hk'.2
    · exact hk'.2

theorem poison_epoch (ht : ds.targets.nTasks = T) (hf : SafeFit ds df n p T) (hS : SafePen pen) (hj : j < p)
    (hp : MTPenalty.prox pen (List.replicate T XR.nan) XR.nan = .ok (List.replicate T XR.nan))
    (h1 : getM (MTDatafit.stepSize (DM := Mat XR) df) j = .ok XR.nan)
    (h2 : ∀ XW, Shaped XW n T → MTDatafit.gradientJ df ds XW j = .ok (List.replicate T XR.nan)) (ws : List ℕ) :
    ∀ {st : BCDState XR}, Sized n p T st → (j ∈ ws ∨ st.W.rows[j]? = some (List.replicate T XR.nan)) →
      Tri (fun _ => True) (bcdEpoch ds df pen ws st) (Poisoned n p T j) := by
  unfold bcdEpoch
  induction ws with
  | nil =>
    intro st hs h
    exact ⟨hs, h.resolve_left (by simp)⟩
  | cons k ws ih =>
    intro st hs h
    rw [List.foldlM_cons]
    by_cases hk : k = j
    · subst hk
      exact Tri.bind (Tri.and (bcd_sized ht hf hS hs k) (poison_row ht hj hp h1 h2 hs)) fun s hs' => ih hs'.1 (Or.inr hs'.2)
    · refine Tri.bind (Tri.and (bcd_sized ht hf hS hs k) (poison_off hs.1 hk)) fun s hs' => ih hs'.1 ?_
      rcases h with h | h
      · exact Or.inl ((List.mem_cons.mp h).resolve_left (Ne.symm hk))
      · exact Or.inr (hs'.2.trans h)

theorem all_in_ws {srt : Argsort XR} (hs : ArgsortSpec srt) {kkt : List XR} {W : Mat XR} {start : ℕ} (hk : kkt.length = W.nrows)
    (h0 : W.nrows ≤ start) : Tri (fun _ => True) (constructWs srt kkt W start) (fun r => ∀ j < W.nrows, j ∈ r.1) := by
  unfold constructWs
  refine Tri.bind (Q := fun r : List XR × ℕ => r.1.length = W.nrows) ?_ fun ⟨k', nnz⟩ hk' => ?_
  · unfold markSupport
    refine Tri.foldlM (fun r : List XR × ℕ => r.1.length = W.nrows) _ _ (fun r j hj hr => ?_) _ hk
    rw [List.mem_range] at hj
    refine Tri.bind Tri.triv fun wj _ => ?_
    split
    · refine Tri.bind (Tri.setM' _ (by rw [hr]; exact hj)) fun k h => ?_
      exact h.1.trans hr
    · exact hr
  · dsimp only at hk' ⊢
    by_cases hnan : k'.length < 2 ∨ ∀ x ∈ k', isNaN x = false
    · obtain ⟨π, h1, h2, -⟩ := hs.sorted k' hnan
      rw [h1]
      dsimp only [bind, Except.bind]
      split
      · intro j hj
        rw [List.take_of_length_le (by rw [h2.length_eq, List.length_range, hk']; exact le_trans h0 (le_max_left _ _))]
        exact h2.mem_iff.mpr (List.mem_range.mpr (by rw [hk']; exact hj))
      · trivial
    · push Not at hnan
      obtain ⟨h1, a, h2, h3⟩ := hnan
      rw [hs.nan k' h1 ⟨a, h2, by simpa using h3⟩]
      trivial

/-- Either the fit stops at the start or the coefficients of the feature are NaN. -/
theorem poison_solve {srt : Argsort XR} (hs : ArgsortSpec srt) (hn : ds.targets.nSamples = n) (ht : ds.targets.nTasks = T)
    (hf : SafeFit ds df n p T) (hS : SafePen pen) (hj : j < p)
    (hp : MTPenalty.prox pen (List.replicate T XR.nan) XR.nan = .ok (List.replicate T XR.nan))
    (h1 : getM (MTDatafit.stepSize (DM := Mat XR) df) j = .ok XR.nan)
    (h2 : ∀ XW, Shaped XW n T → MTDatafit.gradientJ df ds XW j = .ok (List.replicate T XR.nan))
    {df0 : DF} (hnf : DesignMatrix.nFeatures ds.designMatrix = .ok p) (hi : MTDatafit.init df0 ds = .ok df)
    (cfg : Solver XR) (hu : cfg.useAcceleration = false) (hw : p ≤ cfg.wsStartSize) (hm : 0 < cfg.maxIterations) (he : 0 < cfg.maxEpochs)
    {W : Mat XR} (h : cfg.solveMultiTask srt ds df0 pen = .ok W) :
    W = Mat.zeros p T ∨ W.rows[j]? = some (List.replicate T XR.nan) := by
  obtain ⟨r, hr, hrl⟩ := Tri.exists_ok (viol_safe ht hf hS (W := Mat.zeros p T) (XW := Mat.zeros n T) (ws := List.range p) Shaped.zeros Shaped.zeros
    fun j hj => List.mem_range.mp hj)
  rw [List.length_range] at hrl
  cases htol : (r.2 <=. cfg.tolerance) with
  | true =>
    left
    have := MT.solve_null srt cfg ds df0 df pen p r hnf hi (by rw [hn, ht]; exact hr) htol
    rw [this, ht] at h
    exact (Except.ok.inj h).symm
  | false =>
    right
    have key : Tri (fun _ => True) (runBCD srt ds df0 pen cfg) (fun q => Poisoned n p T j q.1) := by
      unfold runBCD
      rw [hnf, hn, ht]
      dsimp only [bind, Except.bind]
      rw [hi]
      dsimp only
      set sk := skelBCD srt ds df pen cfg p (ws0CD cfg p) with hsk
      have hacc : ∀ ws e b s, sk.accel ws e b s = .ok (b, s) := fun ws e b s => by
        show accelBCD ds df pen cfg ws e b s = _
        unfold accelBCD
        rw [if_neg (by rw [hu]; exact Bool.false_ne_true)]
        rfl
      have H : Skel.Hoare sk (fun _ => True) (Poisoned n p T j) (fun _ _ => True) (fun _ _ _ => True) :=
        ⟨fun s _ => Tri.triv, fun s _ _ _ _ _ => Tri.triv, fun _ _ _ => trivial,
          fun ws _ s hs' _ => poison_epoch ht hf hS hj hp h1 h2 ws hs'.1 (Or.inr hs'.2),
          fun ws _ e b s hs' _ _ => by rw [hacc]; exact ⟨trivial, hs'⟩, fun _ _ _ _ _ _ _ => Tri.triv⟩
      obtain ⟨m, hm'⟩ : ∃ m, cfg.maxIterations = m + 1 := ⟨_, (Nat.succ_pred_eq_of_pos hm).symm⟩
      rw [hm']
      unfold Skel.outer
      have hv : sk.viol (initBCD n p T) = .ok r := hr
      rw [hv]
      dsimp only [bind, Except.bind]
      rw [if_neg (by show ¬ (r.2 <=. cfg.tolerance) = true; rw [htol]; exact Bool.false_ne_true)]
      have hlen : (initBCD n p T : BCDState XR).W.nrows = p := Shaped.zeros.1
      refine Tri.bind (all_in_ws hs (by rw [hlen]; exact hrl) (by rw [hlen]; exact le_of_eq (min_eq_right hw).symm)) fun q hq => ?_
      obtain ⟨ws, sz⟩ := q
      dsimp only
      refine Tri.bind (Q := Poisoned n p T j) ?_ fun s1 hs1 => ?_
      · obtain ⟨m2, hm2⟩ : ∃ m, sk.maxEpochs = m + 1 := ⟨_, (Nat.succ_pred_eq_of_pos he).symm⟩
        rw [hm2]
        unfold Skel.inner
        refine Tri.bind (poison_epoch ht hf hS hj hp h1 h2 ws (st := initBCD n p T) ⟨Shaped.zeros, Shaped.zeros⟩
          (Or.inl (hq j (by rw [hlen]; exact hj)))) fun s hs' => ?_
        rw [hacc]
        show Tri _ (sk.stop ws sz r.2 0 s >>= fun c => if c = true then pure s else sk.inner ws sz r.2 m2 (0 + 1) (sk.buf0 sz) s) _
        refine Tri.bind Tri.triv fun c _ => ?_
        split
        · exact hs'
        · exact H.inner _ _ _ trivial _ _ _ _ trivial hs'
      · exact Tri.bind (H.outer m s1 hs1) fun q hq => hq.1
    rw [MT.solve_eq] at h
    cases h3 : runBCD srt ds df0 pen cfg with
    | error e => rw [h3] at h; cases h
    | ok q =>
      rw [h3] at h key
      rw [← Except.ok.inj h]
      exact key.2

end

section
variable {n p T : ℕ}

theorem poison_quad {P : Type} [MTPenalty XR P] {pen : P} (hS : SafePen pen)
    (hp : MTPenalty.prox pen (List.replicate T XR.nan) XR.nan = .ok (List.replicate T XR.nan)) {srt : Argsort XR} (hs : ArgsortSpec srt) {j : Fin p}
    {x : Fin n → Fin p → XR} (h : MissingIn j x) (y : Fin n → Fin T → XR) (cfg : Solver XR) (hu : cfg.useAcceleration = false)
    (hw : p ≤ cfg.wsStartSize) (hm : 0 < cfg.maxIterations) (he : 0 < cfg.maxEpochs) {W : Mat XR}
    (hr : cfg.solveMultiTask srt (⟨matOf x, Targets.two (matOf y)⟩ : Dataset (Mat XR) XR) (QuadraticMT.new : QuadraticMT XR) pen = .ok W) :
    W = Mat.zeros p T ∨ W.rows[(j : ℕ)]? = some (List.replicate T XR.nan) := by
  have hi := mt_init_dense_eq x y (QuadraticMT.new : QuadraticMT XR)
  have hns : (Targets.two (matOf y) : Targets XR).nSamples = n := matOf_nrows y
  have hf := quad_dense_safe (X := matOf x) (T := Targets.two (matOf y)) (shaped_matOf x) ⟨hns, rfl, shaped_matOf y⟩
    (QuadraticMT.new : QuadraticMT XR)
  rw [hi] at hf
  refine poison_solve (T := T) hs hns rfl hf hS j.2 hp ?_ (fun XW hXW => ?_) rfl hi cfg hu hw hm he hr
  · show getM (List.ofFn _) _ = _
    rw [getM_ofFn]
    show Except.ok (XR.div (XR.dot _ _) _) = _
    rw [nan_dot rfl (missing_mem h), XR.nan_div]
  · obtain ⟨z, rfl⟩ := matOf_of_shaped hXW
    refine (mt_grad_dense x y z _ _ j).trans ?_
    show _ = Except.ok (List.replicate T XR.nan)
    rw [← List.ofFn_const]
    congr 2
    funext t
    show XR.div (XR.add (XR.dot _ _) _) _ = _
    rw [nan_dot (by simp) (missing_mem h), XR.nan_add, XR.nan_div]

end
end MT

theorem nan_mul' (b : XR) : (XR.nan *. b : XR) = XR.nan := by cases b <;> rfl

theorem mul_nan' (b : XR) : (b *. XR.nan : XR) = XR.nan := by cases b <;> rfl

theorem lt_nan' (b : XR) : (b <. XR.nan) = false := by cases b <;> rfl

theorem block_nan (T : ℕ) : blockSoftThresholding (List.replicate T XR.nan) XR.nan = List.replicate T XR.nan := by
  unfold blockSoftThresholding
  dsimp only
  rw [lt_nan', if_neg Bool.false_ne_true, List.map_replicate, nan_mul']

theorem l21_prox_nan (a : XR) (T : ℕ) : L21.prox (L21.mk a) (List.replicate T XR.nan) XR.nan = List.replicate T XR.nan := by
  unfold L21.prox
  rw [mul_nan', block_nan]

theorem blockEnet_prox_nan (a r : XR) (T : ℕ) :
    BlockL1PlusL2.prox (BlockL1PlusL2.mk a r) (List.replicate T XR.nan) XR.nan = List.replicate T XR.nan := by
  unfold BlockL1PlusL2.prox
  dsimp only
  rw [mul_nan', nan_mul' r, block_nan, List.map_replicate]
  congr 1

theorem blockMCP_prox_nan (a g : XR) (T : ℕ) :
    BlockMCP.prox (BlockMCP.mk a g) (List.replicate T XR.nan) XR.nan = List.replicate T XR.nan := by
  unfold BlockMCP.prox
  dsimp only
  have e : ∀ b : XR, (b <=. XR.nan) = false := fun b => by cases b <;> rfl
  have e2 : ∀ b : XR, (XR.nan <. b) = false := fun b => by cases b <;> rfl
  rw [mul_nan', e, if_neg Bool.false_ne_true, mul_nan', e2, if_neg Bool.false_ne_true, List.map_replicate, mul_nan']
  congr 1

end Sglm
