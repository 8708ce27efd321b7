import Verif.Spec.StoredRows
import Verif.Proofs.Missing
import Verif.Proofs.MissingMT
import Verif.Proofs.Safe
import Verif.Proofs.SafeMT
import Verif.Proofs.Guard

/-!
# Auxiliary lemmas: samples without stored entries
-/

set_option linter.unusedSectionVars false

namespace Sglm
open Scalar Spec

section
variable {F P : Type} [Scalar F] {X : CSC F} {y y' : List F}

theorem rowAt_mem {idx : Int} {i : ℕ} (h : X.rowAt idx = .ok i) : (i : Int) ∈ X.indices := by
  unfold CSC.rowAt at h
  cases h1 : toIdx idx with
  | error e => rw [h1] at h; cases h
  | ok a =>
    rw [h1] at h
    cases h2 : getM X.indices a with
    | error e =>
      dsimp only [bind, Except.bind] at h
      rw [h2] at h; cases h
    | ok r =>
      dsimp only [bind, Except.bind] at h
      rw [h2] at h
      dsimp only at h
      unfold toIdx at h
      split at h
      · injection h with h
        have : (i : Int) = r := by rw [← h]; omega
        rw [this]
        unfold getM at h2
        split at h2
        · rename_i b hb
          injection h2 with h2
          rw [← h2]
          exact List.mem_of_getElem? hb
        · cases h2
      · cases h

theorem AgreeOnStored_get (h : AgreeOnStored X y y') {i : ℕ} (hi : (i : Int) ∈ X.indices) : getM y i = getM y' i := by
  unfold getM
  rw [h.2 i hi]

/-- Reading the target of a stored entry. -/
theorem stored_target {β : Type} (h : AgreeOnStored X y y') (idx : Int) (k : ℕ → F → M β) :
    (do let i ← X.rowAt idx; let yi ← getM y i; k i yi) = (do let i ← X.rowAt idx; let yi ← getM y' i; k i yi) := by
  cases hr : X.rowAt idx with
  | error e => rfl
  | ok i =>
    show (do let yi ← getM y i; k i yi) = (do let yi ← getM y' i; k i yi)
    rw [AgreeOnStored_get h (rowAt_mem hr)]

theorem nSamples_one (y : List F) : (Targets.one y).nSamples = y.length := by
  simp [Targets.one]

theorem quad_init_stored (h : AgreeOnStored X y y') :
    Quadratic.initCSC (⟨X, Targets.one y⟩ : Dataset (CSC F) F) = Quadratic.initCSC (⟨X, Targets.one y'⟩ : Dataset (CSC F) F) := by
  unfold Quadratic.initCSC
  dsimp only
  rw [single_one', single_one', nSamples_one, nSamples_one, h.1]
  dsimp only [bind, Except.bind]
  have e : (fun (acc : F × F) idx => do
      let d ← X.dataAt idx
      let i ← X.rowAt idx
      let yi ← getM y i
      pure (acc.1 +. d *. d, acc.2 +. d *. yi) : F × F → Int → M (F × F)) = (fun (acc : F × F) idx => do
      let d ← X.dataAt idx
      let i ← X.rowAt idx
      let yi ← getM y' i
      pure (acc.1 +. d *. d, acc.2 +. d *. yi)) := by
    funext acc idx
    cases X.dataAt idx with
    | error e => rfl
    | ok d => exact stored_target h idx _
  dsimp only [bind, Except.bind] at e
  rw [e]

theorem quad_grad_stored (h : AgreeOnStored X y y') (df : Quadratic F) (Xw : List F) (j : ℕ) :
    Quadratic.gradCSC df (⟨X, Targets.one y⟩ : Dataset (CSC F) F) Xw j = Quadratic.gradCSC df ⟨X, Targets.one y'⟩ Xw j := by
  unfold Quadratic.gradCSC
  dsimp only
  rw [nSamples_one, nSamples_one, h.1]

theorem log_init_stored (h : AgreeOnStored X y y') :
    Logistic.initCSC (⟨X, Targets.one y⟩ : Dataset (CSC F) F) = Logistic.initCSC (⟨X, Targets.one y'⟩ : Dataset (CSC F) F) := by
  unfold Logistic.initCSC
  dsimp only
  rw [nSamples_one, nSamples_one, h.1]

theorem log_grad_stored (h : AgreeOnStored X y y') (Xw : List F) (j : ℕ) :
    Logistic.gradCSC (⟨X, Targets.one y⟩ : Dataset (CSC F) F) Xw j = Logistic.gradCSC ⟨X, Targets.one y'⟩ Xw j := by
  unfold Logistic.gradCSC
  dsimp only
  rw [single_one', single_one', nSamples_one, nSamples_one, h.1]
  dsimp only [bind, Except.bind]
  have e : (fun (grad : F) idx => do
      let d ← X.dataAt idx
      let i ← X.rowAt idx
      let yi ← getM y i
      let xw ← getM Xw i
      pure (grad -. d *. yi *. sigmoid ((-.yi) *. xw) /. ofNat y'.length) : F → Int → M F) = (fun (grad : F) idx => do
      let d ← X.dataAt idx
      let i ← X.rowAt idx
      let yi ← getM y' i
      let xw ← getM Xw i
      pure (grad -. d *. yi *. sigmoid ((-.yi) *. xw) /. ofNat y'.length)) := by
    funext acc idx
    cases X.dataAt idx with
    | error e => rfl
    | ok d => exact stored_target h idx _
  dsimp only [bind, Except.bind] at e
  rw [e]

theorem csc_upd_length {Xw r : List F} {d : F} {j : ℕ} (h : X.updateModelFit Xw d j = .ok r) : r.length = Xw.length := by
  have : Tri (fun _ => True) (X.updateModelFit Xw d j) (fun r : List F => r.length = Xw.length) := by
    unfold CSC.updateModelFit
    refine Tri.bind Tri.triv fun rg _ => ?_
    refine Tri.foldlM (fun a : List F => a.length = Xw.length) _ _ (fun a idx _ ha => ?_) _ rfl
    refine Tri.bind Tri.triv fun i _ => ?_
    refine Tri.bind Tri.triv fun b _ => ?_
    refine Tri.bind Tri.triv fun c _ => ?_
    unfold setM
    split
    · show (List.set _ _ _).length = _
      rw [List.length_set]; exact ha
    · trivial
  have h2 := Tri.elim_ok this h
  exact h2

/-- Two problems with the same gradients and steps, whose values may differ (but do not panic), have the same fits without acceleration. -/
theorem same_grad_solve {DF : Type} [Datafit F (CSC F) DF] [Penalty F P] {ds ds' : Dataset (CSC F) F} {df0 df0' df : DF} {pen : P} {n nf : ℕ}
    (hX : ds.designMatrix = ds'.designMatrix)
    (hnf : DesignMatrix.nFeatures ds.designMatrix = .ok nf)
    (hi : Datafit.init df0 ds = .ok df) (hi' : Datafit.init df0' ds' = .ok df) (hn : ds.targets.nSamples = n) (hn' : ds'.targets.nSamples = n)
    (hg : ∀ Xw j, Datafit.gradientJ df ds Xw j = Datafit.gradientJ df ds' Xw j)
    (hv : ∀ Xw : List F, Xw.length = n → ∃ a a', Datafit.value df ds Xw = .ok a ∧ Datafit.value df ds' Xw = .ok a')
    (srt : Argsort F) (cfg : Solver F) (hu : cfg.useAcceleration = false) :
    cfg.solve srt ds df0 pen = cfg.solve srt ds' df0' pen := by
  have hviol : ∀ (w Xw : List F) (ws : List ℕ), optCondViolation ds w Xw ws df pen = optCondViolation ds' w Xw ws df pen := by
    intro w Xw ws
    unfold optCondViolation constructGrad
    simp only [hg]
  have hstep : ∀ (st : CDState F) (k : ℕ), cdStep ds df pen st k = cdStep ds' df pen st k := by
    intro st k
    unfold cdStep
    simp only [hg, hX]
  have key : RelM (fun a b => a = b ∧ a.1.Xw.length = n) (runCD srt ds df0 pen cfg) (runCD srt ds' df0' pen cfg) := by
    unfold runCD
    rw [← hX, hnf, hn, hn']
    dsimp only [bind, Except.bind]
    rw [hi, hi']
    dsimp only
    refine Skel.outer_congr (sk := skelCD srt ds df pen cfg nf (ws0CD cfg nf)) (sk' := skelCD srt ds' df pen cfg nf (ws0CD cfg nf))
      (Inv := fun s => s.Xw.length = n) rfl rfl rfl rfl (fun s hs => hviol _ _ _) (fun ws s hs => ?_) (fun ws e b s hs => ?_)
      (fun ws sz km e s hs => ?_) _ _ ?_
    · show RelM _ (cdEpoch ds df pen ws s) (cdEpoch ds' df pen ws s)
      unfold cdEpoch
      refine RelM.foldlM (fun a b => a = b ∧ a.Xw.length = n) _ _ ws (fun a b k _ hab => ?_) s s ⟨rfl, hs⟩
      obtain ⟨e, hab⟩ := hab
      subst e
      rw [← hstep]
      cases hc : cdStep ds df pen a k with
      | error e => exact rfl
      | ok r =>
        refine ⟨rfl, ?_⟩
        have ht : Tri (fun _ => True) (cdStep ds df pen a k) (fun r => r.Xw.length = a.Xw.length) := by
          unfold cdStep
          refine Tri.bind Tri.triv fun _ _ => ?_
          split
          · exact rfl
          refine Tri.bind Tri.triv fun _ _ => ?_
          refine Tri.bind Tri.triv fun _ _ => ?_
          refine Tri.bind Tri.triv fun _ _ => ?_
          refine Tri.bind Tri.triv fun _ _ => ?_
          dsimp only
          split
          · rename_i d _
            cases hup : (DesignMatrix.updateModelFit ds.designMatrix a.Xw _ k : M (List F)) with
            | error e => trivial
            | ok r => exact csc_upd_length hup
          · exact rfl
        have h2 := Tri.elim_ok ht hc
        show r.Xw.length = n
        rw [h2, hab]
    · show RelM _ (accelCD ds df pen cfg ws e b s) (accelCD ds' df pen cfg ws e b s)
      unfold accelCD
      rw [if_neg (by rw [hu]; exact Bool.false_ne_true), if_neg (by rw [hu]; exact Bool.false_ne_true)]
      exact ⟨rfl, hs⟩
    · show stopCD ds df pen _ _ _ _ _ _ _ = stopCD ds' df pen _ _ _ _ _ _ _
      unfold stopCD
      split
      · obtain ⟨a, a', h1, h2⟩ := hv s.Xw hs
        unfold objective
        rw [h1, h2, hviol]
        dsimp only [bind, Except.bind]
        cases Penalty.value pen s.w <;> rfl
      · rfl
    · exact List.length_replicate
  rw [solve_eq, solve_eq]
  exact RelM.map_eq key fun a b hab => by rw [hab.1]

theorem quad_value_ok {DM : Type} {X : DM} {Xw : List F} (h : Xw.length = y.length) :
    ∃ a, Quadratic.value (⟨X, Targets.one y⟩ : Dataset DM F) Xw = .ok a := by
  unfold Quadratic.value
  dsimp only
  rw [single_one']
  dsimp only [bind, Except.bind]
  unfold bop dotM
  rw [if_pos h.symm]
  dsimp only
  rw [if_pos rfl]
  exact ⟨_, rfl⟩

theorem log_value_ok {DM : Type} {X : DM} {Xw : List F} : ∃ a, Logistic.value (⟨X, Targets.one y⟩ : Dataset DM F) Xw = .ok a := by
  unfold Logistic.value
  dsimp only
  rw [single_one']
  exact ⟨_, rfl⟩

theorem solve_error_init {DM DF : Type} [DesignMatrix F DM] [Datafit F DM DF] [Penalty F P] {ds : Dataset DM F} {df0 : DF} {pen : P} {nf : ℕ} {e : Panic}
    (hnf : DesignMatrix.nFeatures ds.designMatrix = .ok nf) (hi : Datafit.init df0 ds = .error e) (srt : Argsort F) (cfg : Solver F) :
    cfg.solve srt ds df0 pen = .error e := by
  rw [solve_eq]
  unfold runCD
  rw [hnf]
  dsimp only [bind, Except.bind]
  rw [hi]
  rfl

theorem solve_error_nf {DM DF : Type} [DesignMatrix F DM] [Datafit F DM DF] [Penalty F P] {ds : Dataset DM F} {df0 : DF} {pen : P} {e : Panic}
    (hnf : DesignMatrix.nFeatures ds.designMatrix = .error e) (srt : Argsort F) (cfg : Solver F) :
    cfg.solve srt ds df0 pen = .error e := by
  rw [solve_eq]
  unfold runCD
  rw [hnf]
  rfl

end

namespace MT
section
variable {F P : Type} [Scalar F] {X : CSC F} {Y Y' : Mat F} {n t : ℕ}

theorem set2_shaped {A : Mat F} (h : Shaped A n t) (i j : ℕ) (a : F) : Tri (fun _ => True) (A.set2 i j a) (fun B => Shaped B n t) := by
  unfold Mat.set2
  refine Tri.bind (getM_any _ _) fun x hx => ?_
  refine Tri.bind (setM_any _ _ _) fun y hy => ?_
  refine Tri.bind (setM_any _ _ _) fun rows hr => ?_
  subst hr hy
  refine ⟨by rw [List.length_set]; exact h.1, h.2.1, fun r hr => ?_⟩
  rcases List.mem_or_eq_of_mem_set hr with h1 | h1
  · exact h.2.2 r h1
  · rw [h1, List.length_set]
    exact h.2.2 x (List.mem_of_getElem? hx)

theorem csc_upd_shaped {XW : Mat F} (h : Shaped XW n t) (d : List F) (j : ℕ) :
    Tri (fun _ => True) (X.updateModelFitMT XW d j) (fun B => Shaped B n t) := by
  unfold CSC.updateModelFitMT
  refine Tri.bind Tri.triv fun rg _ => ?_
  refine Tri.foldlM (fun A : Mat F => Shaped A n t) _ _ (fun A idx _ hA => ?_) _ h
  refine Tri.foldlM (fun A : Mat F => Shaped A n t) _ _ (fun A s _ hA => ?_) _ hA
  refine Tri.bind Tri.triv fun i _ => ?_
  refine Tri.bind Tri.triv fun a _ => ?_
  refine Tri.bind Tri.triv fun b _ => ?_
  refine Tri.bind Tri.triv fun c _ => ?_
  exact set2_shaped hA _ _ _

theorem mt_init_stored (h : RowsAgreeOnStored X Y Y') (hY : Shaped Y n t) (hY' : Shaped Y' n t) :
    QuadraticMT.initCSC (⟨X, Targets.two Y⟩ : Dataset (CSC F) F) = QuadraticMT.initCSC (⟨X, Targets.two Y'⟩ : Dataset (CSC F) F) := by
  have hn : (Targets.two Y).nSamples = (Targets.two Y').nSamples := hY.1.trans hY'.1.symm
  have ht : (Targets.two Y).nTasks = (Targets.two Y').nTasks := hY.2.1.trans hY'.2.1.symm
  unfold QuadraticMT.initCSC
  dsimp only
  rw [hn, ht]
  have e : (fun (s : ℕ) (idx : Int) (d : F) (xty : List F) => do
      let a ← getM xty s
      let i ← X.rowAt idx
      let yit ← (Targets.two Y).asMulti.get2 i s
      setM xty s (a +. d *. yit)) = (fun (s : ℕ) (idx : Int) (d : F) (xty : List F) => do
      let a ← getM xty s
      let i ← X.rowAt idx
      let yit ← (Targets.two Y').asMulti.get2 i s
      setM xty s (a +. d *. yit)) := by
    funext s idx d xty
    cases getM xty s with
    | error e => rfl
    | ok a =>
      cases hr : X.rowAt idx with
      | error e => rfl
      | ok i =>
        show (do let yit ← Y.get2 i s; setM xty s (a +. d *. yit)) = (do let yit ← Y'.get2 i s; setM xty s (a +. d *. yit))
        unfold Mat.get2 getM
        rw [h i (rowAt_mem hr)]
  have e' := fun s idx d xty => congrFun (congrFun (congrFun (congrFun e s) idx) d) xty
  simp only [e']

theorem mt_grad_stored (hY : Shaped Y n t) (hY' : Shaped Y' n t) (df : QuadraticMT F) (XW : Mat F) (j : ℕ) :
    QuadraticMT.gradCSC df (⟨X, Targets.two Y⟩ : Dataset (CSC F) F) XW j = QuadraticMT.gradCSC df ⟨X, Targets.two Y'⟩ XW j := by
  have hn : (Targets.two Y).nSamples = (Targets.two Y').nSamples := hY.1.trans hY'.1.symm
  have ht : (Targets.two Y).nTasks = (Targets.two Y').nTasks := hY.2.1.trans hY'.2.1.symm
  unfold QuadraticMT.gradCSC
  dsimp only
  rw [hn, ht]

/-- Two problems with the same gradients and steps, whose values may differ (but do not panic), have the same fits without acceleration. -/
theorem same_grad_solve {DF : Type} [MTDatafit F (CSC F) DF] [MTPenalty F P] {ds ds' : Dataset (CSC F) F} {df0 df0' df : DF} {pen : P} {nf : ℕ}
    (hX : ds.designMatrix = ds'.designMatrix)
    (hnf : DesignMatrix.nFeatures ds.designMatrix = .ok nf)
    (hi : MTDatafit.init df0 ds = .ok df) (hi' : MTDatafit.init df0' ds' = .ok df)
    (hn : ds.targets.nSamples = n) (hn' : ds'.targets.nSamples = n) (ht : ds.targets.nTasks = t) (ht' : ds'.targets.nTasks = t)
    (hg : ∀ XW j, MTDatafit.gradientJ df ds XW j = MTDatafit.gradientJ df ds' XW j)
    (hv : ∀ XW : Mat F, Shaped XW n t → ∃ a a', MTDatafit.value df ds XW = .ok a ∧ MTDatafit.value df ds' XW = .ok a')
    (srt : Argsort F) (cfg : Solver F) (hu : cfg.useAcceleration = false) :
    cfg.solveMultiTask srt ds df0 pen = cfg.solveMultiTask srt ds' df0' pen := by
  have hviol : ∀ (W XW : Mat F) (ws : List ℕ), optCondViolation ds W XW ws df pen = optCondViolation ds' W XW ws df pen := by
    intro W XW ws
    unfold optCondViolation constructGrad
    simp only [hg, ht, ht']
  have hstep : ∀ (st : BCDState F) (k : ℕ), bcdStep ds df pen st k = bcdStep ds' df pen st k := by
    intro st k
    unfold bcdStep
    simp only [hg, hX, ht, ht']
  have key : RelM (fun a b => a = b ∧ Shaped a.1.XW n t) (runBCD srt ds df0 pen cfg) (runBCD srt ds' df0' pen cfg) := by
    unfold runBCD
    rw [← hX, hnf, hn, hn', ht, ht']
    dsimp only [bind, Except.bind]
    rw [hi, hi']
    dsimp only
    refine Skel.outer_congr (sk := skelBCD srt ds df pen cfg nf (ws0CD cfg nf)) (sk' := skelBCD srt ds' df pen cfg nf (ws0CD cfg nf))
      (Inv := fun s => Shaped s.XW n t) rfl rfl rfl ?_ (fun s hs => hviol _ _ _) (fun ws s hs => ?_) (fun ws e b s hs => ?_)
      (fun ws sz km e s hs => ?_) _ _ ?_
    · show (fun sz => Mat.zeros (cfg.K + 1) (sz * ds.targets.nTasks)) = (fun sz => Mat.zeros (cfg.K + 1) (sz * ds'.targets.nTasks))
      rw [ht, ht']
    · show RelM _ (bcdEpoch ds df pen ws s) (bcdEpoch ds' df pen ws s)
      unfold bcdEpoch
      refine RelM.foldlM (fun a b => a = b ∧ Shaped a.XW n t) _ _ ws (fun a b k _ hab => ?_) s s ⟨rfl, hs⟩
      obtain ⟨e, hab⟩ := hab
      subst e
      rw [← hstep]
      cases hc : bcdStep ds df pen a k with
      | error e => exact rfl
      | ok r =>
        refine ⟨rfl, ?_⟩
        have ht : Tri (fun _ => True) (bcdStep ds df pen a k) (fun r => Shaped r.XW n t) := by
          unfold bcdStep
          refine Tri.bind Tri.triv fun _ _ => ?_
          split
          · exact hab
          refine Tri.bind Tri.triv fun _ _ => ?_
          refine Tri.bind Tri.triv fun _ _ => ?_
          refine Tri.bind Tri.triv fun _ _ => ?_
          refine Tri.bind Tri.triv fun _ _ => ?_
          refine Tri.bind Tri.triv fun _ _ => ?_
          refine Tri.bind Tri.triv fun d _ => ?_
          split
          · exact Tri.bind (csc_upd_shaped hab d k) fun B hB => hB
          · exact hab
        have h2 := Tri.elim_ok ht hc
        exact h2
    · show RelM _ (accelBCD ds df pen cfg ws e b s) (accelBCD ds' df pen cfg ws e b s)
      unfold accelBCD
      rw [if_neg (by rw [hu]; exact Bool.false_ne_true), if_neg (by rw [hu]; exact Bool.false_ne_true)]
      exact ⟨rfl, hs⟩
    · show stopBCD ds df pen _ _ _ _ _ _ _ = stopBCD ds' df pen _ _ _ _ _ _ _
      unfold stopBCD
      split
      · obtain ⟨a, a', h1, h2⟩ := hv s.XW hs
        unfold objective
        rw [h1, h2, hviol]
        dsimp only [bind, Except.bind]
        cases MTPenalty.value pen s.W <;> rfl
      · rfl
    · show Shaped (Mat.zeros n t) n t
      exact Shaped.zeros
  rw [solve_eq, solve_eq]
  exact RelM.map_eq key fun a b hab => by rw [hab.1]

theorem solve_error_init {DM DF : Type} [DesignMatrix F DM] [MTDatafit F DM DF] [MTPenalty F P] {ds : Dataset DM F} {df0 : DF} {pen : P} {nf : ℕ}
    {e : Panic} (hnf : DesignMatrix.nFeatures ds.designMatrix = .ok nf) (hi : MTDatafit.init df0 ds = .error e) (srt : Argsort F) (cfg : Solver F) :
    cfg.solveMultiTask srt ds df0 pen = .error e := by
  rw [solve_eq]
  unfold runBCD
  rw [hnf]
  dsimp only [bind, Except.bind]
  rw [hi]
  rfl

theorem solve_error_nf {DM DF : Type} [DesignMatrix F DM] [MTDatafit F DM DF] [MTPenalty F P] {ds : Dataset DM F} {df0 : DF} {pen : P} {e : Panic}
    (hnf : DesignMatrix.nFeatures ds.designMatrix = .error e) (srt : Argsort F) (cfg : Solver F) :
    cfg.solveMultiTask srt ds df0 pen = .error e := by
  rw [solve_eq]
  unfold runBCD
  rw [hnf]
  rfl

end
end MT
end Sglm
