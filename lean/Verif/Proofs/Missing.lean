import Verif.Spec.Missing
import Verif.Proofs.NaN
import Verif.Proofs.FloatFit

/-!
# Auxiliary lemmas: features with missing values
-/

namespace Sglm
open Scalar Spec

/-- Two runs which agree while an invariant holds. -/
theorem Skel.outer_congr {F S B : Type} {sk sk' : Skel F S B} {Inv : S → Prop} (hm : sk.maxEpochs = sk'.maxEpochs)
    (hd : sk.done = sk'.done) (hw : sk.mkWs = sk'.mkWs) (hb : sk.buf0 = sk'.buf0) (hv : ∀ s, Inv s → sk.viol s = sk'.viol s)
    (he : ∀ ws s, Inv s → RelM (fun a b => a = b ∧ Inv a) (sk.epoch ws s) (sk'.epoch ws s))
    (ha : ∀ ws e b s, Inv s → RelM (fun a b => a = b ∧ Inv a.2) (sk.accel ws e b s) (sk'.accel ws e b s))
    (hs : ∀ ws sz km e s, Inv s → sk.stop ws sz km e s = sk'.stop ws sz km e s) :
    ∀ r s, Inv s → RelM (fun a b => a = b ∧ Inv a.1) (sk.outer r s) (sk'.outer r s) := by
  have hin : ∀ ws sz km r e b s, Inv s → RelM (fun a b => a = b ∧ Inv a) (sk.inner ws sz km r e b s) (sk'.inner ws sz km r e b s) := by
    intro ws sz km r
    induction r with
    | zero => exact fun e b s h => ⟨rfl, h⟩
    | succ r ih =>
      intro e b s h
      unfold Skel.inner
      refine RelM.bind (he ws s h) fun s1 s1' ⟨h1, h2⟩ => ?_
      subst h1
      refine RelM.bind (ha ws e b s1 h2) fun q q' ⟨h1, h3⟩ => ?_
      subst h1
      obtain ⟨b2, s2⟩ := q
      refine RelM.bind (RelM.of_eq (hs ws sz km e s2 h3)) fun c c' h1 => ?_
      subst h1
      cases c with
      | true => exact ⟨rfl, h3⟩
      | false => exact ih (e + 1) b2 s2 h3
  intro r
  induction r with
  | zero => exact fun s h => ⟨rfl, h⟩
  | succ r ih =>
    intro s h
    unfold Skel.outer
    refine RelM.bind (RelM.of_eq (hv s h)) fun q q' h1 => ?_
    subst h1
    obtain ⟨kkt, km⟩ := q
    dsimp only
    rw [hd]
    split
    · exact ⟨rfl, h⟩
    · rw [hw, hm, hb]
      refine RelM.bind (RelM.refl_eq _) fun q q' h1 => ?_
      subst h1
      obtain ⟨ws, sz⟩ := q
      refine RelM.bind (hin ws sz km _ 0 _ s h) fun s1 s1' ⟨h1, h2⟩ => ?_
      subst h1
      refine RelM.bind (ih s1 h2) fun q q' ⟨h1, h3⟩ => ?_
      subst h1
      exact ⟨rfl, h3⟩

section
variable {F DM DF P : Type} [Scalar F] [DesignMatrix F DM] [Datafit F DM DF] [Penalty F P]

/-- What a change of the feature `j` may do to the problem without an effect on the fit. -/
structure SameBut (ds ds' : Dataset DM F) (df df' : DF) (pen : P) (f : F → F → F) (n j : ℕ) : Prop where
  dist : Penalty.subdiffDistance pen = sepDistances f
  value : ∀ Xw, Datafit.value df ds Xw = Datafit.value df' ds' Xw
  grad : ∀ k, k ≠ j → ∀ Xw, Datafit.gradientJ df ds Xw k = Datafit.gradientJ df' ds' Xw k
  gradj : ∀ Xw, Xw.length = n → ∃ g g', Datafit.gradientJ df ds Xw j = .ok g ∧ Datafit.gradientJ df' ds' Xw j = .ok g' ∧ f zero g = f zero g'
  step : ∀ k, k ≠ j → getM (Datafit.stepSize (DM := DM) df) k = getM (Datafit.stepSize (DM := DM) df') k
  upd : ∀ k, k ≠ j → ∀ Xw d, DesignMatrix.updateModelFit ds.designMatrix Xw d k = DesignMatrix.updateModelFit ds'.designMatrix Xw d k
  len : ∀ k Xw d r, DesignMatrix.updateModelFit ds'.designMatrix Xw d k = .ok r → r.length = Xw.length
  idle : ∀ st : CDState F, st.w[j]? = some zero → st.Xw.length = n → cdStep ds df pen st j = .ok st
  idle' : ∀ st : CDState F, st.w[j]? = some zero → st.Xw.length = n → cdStep ds' df' pen st j = .ok st

/-- The feature has coefficient zero. -/
def Idle (n j : ℕ) (st : CDState F) : Prop := st.w[j]? = some zero ∧ st.Xw.length = n

variable {ds ds' : Dataset DM F} {df df' : DF} {pen : P} {f : F → F → F} {n j : ℕ}

theorem SameBut.viol (h : SameBut ds ds' df df' pen f n j) {st : CDState F} (hs : Idle n j st) (ws : List ℕ) :
    optCondViolation ds st.w st.Xw ws df pen = optCondViolation ds' st.w st.Xw ws df' pen := by
  obtain ⟨g, g', h1, h2, h3⟩ := h.gradj st.Xw hs.2
  have key : ∀ ws : List ℕ, (∃ e, constructGrad ds st.Xw ws df = .error e ∧ constructGrad ds' st.Xw ws df' = .error e) ∨
      ∃ l l', constructGrad ds st.Xw ws df = .ok l ∧ constructGrad ds' st.Xw ws df' = .ok l' ∧
        (l.zip ws).mapM (fun gj => do let wj ← getM st.w gj.2; pure (f wj gj.1)) =
        (l'.zip ws).mapM (fun gj => do let wj ← getM st.w gj.2; pure (f wj gj.1)) := by
    intro ws
    induction ws with
    | nil => exact Or.inr ⟨[], [], rfl, rfl, rfl⟩
    | cons k ws ih =>
      unfold constructGrad at ih ⊢
      rw [List.mapM_cons, List.mapM_cons]
      by_cases hk : k = j
      · subst hk
        rw [h1, h2]
        rcases ih with ⟨e, h4, h5⟩ | ⟨l, l', h4, h5, h6⟩
        · exact Or.inl ⟨e, by rw [h4]; rfl, by rw [h5]; rfl⟩
        · refine Or.inr ⟨g :: l, g' :: l', by rw [h4]; rfl, by rw [h5]; rfl, ?_⟩
          rw [List.zip_cons_cons, List.zip_cons_cons, List.mapM_cons, List.mapM_cons, h6]
          have e : getM st.w k = .ok zero := by unfold getM; rw [hs.1]
          dsimp only
          rw [e]
          dsimp only [bind, Except.bind, pure, Except.pure]
          rw [h3]
      · rw [h.grad k hk]
        cases hg : Datafit.gradientJ df' ds' st.Xw k with
        | error e => exact Or.inl ⟨e, rfl, rfl⟩
        | ok a =>
          rcases ih with ⟨e, h4, h5⟩ | ⟨l, l', h4, h5, h6⟩
          · exact Or.inl ⟨e, by rw [h4]; rfl, by rw [h5]; rfl⟩
          · refine Or.inr ⟨a :: l, a :: l', by rw [h4]; rfl, by rw [h5]; rfl, ?_⟩
            rw [List.zip_cons_cons, List.zip_cons_cons, List.mapM_cons, List.mapM_cons, h6]
  unfold optCondViolation
  rw [h.dist]
  rcases key ws with ⟨e, h4, h5⟩ | ⟨l, l', h4, h5, h6⟩
  · rw [h4, h5]
  · rw [h4, h5]
    show sepDistances f st.w l ws = sepDistances f st.w l' ws
    unfold sepDistances
    rw [h6]

theorem SameBut.cdStep (h : SameBut ds ds' df df' pen f n j) {st : CDState F} (hs : Idle n j st) (k : ℕ) :
    RelM (fun a b => a = b ∧ Idle n j a) (cdStep ds df pen st k) (cdStep ds' df' pen st k) := by
  by_cases hk : k = j
  · subst hk
    rw [h.idle st hs.1 hs.2, h.idle' st hs.1 hs.2]
    exact ⟨rfl, hs⟩
  · unfold Sglm.cdStep
    rw [h.step k hk, h.grad k hk]
    refine RelM.bind (RelM.refl_eq _) fun L _ e => ?_
    subst e
    split
    · exact ⟨rfl, hs⟩
    · refine RelM.bind (RelM.refl_eq _) fun w0 _ e => ?_
      subst e
      refine RelM.bind (RelM.refl_eq _) fun g _ e => ?_
      subst e
      refine RelM.bind (RelM.refl_eq _) fun w1 _ e => ?_
      subst e
      have hw : RelM (fun a b => a = b ∧ a[j]? = some zero) (setM st.w k w1) (setM st.w k w1) := by
        unfold setM
        split
        · refine ⟨rfl, ?_⟩
          rw [List.getElem?_set_ne hk]
          exact hs.1
        · rfl
      refine RelM.bind hw fun w _ ⟨e, hw'⟩ => ?_
      subst e
      dsimp only
      split
      · rw [h.upd k hk]
        cases hu : DesignMatrix.updateModelFit ds'.designMatrix st.Xw (w1 -. w0) k with
        | error e => rfl
        | ok r => exact ⟨rfl, hw', (h.len _ _ _ _ hu).trans hs.2⟩
      · exact ⟨rfl, hw', hs.2⟩

theorem SameBut.stop (h : SameBut ds ds' df df' pen f n j) {st : CDState F} (hs : Idle n j st) (tol : F) (nf : ℕ) (ws : List ℕ) (sz : ℕ)
    (km : F) (e : ℕ) : stopCD ds df pen tol nf ws sz km e st = stopCD ds' df' pen tol nf ws sz km e st := by
  unfold stopCD objective
  rw [h.value, h.viol hs]

/-- Without acceleration the fits are the same. -/
theorem SameBut.solve (h : SameBut ds ds' df df' pen f n j) {df0 df0' : DF} {nf : ℕ} (hj : j < nf)
    (hnf : DesignMatrix.nFeatures ds.designMatrix = .ok nf) (hnf' : DesignMatrix.nFeatures ds'.designMatrix = .ok nf)
    (hi : Datafit.init df0 ds = .ok df) (hi' : Datafit.init df0' ds' = .ok df') (hn : ds.targets.nSamples = n) (hn' : ds'.targets.nSamples = n)
    (srt : Argsort F) (cfg : Solver F) (hu : cfg.useAcceleration = false) :
    cfg.solve srt ds df0 pen = cfg.solve srt ds' df0' pen ∧
      ∀ w, cfg.solve srt ds df0 pen = .ok w → w[j]? = some zero := by
  have key : RelM (fun a b => a = b ∧ Idle n j a.1) (runCD srt ds df0 pen cfg) (runCD srt ds' df0' pen cfg) := by
    unfold runCD
    rw [hnf, hnf', hn, hn']
    dsimp only [bind, Except.bind]
    rw [hi, hi']
    dsimp only
    refine Skel.outer_congr (sk := skelCD srt ds df pen cfg nf (ws0CD cfg nf)) (sk' := skelCD srt ds' df' pen cfg nf (ws0CD cfg nf))
      (Inv := Idle n j) rfl rfl rfl rfl (fun s hs => h.viol hs _) (fun ws s hs => ?_) (fun ws e b s hs => ?_)
      (fun ws sz km e s hs => h.stop hs _ _ _ _ _ _) _ _ ⟨?_, ?_⟩
    · show RelM _ (cdEpoch ds df pen ws s) (cdEpoch ds' df' pen ws s)
      unfold cdEpoch
      refine RelM.foldlM (fun a b => a = b ∧ Idle n j a) _ _ ws (fun a b k _ hab => ?_) s s ⟨rfl, hs⟩
      obtain ⟨e, hab⟩ := hab
      subst e
      exact h.cdStep hab k
    · show RelM _ (accelCD ds df pen cfg ws e b s) (accelCD ds' df' pen cfg ws e b s)
      unfold accelCD
      rw [if_neg (by rw [hu]; exact Bool.false_ne_true), if_neg (by rw [hu]; exact Bool.false_ne_true)]
      exact ⟨rfl, hs⟩
    · show (List.replicate nf zero)[j]? = some zero
      rw [List.getElem?_replicate, if_pos hj]
    · exact List.length_replicate
  rw [solve_eq, solve_eq]
  refine ⟨RelM.map_eq key fun a b hab => by rw [hab.1], fun w hw => ?_⟩
  cases h1 : runCD srt ds df0 pen cfg with
  | error e => rw [h1] at hw; cases hw
  | ok q =>
    rw [h1] at hw key
    cases h2 : runCD srt ds' df0' pen cfg with
    | error e => rw [h2] at key; exact key.elim
    | ok q' =>
      rw [h2] at key
      rw [← Except.ok.inj hw]
      exact key.2.1

end

/-! ## Dense designs -/

section
variable {n p : ℕ}

/-- Zero or NaN. -/
def ZeroNaN (a : XR) : Prop := a = XR.fin 0 ∨ a = XR.nan

theorem ZeroNaN.add {a b : XR} (ha : ZeroNaN a) (hb : ZeroNaN b) : ZeroNaN (XR.add a b) := by
  rcases ha with rfl | rfl <;> rcases hb with rfl | rfl
  · exact Or.inl (congrArg XR.fin (add_zero 0))
  · exact Or.inr rfl
  · exact Or.inr rfl
  · exact Or.inr rfl

theorem ZeroNaN.zero_mul (a : XR) : ZeroNaN (XR.mul (XR.fin 0) a) := by
  cases a with
  | fin b => exact Or.inl (congrArg XR.fin (MulZeroClass.zero_mul b))
  | nan => exact Or.inr rfl
  | pinf => exact Or.inr (by show XR.infTimes 0 = _; simp [XR.infTimes])
  | ninf => exact Or.inr (by show XR.infTimes (-0) = _; simp [XR.infTimes])

theorem ZeroNaN.dot (c : List XR) (hc : ∀ x ∈ c, x = XR.fin 0) (v : List XR) : ZeroNaN (XR.dot c v) := by
  unfold XR.dot XR.sum
  have key : ∀ (c v : List XR) (a : XR), (∀ x ∈ c, x = XR.fin 0) → ZeroNaN a → ZeroNaN ((List.zipWith XR.mul c v).foldl XR.add a) := by
    intro c
    induction c with
    | nil => intro v a _ ha; exact ha
    | cons b c ih =>
      intro v a hc ha
      cases v with
      | nil => exact ha
      | cons d v =>
        rw [List.zipWith_cons_cons, List.foldl_cons]
        refine ih v _ (fun x hx => hc x (List.mem_cons_of_mem _ hx)) (ha.add ?_)
        rw [hc b List.mem_cons_self]
        exact ZeroNaN.zero_mul d
  exact key c v _ hc (Or.inl rfl)

theorem ZeroNaN.neg {a : XR} (ha : ZeroNaN a) : ZeroNaN (XR.neg a) := by
  rcases ha with rfl | rfl
  · exact Or.inl (congrArg XR.fin neg_zero)
  · exact Or.inr rfl

theorem ZeroNaN.div {a : XR} (ha : ZeroNaN a) (m : ℝ) : ZeroNaN (XR.div a (XR.fin m)) := by
  rcases ha with rfl | rfl
  · by_cases hm : m = 0
    · exact Or.inr (by show (if m = 0 then XR.infTimes 0 else _) = _; rw [if_pos hm]; simp [XR.infTimes])
    · exact Or.inl (by show (if m = 0 then _ else XR.fin (0 / m)) = _; rw [if_neg hm, zero_div])
  · exact Or.inr rfl

theorem l1_dist_zeroNaN {α : ℝ} (hα : 0 ≤ α) {g : XR} (hg : ZeroNaN g) : L1.dist (L1.mk (XR.fin α)) (zero : XR) g = XR.fin 0 := by
  unfold L1.dist
  rw [if_pos (by simp [Scalar.beq, Scalar.zero, XR.beq])]
  rcases hg with rfl | rfl
  · show XR.fmax (XR.fin 0) (XR.add (XR.fin |0|) (XR.fin (-α))) = XR.fin 0
    show (if XR.lt (XR.fin 0) (XR.fin (|0| + -α)) then _ else XR.fin 0) = XR.fin 0
    rw [if_neg]
    intro h
    have h : decide ((0 : ℝ) < |0| + -α) = true := h
    rw [decide_eq_true_eq, abs_zero] at h
    linarith
  · rfl

/-- The soft threshold of NaN is zero. -/
theorem l1_prox_nan (a v : XR) : L1.prox (L1.mk a) XR.nan v = XR.fin 0 := by
  unfold L1.prox softThresholding
  have e1 : ∀ t : XR, (t <. XR.nan) = false := fun t => by cases t <;> rfl
  have e2 : ∀ t : XR, (XR.nan <. t) = false := fun t => by cases t <;> rfl
  dsimp only
  rw [e1, e2]
  rfl

theorem nan_dot {a b : List XR} (hl : a.length = b.length) (h : XR.nan ∈ a) : XR.dot a b = .nan := by
  refine XR.sum_nan ?_ _
  obtain ⟨i, hi, e⟩ := List.getElem_of_mem h
  refine List.mem_iff_getElem.mpr ⟨i, by simp; omega, ?_⟩
  rw [List.getElem_zipWith, e]
  cases b[i]'(by omega) <;> rfl

theorem idle_nan {DM DF : Type} [DesignMatrix XR DM] [Datafit XR DM DF] {ds : Dataset DM XR} {df : DF} {a : XR} {j : ℕ} {st : CDState XR}
    (h1 : getM (Datafit.stepSize (DM := DM) df) j = .ok XR.nan) (h2 : Datafit.gradientJ df ds st.Xw j = .ok XR.nan)
    (h3 : st.w[j]? = some zero) : cdStep ds df (L1.mk a) st j = .ok st := by
  unfold cdStep
  have e : getM st.w j = .ok zero := by unfold getM; rw [h3]
  have e2 : setM st.w j (XR.fin 0) = .ok st.w := by
    unfold setM
    obtain ⟨hlt, h4⟩ := List.getElem?_eq_some_iff.mp h3
    rw [if_pos hlt]
    congr 1
    have h5 : st.w.set j st.w[j] = st.w := List.set_getElem_self hlt
    rwa [h4] at h5
  rw [h1]
  dsimp only [bind, Except.bind]
  rw [if_neg (by rw [show (XR.nan ==. (zero : XR)) = false from rfl]; exact Bool.false_ne_true), e, h2]
  dsimp only
  have hp : Penalty.prox (L1.mk a) ((zero : XR) -. XR.nan /. XR.nan) (one /. XR.nan) = .ok (XR.fin 0) := congrArg Except.ok (l1_prox_nan a _)
  rw [hp]
  dsimp only
  rw [e2]
  dsimp only
  rw [if_neg]
  · rfl
  · rw [XR.s_zero, XR.s_sub, XR.s_beq]
    simp

theorem idle_zero {DM DF P : Type} [DesignMatrix XR DM] [Datafit XR DM DF] [Penalty XR P] {ds : Dataset DM XR} {df : DF} {pen : P} {j : ℕ}
    {st : CDState XR} (h1 : getM (Datafit.stepSize (DM := DM) df) j = .ok (XR.fin 0)) : cdStep ds df pen st j = .ok st := by
  unfold cdStep
  rw [h1]
  show (if (XR.fin 0 ==. zero) = true then _ else _) = _
  rw [if_pos (by simp [Scalar.beq, Scalar.zero, XR.beq])]
  rfl

theorem blank_ne {j k : Fin p} (h : k ≠ j) (x : Fin n → Fin p → XR) : (fun i => blankFeature j x i k) = fun i => x i k :=
  funext fun _ => if_neg h

theorem blank_self (j : Fin p) (x : Fin n → Fin p → XR) : (fun i => blankFeature j x i j) = fun _ => XR.fin 0 :=
  funext fun _ => if_pos rfl

theorem colM_blank (j : Fin p) (x : Fin n → Fin p → XR) {k : ℕ} (hk : k ≠ j) : (matOf (blankFeature j x)).colM k = (matOf x).colM k := by
  by_cases h : k < p
  · have e := colM_matOf x ⟨k, h⟩
    have e' := colM_matOf (blankFeature j x) ⟨k, h⟩
    rw [blank_ne (fun h' => hk (congrArg Fin.val h'))] at e'
    exact e'.trans e.symm
  · unfold Mat.colM
    rw [if_neg (show ¬ k < (matOf (blankFeature j x)).ncols from h), if_neg (show ¬ k < (matOf x).ncols from h)]

theorem upd_len (X : Mat XR) (k : ℕ) (Xw : List XR) (d : XR) (r : List XR) (h : Mat.updateModelFit X Xw d k = .ok r) : r.length = Xw.length := by
  unfold Mat.updateModelFit at h
  cases hc : X.colM k with
  | error e => rw [hc] at h; cases h
  | ok c =>
    rw [hc] at h
    have h : scaledAdd Xw d c = .ok r := h
    unfold scaledAdd at h
    split at h
    · rename_i e
      rw [← Except.ok.inj h, List.length_zipWith, e, min_self]
    · split at h
      · rw [← Except.ok.inj h, List.length_map]
      · cases h

theorem missing_mem {j : Fin p} {x : Fin n → Fin p → XR} (h : MissingIn j x) : XR.nan ∈ List.ofFn fun i => x i j := by
  obtain ⟨i, hi⟩ := h
  exact List.mem_ofFn.mpr ⟨i, hi⟩

theorem zeros_mem : ∀ a ∈ List.ofFn (fun _ : Fin n => XR.fin 0), a = XR.fin 0 := fun a ha => by
  obtain ⟨i, hi⟩ := List.mem_ofFn.mp ha
  exact hi.symm

theorem zeros_sq : XR.dot (List.ofFn fun _ : Fin n => XR.fin 0) (List.ofFn fun _ : Fin n => XR.fin 0) = XR.fin 0 := by
  unfold XR.dot XR.sum
  rw [zipWith_ofFn]
  have key : ∀ l : List XR, (∀ a ∈ l, a = XR.fin 0) → l.foldl XR.add (XR.fin 0) = XR.fin 0 := by
    intro l
    induction l with
    | nil => intro _; rfl
    | cons a l ih =>
      intro h
      rw [List.foldl_cons, h a List.mem_cons_self]
      show l.foldl XR.add (XR.fin (0 + 0)) = _
      rw [add_zero]
      exact ih fun b hb => h b (List.mem_cons_of_mem _ hb)
  refine key _ fun a ha => ?_
  obtain ⟨i, hi⟩ := List.mem_ofFn.mp ha
  rw [← hi]
  exact congrArg XR.fin (MulZeroClass.zero_mul 0)

/-- The least squares problem. -/
theorem quad_sameBut {j : Fin p} {x : Fin n → Fin p → XR} (h : MissingIn j x) (y : Fin n → XR) {α : ℝ} (hα : 0 ≤ α) :
    ∃ df df' : Quadratic XR, Quadratic.initDense ⟨matOf x, Targets.one (List.ofFn y)⟩ = .ok df ∧
      Quadratic.initDense ⟨matOf (blankFeature j x), Targets.one (List.ofFn y)⟩ = .ok df' ∧
      SameBut (⟨matOf x, Targets.one (List.ofFn y)⟩ : Dataset (Mat XR) XR) ⟨matOf (blankFeature j x), Targets.one (List.ofFn y)⟩ df df'
        (L1.mk (XR.fin α)) (L1.dist (L1.mk (XR.fin α))) n j := by
  have hn : 0 < n := h.choose.pos
  have hi : ∀ z : Fin n → Fin p → XR, Quadratic.initDense ⟨matOf z, Targets.one (List.ofFn y)⟩ =
      .ok ⟨List.ofFn (fun j => dot (List.ofFn fun i => z i j) (List.ofFn fun i => z i j) /. ofNat n),
        List.ofFn fun j => dot (List.ofFn fun i => z i j) (List.ofFn y)⟩ := by
    intro z
    unfold Quadratic.initDense
    dsimp only
    rw [one_nSamplesOf, single_oneOf]
    dsimp only [bind, Except.bind]
    rw [tMulVec_matOf, colSqNorms_matOf]
    rfl
  have hget : ∀ (a b : Fin p → XR), (∀ k, k ≠ j → a k = b k) → ∀ k : ℕ, k ≠ j → getM (List.ofFn a) k = getM (List.ofFn b) k := by
    intro a b hab k hk
    unfold getM
    by_cases hkp : k < p
    · rw [List.getElem?_ofFn, List.getElem?_ofFn, dif_pos hkp, dif_pos hkp, hab ⟨k, hkp⟩ fun e => hk (congrArg Fin.val e)]
    · rw [List.getElem?_eq_none (by simpa using hkp), List.getElem?_eq_none (by simpa using hkp)]
  refine ⟨_, _, hi x, hi _, rfl, fun Xw => rfl, fun k hk Xw => ?_, fun Xw hXw => ?_, fun k hk => ?_, fun k hk Xw d => ?_, ?_, ?_, ?_⟩
  · show Quadratic.gradDense _ _ _ _ = Quadratic.gradDense _ _ _ _
    unfold Quadratic.gradDense
    dsimp only
    rw [colM_blank j x hk, hget _ (fun j' => dot (List.ofFn fun i => blankFeature j x i j') (List.ofFn y)) (fun k hk => by rw [blank_ne hk]) k hk]
  · obtain ⟨v, rfl⟩ : ∃ v : Fin n → XR, Xw = List.ofFn v := ⟨fun i => Xw[i]'(by omega), by subst hXw; exact (List.ofFn_getElem).symm⟩
    refine ⟨XR.nan, XR.div (XR.add (XR.dot (List.ofFn fun _ : Fin n => XR.fin 0) (List.ofFn v))
      (XR.neg (XR.dot (List.ofFn fun _ : Fin n => XR.fin 0) (List.ofFn y)))) (XR.fin n), ?_, ?_, ?_⟩
    · show Quadratic.gradDense _ _ _ _ = _
      unfold Quadratic.gradDense
      dsimp only
      rw [colM_matOf]
      dsimp only [bind, Except.bind]
      rw [dotM_ofFn, getM_ofFn]
      show Except.ok (XR.div (XR.add (XR.dot _ _) _) _) = _
      rw [nan_dot (by simp) (missing_mem h), XR.nan_add, XR.nan_div]
    · show Quadratic.gradDense _ _ _ _ = _
      unfold Quadratic.gradDense
      dsimp only
      rw [colM_matOf, blank_self]
      dsimp only [bind, Except.bind]
      rw [dotM_ofFn, getM_ofFn, blank_self, one_nSamplesOf]
      rfl
    · rw [l1_dist_zeroNaN hα (Or.inr rfl), l1_dist_zeroNaN hα]
      exact ((ZeroNaN.dot _ zeros_mem _).add (ZeroNaN.dot _ zeros_mem _).neg).div _
  · exact hget _ _ (fun k hk => by rw [blank_ne hk]) k hk
  · show Mat.updateModelFit _ _ _ _ = Mat.updateModelFit _ _ _ _
    unfold Mat.updateModelFit
    rw [colM_blank j x hk]
  · exact fun k Xw d r hr => upd_len _ k Xw d r hr
  · intro st h3 hXw
    obtain ⟨v, hv⟩ : ∃ v : Fin n → XR, st.Xw = List.ofFn v := ⟨fun i => st.Xw[i]'(by omega), by subst hXw; exact (List.ofFn_getElem).symm⟩
    refine idle_nan ?_ ?_ h3
    · show getM (List.ofFn _) _ = _
      rw [getM_ofFn]
      show Except.ok (XR.div (XR.dot _ _) _) = _
      rw [nan_dot rfl (missing_mem h), XR.nan_div]
    · show Quadratic.gradDense _ _ _ _ = _
      unfold Quadratic.gradDense
      dsimp only
      rw [colM_matOf, hv]
      dsimp only [bind, Except.bind]
      rw [dotM_ofFn, getM_ofFn]
      show Except.ok (XR.div (XR.add (XR.dot _ _) _) _) = _
      rw [nan_dot (by simp) (missing_mem h), XR.nan_add, XR.nan_div]
  · intro st h3 hXw
    refine idle_zero ?_
    show getM (List.ofFn _) _ = _
    rw [getM_ofFn, blank_self]
    show Except.ok (XR.div (XR.dot _ _) (XR.fin n)) = _
    rw [zeros_sq]
    show Except.ok (if (n : ℝ) = 0 then _ else XR.fin (0 / n)) = _
    rw [if_neg (by positivity), zero_div]

/-- Logistic regression. -/
theorem log_sameBut {j : Fin p} {x : Fin n → Fin p → XR} (h : MissingIn j x) (y : Fin n → XR) {α : ℝ} (hα : 0 ≤ α) :
    ∃ df df' : Logistic XR, Logistic.initDense ⟨matOf x, Targets.one (List.ofFn y)⟩ = .ok df ∧
      Logistic.initDense ⟨matOf (blankFeature j x), Targets.one (List.ofFn y)⟩ = .ok df' ∧
      SameBut (⟨matOf x, Targets.one (List.ofFn y)⟩ : Dataset (Mat XR) XR) ⟨matOf (blankFeature j x), Targets.one (List.ofFn y)⟩ df df'
        (L1.mk (XR.fin α)) (L1.dist (L1.mk (XR.fin α))) n j := by
  have hn : 0 < n := h.choose.pos
  have hi : ∀ z : Fin n → Fin p → XR, Logistic.initDense ⟨matOf z, Targets.one (List.ofFn y)⟩ =
      .ok ⟨List.ofFn (fun j => dot (List.ofFn fun i => z i j) (List.ofFn fun i => z i j) /. ofNat (4 * n))⟩ := by
    intro z
    unfold Logistic.initDense
    dsimp only
    rw [one_nSamplesOf, colSqNorms_matOf]
    rfl
  have hg : ∀ (z : Fin n → Fin p → XR) (v : Fin n → XR), Logistic.gradDense ⟨matOf z, Targets.one (List.ofFn y)⟩ (List.ofFn v) j =
      .ok (XR.div (XR.neg (XR.dot (List.ofFn fun i => z i j) (List.ofFn fun i => y i *. sigmoid ((-.(y i)) *. v i)))) (XR.fin n)) := by
    intro z v
    unfold Logistic.gradDense
    rw [single_oneOf]
    dsimp only [bind, Except.bind]
    rw [colM_matOf, zipWith_ofFn]
    dsimp only
    rw [dotM_ofFn, List.length_ofFn]
    rfl
  refine ⟨_, _, hi x, hi _, rfl, fun Xw => rfl, fun k hk Xw => ?_, fun Xw hXw => ?_, fun k hk => ?_, fun k hk Xw d => ?_, ?_, ?_, ?_⟩
  · show Logistic.gradDense _ _ _ = Logistic.gradDense _ _ _
    unfold Logistic.gradDense
    dsimp only
    rw [colM_blank j x hk]
  · obtain ⟨v, rfl⟩ : ∃ v : Fin n → XR, Xw = List.ofFn v := ⟨fun i => Xw[i]'(by omega), by subst hXw; exact (List.ofFn_getElem).symm⟩
    refine ⟨_, _, hg x v, hg _ v, ?_⟩
    rw [nan_dot (by simp) (missing_mem h), blank_self, show XR.div (XR.neg XR.nan) (XR.fin n) = XR.nan from rfl,
      l1_dist_zeroNaN hα (Or.inr rfl), l1_dist_zeroNaN hα]
    exact (ZeroNaN.dot _ zeros_mem _).neg.div _
  · show getM (List.ofFn _) k = getM (List.ofFn _) k
    unfold getM
    by_cases hkp : k < p
    · rw [List.getElem?_ofFn, List.getElem?_ofFn, dif_pos hkp, dif_pos hkp, blank_ne (k := ⟨k, hkp⟩) fun e => hk (congrArg Fin.val e)]
    · rw [List.getElem?_eq_none (by simpa using hkp), List.getElem?_eq_none (by simpa using hkp)]
  · show Mat.updateModelFit _ _ _ _ = Mat.updateModelFit _ _ _ _
    unfold Mat.updateModelFit
    rw [colM_blank j x hk]
  · exact fun k Xw d r hr => upd_len _ k Xw d r hr
  · intro st h3 hXw
    obtain ⟨v, hv⟩ : ∃ v : Fin n → XR, st.Xw = List.ofFn v := ⟨fun i => st.Xw[i]'(by omega), by subst hXw; exact (List.ofFn_getElem).symm⟩
    refine idle_nan ?_ ?_ h3
    · show getM (List.ofFn _) _ = _
      rw [getM_ofFn]
      show Except.ok (XR.div (XR.dot _ _) _) = _
      rw [nan_dot rfl (missing_mem h), XR.nan_div]
    · show Logistic.gradDense _ _ _ = _
      rw [hv, hg, nan_dot (by simp) (missing_mem h)]
      rfl
  · intro st h3 hXw
    refine idle_zero ?_
    show getM (List.ofFn _) _ = _
    rw [getM_ofFn, blank_self]
    show Except.ok (XR.div (XR.dot _ _) (XR.fin (4 * n : ℕ))) = _
    rw [zeros_sq]
    show Except.ok (if ((4 * n : ℕ) : ℝ) = 0 then _ else XR.fin (0 / _)) = _
    rw [if_neg (by positivity), zero_div]

end

/-! ## Penalties whose prox keeps NaN -/

section
variable {DF P : Type} [Datafit XR (Mat XR) DF] [Penalty XR P] {ds : Dataset (Mat XR) XR} {df : DF} {pen : P} {n p j : ℕ}

/-- Lengths. -/
def Sized (n p : ℕ) (st : CDState XR) : Prop := st.w.length = p ∧ st.Xw.length = n

/-- The coefficient is NaN. -/
def Poisoned (n p j : ℕ) (st : CDState XR) : Prop := Sized n p st ∧ st.w[j]? = some XR.nan

theorem poison_step (hp : Penalty.prox pen XR.nan XR.nan = .ok XR.nan) (h1 : getM (Datafit.stepSize (DM := Mat XR) df) j = .ok XR.nan)
    (h2 : ∀ Xw, Xw.length = n → Datafit.gradientJ df ds Xw j = .ok XR.nan) {st : CDState XR} (hs : Sized n p st) (k : ℕ) :
    Tri (fun _ => True) (cdStep ds df pen st k) (fun s => Sized n p s ∧ ((k = j ∨ st.w[j]? = some XR.nan) → s.w[j]? = some XR.nan)) := by
  by_cases hk : k = j
  · subst hk
    unfold cdStep
    rw [h1]
    dsimp only [bind, Except.bind]
    rw [if_neg (by rw [show (XR.nan ==. (zero : XR)) = false from rfl]; exact Bool.false_ne_true), h2 _ hs.2]
    cases hw : getM st.w k with
    | error e => trivial
    | ok a =>
      dsimp only
      have e : a -. XR.nan /. XR.nan = XR.nan := by show XR.add a XR.nan = _; rw [XR.add_nan]
      have e2 : (one : XR) /. XR.nan = XR.nan := rfl
      rw [e, e2, hp]
      dsimp only
      by_cases hlt : k < st.w.length
      · have hset : setM st.w k XR.nan = .ok (st.w.set k XR.nan) := by unfold setM; rw [if_pos hlt]
        rw [hset]
        have hget : (st.w.set k XR.nan)[k]? = some XR.nan := by rw [List.getElem?_set_self hlt]
        dsimp only
        split
        · cases hu : DesignMatrix.updateModelFit ds.designMatrix st.Xw (XR.nan -. a) k with
          | error e => trivial
          | ok r => exact ⟨⟨by rw [← hs.1]; exact List.length_set, (upd_len _ _ _ _ _ hu).trans hs.2⟩, fun _ => hget⟩
        · exact ⟨⟨by rw [← hs.1]; exact List.length_set, hs.2⟩, fun _ => hget⟩
      · have hset : setM st.w k XR.nan = .error .index := by unfold setM; rw [if_neg hlt]
        rw [hset]
        trivial
  · unfold cdStep
    refine Tri.bind Tri.triv fun L _ => ?_
    split
    · exact ⟨hs, fun h => h.resolve_left hk⟩
    · refine Tri.bind Tri.triv fun w0 _ => ?_
      refine Tri.bind Tri.triv fun g _ => ?_
      refine Tri.bind Tri.triv fun w1 _ => ?_
      unfold setM
      split
      · have hget : (st.w.set k w1)[j]? = st.w[j]? := List.getElem?_set_ne hk
        dsimp only [bind, Except.bind]
        split
        · cases hu : DesignMatrix.updateModelFit ds.designMatrix st.Xw (w1 -. w0) k with
          | error e => trivial
          | ok r =>
            exact ⟨⟨by rw [← hs.1]; exact List.length_set, (upd_len _ _ _ _ _ hu).trans hs.2⟩, fun h => hget.trans (h.resolve_left hk)⟩
        · exact ⟨⟨by rw [← hs.1]; exact List.length_set, hs.2⟩, fun h => hget.trans (h.resolve_left hk)⟩
      · trivial

theorem poison_epoch (hp : Penalty.prox pen XR.nan XR.nan = .ok XR.nan) (h1 : getM (Datafit.stepSize (DM := Mat XR) df) j = .ok XR.nan)
    (h2 : ∀ Xw, Xw.length = n → Datafit.gradientJ df ds Xw j = .ok XR.nan) (ws : List ℕ) :
    ∀ {st : CDState XR}, Sized n p st → (j ∈ ws ∨ st.w[j]? = some XR.nan) →
      Tri (fun _ => True) (cdEpoch ds df pen ws st) (Poisoned n p j) := by
  unfold cdEpoch
  induction ws with
  | nil =>
    intro st hs h
    exact ⟨hs, h.resolve_left (by simp)⟩
  | cons k ws ih =>
    intro st hs h
    rw [List.foldlM_cons]
    refine Tri.bind (poison_step hp h1 h2 hs k) fun s hs' => ih hs'.1 ?_
    rcases h with h | h
    · rcases List.mem_cons.mp h with h | h
      · exact Or.inr (hs'.2 (Or.inl h.symm))
      · exact Or.inl h
    · exact Or.inr (hs'.2 (Or.inr h))

theorem all_in_ws {srt : Argsort XR} (hs : ArgsortSpec srt) {kkt w : List XR} {start : ℕ} (hk : kkt.length = w.length) (h0 : w.length ≤ start) :
    Tri (fun _ => True) (constructWs srt kkt w start) (fun r => ∀ j < w.length, j ∈ r.1) := by
  unfold constructWs
  refine Tri.bind (Q := fun r : List XR × ℕ => r.1.length = w.length) ?_ fun ⟨k', nnz⟩ hk' => ?_
  · unfold markSupport
    refine Tri.foldlM (fun r : List XR × ℕ => r.1.length = w.length) _ _ (fun r j hj hr => ?_) _ hk
    rw [List.mem_range] at hj
    refine Tri.bind (Tri.getM' hj) fun wj _ => ?_
    split
    · refine Tri.bind (Tri.setM' _ (by rw [hr]; exact hj)) fun k h => ?_
      exact h.1.trans hr
    · exact hr
  · dsimp only at hk' ⊢
    by_cases hnan : k'.length < 2 ∨ ∀ x ∈ k', isNaN x = false
    · obtain ⟨π, h1, h2, -⟩ := hs.sorted k' hnan
      rw [h1]
      dsimp only [bind, Except.bind]
      split
      · intro j hj
        rw [List.take_of_length_le (by rw [h2.length_eq, List.length_range, hk']; exact le_trans h0 (le_max_left _ _))]
        exact h2.mem_iff.mpr (List.mem_range.mpr (by rw [hk']; exact hj))
      · trivial
    · push Not at hnan
      obtain ⟨h1, a, h2, h3⟩ := hnan
      rw [hs.nan k' h1 ⟨a, h2, by simpa using h3⟩]
      trivial

/-- If the test fails at zero and the first working set contains all features, the coefficient is NaN. -/
theorem poison_solve {srt : Argsort XR} (hs : ArgsortSpec srt) (hj : j < p) (hp : Penalty.prox pen XR.nan XR.nan = .ok XR.nan)
    (h1 : getM (Datafit.stepSize (DM := Mat XR) df) j = .ok XR.nan) (h2 : ∀ Xw, Xw.length = n → Datafit.gradientJ df ds Xw j = .ok XR.nan)
    {df0 : DF} (hnf : DesignMatrix.nFeatures ds.designMatrix = .ok p) (hi : Datafit.init df0 ds = .ok df) (hn : ds.targets.nSamples = n)
    (cfg : Solver XR) (hu : cfg.useAcceleration = false) (hw : p ≤ cfg.wsStartSize) (hm : 0 < cfg.maxIterations) (he : 0 < cfg.maxEpochs)
    {r : List XR × XR} (hr : optCondViolation ds (List.replicate p zero) (List.replicate n zero) (List.range p) df pen = .ok r)
    (hrl : r.1.length = p) (ht : (r.2 <=. cfg.tolerance) = false) (w : List XR) (h : cfg.solve srt ds df0 pen = .ok w) :
    w[j]? = some XR.nan := by
  have key : Tri (fun _ => True) (runCD srt ds df0 pen cfg) (fun q => Poisoned n p j q.1) := by
    unfold runCD
    rw [hnf, hn]
    dsimp only [bind, Except.bind]
    rw [hi]
    dsimp only
    set sk := skelCD srt ds df pen cfg p (ws0CD cfg p) with hsk
    have hacc : ∀ ws e b s, sk.accel ws e b s = .ok (b, s) := fun ws e b s => by
      show accelCD ds df pen cfg ws e b s = _
      unfold accelCD
      rw [if_neg (by rw [hu]; exact Bool.false_ne_true)]
      rfl
    have H : Skel.Hoare sk (fun _ => True) (Poisoned n p j) (fun _ _ => True) (fun _ _ _ => True) :=
      ⟨fun s _ => Tri.triv, fun s _ _ _ _ _ => Tri.triv, fun _ _ _ => trivial,
        fun ws _ s hs' _ => poison_epoch hp h1 h2 ws hs'.1 (Or.inr hs'.2),
        fun ws _ e b s hs' _ _ => by rw [hacc]; exact ⟨trivial, hs'⟩, fun _ _ _ _ _ _ _ => Tri.triv⟩
    obtain ⟨m, hm'⟩ : ∃ m, cfg.maxIterations = m + 1 := ⟨_, (Nat.succ_pred_eq_of_pos hm).symm⟩
    rw [hm']
    unfold Skel.outer
    have hv : sk.viol (initCD n p) = .ok r := hr
    rw [hv]
    dsimp only [bind, Except.bind]
    rw [if_neg (by show ¬ (r.2 <=. cfg.tolerance) = true; rw [ht]; exact Bool.false_ne_true)]
    have hlen : (initCD n p : CDState XR).w.length = p := List.length_replicate
    refine Tri.bind (all_in_ws hs (by rw [hlen]; exact hrl) (by rw [hlen]; exact le_of_eq (min_eq_right hw).symm)) fun q hq => ?_
    obtain ⟨ws, sz⟩ := q
    dsimp only
    refine Tri.bind (Q := Poisoned n p j) ?_ fun s1 hs1 => ?_
    · obtain ⟨m2, hm2⟩ : ∃ m, sk.maxEpochs = m + 1 := ⟨_, (Nat.succ_pred_eq_of_pos he).symm⟩
      rw [hm2]
      unfold Skel.inner
      refine Tri.bind (poison_epoch hp h1 h2 ws (st := initCD n p) ⟨List.length_replicate, List.length_replicate⟩
        (Or.inl (hq j (by rw [hlen]; exact hj)))) fun s hs' => ?_
      rw [hacc]
      show Tri _ (sk.stop ws sz r.2 0 s >>= fun c => if c = true then pure s else sk.inner ws sz r.2 m2 (0 + 1) (sk.buf0 sz) s) _
      refine Tri.bind Tri.triv fun c _ => ?_
      split
      · exact hs'
      · exact H.inner _ _ _ trivial _ _ _ _ trivial hs'
    · exact Tri.bind (H.outer m s1 hs1) fun q hq => hq.1
  rw [solve_eq] at h
  cases h3 : runCD srt ds df0 pen cfg with
  | error e => rw [h3] at h; cases h
  | ok q =>
    rw [h3] at h key
    rw [← Except.ok.inj h]
    exact key.2

end

/-! ## Acceleration -/

section
variable {DF P : Type} [Datafit XR (Mat XR) DF] [Penalty XR P] {df : DF} {pen : P} {n p : ℕ} {T : Targets XR}

theorem scatter_idle {nf j : ℕ} (hj : j < nf) (pt : List XR) {ws : List ℕ} (h : j ∉ ws) :
    Tri (fun _ => True) (scatter nf pt ws) (fun w => w[j]? = some zero) := by
  unfold scatter
  refine Tri.foldlM (fun w : List XR => w[j]? = some zero) _ _ (fun w a ha hw => ?_) _ ?_
  · have hne : a.2 ≠ j := fun e => h (e ▸ (List.of_mem_zip (a := a.1) (b := a.2) ha).2)
    unfold setM
    split
    · show (w.set a.2 a.1)[j]? = some zero
      rw [List.getElem?_set_ne hne]
      exact hw
    · trivial
  · rw [List.getElem?_replicate, if_pos hj]

theorem extra_nan {j : Fin p} {x : Fin n → Fin p → XR} (h : MissingIn j x) (ws : List ℕ) (w : List XR) :
    Tri (fun _ => True) ((matOf x).extrapolatedFit ws w) (fun r => r.length = n ∧ ((j : ℕ) ∈ ws → XR.nan ∈ r)) := by
  unfold Mat.extrapolatedFit
  have h1 : Tri (fun _ => True) ((matOf x).rows.mapM fun row => do
      let ts ← ws.mapM fun k => do
        let a ← getM row k
        let b ← getM w k
        pure (a *. b)
      pure (iterSum ts)) (fun r => List.Forall₂ (fun row t => row[(j : ℕ)]? = some XR.nan → (j : ℕ) ∈ ws → t = XR.nan) (matOf x).rows r) := by
    refine Tri.mapM _ _ _ fun row _ => ?_
    refine Tri.bind (Q := fun ts => List.Forall₂ (fun k t => k = (j : ℕ) → row[(j : ℕ)]? = some XR.nan → t = XR.nan) ws ts) ?_ fun ts hts => ?_
    · refine Tri.mapM _ _ _ fun k _ => ?_
      cases ha : getM row k with
      | error e => trivial
      | ok a =>
        cases hb : getM w k with
        | error e => trivial
        | ok b =>
          intro hk hrow
          subst hk
          have ha' : a = XR.nan := by
            unfold getM at ha
            rw [hrow] at ha
            exact (Except.ok.inj ha).symm
          rw [ha']
          show XR.mul XR.nan b = XR.nan
          cases b <;> rfl
    · intro hrow hjw
      obtain ⟨i, hi, e⟩ := List.getElem_of_mem hjw
      have h2 := List.forall₂_iff_get.mp hts
      have hi' : i < ts.length := by rw [← h2.1]; exact hi
      have h3 : ts[i] = XR.nan := h2.2 i hi hi' e hrow
      have h4 : XR.nan ∈ ts := h3 ▸ List.getElem_mem hi'
      exact XR.sum_nan h4 _
  refine Tri.mono h1 fun r hr => ⟨?_, fun hjw => ?_⟩
  · rw [← hr.length_eq]
    exact List.length_ofFn
  · obtain ⟨i, hi⟩ := h
    have h2 := List.forall₂_iff_get.mp hr
    have hl : (matOf x).rows.length = n := List.length_ofFn
    have hi1 : (i : ℕ) < (matOf x).rows.length := by rw [hl]; exact i.2
    have hi' : (i : ℕ) < r.length := by rw [← h2.1]; exact hi1
    have h3 : r[(i : ℕ)] = XR.nan := by
      refine h2.2 i hi1 hi' ?_ hjw
      show ((List.ofFn fun i => List.ofFn (x i))[(i : ℕ)]'(by simp))[(j : ℕ)]? = some XR.nan
      rw [List.getElem_ofFn]
      simp [hi]
    exact h3 ▸ List.getElem_mem hi'

theorem accel_idle {j : Fin p} {x : Fin n → Fin p → XR} (h : MissingIn j x)
    (hval : ∀ Xw, Xw.length = n → XR.nan ∈ Xw → Tri (fun _ => True) (Datafit.value df (⟨matOf x, T⟩ : Dataset (Mat XR) XR) Xw) (· = XR.nan))
    (cfg : Solver XR) (ws : List ℕ) (e : ℕ) (b : Mat XR) {s : CDState XR} (hs : Idle n j s) :
    Tri (fun _ => True) (accelCD ⟨matOf x, T⟩ df pen cfg ws e b s) (fun r => Idle n j r.2) := by
  unfold accelCD
  split
  · have key : Tri (fun _ => True) (andersonAccel ⟨matOf x, T⟩ df pen b s ws e cfg.K false []) (fun r => Idle n j r.2.1) := by
      unfold andersonAccel
      refine Tri.bind (Q := fun nf => nf = p) rfl fun nf hnf => ?_
      subst hnf
      refine Tri.bind Tri.triv fun b1 _ => ?_
      split
      · refine Tri.bind Tri.triv fun U _ => ?_
        refine Tri.bind Tri.triv fun C _ => ?_
        refine Tri.bind Tri.triv fun z _ => ?_
        cases z with
        | none => exact hs
        | some z =>
          refine Tri.bind Tri.triv fun pt _ => ?_
          refine Tri.bind (Q := fun w => (j : ℕ) ∉ ws → w[(j : ℕ)]? = some zero) ?_ fun wa hwa => ?_
          · by_cases hj : (j : ℕ) ∈ ws
            · exact Tri.mono Tri.triv fun _ _ hn => absurd hj hn
            · exact Tri.mono (scatter_idle j.2 pt hj) fun _ hw _ => hw
          · refine Tri.bind (extra_nan h ws wa) fun Xwa hX => ?_
            refine Tri.bind Tri.triv fun po _ => ?_
            refine Tri.bind (Q := fun q => (j : ℕ) ∈ ws → q = XR.nan) ?_ fun poa hpoa => ?_
            · unfold objective
              by_cases hj : (j : ℕ) ∈ ws
              · refine Tri.bind (hval Xwa hX.1 (hX.2 hj)) fun a ha => ?_
                refine Tri.bind Tri.triv fun c _ => ?_
                intro _
                rw [ha]
                show XR.add XR.nan c = XR.nan
                rw [XR.nan_add]
              · exact Tri.mono Tri.triv fun _ _ hn => absurd hn hj
            · split
              · rename_i hlt
                refine ⟨hwa fun hj => ?_, hX.1⟩
                rw [hpoa hj] at hlt
                cases po <;> cases hlt
              · exact hs
      · exact hs
    exact Tri.bind key fun r hr => hr
  · exact hs

/-- The coefficient of the feature is zero, with acceleration or without. -/
theorem SameBut.zero {j : Fin p} {x : Fin n → Fin p → XR} {ds' : Dataset (Mat XR) XR} {df' : DF} {f : XR → XR → XR} (h : MissingIn j x)
    (H : SameBut (⟨matOf x, T⟩ : Dataset (Mat XR) XR) ds' df df' pen f n j)
    (hval : ∀ Xw, Xw.length = n → XR.nan ∈ Xw → Tri (fun _ => True) (Datafit.value df (⟨matOf x, T⟩ : Dataset (Mat XR) XR) Xw) (· = XR.nan))
    {df0 : DF} (hi : Datafit.init df0 (⟨matOf x, T⟩ : Dataset (Mat XR) XR) = .ok df) (hn : T.nSamples = n) (srt : Argsort XR)
    (cfg : Solver XR) {w : List XR} (hw : cfg.solve srt (⟨matOf x, T⟩ : Dataset (Mat XR) XR) df0 pen = .ok w) : w[(j : ℕ)]? = some zero := by
  have key : Tri (fun _ => True) (runCD srt (⟨matOf x, T⟩ : Dataset (Mat XR) XR) df0 pen cfg) (fun q => Idle n j q.1) := by
    unfold runCD
    refine Tri.bind (Q := fun nf => nf = p) rfl fun nf hnf => ?_
    subst hnf
    rw [hi]
    dsimp only [bind, Except.bind]
    have Hh : Skel.Hoare (skelCD srt (⟨matOf x, T⟩ : Dataset (Mat XR) XR) df pen cfg nf (ws0CD cfg nf)) (fun _ => True) (Idle n j)
        (fun _ _ => True) (fun _ _ _ => True) :=
      ⟨fun s _ => Tri.triv, fun s _ _ _ _ _ => Tri.triv, fun _ _ _ => trivial,
        fun ws _ s hs _ => Tri.foldlM (Idle n j) _ ws (fun s k _ hs => by
          have h1 := H.cdStep hs k
          revert h1
          cases Sglm.cdStep (⟨matOf x, T⟩ : Dataset (Mat XR) XR) df pen s k with
          | error e => intro _; trivial
          | ok a =>
            cases Sglm.cdStep ds' df' pen s k with
            | error e => intro h1; exact h1.elim
            | ok b => intro h1; exact h1.2) s hs,
        fun ws _ e b s hs _ _ => Tri.mono (accel_idle h hval cfg ws e b hs) fun _ hr => ⟨trivial, hr⟩, fun _ _ _ _ _ _ _ => Tri.triv⟩
    refine Tri.mono (Hh.outer _ _ ⟨?_, ?_⟩) fun q hq => hq.1
    · show (List.replicate nf zero)[(j : ℕ)]? = some zero
      rw [List.getElem?_replicate, if_pos j.2]
    · show (List.replicate T.nSamples zero).length = n
      rw [List.length_replicate, hn]
  rw [solve_eq] at hw
  cases h3 : runCD srt (⟨matOf x, T⟩ : Dataset (Mat XR) XR) df0 pen cfg with
  | error e => rw [h3] at hw; cases hw
  | ok q =>
    rw [h3] at hw key
    rw [← Except.ok.inj hw]
    exact key.1

theorem quad_value_nan (X : Mat XR) (y : Fin n → XR) {Xw : List XR} (hl : Xw.length = n) (hX : XR.nan ∈ Xw) :
    Tri (fun _ => True) (Quadratic.value (⟨X, Targets.one (List.ofFn y)⟩ : Dataset (Mat XR) XR) Xw) (· = XR.nan) := by
  obtain ⟨v, rfl⟩ : ∃ v : Fin n → XR, Xw = List.ofFn v := ⟨fun i => Xw[i]'(by omega), by subst hl; exact (List.ofFn_getElem).symm⟩
  obtain ⟨i, hi⟩ := List.mem_ofFn.mp hX
  unfold Quadratic.value
  dsimp only
  rw [single_oneOf]
  dsimp only [bind, Except.bind]
  rw [bop_ofFn]
  dsimp only
  rw [dotM_ofFn]
  show XR.div (XR.dot _ _) _ = XR.nan
  rw [nan_dot rfl (List.mem_ofFn.mpr ⟨i, by rw [hi]; exact XR.add_nan _⟩), XR.nan_div]

theorem log_value_nan (X : Mat XR) (y : Fin n → XR) {Xw : List XR} (hl : Xw.length = n) (hX : XR.nan ∈ Xw) :
    Tri (fun _ => True) (Logistic.value (⟨X, Targets.one (List.ofFn y)⟩ : Dataset (Mat XR) XR) Xw) (· = XR.nan) := by
  obtain ⟨v, rfl⟩ : ∃ v : Fin n → XR, Xw = List.ofFn v := ⟨fun i => Xw[i]'(by omega), by subst hl; exact (List.ofFn_getElem).symm⟩
  obtain ⟨i, hi⟩ := List.mem_ofFn.mp hX
  unfold Logistic.value
  dsimp only
  rw [single_oneOf]
  dsimp only [bind, Except.bind]
  rw [zipWith_ofFn]
  show XR.div (List.foldl XR.add _ _) _ = XR.nan
  rw [XR.sum_nan (List.mem_ofFn.mpr ⟨i, by rw [hi]; cases y i <;> rfl⟩), XR.nan_div]

end

section
variable {n p : ℕ}

theorem quad_nan {j : Fin p} {x : Fin n → Fin p → XR} (h : MissingIn j x) (y : Fin n → XR) :
    ∃ df : Quadratic XR, Quadratic.initDense ⟨matOf x, Targets.one (List.ofFn y)⟩ = .ok df ∧ getM df.lipschitz j = .ok XR.nan ∧
      ∀ Xw, Xw.length = n → Quadratic.gradDense df (⟨matOf x, Targets.one (List.ofFn y)⟩ : Dataset (Mat XR) XR) Xw j = .ok XR.nan := by
  have hi : Quadratic.initDense ⟨matOf x, Targets.one (List.ofFn y)⟩ =
      .ok ⟨List.ofFn (fun j => dot (List.ofFn fun i => x i j) (List.ofFn fun i => x i j) /. ofNat n),
        List.ofFn fun j => dot (List.ofFn fun i => x i j) (List.ofFn y)⟩ := by
    unfold Quadratic.initDense
    dsimp only
    rw [one_nSamplesOf, single_oneOf]
    dsimp only [bind, Except.bind]
    rw [tMulVec_matOf, colSqNorms_matOf]
    rfl
  refine ⟨_, hi, ?_, fun Xw hXw => ?_⟩
  · show getM (List.ofFn _) _ = _
    rw [getM_ofFn]
    show Except.ok (XR.div (XR.dot _ _) _) = _
    rw [nan_dot rfl (missing_mem h), XR.nan_div]
  · obtain ⟨v, rfl⟩ : ∃ v : Fin n → XR, Xw = List.ofFn v := ⟨fun i => Xw[i]'(by omega), by subst hXw; exact (List.ofFn_getElem).symm⟩
    unfold Quadratic.gradDense
    dsimp only
    rw [colM_matOf]
    dsimp only [bind, Except.bind]
    rw [dotM_ofFn, getM_ofFn]
    show Except.ok (XR.div (XR.add (XR.dot _ _) _) _) = _
    rw [nan_dot (by simp) (missing_mem h), XR.nan_add, XR.nan_div]

theorem viol_len {DM DF P : Type} [DesignMatrix XR DM] [Datafit XR DM DF] [Penalty XR P] {ds : Dataset DM XR} {df : DF} {pen : P} {f : XR → XR → XR}
    (hf : Penalty.subdiffDistance pen = sepDistances f) {w Xw : List XR} {ws : List ℕ} {r : List XR × XR}
    (h : optCondViolation ds w Xw ws df pen = .ok r) : r.1.length = ws.length := by
  unfold optCondViolation at h
  cases h1 : constructGrad ds Xw ws df with
  | error e => rw [h1] at h; cases h
  | ok g =>
    rw [h1] at h
    dsimp only [bind, Except.bind] at h
    rw [hf] at h
    unfold sepDistances at h
    have hg : g.length = ws.length := mapM_length h1
    cases h2 : (g.zip ws).mapM (fun gj => do
        let wj ← getM w gj.2
        pure (f wj gj.1)) with
    | error e => rw [h2] at h; cases h
    | ok d =>
      rw [h2] at h
      rw [← Except.ok.inj h]
      show d.length = _
      rw [mapM_length h2, List.length_zip, hg, Nat.min_self]

/-- Either the fit stops at the start or the coefficient of the feature is NaN. -/
theorem poison_quad {P : Type} [Penalty XR P] {pen : P} {f : XR → XR → XR} (hf : Penalty.subdiffDistance pen = sepDistances f)
    (hp : Penalty.prox pen XR.nan XR.nan = .ok XR.nan) {srt : Argsort XR} (hs : ArgsortSpec srt) {j : Fin p} {x : Fin n → Fin p → XR}
    (h : MissingIn j x) (y : Fin n → XR) (cfg : Solver XR) (hu : cfg.useAcceleration = false) (hw : p ≤ cfg.wsStartSize)
    (hm : 0 < cfg.maxIterations) (he : 0 < cfg.maxEpochs) {w : List XR}
    (hr : cfg.solve srt (⟨matOf x, Targets.one (List.ofFn y)⟩ : Dataset (Mat XR) XR) (Quadratic.new : Quadratic XR) pen = .ok w) :
    w = List.replicate p (XR.fin 0) ∨ w[(j : ℕ)]? = some XR.nan := by
  obtain ⟨df, h1, h2, h3⟩ := quad_nan h y
  have hns : (Targets.one (List.ofFn y) : Targets XR).nSamples = n := one_nSamplesOf y
  cases h4 : optCondViolation (⟨matOf x, Targets.one (List.ofFn y)⟩ : Dataset (Mat XR) XR) (List.replicate p zero) (List.replicate n zero)
      (List.range p) df pen with
  | error e =>
    exfalso
    obtain ⟨m, hm'⟩ : ∃ m, cfg.maxIterations = m + 1 := ⟨_, (Nat.succ_pred_eq_of_pos hm).symm⟩
    rw [solve_eq] at hr
    have : runCD srt (⟨matOf x, Targets.one (List.ofFn y)⟩ : Dataset (Mat XR) XR) (Quadratic.new : Quadratic XR) pen cfg = .error e := by
      unfold runCD
      rw [show DesignMatrix.nFeatures (matOf x) = .ok p from rfl]
      dsimp only [bind, Except.bind]
      rw [show Datafit.init (Quadratic.new : Quadratic XR) (⟨matOf x, Targets.one (List.ofFn y)⟩ : Dataset (Mat XR) XR) = .ok df from h1]
      dsimp only
      rw [hns, hm']
      unfold Skel.outer
      rw [show (skelCD srt (⟨matOf x, Targets.one (List.ofFn y)⟩ : Dataset (Mat XR) XR) df pen cfg p (ws0CD cfg p)).viol (initCD n p) = .error e
        from h4]
      rfl
    rw [this] at hr
    cases hr
  | ok r =>
    cases ht : (r.2 <=. cfg.tolerance) with
    | true =>
      left
      have := solve_null srt cfg (⟨matOf x, Targets.one (List.ofFn y)⟩ : Dataset (Mat XR) XR) (Quadratic.new : Quadratic XR) df pen p r rfl h1
        (by rw [hns]; exact h4) ht
      rw [this] at hr
      exact (Except.ok.inj hr).symm
    | false =>
      exact Or.inr (poison_solve hs j.2 hp h2 h3 rfl h1 hns cfg hu hw hm he h4 (by rw [viol_len hf h4, List.length_range]) ht w hr)

end
end Sglm
