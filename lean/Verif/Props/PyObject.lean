import Verif.Model.PyObject
import Verif.Props.Python
import Verif.Props.Sync

/-!
# C84: Python estimator objects have no hidden state

Whatever was done with an object before — other fits, failed fits, changed parameters, clones — `fit` depends only on the parameters
last assigned and on the data.  The second half of the claim, that an object which can be fitted can be cloned, is false of the code:
the constructors check what `fit` does not, and check it wrongly.
-/

namespace Sglm
open Scalar Spec
namespace PyObj
variable {F : Type} [Scalar F]

/-! ## Specification -/

/-- Two objects of the same class with the same parameters. -/
def SameParams (o o' : PyObj F) : Prop := o.cls = o'.cls ∧ ∀ k ∈ o.cls.signature, o.params k = o'.params k

/-- The assignments to parameters made by a call. -/
def Call.assigned : Call F → List (PyParam × PyVal F)
  | .setParams kw => kw
  | .fit _ _ => []

/-- All parameter names used in a call exist. -/
def Call.Known (c : PyClass) (call : Call F) : Prop := ∀ q ∈ call.assigned, q.1 ∈ c.signature

/-- The value last assigned to `k`. -/
def lastAssigned (l : List (PyParam × PyVal F)) (k : PyParam) : PyVal F := (l.reverse.lookup k).getD (default k)

/-- What the constructors accept, in terms of the arguments. -/
def Constructible (c : PyClass) (params : PyParam → PyVal F) : Prop :=
  ∃ a, params .alpha = .float a ∧ (a <. zero) = false ∧
    match c with
    | .lasso | .multiTaskLasso => True
    | .mcp | .blockMcp => (∃ g, params .gamma = .float g) ∧ (a <. one) = false
    | .elasticNet | .multiTaskElasticNet => (∃ r, params .l1_ratio = .float r) ∧ (one <. a) = false

/-! ## Lemmas -/

theorem signature_rest (c : PyClass) {k : PyParam} (h : k ∈ [.max_iter, .max_epochs, .tol, .p0, .use_accel, .K, .verbose]) :
    k ∈ c.signature := List.mem_append_right _ h

theorem alpha_mem (c : PyClass) : PyParam.alpha ∈ c.signature := by cases c <;> decide

theorem SameParams.computed {o o' : PyObj F} (h : SameParams o o') (srt : Argsort F) (X : PyDesign F) (y : PyTargets F) :
    o.computed srt X y = o'.computed srt X y := by
  obtain ⟨c, ps, q⟩ := o
  obtain ⟨c', ps', q'⟩ := o'
  obtain ⟨h1, h2⟩ := h
  simp only at h1 h2
  subst h1
  have ha := h2 _ (alpha_mem c)
  have r : ∀ k ∈ [PyParam.max_iter, .max_epochs, .tol, .p0, .use_accel, .K, .verbose], ps k = ps' k := fun k hk => h2 k (signature_rest c hk)
  have hs : ∀ u v, settings (⟨c, ps, q⟩ : PyObj F) u v = settings ⟨c, ps', q'⟩ u v := fun u v => by
    unfold settings
    simp only [r .max_iter (by decide), r .max_epochs (by decide), r .tol (by decide), r .p0 (by decide), r .K (by decide)]
  unfold PyObj.computed
  simp only [hs, ha, r .use_accel (by decide), r .verbose (by decide)]
  cases c with
  | lasso => rfl
  | multiTaskLasso => rfl
  | mcp => simp only [h2 .gamma (by decide)]
  | blockMcp => simp only [h2 .gamma (by decide)]
  | elasticNet => simp only [h2 .l1_ratio (by decide)]
  | multiTaskElasticNet => simp only [h2 .l1_ratio (by decide)]

omit [Scalar F] in
theorem setParams_cls : ∀ (kw : List (PyParam × PyVal F)) (o : PyObj F), (o.setParams kw).2.cls = o.cls
  | [], _ => rfl
  | (k, v) :: l, o => by
    unfold setParams
    split
    · exact setParams_cls l _
    · rfl

omit [Scalar F] in
theorem setParams_coef : ∀ (kw : List (PyParam × PyVal F)) (o : PyObj F), (o.setParams kw).2.coef = o.coef
  | [], _ => rfl
  | (k, v) :: l, o => by
    unfold setParams
    split
    · exact setParams_coef l _
    · rfl

omit [Scalar F] in
theorem setParams_known : ∀ (kw : List (PyParam × PyVal F)) (o : PyObj F), (∀ q ∈ kw, q.1 ∈ o.cls.signature) →
    (o.setParams kw).1 = .ok () ∧ ∀ k, (o.setParams kw).2.params k = (kw.reverse.lookup k).getD (o.params k)
  | [], _, _ => ⟨rfl, fun _ => rfl⟩
  | (k', v) :: l, o, h => by
    have h1 : k' ∈ o.cls.signature := h (k', v) List.mem_cons_self
    unfold setParams
    rw [if_pos h1]
    obtain ⟨h2, h3⟩ := setParams_known l { o with params := Function.update o.params k' v } (fun q hq => h q (List.mem_cons_of_mem _ hq))
    refine ⟨h2, fun k => ?_⟩
    rw [h3, List.reverse_cons, List.lookup_append]
    cases hl : l.reverse.lookup k with
    | some w => rfl
    | none =>
      by_cases hk : k = k'
      · subst hk
        simp [List.lookup]
      · simp [Function.update_of_ne hk, List.lookup, show (k == k') = false by simpa using hk]

theorem fit_params (srt : Argsort F) (o : PyObj F) (X : PyDesign F) (y : PyTargets F) :
    (o.fit srt X y).2.cls = o.cls ∧ (o.fit srt X y).2.params = o.params := by
  unfold fit
  split <;> exact ⟨rfl, rfl⟩

theorem after_cls (srt : Argsort F) (o : PyObj F) (call : Call F) : (o.after srt call).cls = o.cls := by
  cases call with
  | setParams kw => exact setParams_cls kw o
  | fit X y => exact (fit_params srt o X y).1

theorem after_params (srt : Argsort F) (o : PyObj F) (call : Call F) (h : call.Known o.cls) (k : PyParam) :
    (o.after srt call).params k = (call.assigned.reverse.lookup k).getD (o.params k) := by
  cases call with
  | setParams kw => exact (setParams_known kw o h).2 k
  | fit X y => exact congrFun (fit_params srt o X y).2 k

theorem history_cls (srt : Argsort F) : ∀ (calls : List (Call F)) (o : PyObj F), (o.history srt calls).cls = o.cls
  | [], _ => rfl
  | c :: l, o => (history_cls srt l (o.after srt c)).trans (after_cls srt o c)

theorem history_params (srt : Argsort F) : ∀ (calls : List (Call F)) (o : PyObj F), (∀ c ∈ calls, c.Known o.cls) → ∀ k,
    (o.history srt calls).params k = ((calls.flatMap Call.assigned).reverse.lookup k).getD (o.params k)
  | [], _, _, _ => rfl
  | c :: l, o, h, k => by
    have h1 := history_params srt l (o.after srt c) (fun d hd => by
      rw [after_cls]
      exact h d (List.mem_cons_of_mem _ hd)) k
    show ((o.after srt c).history srt l).params k = _
    rw [h1, after_params srt o c (h c List.mem_cons_self), List.flatMap_cons, List.reverse_append, List.lookup_append]
    cases (l.flatMap Call.assigned).reverse.lookup k <;> rfl

theorem checkAlpha_iff (v : PyVal F) (q : F) : Py.checkAlpha v.arg = .ok q ↔ v = .float q ∧ (q <. zero) = false := by
  cases v with
  | float x =>
    show (if x <. zero then _ else _) = _ ↔ _
    cases h : (x <. zero) with
    | true =>
      rw [if_pos rfl]
      exact ⟨fun h' => (by cases h'), fun h' => by
        obtain ⟨h1, h2⟩ := h'
        injection h1 with h1
        subst h1
        rw [h] at h2
        cases h2⟩
    | false =>
      rw [if_neg (by decide)]
      exact ⟨fun h' => (by cases h'; exact ⟨rfl, h⟩), fun h' => by
        obtain ⟨h1, h2⟩ := h'
        injection h1 with h1
        rw [h1]⟩
  | int z => exact ⟨fun h => (by cases h), fun h => by cases h.1⟩
  | bool b => exact ⟨fun h => (by cases h), fun h => by cases h.1⟩
  | other x => exact ⟨fun h => (by cases h), fun h => by cases h.1⟩

theorem checkInit_iff (c : PyClass) (params : PyParam → PyVal F) : checkInit c params = .ok () ↔ Constructible c params := by
  have lasso : (do let _ ← Py.lassoInit (params .alpha).arg; pure () : Except PyExc Unit) = .ok () ↔
      ∃ a, params .alpha = .float a ∧ (a <. zero) = false ∧ True := by
    unfold Py.lassoInit
    cases h : Py.checkAlpha (params .alpha).arg with
    | error e =>
      refine ⟨fun h' => (by cases h'), fun ⟨a, h1, h2, _⟩ => ?_⟩
      rw [(checkAlpha_iff _ a).mpr ⟨h1, h2⟩] at h
      cases h
    | ok a =>
      obtain ⟨h1, h2⟩ := (checkAlpha_iff _ a).mp h
      exact ⟨fun _ => ⟨a, h1, h2, trivial⟩, fun _ => rfl⟩
  have two : ∀ (b : PyVal F) (bad : F → Bool) (name : String),
      (do
        let a ← Py.checkAlpha (params .alpha).arg
        let _ ← (match b.arg with
          | .float g => if bad a then .error (.valueError name) else .ok (a, g)
          | _ => .error (.valueError name) : Except PyExc (F × F))
        pure () : Except PyExc Unit) = .ok () ↔
      ∃ a, params .alpha = .float a ∧ (a <. zero) = false ∧ (∃ g, b = .float g) ∧ bad a = false := by
    intro b bad name
    cases h : Py.checkAlpha (params .alpha).arg with
    | error e =>
      refine ⟨fun h' => (by cases h'), fun ⟨a, h1, h2, _⟩ => ?_⟩
      rw [(checkAlpha_iff _ a).mpr ⟨h1, h2⟩] at h
      cases h
    | ok a =>
      obtain ⟨h1, h2⟩ := (checkAlpha_iff _ a).mp h
      have huniq : ∀ a', params .alpha = .float a' → a' = a := fun a' h' => by
        rw [h1] at h'
        injection h' with h'
        exact h'.symm
      simp only [bind, Except.bind]
      cases b with
      | float g =>
        simp only [PyVal.arg]
        cases hb : bad a with
        | true =>
          rw [if_pos rfl]
          refine ⟨fun h' => (by cases h'), fun ⟨a', h3, _, _, h5⟩ => ?_⟩
          rw [huniq a' h3, hb] at h5
          cases h5
        | false =>
          rw [if_neg (by decide)]
          exact ⟨fun _ => ⟨a, h1, h2, ⟨g, rfl⟩, hb⟩, fun _ => rfl⟩
      | int z => exact ⟨fun h' => (by cases h'), fun ⟨_, _, _, ⟨g, h4⟩, _⟩ => by cases h4⟩
      | bool z => exact ⟨fun h' => (by cases h'), fun ⟨_, _, _, ⟨g, h4⟩, _⟩ => by cases h4⟩
      | other z => exact ⟨fun h' => (by cases h'), fun ⟨_, _, _, ⟨g, h4⟩, _⟩ => by cases h4⟩
  have mcp := two (params .gamma) (fun a => a <. one) "gamma"
  have enet := two (params .l1_ratio) (fun a => (a <. zero) || (one <. a)) "l1_ratio"
  have e1 : (do let _ ← Py.mcpInit (params .alpha).arg (params .gamma).arg; pure () : Except PyExc Unit) = .ok () ↔
      ∃ a, params .alpha = .float a ∧ (a <. zero) = false ∧ (∃ g, params .gamma = .float g) ∧ (a <. one) = false := by
    rw [← mcp]
    unfold Py.mcpInit
    cases Py.checkAlpha (params .alpha).arg <;> exact Iff.rfl
  have e2 : (do let _ ← Py.elasticNetInit (params .alpha).arg (params .l1_ratio).arg; pure () : Except PyExc Unit) = .ok () ↔
      ∃ a, params .alpha = .float a ∧ (a <. zero) = false ∧ (∃ g, params .l1_ratio = .float g) ∧ (one <. a) = false := by
    have : (do let _ ← Py.elasticNetInit (params .alpha).arg (params .l1_ratio).arg; pure () : Except PyExc Unit) = .ok () ↔
        ∃ a, params .alpha = .float a ∧ (a <. zero) = false ∧ (∃ g, params .l1_ratio = .float g) ∧ ((a <. zero) || (one <. a)) = false := by
      rw [← enet]
      unfold Py.elasticNetInit
      cases Py.checkAlpha (params .alpha).arg <;> exact Iff.rfl
    rw [this]
    refine exists_congr fun a => and_congr_right fun _ => and_congr_right fun h => ?_
    rw [h, Bool.false_or]
  cases c with
  | lasso => exact lasso
  | multiTaskLasso => exact lasso
  | mcp => exact e1
  | blockMcp => exact e1
  | elasticNet => exact e2
  | multiTaskElasticNet => exact e2

omit [Scalar F] in
theorem lookup_map_self (ps : PyParam → PyVal F) : ∀ (l : List PyParam) (k : PyParam), k ∈ l →
    (l.map fun k => (k, ps k)).lookup k = some (ps k)
  | [], _, h => by cases h
  | a :: l, k, h => by
    simp only [List.map_cons, List.lookup]
    by_cases hk : k = a
    · subst hk; simp
    · rw [show (k == a) = false by simpa using hk]
      exact lookup_map_self ps l k (by simpa [hk] using h)

end PyObj

/-! ## C84 -/

section
open PyObj
variable {F : Type} [Scalar F]

/-- **The parameters after any sequence of calls** are the values last assigned, by the constructor or by `set_params`. -/
theorem C84_params (srt : Argsort F) (c : PyClass) (kw : List (PyParam × PyVal F)) (hkw : (kw.map Prod.fst).Nodup) (o : PyObj F)
    (h : construct c kw = .ok o) (calls : List (Call F)) (hk : ∀ d ∈ calls, d.Known c) (k : PyParam) :
    (o.history srt calls).params k = lastAssigned (kw ++ calls.flatMap Call.assigned) k := by
  have hc : o.cls = c ∧ o.params = fun k => (kw.lookup k).getD (default k) := by
    unfold construct at h
    split at h
    · simp only at h
      cases h' : checkInit c (fun k => (kw.lookup k).getD (default k)) with
      | error e => rw [h'] at h; cases h
      | ok u => rw [h'] at h; cases h; exact ⟨rfl, rfl⟩
    · cases h
  rw [history_params srt calls o (by rw [hc.1]; exact hk), hc.2]
  unfold lastAssigned
  rw [List.reverse_append, List.lookup_append]
  have hrev : kw.reverse.lookup k = kw.lookup k := by
    clear h hc hk
    induction kw with
    | nil => rfl
    | cons q l ih =>
      obtain ⟨k', v⟩ := q
      rw [List.map_cons, List.nodup_cons] at hkw
      rw [List.reverse_cons, List.lookup_append, ih hkw.2]
      simp only [List.lookup]
      by_cases hkk : k = k'
      · subst hkk
        have : l.lookup k = none := by
          rw [List.lookup_eq_none_iff]
          intro q hq
          have : q.1 ≠ k := fun h => hkw.1 (List.mem_map.mpr ⟨q, hq, h⟩)
          simpa using fun h : k = q.1 => this h.symm
        rw [this]
        simp
      · rw [show (k == k') = false by simpa using hkk]
        simp
  rw [hrev]
  cases (calls.flatMap Call.assigned).reverse.lookup k <;> rfl

/-- **`fit` has no memory**: two objects of one class, with whatever histories, which end up with the same parameters, raise the same
exception or compute the same coefficients. -/
theorem C84_no_memory (srt : Argsort F) (o o' : PyObj F) (calls calls' : List (Call F))
    (h : SameParams (o.history srt calls) (o'.history srt calls')) (X : PyDesign F) (y : PyTargets F) :
    ((o.history srt calls).fit srt X y).1 = ((o'.history srt calls').fit srt X y).1 ∧
    (((o.history srt calls).fit srt X y).1 = .ok () →
      ((o.history srt calls).fit srt X y).2.coef = ((o'.history srt calls').fit srt X y).2.coef) := by
  have h1 := h.computed srt X y
  unfold PyObj.fit
  rw [h1]
  cases (o'.history srt calls').computed srt X y with
  | error e => exact ⟨rfl, fun h => by cases h⟩
  | ok c => exact ⟨rfl, fun _ => rfl⟩

/-- **What a fit changes**: only `coef_`, and nothing at all if it raises an exception; fitting again gives the same result. -/
theorem C84_fit (srt : Argsort F) (o : PyObj F) (X : PyDesign F) (y : PyTargets F) :
    SameParams (o.fit srt X y).2 o ∧
    (∀ e, (o.fit srt X y).1 = .error e → (o.fit srt X y).2 = o) ∧
    ((o.fit srt X y).1 = .ok () → ∃ c, (o.fit srt X y).2.coef = some c ∧ (o.fit srt X y).2.fit srt X y = ((.ok ()), (o.fit srt X y).2)) := by
  obtain ⟨h1, h2⟩ := fit_params srt o X y
  have hs : SameParams (o.fit srt X y).2 o := ⟨h1, fun k _ => congrFun h2 k⟩
  refine ⟨hs, ?_, ?_⟩
  · intro e h
    unfold PyObj.fit at h ⊢
    cases hc : o.computed srt X y with
    | error e' => rfl
    | ok c => rw [hc] at h; cases h
  · intro h
    have h3 := hs.computed srt X y
    cases hc : o.computed srt X y with
    | error e' => unfold PyObj.fit at h; rw [hc] at h; cases h
    | ok c =>
      have h4 : o.fit srt X y = (.ok (), { o with coef := some c }) := by unfold PyObj.fit; rw [hc]
      rw [h4] at h3 ⊢
      refine ⟨c, rfl, ?_⟩
      show PyObj.fit srt ({ o with coef := some c } : PyObj F) X y = _
      unfold PyObj.fit
      rw [h3, hc]

omit [Scalar F] in
/-- `set_params(**get_params())` changes nothing that `fit`, `predict` or `clone` read; `set_params` of known names raises no exception and
keeps `coef_`; an unknown name raises a `ValueError`. -/
theorem C84_set_params (o : PyObj F) :
    (o.setParams o.getParams).1 = .ok () ∧ SameParams (o.setParams o.getParams).2 o ∧ (o.setParams o.getParams).2.coef = o.coef ∧
    (∀ kw, (∀ q ∈ kw, q.1 ∈ o.cls.signature) → (o.setParams kw).1 = .ok () ∧ (o.setParams kw).2.coef = o.coef ∧
      ∀ k, (o.setParams kw).2.params k = (kw.reverse.lookup k).getD (o.params k)) ∧
    ∀ kw, (∃ q ∈ kw, q.1 ∉ o.cls.signature) → (o.setParams kw).1 = .error (.valueError "parameter") := by
  have hself : ∀ q ∈ o.getParams, q.1 ∈ o.cls.signature := by
    intro q hq
    obtain ⟨k, hk, rfl⟩ := List.mem_map.mp hq
    exact hk
  obtain ⟨h1, h2⟩ := setParams_known _ o hself
  refine ⟨h1, ⟨setParams_cls _ o, fun k hk => ?_⟩, setParams_coef _ o, fun kw h => ⟨(setParams_known kw o h).1, setParams_coef kw o,
    (setParams_known kw o h).2⟩, ?_⟩
  · rw [setParams_cls] at hk
    rw [h2]
    have : o.getParams.reverse.lookup k = some (o.params k) := by
      unfold getParams
      rw [← List.map_reverse]
      exact lookup_map_self o.params _ k (List.mem_reverse.mpr hk)
    rw [this]
    rfl
  · intro kw
    induction kw generalizing o with
    | nil => rintro ⟨q, hq, _⟩; cases hq
    | cons q l ih =>
      rintro ⟨r, hr, hr'⟩
      obtain ⟨k, v⟩ := q
      unfold setParams
      by_cases hk : k ∈ o.cls.signature
      · rw [if_pos hk]
        rcases List.mem_cons.mp hr with h | h
        · subst h; exact absurd hk hr'
        · set o' : PyObj F := { o with params := Function.update o.params k v } with ho'
          have hself' : ∀ q ∈ o'.getParams, q.1 ∈ o'.cls.signature := by
            intro q hq
            obtain ⟨k, hk, rfl⟩ := List.mem_map.mp hq
            exact hk
          exact ih o' hself' (setParams_known _ o' hself').1 (setParams_known _ o' hself').2 ⟨r, h, hr'⟩
      · rw [if_neg hk]

/-- **Cloning (partial)**: `clone` returns an unfitted object with the same parameters, whose fits are those of the original, exactly if
the constructor accepts the current parameters.  Missing from the full statement: objects which can be fitted, but whose parameters the
constructor rejects. -/
theorem C84_clone_partial (srt : Argsort F) (o : PyObj F) :
    ((∃ o', o.clone = .ok o') ↔ Constructible o.cls o.params) ∧
    ∀ o', o.clone = .ok o' → SameParams o' o ∧ o'.coef = none ∧
      ∀ (X : PyDesign F) (y : PyTargets F), (o'.fit srt X y).1 = (o.fit srt X y).1 ∧
        ((o'.fit srt X y).1 = .ok () → (o'.fit srt X y).2.coef = (o.fit srt X y).2.coef) := by
  have hguard : ((o.getParams.all fun q => q.1 ∈ o.cls.signature) && o.cls.required.all fun k => k ∈ o.getParams.map Prod.fst) = true := by
    rw [Bool.and_eq_true, List.all_eq_true, List.all_eq_true]
    constructor
    · intro q hq
      obtain ⟨k, hk, rfl⟩ := List.mem_map.mp hq
      exact decide_eq_true hk
    · intro k hk
      refine decide_eq_true ?_
      unfold getParams
      rw [List.map_map]
      exact List.mem_map.mpr ⟨k, List.mem_append_left _ hk, rfl⟩
  have hparams : ∀ k ∈ o.cls.signature, ((o.getParams.lookup k).getD (default k)) = o.params k := fun k hk => by
    unfold getParams
    rw [lookup_map_self o.params _ k hk]
    rfl
  have hcon : Constructible o.cls (fun k => (o.getParams.lookup k).getD (default k)) ↔ Constructible o.cls o.params := by
    have ha := hparams .alpha (alpha_mem _)
    unfold Constructible
    cases hc : o.cls with
    | lasso => simp only [ha]
    | multiTaskLasso => simp only [ha]
    | mcp => simp only [ha, hparams .gamma (by rw [hc]; decide)]
    | blockMcp => simp only [ha, hparams .gamma (by rw [hc]; decide)]
    | elasticNet => simp only [ha, hparams .l1_ratio (by rw [hc]; decide)]
    | multiTaskElasticNet => simp only [ha, hparams .l1_ratio (by rw [hc]; decide)]
  have hclone : o.clone = (do
      checkInit o.cls (fun k => (o.getParams.lookup k).getD (default k))
      pure ⟨o.cls, fun k => (o.getParams.lookup k).getD (default k), none⟩) := by
    unfold clone construct
    rw [if_pos hguard]
  constructor
  · rw [hclone, ← hcon, ← checkInit_iff]
    cases checkInit o.cls (fun k => (o.getParams.lookup k).getD (default k)) with
    | error e => exact ⟨fun ⟨_, h⟩ => (by cases h), fun h => by cases h⟩
    | ok u => exact ⟨fun _ => rfl, fun _ => ⟨_, rfl⟩⟩
  · intro o' h
    rw [hclone] at h
    have h1 : o' = ⟨o.cls, fun k => (o.getParams.lookup k).getD (default k), none⟩ := by
      cases h2 : checkInit o.cls (fun k => (o.getParams.lookup k).getD (default k)) with
      | error e => rw [h2] at h; cases h
      | ok u => rw [h2] at h; cases h; rfl
    have h3 : SameParams o' o := by rw [h1]; exact ⟨rfl, hparams⟩
    exact ⟨h3, by rw [h1], fun X y => C84_no_memory srt o' o [] [] h3 X y⟩

end

/-- The full statement about clones: an object whose parameters were assigned by a constructor call and `set_params`, and which can be
fitted, can be cloned. -/
def C84_full : Prop :=
  ∀ (srt : Argsort XR), ArgsortSpec srt → ∀ (c : PyClass) (kw : List (PyParam × PyVal XR)) (o : PyObj XR), PyObj.construct c kw = .ok o →
    ∀ (calls : List (PyObj.Call XR)) (X : PyDesign XR) (y : PyTargets XR), ((o.history srt calls).fit srt X y).1 = .ok () →
      ∃ o', (o.history srt calls).clone = .ok o'

/-- An elastic net made with `alpha = 1.0` and `l1_ratio = 0.5`. -/
noncomputable def enetArgs : List (PyParam × PyVal XR) :=
  [(.alpha, .float (XR.fin 1)), (.l1_ratio, .float (XR.fin (1 / 2))), (.tol, .float (XR.fin 0)), (.use_accel, .bool false)]

/-- It is constructed. -/
theorem enet_construct : ∃ o, PyObj.construct .elasticNet enetArgs = .ok o ∧ o.cls = .elasticNet ∧ o.coef = none ∧
    o.params = fun k => (enetArgs.lookup k).getD (PyObj.default k) := by
  have h : PyObj.checkInit .elasticNet (fun k => (enetArgs.lookup k).getD (PyObj.default k)) = .ok () := by
    rw [PyObj.checkInit_iff]
    refine ⟨XR.fin 1, rfl, lt_zero_false zero_le_one, ⟨_, rfl⟩, ?_⟩
    show decide ((1 : ℝ) < 1) = false
    rw [decide_eq_false_iff_not]
    exact lt_irrefl _
  refine ⟨⟨.elasticNet, fun k => (enetArgs.lookup k).getD (PyObj.default k), none⟩, ?_, rfl, rfl, rfl⟩
  unfold PyObj.construct
  rw [if_pos (by decide)]
  simp only [h]
  rfl

/-- After `set_params(alpha=a)` with any `a > 1`, allowed by the documentation, it can be fitted to every data set, but `clone` raises a
`ValueError`. -/
theorem C84_enet_clone {srt : Argsort XR} (hs : ArgsortSpec srt) {n p : ℕ} (hn : 0 < n) (hp : 0 < p) (X : Fin n → Fin p → ℝ)
    (y : Fin n → ℝ) (a : ℝ) (ha : 1 < a) (o : PyObj XR) (ho : PyObj.construct .elasticNet enetArgs = .ok o) :
    ((o.history srt [.setParams [(.alpha, .float (XR.fin a))]]).fit srt (.dense .f64 (mat X)) (.one (vec y))).1 = .ok () ∧
    ∀ o', (o.history srt [.setParams [(.alpha, .float (XR.fin a))]]).clone ≠ .ok o' := by
  obtain ⟨o₁, h1, h2, h3, h4⟩ := enet_construct
  rw [h1] at ho
  injection ho with ho
  subst ho
  obtain ⟨c, ps, q⟩ := o₁
  simp only at h2 h3 h4
  subst h2 h3 h4
  have e : (PyObj.history srt (⟨.elasticNet, fun k => (enetArgs.lookup k).getD (PyObj.default k), none⟩ : PyObj XR)
      [.setParams [(.alpha, .float (XR.fin a))]]) =
      ⟨.elasticNet, Function.update (fun k => (enetArgs.lookup k).getD (PyObj.default k)) .alpha (.float (XR.fin a)), none⟩ := rfl
  rw [e]
  constructor
  · obtain ⟨v, hv⟩ := C25_finite hs hn (.dense X) y .quadratic (.enet a (1 / 2)) ⟨by linarith, by norm_num, by norm_num⟩
      ⟨10, 50, 1000, XR.fin 0, 5, false, true⟩ rfl
    have hfit : ElasticNet.fit srt (⟨XR.fin a, XR.fin (1 / 2), 50, 1000, 10, XR.fin 0, 5, false, true⟩ : ElasticNetParams XR)
        (⟨mat X, .one (vec y)⟩ : Dataset (Mat XR) XR) = .ok (.ok (vec v)) := by
      have hchk : ∃ q, ElasticNetParams.check
          (⟨XR.fin a, XR.fin (1 / 2), 50, 1000, 10, XR.fin 0, 5, false, true⟩ : ElasticNetParams XR) = .ok q := by
        refine ⟨⟨XR.fin a, XR.fin (1 / 2), 50, 1000, 10, XR.fin 0, 5, false, true⟩, ?_⟩
        unfold ElasticNetParams.check ElasticNetParams.checkRef checkTail
        dsimp only
        rw [XR.s_signBit, XR.s_signBit, decide_eq_false (by linarith), decide_eq_false (by norm_num)]
        rw [show (one <. XR.fin (1 / 2 : ℝ)) = false from decide_eq_false (by norm_num : ¬ (1 : ℝ) < 1 / 2),
          lt_zero_false (r := 1 / 2) (by norm_num)]
        rfl
      have h5 := ((C43_estimator_is_solver srt (⟨mat X, .one (vec y)⟩ : Dataset (Mat XR) XR)).2.1 _ hchk).1
      rw [h5]
      have h6 : Solver.solve srt (builtSolver 10 50 1000 (XR.fin 0) 5 false true)
          (⟨mat X, .one (vec y)⟩ : Dataset (Mat XR) XR) (Quadratic.new : Quadratic XR) (L1PlusL2.mk (XR.fin a) (XR.fin (1 / 2))) =
          .ok (vec v) := hv
      rw [h6]
      rfl
    unfold PyObj.fit
    have : PyObj.computed srt (⟨.elasticNet, Function.update (fun k => (enetArgs.lookup k).getD (PyObj.default k)) .alpha
        (.float (XR.fin a)), none⟩ : PyObj XR) (.dense .f64 (mat X)) (.one (vec y)) = .ok (.one (vec v)) := by
      have hc : Py.validateParams (⟨.int 50, .int 1000, .float (XR.fin 0), .int 10, false, .int 5, true⟩ : PySettings XR) =
          .ok ⟨50, 1000, XR.fin 0, 10, 5, false, true⟩ := by
        unfold Py.validateParams Py.checkInt Py.checkFloat
        dsimp only
        rw [lt_zero_false le_rfl]
        rfl
      show Py.elasticNetFit srt (XR.fin a) (XR.fin (1 / 2)) ⟨.int 50, .int 1000, .float (XR.fin 0), .int 10, false, .int 5, true⟩ _ _ = _
      unfold Py.elasticNetFit
      rw [fitSingle_dense hc (by decide) (goodDesign_mat hn hp .f64 X) (goodTargets_vec hn y)]
      have h7 : Py.elasticNetWrapper (XR.fin a) (XR.fin (1 / 2)) ⟨50, 1000, XR.fin 0, 10, 5, false, true⟩ =
          ⟨XR.fin a, XR.fin (1 / 2), 50, 1000, 10, XR.fin 0, 5, false, true⟩ := rfl
      rw [h7, hfit]
      rfl
    rw [this]
  · intro o' h
    obtain ⟨b, hb, -, -, hb'⟩ := (C84_clone_partial srt _).1.mp ⟨o', h⟩
    injection hb with hb
    subst hb
    have : decide ((1 : ℝ) < a) = false := hb'
    rw [decide_eq_false_iff_not] at this
    exact this ha

/-- **C84 is false of the code**: `ElasticNet(alpha=1.0, l1_ratio=0.5).set_params(alpha=2.0)`. -/
theorem C84_false : ¬ C84_full := by
  intro h
  obtain ⟨o, ho, -⟩ := enet_construct
  obtain ⟨h1, h2⟩ := C84_enet_clone argsortIns_spec (n := 2) (p := 1) (by omega) (by omega) ![![1], ![2]] ![1, 3] 2 (by norm_num) o ho
  obtain ⟨o', ho'⟩ := h argsortIns argsortIns_spec _ _ o ho _ _ _ h1
  exact h2 o' ho'

/-! ## Examples -/

/-- A history with two assignments to one parameter and a fit which raises in between. -/
example : ∃ o, PyObj.construct .elasticNet enetArgs = .ok o ∧
    (PyObj.history argsortIns o [.setParams [(.alpha, .float (XR.fin 3)), (.max_iter, .int 7)], .fit (.dense .f64 (mat ![![1]])) (.two (mat ![![1]])),
      .setParams [(.alpha, .float (XR.fin 5))]]).params .alpha = .float (XR.fin 5) ∧
    (PyObj.history argsortIns o [.setParams [(.alpha, .float (XR.fin 3)), (.max_iter, .int 7)], .fit (.dense .f64 (mat ![![1]])) (.two (mat ![![1]])),
      .setParams [(.alpha, .float (XR.fin 5))]]).params .max_iter = .int 7 := by
  obtain ⟨o, h, -⟩ := enet_construct
  have hk : ∀ d ∈ [PyObj.Call.setParams [(.alpha, .float (XR.fin 3)), (.max_iter, .int 7)], .fit (.dense .f64 (mat ![![1]])) (.two (mat ![![1]])),
      .setParams [(.alpha, .float (XR.fin 5))]], PyObj.Call.Known .elasticNet d := by
    intro d hd
    simp only [List.mem_cons, List.not_mem_nil, or_false] at hd
    rcases hd with rfl | rfl | rfl <;> intro q hq
    · simp only [PyObj.Call.assigned, List.mem_cons, List.not_mem_nil, or_false] at hq
      rcases hq with rfl | rfl <;> decide
    · cases hq
    · simp only [PyObj.Call.assigned, List.mem_cons, List.not_mem_nil, or_false] at hq
      subst hq
      decide
  exact ⟨o, h, C84_params argsortIns _ _ (by decide) o h _ hk .alpha, C84_params argsortIns _ _ (by decide) o h _ hk .max_iter⟩

/-- The same parameters with different histories. -/
example : ∃ o, PyObj.construct .elasticNet enetArgs = .ok o ∧
    PyObj.SameParams (o.history argsortIns [.setParams [(.alpha, .float (XR.fin 3))], .setParams [(.alpha, .float (XR.fin 1))]])
      (o.history argsortIns []) := by
  obtain ⟨o, h, h2, -, h4⟩ := enet_construct
  refine ⟨o, h, ?_⟩
  obtain ⟨c, ps, q⟩ := o
  simp only at h2 h4
  subst h2 h4
  refine ⟨rfl, fun k _ => ?_⟩
  cases k <;> rfl

/-- An unknown name. -/
example : ∃ o, PyObj.construct .elasticNet enetArgs = .ok o ∧ (o.setParams [(.gamma, .float (XR.fin 3))]).1 = .error (.valueError "parameter") := by
  obtain ⟨o, h, h2, -⟩ := enet_construct
  exact ⟨o, h, (C84_set_params o).2.2.2.2 _ ⟨_, List.mem_cons_self, by rw [h2]; decide⟩⟩

/-- A clone. -/
example : ∃ o o', PyObj.construct .elasticNet enetArgs = .ok o ∧ o.clone = .ok o' := by
  obtain ⟨o, h, h2, -, h4⟩ := enet_construct
  obtain ⟨o', h'⟩ := (C84_clone_partial argsortIns o).1.mpr (by
    rw [h2, h4]
    refine ⟨XR.fin 1, rfl, lt_zero_false zero_le_one, ⟨_, rfl⟩, ?_⟩
    show decide ((1 : ℝ) < 1) = false
    rw [decide_eq_false_iff_not]
    exact lt_irrefl _)
  exact ⟨o, o', h, h'⟩

end Sglm
