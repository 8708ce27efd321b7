import Verif.Proofs.Guard
import Verif.Props.Constraint
import Verif.Props.IEEETable

/-!
# C104: constraints hold exactly in floating point

Whatever the arithmetic, the data and the settings: if the proximal operator of a penalty supplied by the user only returns numbers which
satisfy a constraint, and the penalty is infinite (or NaN) where it is violated, all coefficients which a call returns satisfy it.
-/

namespace Sglm
open Scalar Spec
variable {F DM DF P : Type} [Scalar F] [DesignMatrix F DM]

theorem solve_run [Datafit F DM DF] [Penalty F P] {srt : Argsort F} {cfg : Solver F} {ds : Dataset DM F} {df : DF} {pen : P} {w : List F}
    (h : cfg.solve srt ds df pen = .ok w) : ∃ st df1 log, coordinateDescent srt ds df pen cfg = .ok (st, df1, log) ∧ st.w = w := by
  unfold Solver.solve at h
  cases hc : coordinateDescent srt ds df pen cfg with
  | error e => rw [hc] at h; cases h
  | ok r =>
    obtain ⟨st, df1, log⟩ := r
    rw [hc] at h
    injection h with h
    exact ⟨st, df1, log, rfl, h⟩

/-- **Results satisfy the constraint**, for all data (also NaN and infinite ones), datafits and settings. -/
theorem C104_feasible [Datafit F DM DF] [Penalty F P] {pen : P} {S : F → Prop} (H : Guards pen S) (srt : Argsort F) (cfg : Solver F)
    (ds : Dataset DM F) (df : DF) (w : List F) (h : cfg.solve srt ds df pen = .ok w) : ∀ z ∈ w, S z := by
  obtain ⟨st, df1, log, hc, rfl⟩ := solve_run h
  obtain ⟨nf, k, -, -, hrun, -⟩ := cd_run hc
  exact (Tri.elim_ok ((hoare_guard srt ds df1 cfg H.toProxGuards (fun _ => H) nf (ws0CD cfg nf)).outer cfg.maxIterations
    (initCD ds.targets.nSamples nf) (fun z hz => by rw [List.eq_of_mem_replicate hz]; exact H.zero)) hrun).1

/-- **Without acceleration** the values of the penalty do not matter. -/
theorem C104_unaccelerated [Datafit F DM DF] [Penalty F P] {pen : P} {S : F → Prop} (H : ProxGuards pen S) (srt : Argsort F) (cfg : Solver F)
    (hu : cfg.useAcceleration = false) (ds : Dataset DM F) (df : DF) (w : List F) (h : cfg.solve srt ds df pen = .ok w) : ∀ z ∈ w, S z := by
  obtain ⟨st, df1, log, hc, rfl⟩ := solve_run h
  obtain ⟨nf, k, -, -, hrun, -⟩ := cd_run hc
  exact (Tri.elim_ok ((hoare_guard srt ds df1 cfg H (fun h => by rw [hu] at h; cases h) nf (ws0CD cfg nf)).outer cfg.maxIterations
    (initCD ds.targets.nSamples nf) (fun z hz => by rw [List.eq_of_mem_replicate hz]; exact H.zero)) hrun).1

/-- The same for several tasks. -/
theorem C104_feasible_mt [MTDatafit F DM DF] [MTPenalty F P] {pen : P} {S : F → Prop} (srt : Argsort F) (cfg : Solver F)
    (H : ProxGuardsMT pen S) (HA : cfg.useAcceleration = true → GuardsMT pen S)
    (ds : Dataset DM F) (df : DF) (W : Mat F) (h : cfg.solveMultiTask srt ds df pen = .ok W) : ∀ r ∈ W.rows, ∀ z ∈ r, S z := by
  unfold Solver.solveMultiTask at h
  cases hc : MT.blockCoordinateDescent srt ds df pen cfg with
  | error e => rw [hc] at h; cases h
  | ok r =>
    obtain ⟨st, df1, log⟩ := r
    rw [hc] at h
    injection h with h
    subst h
    obtain ⟨nf, k, -, -, hrun, -⟩ := MT.bcd_run hc
    refine (Tri.elim_ok ((MT.hoare_guard srt ds df1 cfg H HA nf (ws0CD cfg nf)).outer cfg.maxIterations
      (MT.initBCD ds.targets.nSamples nf ds.targets.nTasks) ?_) hrun).1
    intro r hr z hz
    rw [List.eq_of_mem_replicate hr] at hz
    rw [List.eq_of_mem_replicate hz]
    exact H.zero

/-! ## The penalties of C103 in `f64` and `f32` -/

/-- IEEE 754: a sum with the operand `+∞` is `+∞` or NaN. -/
theorem ieee_inf_not_lt (f : Format) (S : Summation f) (a c : IEEE f S) : (a +. inf <. c) = false := by
  have h := (C62_ieee_operations S a inf).1
  rw [LawfulCmp.key_inf] at h
  rw [Bool.eq_false_iff]
  intro hlt
  obtain ⟨x, y, h1, -, h3⟩ := (LawfulCmp.lt_iff _ _).mp hlt
  cases ha : LawfulCmp.key a with
  | none => rw [h.nan (Or.inl ha)] at h1; cases h1
  | some z =>
    by_cases hz : z = ⊥
    · rw [h.invalid z ⊤ ha rfl (Or.inr ⟨hz, rfl⟩)] at h1; cases h1
    · obtain ⟨k, hk, hk'⟩ := h.limit z ⊤ ha rfl (by rintro (⟨-, h⟩ | ⟨h, -⟩); exacts [top_ne_bot h, hz h])
        (by rintro ⟨r, s, -, h, -⟩; exact EReal.coe_ne_top s h.symm)
      rw [h1] at hk
      injection hk with hk
      rw [hk, hk', EReal.add_top_of_ne_bot hz] at h3
      exact not_top_lt h3

/-- `0 ≤ max(z, 0)`, also for NaN. -/
theorem zero_le_fmax [LawfulCmp F] (z : F) : (zero <=. fmax z zero) = true := by
  rw [LawfulCmp.le_iff, LawfulCmp.key_zero, LawfulCmp.key_fmax, LawfulCmp.key_zero]
  cases LawfulCmp.key z with
  | none => exact ⟨0, 0, rfl, rfl, le_rfl⟩
  | some x => exact ⟨0, _, rfl, rfl, le_max_right _ _⟩

/-- Non-negative coefficients. -/
theorem nonNeg_guards [LawfulCmp F] (hinf : ∀ a c : F, (a +. inf <. c) = false) (a : F) :
    Guards (⟨a⟩ : NonNeg F) fun z => (zero <=. z) = true where
  zero := (LawfulCmp.le_iff _ _).mpr ⟨0, 0, LawfulCmp.key_zero, LawfulCmp.key_zero, le_rfl⟩
  prox v s x h := by
    injection h with h
    rw [← h]; exact zero_le_fmax _
  value w b h hz := by
    injection h with h
    obtain ⟨z, hz, hn⟩ := hz
    rw [if_neg fun hall => hn (List.all_eq_true.mp hall z hz)] at h
    rw [← h]
    exact hinf

/-- Coefficients in `[0, C]`. -/
theorem capped_guards [LawfulCmp F] (hinf : ∀ a c : F, (a +. inf <. c) = false) (a C : F) (hC : (zero <=. C) = true) :
    Guards (⟨a, C⟩ : Capped F) fun z => (zero <=. z) = true ∧ (z <=. C) = true where
  zero := ⟨(LawfulCmp.le_iff _ _).mpr ⟨0, 0, LawfulCmp.key_zero, LawfulCmp.key_zero, le_rfl⟩, hC⟩
  prox v s x h := by
    injection h with h
    rw [← h]
    obtain ⟨k0, c, hk0, hc, hle⟩ := (LawfulCmp.le_iff _ _).mp hC
    unfold Capped.clip
    generalize v -. s *. a = z
    split
    · exact ⟨hC, (LawfulCmp.le_iff _ _).mpr ⟨c, c, hc, hc, le_rfl⟩⟩
    · rename_i hlt
      refine ⟨zero_le_fmax _, ?_⟩
      rw [LawfulCmp.key_zero] at hk0
      injection hk0 with hk0
      rw [LawfulCmp.le_iff, LawfulCmp.key_fmax, LawfulCmp.key_zero]
      cases hz : LawfulCmp.key z with
      | none => exact ⟨0, c, rfl, hc, by rw [hk0]; exact hle⟩
      | some u =>
        refine ⟨_, c, rfl, hc, max_le ?_ (by rw [hk0]; exact hle)⟩
        by_contra hcu
        exact hlt ((LawfulCmp.lt_iff _ _).mpr ⟨c, u, hc, hz, not_le.mp hcu⟩)
  value w b h hz := by
    injection h with h
    obtain ⟨z, hz, hn⟩ := hz
    rw [if_neg fun hall => hn (Bool.and_eq_true _ _ ▸ List.all_eq_true.mp hall z hz)] at h
    rw [← h]
    exact hinf

/-- The non-negative penalty of several tasks, as a user would write it (no code in `/repo`). -/
structure NonNegMT (F : Type) where
  slope : F

instance : MTPenalty F (NonNegMT F) where
  value pen W := .ok (if W.rows.all (fun r => r.all fun z => zero <=. z) then iterSum (W.rows.map fun r => pen.slope *. iterSum r) else inf)
  prox pen v s := .ok (v.map fun z => fmax (z -. s *. pen.slope) zero)
  subdiffDistance _ _ _ ws := .ok (ws.map fun _ => zero, zero)

theorem nonNegMT_guards [LawfulCmp F] (hinf : ∀ a c : F, (a +. inf <. c) = false) (a : F) :
    GuardsMT (⟨a⟩ : NonNegMT F) fun z => (zero <=. z) = true where
  zero := (LawfulCmp.le_iff _ _).mpr ⟨0, 0, LawfulCmp.key_zero, LawfulCmp.key_zero, le_rfl⟩
  prox v s x h z hz := by
    injection h with h
    rw [← h] at hz
    obtain ⟨u, -, rfl⟩ := List.mem_map.mp hz
    exact zero_le_fmax _
  value W b h hz := by
    injection h with h
    obtain ⟨r, hr, z, hz, hn⟩ := hz
    rw [if_neg fun hall => hn (List.all_eq_true.mp (List.all_eq_true.mp hall r hr) z hz)] at h
    rw [← h]
    exact hinf

/-- **The non-negative Lasso in `f64` and `f32`**: no coefficient is negative or NaN. -/
theorem C104_nonneg {f : Format} {S : Summation f} [DesignMatrix (IEEE f S) DM] [Datafit (IEEE f S) DM DF] (a : IEEE f S) (srt : Argsort (IEEE f S))
    (cfg : Solver (IEEE f S)) (ds : Dataset DM (IEEE f S)) (df : DF) (w : List (IEEE f S))
    (h : cfg.solve srt ds df (⟨a⟩ : NonNeg (IEEE f S)) = .ok w) : ∀ z ∈ w, ∃ k, LawfulCmp.key z = some k ∧ 0 ≤ k := by
  intro z hz
  obtain ⟨x, y, h1, h2, h3⟩ := (LawfulCmp.le_iff _ _).mp (C104_feasible (nonNeg_guards (ieee_inf_not_lt f S) a) srt cfg ds df w h z hz)
  rw [LawfulCmp.key_zero] at h1
  injection h1 with h1
  exact ⟨y, h2, h1 ▸ h3⟩

/-- **Boxes in `f64` and `f32`** (for the dual of the support vector machine): all coefficients lie in `[0, C]`. -/
theorem C104_box {f : Format} {S : Summation f} [DesignMatrix (IEEE f S) DM] [Datafit (IEEE f S) DM DF] (a C : IEEE f S) {c : EReal} (hc : LawfulCmp.key C = some c) (hc0 : 0 ≤ c)
    (srt : Argsort (IEEE f S)) (cfg : Solver (IEEE f S)) (ds : Dataset DM (IEEE f S)) (df : DF) (w : List (IEEE f S))
    (h : cfg.solve srt ds df (⟨a, C⟩ : Capped (IEEE f S)) = .ok w) : ∀ z ∈ w, ∃ k, LawfulCmp.key z = some k ∧ 0 ≤ k ∧ k ≤ c := by
  intro z hz
  have hC : (zero <=. C) = true := (LawfulCmp.le_iff _ _).mpr ⟨0, c, LawfulCmp.key_zero, hc, hc0⟩
  obtain ⟨a1, a2⟩ := C104_feasible (capped_guards (ieee_inf_not_lt f S) a C hC) srt cfg ds df w h z hz
  obtain ⟨x, y, h1, h2, h3⟩ := (LawfulCmp.le_iff _ _).mp a1
  obtain ⟨y', c', h4, h5, h6⟩ := (LawfulCmp.le_iff _ _).mp a2
  rw [LawfulCmp.key_zero] at h1
  rw [h2] at h4
  rw [hc] at h5
  injection h1 with h1
  injection h4 with h4
  injection h5 with h5
  exact ⟨y, h2, h1 ▸ h3, by rw [h4, h5]; exact h6⟩

/-! ## Examples -/

-- exact arithmetic satisfies the requirement on `+∞`, too, so that C103 provides calls which return
example (X : Fin 3 → Fin 2 → ℝ) (y : Fin 3 → ℝ) : ∃ w : List XR,
    ((Solver.new : Solver XR).setUseAcceleration false).solve argsortIns (⟨mat X, Targets.one (vec y)⟩ : Dataset (Mat XR) XR)
      (Quadratic.new : Quadratic XR) (⟨XR.fin (1 / 2)⟩ : NonNeg XR) = .ok w ∧ w.length = 2 ∧ ∀ z ∈ w, (zero <=. z) = true := by
  obtain ⟨h1, h2, h3⟩ := quadratic_dense (n := 3) (by norm_num) X y
  obtain ⟨v, hv⟩ := C103_returns h1 h2 h3 (nonNeg_ok (1 / 2) _) argsortIns_spec ((Solver.new : Solver XR).setUseAcceleration false)
    (fun h => by cases h)
  refine ⟨_, hv, by simp [vec], C104_feasible (nonNeg_guards (fun a c => ?_) _) _ _ _ _ _ hv⟩
  cases a <;> cases c <;> rfl

-- both requirements hold in `f64`
example (S : Summation binary64) (a : IEEE binary64 S) : Guards (⟨a⟩ : NonNeg (IEEE binary64 S)) (fun z => (zero <=. z) = true) ∧
    GuardsMT (⟨a⟩ : NonNegMT (IEEE binary64 S)) (fun z => (zero <=. z) = true) ∧
    Guards (⟨a, one⟩ : Capped (IEEE binary64 S)) (fun z => (zero <=. z) = true ∧ (z <=. one) = true) :=
  ⟨nonNeg_guards (ieee_inf_not_lt _ S) a, nonNegMT_guards (ieee_inf_not_lt _ S) a, capped_guards (ieee_inf_not_lt _ S) a one
    ((LawfulCmp.le_iff _ _).mpr ⟨0, ((1 : ℝ) : EReal), LawfulCmp.key_zero, (IEEE.precise binary64 S).one, by norm_num⟩)⟩

end Sglm
