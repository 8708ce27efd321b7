import Verif.Proofs.RowSpace
import Verif.Proofs.Symmetry
import Verif.Proofs.Fits
import Verif.Proofs.RunPanic
import Verif.Props.Misc

/-!
# C88: linear relations between the tasks are relations between the columns of coefficients

A task whose targets vanish gets vanishing coefficients; tasks with equal (proportional) targets get equal (proportional)
coefficients; in general `Y c = 0` implies `W c = 0`.  Exact arithmetic, all settings, acceleration included.
-/

namespace Sglm
namespace Spec

/-- The columns of `A` satisfy the linear relation with coefficients `c`. -/
def ColumnRelation {m T : ℕ} (c : Fin T → ℝ) (A : Fin m → Fin T → ℝ) : Prop := ∀ i, ∑ t, c t * A i t = 0

end Spec

open Scalar Spec
variable {n p T : ℕ}

/-- The vectors which satisfy the relation `c`. -/
noncomputable def relSpace (c : Fin T → ℝ) : Submodule ℝ (Euc T) where
  carrier := {x | ∑ t, c t * x t = 0}
  zero_mem' := by simp
  add_mem' {x y} hx hy := by
    show ∑ t, c t * (x t + y t) = 0
    simp only [mul_add, Finset.sum_add_distrib]
    rw [hx, hy, add_zero]
  smul_mem' a x hx := by
    show ∑ t, c t * (a * x t) = 0
    simp only [mul_left_comm _ a, ← Finset.mul_sum]
    rw [hx, mul_zero]

theorem blockSoftR_mem (P : Submodule ℝ (Euc T)) {x : Euc T} (hx : x ∈ P) (s : ℝ) : blockSoftR x s ∈ P := by
  unfold blockSoftR
  split_ifs
  · exact P.zero_mem
  · exact P.smul_mem _ hx

theorem bproxOf_mem (pen : BPen) (P : Submodule ℝ (Euc T)) {x : Euc T} (hx : x ∈ P) (s : ℝ) : bproxOf pen x s ∈ P := by
  cases pen with
  | l21 α => exact blockSoftR_mem P hx _
  | enet α ρ => exact P.smul_mem _ (blockSoftR_mem P hx _)
  | mcp α γ =>
    show blockMcpProxR α γ x s ∈ P
    unfold blockMcpProxR
    split_ifs
    · exact P.zero_mem
    · exact hx
    · exact P.smul_mem _ hx

/-- **Relations between tasks are inherited by the coefficients**, whatever the settings. -/
theorem C88_relation {srt : Argsort XR} (hs : ArgsortSpec srt) (hn : 0 < n) (D : Design n p) (Y : Fin n → Fin T → ℝ) (pen : BPen)
    (hv : pen.Valid) (cfg : Solver XR) (c : Fin T → ℝ) (hc : ColumnRelation c Y) (V : Fin p → Euc T)
    (h : solveMT srt cfg D Y pen = .ok (emat V)) : ColumnRelation c fun j => (V j).ofLp := by
  rw [solveMT_eq hs hn D Y pen hv] at h
  cases hr : (probMT D Y pen).run srt cfg with
  | error e => rw [hr] at h; cases h
  | ok q =>
    rw [hr] at h
    injection h with h
    have hq : q.1 = V := emat_injective h
    intro j
    have := (probMT D Y pen).run_rows cfg (relSpace c) (fun W hW j => ?_) (fun x hx s => bproxOf_mem pen _ hx s) hr j
    · rw [hq] at this
      exact this
    · show WithLp.toLp 2 (mtGrad D.matrix Y (fitMT D.matrix fun j => (W j).ofLp) j) ∈ relSpace c
      rw [mtGrad_row]
      refine Submodule.smul_mem _ _ (Submodule.sub_mem _ ?_ ?_)
      · refine Submodule.sum_mem _ fun i _ => Submodule.smul_mem _ _ ?_
        rw [fitMT_row]
        exact Submodule.sum_mem _ fun k _ => Submodule.smul_mem _ _ (hW k)
      · exact Submodule.sum_mem _ fun i _ => Submodule.smul_mem _ _ (hc i)

/-- Columns of the predictions. -/
theorem ColumnRelation_fit {X : Fin n → Fin p → ℝ} {W : Fin p → Fin T → ℝ} {c : Fin T → ℝ} (h : ColumnRelation c W) :
    ColumnRelation c (fitMT X W) := by
  intro i
  unfold fitMT
  simp only [Finset.mul_sum]
  rw [Finset.sum_comm]
  refine Finset.sum_eq_zero fun j _ => ?_
  have := h j
  simp only [mul_left_comm _ (X i j), ← Finset.mul_sum]
  rw [this, mul_zero]

/-- A task with zero targets gets zero coefficients. -/
theorem C88_zero_task {srt : Argsort XR} (hs : ArgsortSpec srt) (hn : 0 < n) (D : Design n p) (Y : Fin n → Fin T → ℝ) (pen : BPen)
    (hv : pen.Valid) (cfg : Solver XR) (t : Fin T) (ht : ∀ i, Y i t = 0) (V : Fin p → Euc T)
    (h : solveMT srt cfg D Y pen = .ok (emat V)) (j : Fin p) : V j t = 0 := by
  have := C88_relation hs hn D Y pen hv cfg (Pi.single t 1) (fun i => by
    rw [Finset.sum_eq_single t (fun s _ hst => by rw [Pi.single_eq_of_ne hst, zero_mul]) (fun h => absurd (Finset.mem_univ _) h),
      ht, mul_zero]) V h j
  rw [Finset.sum_eq_single t (fun s _ hst => by rw [Pi.single_eq_of_ne hst, zero_mul]) (fun h => absurd (Finset.mem_univ _) h),
    Pi.single_eq_same, one_mul] at this
  exact this

/-- If the targets of task `t` are `a` times those of task `s`, so are the coefficients (`a = 1`: equal tasks). -/
theorem C88_proportional {srt : Argsort XR} (hs : ArgsortSpec srt) (hn : 0 < n) (D : Design n p) (Y : Fin n → Fin T → ℝ)
    (pen : BPen) (hv : pen.Valid) (cfg : Solver XR) (s t : Fin T) (a : ℝ) (ht : ∀ i, Y i t = a * Y i s) (V : Fin p → Euc T)
    (h : solveMT srt cfg D Y pen = .ok (emat V)) (j : Fin p) : V j t = a * V j s := by
  have key : ∀ x : Fin T → ℝ, ∑ r, (Pi.single (M := fun _ => ℝ) t 1 r - a * Pi.single (M := fun _ => ℝ) s 1 r) * x r =
      x t - a * x s := by
    intro x
    simp only [sub_mul, Finset.sum_sub_distrib, mul_assoc, ← Finset.mul_sum]
    rw [Finset.sum_eq_single t (fun r _ hr => by rw [Pi.single_eq_of_ne hr, zero_mul]) (fun h => absurd (Finset.mem_univ _) h),
      Finset.sum_eq_single s (fun r _ hr => by rw [Pi.single_eq_of_ne hr, zero_mul]) (fun h => absurd (Finset.mem_univ _) h),
      Pi.single_eq_same, Pi.single_eq_same, one_mul, one_mul]
  have := C88_relation hs hn D Y pen hv cfg (fun r => Pi.single (M := fun _ => ℝ) t 1 r - a * Pi.single (M := fun _ => ℝ) s 1 r)
    (fun i => by rw [key, ht]; ring) V h j
  rw [key] at this
  linarith

theorem guarded_ok_eq {Ps A : Type} {c : Except (EstimatorError XR) Ps} {r : M A} {x : A} (h : guarded c r = .ok (.ok x)) :
    r = .ok x := by
  cases c with
  | error e => cases h
  | ok q =>
    cases r with
    | error e => cases h
    | ok y =>
      injection h with h
      injection h with h
      rw [h]

/-- The estimators: multi-task Lasso, multi-task elastic net, multi-task MCP. -/
theorem C88_fit {srt : Argsort XR} (hs : ArgsortSpec srt) (hn : 0 < n) (D : Design n p) (Y : Fin n → Fin T → ℝ) (α r : ℝ)
    (c : Fin T → ℝ) (hc : ColumnRelation c Y) (V : Fin p → Euc T) :
    (∀ ps : LassoParams XR, ps.alpha = XR.fin α → 0 < α → fitMTLasso srt ps D Y = .ok (.ok (emat V)) →
      ColumnRelation c fun j => (V j).ofLp) ∧
    (∀ ps : ElasticNetParams XR, ps.alpha = XR.fin α → ps.l1Ratio = XR.fin r → 0 < α → 0 < r → r ≤ 1 →
      fitMTElasticNet srt ps D Y = .ok (.ok (emat V)) → ColumnRelation c fun j => (V j).ofLp) ∧
    ∀ ps : MCParams XR, ps.alpha = XR.fin α → ps.gamma = XR.fin r → 0 ≤ α → 0 < r →
      fitBlockMCP srt ps D Y = .ok (.ok (emat V)) → ColumnRelation c fun j => (V j).ofLp := by
  refine ⟨fun ps ha hα h => ?_, fun ps ha hr hα h0 h1 h => ?_, fun ps ha hr hα h0 h => ?_⟩
  · rw [fitMTLasso_eq srt ps α ha] at h
    exact C88_relation hs hn D Y (.l21 α) hα _ c hc V (guarded_ok_eq h)
  · rw [fitMTElasticNet_eq srt ps α r ha hr] at h
    exact C88_relation hs hn D Y (.enet α r) ⟨hα, h0, h1⟩ _ c hc V (guarded_ok_eq h)
  · rw [fitBlockMCP_eq srt ps α r ha hr] at h
    exact C88_relation hs hn D Y (.mcp α r) ⟨hα, h0⟩ _ c hc V (guarded_ok_eq h)

/-- Predictions of the fitted model satisfy the relation, too. -/
theorem C88_predictions {srt : Argsort XR} (hs : ArgsortSpec srt) (hn : 0 < n) (D : Design n p) (Y : Fin n → Fin T → ℝ) (pen : BPen)
    (hv : pen.Valid) (cfg : Solver XR) (c : Fin T → ℝ) (hc : ColumnRelation c Y) (V : Fin p → Euc T)
    (h : solveMT srt cfg D Y pen = .ok (emat V)) {m : ℕ} (X : Fin m → Fin p → ℝ) :
    ColumnRelation c (fitMT X fun j => (V j).ofLp) :=
  ColumnRelation_fit (C88_relation hs hn D Y pen hv cfg c hc V h)

-- three tasks: the second is the first, the third is zero
example : ∃ V : Fin 1 → Euc 3, solveMT argsortIns oneCfg oneD (fun _ => ![3, 3, 0]) (.l21 1) = .ok (emat V) ∧
    V 0 1 = V 0 0 ∧ V 0 2 = 0 := by
  obtain ⟨V, m, h⟩ := (probMT oneD (fun _ => ![3, 3, 0]) (.l21 1)).run_ok argsortIns_spec oneCfg (fun hu => by cases hu)
  have h1 : solveMT argsortIns oneCfg oneD (fun _ => ![3, 3, 0]) (.l21 1) = .ok (emat V) := by
    rw [solveMT_eq argsortIns_spec one_pos oneD _ (.l21 1) one_pos, h]; rfl
  refine ⟨V, h1, ?_, ?_⟩
  · have := C88_proportional argsortIns_spec one_pos oneD _ (.l21 1) one_pos oneCfg 0 1 1 (fun i => by simp) V h1 0
    rw [this, one_mul]
  · exact C88_zero_task argsortIns_spec one_pos oneD _ (.l21 1) one_pos oneCfg 2 (fun i => by simp) V h1 0

end Sglm
