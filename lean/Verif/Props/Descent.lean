import Verif.Proofs.Descent
import Verif.Props.Sync

/-!
# C28: the objective never increases

Exact arithmetic; every penalty, both losses, both storage formats, with and without acceleration.
-/

namespace Sglm
open Scalar Spec
variable {n p T : ℕ}

/-- Coordinate updates, from any coefficients. -/
theorem C28_update (hn : 0 < n) (D : Design n p) (hD : D.Canonical) (y : Fin n → ℝ) (k : LossKind)
    (hy : k.LabelsOK y) (pen : Pen) (hv : pen.Valid) (hst : pen.StepOK D k) (w : Fin p → ℝ) (j : Fin p) :
    ∃ w', update1 D y k pen ⟨vec w, vec (fit D.matrix w)⟩ j = .ok ⟨vec w', vec (fit D.matrix w')⟩ ∧
      objective1 D y k pen w' ≤ objective1 D y k pen w :=
  ⟨_, update1_eq hn D y k pen hv w j, (prob1_mm hn D hD y k hy pen hv hst).step_le w j⟩

/-- Epochs with extrapolation, on any working set, from any coefficients and with any buffer of earlier coefficients. -/
theorem C28_epoch (hn : 0 < n) (D : Design n p) (hD : D.Canonical) (y : Fin n → ℝ) (k : LossKind)
    (hy : k.LabelsOK y) (pen : Pen) (hv : pen.Valid) (hst : pen.StepOK D k) (cfg : Solver XR)
    (m : ℕ) (ws : Fin m → Fin p) (hw : Function.Injective ws) (e : ℕ) (buf : Fin (cfg.K + 1) → Fin m → ℝ)
    (w : Fin p → ℝ) (B : Mat XR) (st' : CDState XR)
    (hr : epoch1 cfg D y k pen (idx ws) e (mat buf) ⟨vec w, vec (fit D.matrix w)⟩ = .ok (B, st')) :
    ∃ w', st' = ⟨vec w', vec (fit D.matrix w')⟩ ∧ objective1 D y k pen w' ≤ objective1 D y k pen w := by
  have e1 : idx ws = (List.ofFn ws).map Fin.val := by unfold idx; rw [List.map_ofFn]; rfl
  have e2 : mat buf = matN (cfg.K + 1) (List.ofFn ws).length (extM buf) := by rw [mat_eq_matN, List.length_ofFn]
  rw [e1, e2, epoch1_eq hn D y k pen hv cfg _ (List.nodup_ofFn.mpr hw)] at hr
  have hmm := prob1_mm hn D hD y k hy pen hv hst
  have key := (prob1 D y k pen).accel_spec cfg (List.ofFn ws) e (extM buf)
    ((List.ofFn ws).foldl (prob1 D y k pen).step w)
  cases ha : (prob1 D y k pen).accel cfg (List.ofFn ws) e (extM buf) ((List.ofFn ws).foldl (prob1 D y k pen).step w) with
  | error e => rw [ha] at hr; cases hr
  | ok r =>
    rw [ha] at hr key
    injection hr with hr
    injection hr with hB hs
    subst hB hs
    refine ⟨_, rfl, ?_⟩
    refine le_trans ?_ (hmm.epoch_le w (List.ofFn ws))
    rcases key with h | ⟨pt, h1, h2⟩
    · rw [h]; exact le_rfl
    · rw [h1]; exact h2.le

/-- The objective at the result is at most the objective at zero. -/
theorem C28_result {srt : Argsort XR} (hs : ArgsortSpec srt) (hn : 0 < n) (D : Design n p) (hD : D.Canonical)
    (y : Fin n → ℝ) (k : LossKind) (hy : k.LabelsOK y) (pen : Pen) (hv : pen.Valid) (hst : pen.StepOK D k)
    (cfg : Solver XR) (v : Fin p → ℝ) (hr : solve1 srt cfg D y k pen = .ok (vec v)) :
    objective1 D y k pen v ≤ objective1 D y k pen (fun _ => 0) := by
  rw [solve1_eq hs hn D y k pen hv] at hr
  cases h : (prob1 D y k pen).run srt cfg with
  | error e => rw [h] at hr; cases hr
  | ok q =>
    rw [h] at hr
    injection hr with hr
    rw [← vec_injective hr]
    exact (prob1_mm hn D hD y k hy pen hv hst).run_le hs cfg q.1 q.2 h

/-- Raising `max_iterations` does not give a larger objective. -/
theorem C28_more_iterations {srt : Argsort XR} (hs : ArgsortSpec srt) (hn : 0 < n) (D : Design n p)
    (hD : D.Canonical) (y : Fin n → ℝ) (k : LossKind) (hy : k.LabelsOK y) (pen : Pen) (hv : pen.Valid)
    (hst : pen.StepOK D k) (cfg : Solver XR) {m m' : ℕ} (hm : m ≤ m') (v v' : Fin p → ℝ)
    (hr : solve1 srt (cfg.setMaxIterations m) D y k pen = .ok (vec v))
    (hr' : solve1 srt (cfg.setMaxIterations m') D y k pen = .ok (vec v')) :
    objective1 D y k pen v' ≤ objective1 D y k pen v := by
  rw [solve1_eq hs hn D y k pen hv] at hr hr'
  cases h : (prob1 D y k pen).run srt (cfg.setMaxIterations m) with
  | error e => rw [h] at hr; cases hr
  | ok q =>
    cases h' : (prob1 D y k pen).run srt (cfg.setMaxIterations m') with
    | error e => rw [h'] at hr'; cases hr'
    | ok q' =>
      rw [h] at hr
      rw [h'] at hr'
      injection hr with hr
      injection hr' with hr'
      rw [← vec_injective hr, ← vec_injective hr']
      exact (prob1_mm hn D hD y k hy pen hv hst).run_mono hs cfg hm _ _ _ _ h h'

/-- Block updates. -/
theorem C28_update_mt (hn : 0 < n) (D : Design n p) (hD : D.Canonical) (Y : Fin n → Fin T → ℝ) (pen : BPen)
    (hv : pen.Valid) (hst : pen.StepOK D) (W : Fin p → Euc T) (j : Fin p) :
    ∃ W', updateMT D Y pen ⟨emat W, mat (fitMT D.matrix fun j => (W j).ofLp)⟩ j =
        .ok ⟨emat W', mat (fitMT D.matrix fun j => (W' j).ofLp)⟩ ∧
      objectiveMT D Y pen W' ≤ objectiveMT D Y pen W :=
  ⟨_, updateMT_eq hn D Y pen hv W j, (probMT_mm hn D hD Y pen hv hst).step_le W j⟩

/-- Multi-task epochs with extrapolation. -/
theorem C28_epoch_mt (hn : 0 < n) (D : Design n p) (hD : D.Canonical) (Y : Fin n → Fin T → ℝ) (pen : BPen)
    (hv : pen.Valid) (hst : pen.StepOK D) (cfg : Solver XR)
    (m : ℕ) (ws : Fin m → Fin p) (hw : Function.Injective ws) (e : ℕ) (buf : Fin (cfg.K + 1) → Fin (m * T) → ℝ)
    (W : Fin p → Euc T) (B : Mat XR) (st' : BCDState XR)
    (hr : epochMT cfg D Y pen (idx ws) e (mat buf) ⟨emat W, mat (fitMT D.matrix fun j => (W j).ofLp)⟩ =
      .ok (B, st')) :
    ∃ W', st' = ⟨emat W', mat (fitMT D.matrix fun j => (W' j).ofLp)⟩ ∧
      objectiveMT D Y pen W' ≤ objectiveMT D Y pen W := by
  have e1 : idx ws = (List.ofFn ws).map Fin.val := by unfold idx; rw [List.map_ofFn]; rfl
  have e2 : mat buf = matN (cfg.K + 1) ((List.ofFn ws).length * T) (extM buf) := by
    rw [mat_eq_matN, List.length_ofFn]
  rw [e1, e2, epochMT_eq hn D Y pen hv cfg _ (List.nodup_ofFn.mpr hw)] at hr
  have hmm := probMT_mm hn D hD Y pen hv hst
  have key := (probMT D Y pen).accel_spec cfg (List.ofFn ws) e (extM buf)
    ((List.ofFn ws).foldl (probMT D Y pen).step W)
  cases ha : (probMT D Y pen).accel cfg (List.ofFn ws) e (extM buf) ((List.ofFn ws).foldl (probMT D Y pen).step W) with
  | error e => rw [ha] at hr; cases hr
  | ok r =>
    rw [ha] at hr key
    injection hr with hr
    injection hr with hB hs
    subst hB hs
    refine ⟨_, rfl, ?_⟩
    refine le_trans ?_ (hmm.epoch_le W (List.ofFn ws))
    rcases key with h | ⟨pt, h1, h2⟩
    · rw [h]; exact le_rfl
    · rw [h1]; exact h2.le

/-- The objective at the result is at most the objective at zero. -/
theorem C28_result_mt {srt : Argsort XR} (hs : ArgsortSpec srt) (hn : 0 < n) (D : Design n p) (hD : D.Canonical)
    (Y : Fin n → Fin T → ℝ) (pen : BPen) (hv : pen.Valid) (hst : pen.StepOK D)
    (cfg : Solver XR) (V : Fin p → Euc T) (hr : solveMT srt cfg D Y pen = .ok (emat V)) :
    objectiveMT D Y pen V ≤ objectiveMT D Y pen (fun _ => 0) := by
  rw [solveMT_eq hs hn D Y pen hv] at hr
  cases h : (probMT D Y pen).run srt cfg with
  | error e => rw [h] at hr; cases hr
  | ok q =>
    rw [h] at hr
    injection hr with hr
    rw [← emat_injective hr]
    exact (probMT_mm hn D hD Y pen hv hst).run_le hs cfg q.1 q.2 h

/-- Raising `max_iterations` does not give a larger objective. -/
theorem C28_more_iterations_mt {srt : Argsort XR} (hs : ArgsortSpec srt) (hn : 0 < n) (D : Design n p)
    (hD : D.Canonical) (Y : Fin n → Fin T → ℝ) (pen : BPen) (hv : pen.Valid)
    (hst : pen.StepOK D) (cfg : Solver XR) {m m' : ℕ} (hm : m ≤ m') (V V' : Fin p → Euc T)
    (hr : solveMT srt (cfg.setMaxIterations m) D Y pen = .ok (emat V))
    (hr' : solveMT srt (cfg.setMaxIterations m') D Y pen = .ok (emat V')) :
    objectiveMT D Y pen V' ≤ objectiveMT D Y pen V := by
  rw [solveMT_eq hs hn D Y pen hv] at hr hr'
  cases h : (probMT D Y pen).run srt (cfg.setMaxIterations m) with
  | error e => rw [h] at hr; cases hr
  | ok q =>
    cases h' : (probMT D Y pen).run srt (cfg.setMaxIterations m') with
    | error e => rw [h'] at hr'; cases hr'
    | ok q' =>
      rw [h] at hr
      rw [h'] at hr'
      injection hr with hr
      injection hr' with hr'
      rw [← emat_injective hr, ← emat_injective hr']
      exact (probMT_mm hn D hD Y pen hv hst).run_mono hs cfg hm _ _ _ _ h h'

/-- The condition on MCP cannot be dropped: with `γ L_j < 1` a coordinate update can increase the objective.  One sample
`x = 1/2`, `y = 3/2`, `α = γ = 1`: the update sends the minimiser `3` to `0`. -/
theorem C28_mcp_counterexample : ∃ (D : Design 1 1) (y : Fin 1 → ℝ) (w w' : Fin 1 → ℝ),
    update1 D y .quadratic (.mcp 1 1) ⟨vec w, vec (fit D.matrix w)⟩ (0 : Fin 1) =
        .ok ⟨vec w', vec (fit D.matrix w')⟩ ∧
      objective1 D y .quadratic (.mcp 1 1) w < objective1 D y .quadratic (.mcp 1 1) w' := by
  refine ⟨.dense fun _ _ => 1 / 2, fun _ => 3 / 2, fun _ => 3, fun _ => 0, ?_, ?_⟩
  · have h := update1_eq one_pos (.dense fun _ _ => 1 / 2) (fun _ => 3 / 2) .quadratic (.mcp 1 1)
      ⟨zero_le_one, one_pos⟩ (fun _ => 3) (0 : Fin 1)
    have e : (prob1 (.dense fun (_ : Fin 1) _ => 1 / 2) (fun _ => 3 / 2) .quadratic (.mcp 1 1)).step (fun _ : Fin 1 => 3) 0 =
        fun _ => 0 := by
      funext j
      have hj : j = 0 := Subsingleton.elim _ _
      subst hj
      have hL : (prob1 (.dense fun (_ : Fin 1) _ => 1 / 2) (fun _ => 3 / 2) .quadratic (.mcp 1 1)).L (0 : Fin 1) =
          1 / 4 := by
        show (∑ i : Fin 1, (1 / 2 : ℝ) * (1 / 2)) / ((1 : ℕ) : ℝ) = _
        simp; norm_num
      have hG : (prob1 (.dense fun (_ : Fin 1) _ => 1 / 2) (fun _ => 3 / 2) .quadratic (.mcp 1 1)).G (fun _ => 3)
          (0 : Fin 1) = 0 := by
        show (∑ i : Fin 1, (1 / 2 : ℝ) * (∑ j : Fin 1, (1 / 2 : ℝ) * 3) - ∑ i : Fin 1, (1 / 2 : ℝ) * (3 / 2)) /
          ((1 : ℕ) : ℝ) = _
        simp; norm_num
      unfold RProb.step
      rw [hL, hG, if_neg (by norm_num), Function.update_self]
      show mcpProxR 1 1 (3 - (1 / (1 / 4 : ℝ)) • (0 : ℝ)) (1 / (1 / 4)) = 0
      unfold mcpProxR
      norm_num
    rw [e] at h
    exact h
  · have h0 : fit (Design.dense fun (_ : Fin 1) (_ : Fin 1) => (1 / 2 : ℝ)).matrix (fun _ => 3) = fun _ => 3 / 2 := by
      funext i
      simp [fit, Design.matrix]; norm_num
    have h1 : fit (Design.dense fun (_ : Fin 1) (_ : Fin 1) => (1 / 2 : ℝ)).matrix (fun _ => 0) = fun _ => 0 := by
      funext i
      simp [fit]
    unfold objective1
    rw [h0, h1]
    simp only [LossKind.loss, quadLoss, Pen.fn, mcp]
    norm_num

/-! ## Examples -/

section
/-- A design with two samples and two features. -/
noncomputable def exD : Design 2 2 := .dense ![![1, 2], ![-1, 1]]

example : ∃ w', update1 exD (fun i => i) .logistic (.enet 1 (1 / 2))
      ⟨vec (fun _ : Fin 2 => 5), vec (fit exD.matrix fun _ => 5)⟩ (1 : Fin 2) = .ok ⟨vec w', vec (fit exD.matrix w')⟩ ∧
    objective1 exD (fun i => i) .logistic (.enet 1 (1 / 2)) w' ≤
      objective1 exD (fun i => i) .logistic (.enet 1 (1 / 2)) fun _ => 5 :=
  C28_update two_pos exD trivial _ .logistic
    (fun i => by
      rw [Nat.abs_cast]
      have : (i : ℕ) ≤ 1 := by omega
      exact_mod_cast this)
    (.enet 1 (1 / 2)) ⟨zero_le_one, by norm_num, by norm_num⟩ trivial _ 1

/-- MCP with `γ = 3`: `L = (1, 5/2)`. -/
theorem exD_mcp : Pen.StepOK (.mcp 1 3) exD .quadratic := by
  intro j _
  fin_cases j <;> simp [lipschitz, exD, Design.matrix, Fin.sum_univ_two]; norm_num

example : ∃ v, solve1 argsortIns ⟨10, 50, 1000, XR.fin 0, 2, true, true⟩ exD (fun i => 10 * i) .quadratic
      (.mcp 1 3) = .ok (vec v) ∧
    objective1 exD (fun i => 10 * i) .quadratic (.mcp 1 3) v ≤
      objective1 exD (fun i => 10 * i) .quadratic (.mcp 1 3) fun _ => 0 := by
  obtain ⟨v, h⟩ := C26_finite_partial argsortIns_spec two_pos exD (fun i => 10 * i) .quadratic (.mcp 1 3)
    ⟨zero_le_one, three_pos⟩ ⟨10, 50, 1000, XR.fin 0, 2, true, true⟩ (by decide) (by decide) (by decide)
  exact ⟨v, h, C28_result argsortIns_spec two_pos exD trivial _ .quadratic trivial (.mcp 1 3)
    ⟨zero_le_one, three_pos⟩ exD_mcp _ v h⟩

example : ∃ v v', solve1 argsortIns ⟨10, 3, 1000, XR.fin 0, 2, true, true⟩ exD (fun i => 10 * i) .quadratic
      (.l05 1) = .ok (vec v) ∧
    solve1 argsortIns ⟨10, 4, 1000, XR.fin 0, 2, true, true⟩ exD (fun i => 10 * i) .quadratic
      (.l05 1) = .ok (vec v') ∧
    objective1 exD (fun i => 10 * i) .quadratic (.l05 1) v' ≤ objective1 exD (fun i => 10 * i) .quadratic (.l05 1) v := by
  obtain ⟨v, h⟩ := C26_finite_partial argsortIns_spec two_pos exD (fun i => 10 * i) .quadratic (.l05 1)
    one_pos ⟨10, 3, 1000, XR.fin 0, 2, true, true⟩ (by decide) (by decide) (by decide)
  obtain ⟨v', h'⟩ := C26_finite_partial argsortIns_spec two_pos exD (fun i => 10 * i) .quadratic (.l05 1)
    one_pos ⟨10, 4, 1000, XR.fin 0, 2, true, true⟩ (by decide) (by decide) (by decide)
  exact ⟨v, v', h, h', C28_more_iterations argsortIns_spec two_pos exD trivial _ .quadratic trivial (.l05 1)
    one_pos trivial ⟨10, 3, 1000, XR.fin 0, 2, true, true⟩ (by decide : 3 ≤ 4) v v' h h'⟩

example : ∃ B w', epoch1 ⟨10, 50, 1000, XR.fin 0, 2, true, true⟩ exD (fun i => 10 * i) .quadratic (.l1 1)
      (idx (![1, 0] : Fin 2 → Fin 2)) 2 (mat fun (_ : Fin 3) (_ : Fin 2) => 7)
      ⟨vec (fun _ : Fin 2 => 1), vec (fit exD.matrix fun _ => 1)⟩ = .ok (B, ⟨vec w', vec (fit exD.matrix w')⟩) ∧
    objective1 exD (fun i => 10 * i) .quadratic (.l1 1) w' ≤
      objective1 exD (fun i => 10 * i) .quadratic (.l1 1) fun _ => 1 := by
  obtain ⟨B, st', h⟩ := C27_epoch_ok two_pos exD (fun i => 10 * i) .quadratic (.l1 1) zero_le_one
    ⟨10, 50, 1000, XR.fin 0, 2, true, true⟩ 2 ![1, 0] (by decide) 2 (fun (_ : Fin 3) (_ : Fin 2) => 7)
    ⟨vec (fun _ : Fin 2 => 1), vec (fit exD.matrix fun _ => 1)⟩ ⟨_, rfl, rfl⟩ (fun _ => by decide)
  obtain ⟨w', h1, h2⟩ := C28_epoch two_pos exD trivial (fun i => 10 * i) .quadratic trivial (.l1 1) zero_le_one trivial
    ⟨10, 50, 1000, XR.fin 0, 2, true, true⟩ 2 ![1, 0] (by decide) 2 (fun (_ : Fin 3) (_ : Fin 2) => 7)
    (fun _ => 1) B st' h
  exact ⟨B, w', by rw [h, h1], h2⟩

example : ∃ W', updateMT exD (fun i (t : Fin 2) => i + t) (.l21 1)
      ⟨emat (fun _ : Fin 2 => (0 : Euc 2)), mat (fitMT exD.matrix fun _ => (0 : Euc 2).ofLp)⟩ (1 : Fin 2) =
        .ok ⟨emat W', mat (fitMT exD.matrix fun j => (W' j).ofLp)⟩ ∧
      objectiveMT exD (fun i (t : Fin 2) => i + t) (.l21 1) W' ≤
        objectiveMT exD (fun i (t : Fin 2) => i + t) (.l21 1) fun _ => 0 :=
  C28_update_mt two_pos exD trivial _ (.l21 1) one_pos trivial _ 1

example : ∃ V : Fin 2 → Euc 3, solveMT argsortIns ⟨10, 50, 1000, XR.fin 0, 5, true, true⟩ exD
      (fun i (t : Fin 3) => i - t) (.enet 1 (1 / 2)) = .ok (emat V) ∧
    objectiveMT exD (fun i (t : Fin 3) => i - t) (.enet 1 (1 / 2)) V ≤
      objectiveMT exD (fun i (t : Fin 3) => i - t) (.enet 1 (1 / 2)) fun _ => 0 := by
  obtain ⟨V, h⟩ := C26_finite_mt_partial argsortIns_spec two_pos exD (fun i (t : Fin 3) => i - t) (.enet 1 (1 / 2))
    ⟨one_pos, by norm_num, by norm_num⟩ ⟨10, 50, 1000, XR.fin 0, 5, true, true⟩ (by decide) (by decide) (by decide)
  exact ⟨fun j => WithLp.toLp 2 (V j), h, C28_result_mt argsortIns_spec two_pos exD trivial _ (.enet 1 (1 / 2))
    ⟨one_pos, by norm_num, by norm_num⟩ trivial _ (fun j => WithLp.toLp 2 (V j)) h⟩

end

end Sglm
