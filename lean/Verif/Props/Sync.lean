import Verif.Proofs.RunPanic
import Verif.Proofs.Problem
import Verif.Proofs.Length
import Verif.Props.Safe

/-!
# C25, C26, C27: finite data and exact arithmetic — no panics, and the model fit stays `X w`
-/

namespace Sglm
open Scalar Spec
variable {n p T : ℕ}

/-! ## C25 -/

/-- Without acceleration `solve` returns real coefficients on every finite dataset, for every solver configuration. -/
theorem C25_finite {srt : Argsort XR} (hs : ArgsortSpec srt) (hn : 0 < n) (D : Design n p) (y : Fin n → ℝ)
    (k : LossKind) (pen : Pen) (hv : pen.Valid) (cfg : Solver XR) (hu : cfg.useAcceleration = false) :
    ∃ v : Fin p → ℝ, solve1 srt cfg D y k pen = .ok (vec v) := by
  obtain ⟨v, m, h⟩ := (prob1 D y k pen).run_ok hs cfg (fun h => by rw [hu] at h; cases h)
  exact ⟨v, by rw [solve1_eq hs hn D y k pen hv, h]; rfl⟩

/-- The same for the multi-task solver. -/
theorem C25_finite_mt {srt : Argsort XR} (hs : ArgsortSpec srt) (hn : 0 < n) (D : Design n p)
    (Y : Fin n → Fin T → ℝ) (pen : BPen) (hv : pen.Valid) (cfg : Solver XR) (hu : cfg.useAcceleration = false) :
    ∃ V : Fin p → Fin T → ℝ, solveMT srt cfg D Y pen = .ok (mat V) := by
  obtain ⟨V, m, h⟩ := (probMT D Y pen).run_ok hs cfg (fun h => by rw [hu] at h; cases h)
  exact ⟨fun j => (V j).ofLp, by rw [solveMT_eq hs hn D Y pen hv, h]; rfl⟩

/-! ## C26 -/

/-- C26 on finite data: accelerated runs return real coefficients. -/
def C26_finite_full : Prop :=
  ∀ (srt : Argsort XR), ArgsortSpec srt → ∀ (n p : ℕ), 0 < n → ∀ (D : Design n p) (y : Fin n → ℝ) (k : LossKind)
    (pen : Pen), pen.Valid → ∀ cfg : Solver XR, 0 < cfg.K → ∃ v : Fin p → ℝ, solve1 srt cfg D y k pen = .ok (vec v)

/-- Missing from the full statement: problems with fewer than `K` features (or `ws_start_size < K`). -/
theorem C26_finite_partial {srt : Argsort XR} (hs : ArgsortSpec srt) (hn : 0 < n) (D : Design n p) (y : Fin n → ℝ)
    (k : LossKind) (pen : Pen) (hv : pen.Valid) (cfg : Solver XR) (hK : 0 < cfg.K) (hws : cfg.K ≤ cfg.wsStartSize)
    (hp : cfg.K ≤ p) : ∃ v : Fin p → ℝ, solve1 srt cfg D y k pen = .ok (vec v) := by
  obtain ⟨v, m, h⟩ := (prob1 D y k pen).run_ok hs cfg (fun _ => ⟨hK, by
    show cfg.K ≤ cfg.wsStartSize * 1; omega, by show cfg.K ≤ p * 1; omega⟩)
  exact ⟨v, by rw [solve1_eq hs hn D y k pen hv, h]; rfl⟩

/-- Missing from the full statement: problems with fewer than `K` coefficients. -/
theorem C26_finite_mt_partial {srt : Argsort XR} (hs : ArgsortSpec srt) (hn : 0 < n) (D : Design n p)
    (Y : Fin n → Fin T → ℝ) (pen : BPen) (hv : pen.Valid) (cfg : Solver XR) (hK : 0 < cfg.K)
    (hws : cfg.K ≤ cfg.wsStartSize * T) (hp : cfg.K ≤ p * T) :
    ∃ V : Fin p → Fin T → ℝ, solveMT srt cfg D Y pen = .ok (mat V) := by
  obtain ⟨V, m, h⟩ := (probMT D Y pen).run_ok hs cfg (fun _ => ⟨hK, hws, hp⟩)
  exact ⟨fun j => (V j).ofLp, by rw [solveMT_eq hs hn D Y pen hv, h]; rfl⟩

/-- The bug on finite data: *every* accelerated Lasso on fewer than `K` features panics (`K ≤ 10`, the default is 5)
unless zero is optimal up to the tolerance: the condition is `α + tol < |⟨X_j, y⟩| / n` for some feature `j`. -/
theorem C26_lasso_panics {srt : Argsort XR} (hs : ArgsortSpec srt) (hn : 0 < n) (D : Design n p) (y : Fin n → ℝ)
    (α τ : ℝ) (hα : 0 ≤ α) (cfg : Solver XR) (hu : cfg.useAcceleration = true)
    (ht : cfg.tolerance = XR.fin τ)
    (hp : p < cfg.K) (hK : cfg.K ≤ 10) (he : cfg.K < cfg.maxEpochs) (hi : 0 < cfg.maxIterations)
    (j : Fin p) (hj : α + τ < |∑ i, D.matrix i j * y i| / n) :
    solve1 srt cfg D y .quadratic (.l1 α) = .error .index := by
  rw [solve1_eq hs hn D y .quadratic (.l1 α) hα, (prob1 D y .quadratic (.l1 α)).run_panics hs cfg hu
    (by show p * 1 < cfg.K; omega) hK he hi]
  · rfl
  · rw [ht]
    refine RProb.viol_gt _ j ?_
    show τ < l1Score α 0 (quadGrad D.matrix y (fit D.matrix fun _ => 0) j)
    unfold l1Score
    rw [if_pos rfl]
    refine lt_of_lt_of_le ?_ (le_max_right _ _)
    have : quadGrad D.matrix y (fit D.matrix fun _ => 0) j = -((∑ i, D.matrix i j * y i) / n) := by
      unfold quadGrad fit
      simp
      ring
    rw [this, abs_neg, abs_div, Nat.abs_cast]
    linarith

/-- The full statement is false. -/
theorem C26_finite_false : ¬ C26_finite_full := by
  intro h
  obtain ⟨v, hv⟩ := h argsortIns argsortIns_spec 1 1 one_pos (.dense fun _ _ => 1) (fun _ => 3) .quadratic (.l1 1)
    zero_le_one ⟨10, 50, 1000, XR.fin 1, 5, true, true⟩ (by decide)
  rw [C26_lasso_panics argsortIns_spec one_pos _ _ 1 1 zero_le_one _ rfl rfl (by decide) (by decide)
    (by decide) (by decide) 0 (by simp [Design.matrix]; norm_num)] at hv
  cases hv

/-! ## C27 -/

/-- The state holds real coefficients `w` and the model fit `X w`. -/
def InSync (D : Design n p) (st : CDState XR) : Prop :=
  ∃ w : Fin p → ℝ, st.w = vec w ∧ st.Xw = vec (fit D.matrix w)

/-- The state holds real coefficients `W` and the model fit `X W`. -/
def InSyncMT (D : Design n p) (T : ℕ) (st : BCDState XR) : Prop :=
  ∃ W : Fin p → Fin T → ℝ, st.W = mat W ∧ st.XW = mat (fitMT D.matrix W)

/-- Every coordinate update keeps the model fit in sync, and succeeds. -/
theorem C27_update (hn : 0 < n) (D : Design n p) (y : Fin n → ℝ) (k : LossKind) (pen : Pen) (hv : pen.Valid)
    (st : CDState XR) (h : InSync D st) (j : Fin p) :
    ∃ st', update1 D y k pen st j = .ok st' ∧ InSync D st' := by
  obtain ⟨w, h1, h2⟩ := h
  obtain ⟨a, b⟩ := st
  simp only at h1 h2
  subst h1 h2
  exact ⟨_, update1_eq hn D y k pen hv w j, _, rfl, rfl⟩

/-- Every epoch on any working set, with an extrapolation from any contents of the buffer, keeps the model fit in
sync. -/
theorem C27_epoch (hn : 0 < n) (D : Design n p) (y : Fin n → ℝ) (k : LossKind) (pen : Pen) (hv : pen.Valid)
    (cfg : Solver XR) (m : ℕ) (ws : Fin m → Fin p) (hw : Function.Injective ws) (e : ℕ)
    (buf : Fin (cfg.K + 1) → Fin m → ℝ) (st : CDState XR) (h : InSync D st) (B : Mat XR) (st' : CDState XR)
    (hr : epoch1 cfg D y k pen (idx ws) e (mat buf) st = .ok (B, st')) :
    InSync D st' ∧ ∃ buf' : Fin (cfg.K + 1) → Fin m → ℝ, B = mat buf' := by
  obtain ⟨w, h1, h2⟩ := h
  obtain ⟨a, b⟩ := st
  simp only at h1 h2
  subst h1 h2
  have e1 : idx ws = (List.ofFn ws).map Fin.val := by unfold idx; rw [List.map_ofFn]; rfl
  have e2 : mat buf = matN (cfg.K + 1) (List.ofFn ws).length (extM buf) := by rw [mat_eq_matN, List.length_ofFn]
  rw [e1, e2, epoch1_eq hn D y k pen hv cfg _ (List.nodup_ofFn.mpr hw)] at hr
  cases ha : (prob1 D y k pen).accel cfg (List.ofFn ws) e (extM buf) ((List.ofFn ws).foldl (prob1 D y k pen).step w) with
  | error e => rw [ha] at hr; cases hr
  | ok r =>
    rw [ha] at hr
    injection hr with hr
    injection hr with hB hs
    subst hB hs
    refine ⟨⟨_, rfl, rfl⟩, fun i j => r.1 i j, ?_⟩
    show matN _ _ _ = _
    rw [List.length_ofFn, matN_eq_mat]

/-- Such an epoch succeeds when there are enough coordinates to extrapolate. -/
theorem C27_epoch_ok (hn : 0 < n) (D : Design n p) (y : Fin n → ℝ) (k : LossKind) (pen : Pen) (hv : pen.Valid)
    (cfg : Solver XR) (m : ℕ) (ws : Fin m → Fin p) (hw : Function.Injective ws) (e : ℕ)
    (buf : Fin (cfg.K + 1) → Fin m → ℝ) (st : CDState XR) (h : InSync D st)
    (hr : cfg.useAcceleration = true → 0 < cfg.K ∧ cfg.K ≤ m) :
    ∃ B st', epoch1 cfg D y k pen (idx ws) e (mat buf) st = .ok (B, st') := by
  obtain ⟨w, h1, h2⟩ := h
  obtain ⟨a, b⟩ := st
  simp only at h1 h2
  subst h1 h2
  have e1 : idx ws = (List.ofFn ws).map Fin.val := by unfold idx; rw [List.map_ofFn]; rfl
  have e2 : mat buf = matN (cfg.K + 1) (List.ofFn ws).length (extM buf) := by rw [mat_eq_matN, List.length_ofFn]
  rw [e1, e2, epoch1_eq hn D y k pen hv cfg _ (List.nodup_ofFn.mpr hw)]
  have := (prob1 D y k pen).accel_spec cfg (List.ofFn ws) e (extM buf)
    ((List.ofFn ws).foldl (prob1 D y k pen).step w)
  cases ha : (prob1 D y k pen).accel cfg (List.ofFn ws) e (extM buf) ((List.ofFn ws).foldl (prob1 D y k pen).step w) with
  | error e =>
    rw [ha] at this
    obtain ⟨h1, h2⟩ := this
    refine absurd (hr h1) ?_
    rw [List.length_ofFn] at h2
    change ¬ (0 < cfg.K ∧ cfg.K ≤ m * 1) at h2
    rwa [mul_one] at h2
  | ok r => exact ⟨_, _, rfl⟩

/-- The final state of every run is in sync. -/
theorem C27_run {srt : Argsort XR} (hs : ArgsortSpec srt) (hn : 0 < n) (D : Design n p) (y : Fin n → ℝ)
    (k : LossKind) (pen : Pen) (hv : pen.Valid) (cfg : Solver XR) (st : CDState XR) (log : List (Event XR))
    (h : trace1 srt cfg D y k pen = .ok (st, log)) : InSync D st := by
  obtain ⟨v, m, -, h2, -⟩ := trace1_run hs hn D y k pen hv cfg st log h
  exact ⟨v, by rw [h2], by rw [h2]⟩

/-- Every block update keeps the model fit in sync, and succeeds. -/
theorem C27_update_mt (hn : 0 < n) (D : Design n p) (Y : Fin n → Fin T → ℝ) (pen : BPen) (hv : pen.Valid)
    (st : BCDState XR) (h : InSyncMT D T st) (j : Fin p) :
    ∃ st', updateMT D Y pen st j = .ok st' ∧ InSyncMT D T st' := by
  obtain ⟨W, h1, h2⟩ := h
  obtain ⟨a, b⟩ := st
  simp only at h1 h2
  subst h1 h2
  exact ⟨_, updateMT_eq hn D Y pen hv (fun j => WithLp.toLp 2 (W j)) j, _, rfl, rfl⟩

/-- Every multi-task epoch keeps the model fit in sync. -/
theorem C27_epoch_mt (hn : 0 < n) (D : Design n p) (Y : Fin n → Fin T → ℝ) (pen : BPen) (hv : pen.Valid)
    (cfg : Solver XR) (m : ℕ) (ws : Fin m → Fin p) (hw : Function.Injective ws) (e : ℕ)
    (buf : Fin (cfg.K + 1) → Fin (m * T) → ℝ) (st : BCDState XR) (h : InSyncMT D T st) (B : Mat XR)
    (st' : BCDState XR) (hr : epochMT cfg D Y pen (idx ws) e (mat buf) st = .ok (B, st')) :
    InSyncMT D T st' ∧ ∃ buf' : Fin (cfg.K + 1) → Fin (m * T) → ℝ, B = mat buf' := by
  obtain ⟨W, h1, h2⟩ := h
  obtain ⟨a, b⟩ := st
  simp only at h1 h2
  subst h1 h2
  have e1 : idx ws = (List.ofFn ws).map Fin.val := by unfold idx; rw [List.map_ofFn]; rfl
  have e2 : mat buf = matN (cfg.K + 1) ((List.ofFn ws).length * T) (extM buf) := by
    rw [mat_eq_matN, List.length_ofFn]
  have key := epochMT_eq hn D Y pen hv cfg _ (List.nodup_ofFn.mpr hw) e (extM buf) (fun j => WithLp.toLp 2 (W j))
  rw [← e1, ← e2] at key
  rw [show (⟨mat W, mat (fitMT D.matrix W)⟩ : BCDState XR) =
    ⟨emat (fun j => WithLp.toLp 2 (W j)), mat (MT.fitE D.matrix (fun j => WithLp.toLp 2 (W j)))⟩ from rfl, key] at hr
  cases ha : (probMT D Y pen).accel cfg (List.ofFn ws) e (extM buf)
      ((List.ofFn ws).foldl (probMT D Y pen).step (fun j => WithLp.toLp 2 (W j))) with
  | error e => rw [ha] at hr; cases hr
  | ok r =>
    rw [ha] at hr
    injection hr with hr
    injection hr with hB hs
    subst hB hs
    refine ⟨⟨_, rfl, rfl⟩, fun i j => r.1 i j, ?_⟩
    show matN _ _ _ = _
    rw [List.length_ofFn, matN_eq_mat]

/-- A multi-task epoch succeeds. -/
theorem C27_epoch_ok_mt (hn : 0 < n) (D : Design n p) (Y : Fin n → Fin T → ℝ) (pen : BPen) (hv : pen.Valid)
    (cfg : Solver XR) (m : ℕ) (ws : Fin m → Fin p) (hw : Function.Injective ws) (e : ℕ)
    (buf : Fin (cfg.K + 1) → Fin (m * T) → ℝ) (W : Fin p → Euc T)
    (hr : cfg.useAcceleration = true → 0 < cfg.K ∧ cfg.K ≤ m * T) :
    ∃ B st', epochMT cfg D Y pen (idx ws) e (mat buf) ⟨emat W, mat (fitMT D.matrix fun j => (W j).ofLp)⟩ =
      .ok (B, st') := by
  have e1 : idx ws = (List.ofFn ws).map Fin.val := by unfold idx; rw [List.map_ofFn]; rfl
  have e2 : mat buf = matN (cfg.K + 1) ((List.ofFn ws).length * T) (extM buf) := by
    rw [mat_eq_matN, List.length_ofFn]
  rw [e1, e2, epochMT_eq hn D Y pen hv cfg _ (List.nodup_ofFn.mpr hw)]
  have := (probMT D Y pen).accel_spec cfg (List.ofFn ws) e (extM buf)
    ((List.ofFn ws).foldl (probMT D Y pen).step W)
  cases ha : (probMT D Y pen).accel cfg (List.ofFn ws) e (extM buf) ((List.ofFn ws).foldl (probMT D Y pen).step W) with
  | error e =>
    rw [ha] at this
    obtain ⟨h1, h2⟩ := this
    refine absurd (hr h1) ?_
    rw [List.length_ofFn] at h2
    exact h2
  | ok r => exact ⟨_, _, rfl⟩

/-- The final state of every multi-task run is in sync. -/
theorem C27_run_mt {srt : Argsort XR} (hs : ArgsortSpec srt) (hn : 0 < n) (D : Design n p)
    (Y : Fin n → Fin T → ℝ) (pen : BPen) (hv : pen.Valid) (cfg : Solver XR) (st : BCDState XR)
    (log : List (Event XR)) (h : traceMT srt cfg D Y pen = .ok (st, log)) : InSyncMT D T st := by
  obtain ⟨V, m, -, h2, -⟩ := traceMT_run hs hn D Y pen hv cfg st log h
  exact ⟨fun j => (V j).ofLp, by rw [h2], by rw [h2]⟩

/-! ## Examples -/

/-- A CSC design which stores the entry `(0, 0)` twice. -/
noncomputable def syncCSC : CSCData 2 2 where
  nnz := 3
  data k := if k = 0 then 1 else if k = 1 then 2 else 3
  row k := if k = 2 then 1 else 0
  ptr j := if j = 0 then 0 else if j = 1 then 2 else 3
  ptr_le j := by split <;> [omega; split <;> omega]

example : ∃ v : Fin 2 → ℝ, solve1 argsortIns ⟨10, 50, 1000, XR.fin 0, 5, false, true⟩ (.csc syncCSC)
    (fun i => i + 1) .quadratic (.mcp 1 3) = .ok (vec v) :=
  C25_finite argsortIns_spec two_pos _ _ _ (.mcp 1 3) ⟨zero_le_one, three_pos⟩ _ rfl

example : ∃ V : Fin 2 → Fin 3 → ℝ, solveMT argsortIns ⟨10, 50, 1000, XR.fin 0, 5, false, true⟩ (.csc syncCSC)
    (fun i (t : Fin 3) => i - t) (.enet 1 (1 / 2)) = .ok (mat V) :=
  C25_finite_mt argsortIns_spec two_pos _ _ (.enet 1 (1 / 2)) ⟨one_pos, by norm_num, by norm_num⟩ _ rfl

example : ∃ v : Fin 6 → ℝ, solve1 argsortIns ⟨10, 50, 1000, XR.fin 0, 5, true, true⟩
    (.dense fun (i : Fin 4) (j : Fin 6) => i * j) (fun i => i) .logistic (.l1 1) = .ok (vec v) :=
  C26_finite_partial argsortIns_spec four_pos _ _ _ (.l1 1) zero_le_one _ (by decide) (by decide) (by decide)

example : ∃ V : Fin 3 → Fin 2 → ℝ, solveMT argsortIns ⟨10, 50, 1000, XR.fin 0, 5, true, true⟩
    (.dense fun (i : Fin 4) (j : Fin 3) => i * j) (fun i (t : Fin 2) => i - t) (.l21 1) = .ok (mat V) :=
  C26_finite_mt_partial argsortIns_spec four_pos _ _ (.l21 1) one_pos _ (by decide) (by decide) (by decide)

-- one feature, `y = 3`, `α = 1`, the default `K = 5`
example : solve1 argsortIns ⟨10, 50, 1000, XR.fin (1 / 100), 5, true, true⟩ (.dense fun (_ _ : Fin 1) => 1)
    (fun _ => 3) .quadratic (.l1 1) = .error .index :=
  C26_lasso_panics argsortIns_spec one_pos _ _ 1 (1 / 100) zero_le_one _ rfl rfl (by decide)
    (by decide) (by decide) (by decide) 0 (by simp [Design.matrix]; norm_num)

example : ∃ st', update1 (.csc syncCSC) (fun i => i + 1) .quadratic (.l05 1)
    ⟨vec (fun _ : Fin 2 => 1), vec (fit syncCSC.dense fun _ => 1)⟩ (1 : Fin 2) = .ok st' ∧ InSync (.csc syncCSC) st' :=
  C27_update two_pos _ _ _ (.l05 1) one_pos _ ⟨_, rfl, rfl⟩ 1

example (B : Mat XR) (st' : CDState XR)
    (hr : epoch1 ⟨10, 50, 1000, XR.fin 0, 2, true, true⟩ (.csc syncCSC) (fun i => i + 1) .quadratic (.l1 1)
      (idx (![1, 0] : Fin 2 → Fin 2)) 2 (mat fun (_ : Fin 3) (_ : Fin 2) => 7) ⟨vec (fun _ : Fin 2 => 1), vec (fit syncCSC.dense fun _ => 1)⟩ =
        .ok (B, st')) : InSync (.csc syncCSC) st' :=
  (C27_epoch two_pos _ _ _ (.l1 1) zero_le_one _ 2 ![1, 0] (by decide) 2 _ _ ⟨_, rfl, rfl⟩ B st' hr).1

example : ∃ B st', epoch1 ⟨10, 50, 1000, XR.fin 0, 2, true, true⟩ (.csc syncCSC) (fun i => i + 1) .quadratic (.l1 1)
      (idx (![1, 0] : Fin 2 → Fin 2)) 2 (mat fun (_ : Fin 3) (_ : Fin 2) => 7)
      ⟨vec (fun _ : Fin 2 => 1), vec (fit syncCSC.dense fun _ => 1)⟩ = .ok (B, st') :=
  C27_epoch_ok two_pos _ _ _ (.l1 1) zero_le_one ⟨10, 50, 1000, XR.fin 0, 2, true, true⟩ 2 ![1, 0] (by decide) 2 _ _
    ⟨_, rfl, rfl⟩ (fun _ => by decide)

example : ∃ st log, trace1 argsortIns ⟨10, 50, 1000, XR.fin 0, 5, false, true⟩ (.csc syncCSC) (fun i => i + 1)
    .quadratic (.mcp 1 3) = .ok (st, log) ∧ InSync (.csc syncCSC) st := by
  obtain ⟨v, h⟩ := C25_finite argsortIns_spec two_pos (.csc syncCSC) (fun i => i + 1) .quadratic (.mcp 1 3)
    ⟨zero_le_one, three_pos⟩ ⟨10, 50, 1000, XR.fin 0, 5, false, true⟩ rfl
  rw [trace1_solve] at h
  cases ht : trace1 argsortIns ⟨10, 50, 1000, XR.fin 0, 5, false, true⟩ (.csc syncCSC) (fun i => i + 1)
      .quadratic (.mcp 1 3) with
  | error e => rw [ht] at h; cases h
  | ok r =>
    exact ⟨_, _, rfl, C27_run argsortIns_spec two_pos _ _ _ (.mcp 1 3) ⟨zero_le_one, three_pos⟩ _ _ _ ht⟩

example : ∃ st', updateMT (.csc syncCSC) (fun i (t : Fin 3) => i + t) (.l21 1)
    ⟨mat (fun (_ : Fin 2) (_ : Fin 3) => 1), mat (fitMT syncCSC.dense fun _ (_ : Fin 3) => 1)⟩ (1 : Fin 2) = .ok st' ∧
      InSyncMT (.csc syncCSC) 3 st' :=
  C27_update_mt two_pos _ _ (.l21 1) one_pos _ ⟨_, rfl, rfl⟩ 1

example (st : BCDState XR) (log : List (Event XR))
    (h : traceMT argsortIns ⟨10, 50, 1000, XR.fin 0, 5, false, true⟩ (.csc syncCSC) (fun i (t : Fin 3) => i + t)
      (.mcp 1 3) = .ok (st, log)) : InSyncMT (.csc syncCSC) 3 st :=
  C27_run_mt argsortIns_spec two_pos _ _ (.mcp 1 3) ⟨zero_le_one, three_pos⟩ _ _ _ h

example (B : Mat XR) (st' : BCDState XR)
    (hr : epochMT ⟨10, 50, 1000, XR.fin 0, 2, true, true⟩ (.csc syncCSC) (fun i (t : Fin 2) => i + t) (.l21 1)
      (idx (![1, 0] : Fin 2 → Fin 2)) 2 (mat fun (_ : Fin 3) (_ : Fin 4) => 7)
      ⟨mat (fun (_ _ : Fin 2) => 1), mat (fitMT syncCSC.dense fun _ (_ : Fin 2) => 1)⟩ = .ok (B, st')) : InSyncMT (.csc syncCSC) 2 st' :=
  (C27_epoch_mt two_pos _ _ (.l21 1) one_pos _ 2 ![1, 0] (by decide) 2 _ _ ⟨_, rfl, rfl⟩ B st' hr).1

end Sglm
