import Verif.Props.Certificate
import Verif.Proofs.SmallRun

/-!
# C86: what an early exit of the multi-task MCP says

The violation score of a nonzero row of norm below `alpha * gamma` does not depend on the data: it is
`alpha - ‖row‖ / gamma`.  Hence a run may stop early at a point far from stationary, and a run which has found the exact
minimiser may not stop.
-/

namespace Sglm
open Scalar Spec
variable {n p T : ℕ}

/-- A run of the real problem, seen as a call. -/
theorem callMT_of_run {srt : Argsort XR} (hs : ArgsortSpec srt) (hn : 0 < n) (D : Design n p) (Y : Fin n → Fin T → ℝ)
    (pen : BPen) (hv : pen.Valid) (cfg : Solver XR) {V : Fin p → Euc T} {k : ℕ}
    (h : (probMT D Y pen).run srt (cfg.setVerbose true) = .ok (V, k)) :
    solveMT srt cfg D Y pen = .ok (emat V) ∧
    ∃ st log, traceMT srt (cfg.setVerbose true) D Y pen = .ok (st, log) ∧ iterationsPrinted log = k := by
  constructor
  · rw [solveMT_eq hs hn D Y pen hv]
    have : (probMT D Y pen).run srt cfg = .ok (V, k) := h
    rw [this]; rfl
  · have h1 := traceMT_solve srt D Y pen (cfg.setVerbose true)
    rw [solveMT_eq hs hn D Y pen hv, h] at h1
    cases h2 : traceMT srt (cfg.setVerbose true) D Y pen with
    | error e => rw [h2] at h1; cases h1
    | ok r =>
      obtain ⟨st, log⟩ := r
      obtain ⟨V', m, h3, -, h4⟩ := traceMT_run hs hn D Y pen hv _ st log h2
      rw [h] at h3
      injection h3 with h3
      injection h3 with h3 h5
      exact ⟨st, log, rfl, by rw [h4 rfl, ← h5]⟩

/-- Row `j` of `V` is `τ`-stationary for the multi-task MCP. -/
def RowStationary (D : Design n p) (Y : Fin n → Fin T → ℝ) (S : Euc T → Set (Euc T)) (V : Fin p → Euc T) (τ : ℝ)
    (j : Fin p) : Prop :=
  ∃ (g : Euc T) (d : ℝ),
    (∀ t, IsPartialMT (fun W => mtLoss Y (fitMT D.matrix W)) (fun j => (V j).ofLp) j t (g t)) ∧
    IsDist (-g) (S (V j)) d ∧ d ≤ τ

theorem approxStationaryMT_iff (D : Design n p) (Y : Fin n → Fin T → ℝ) (S : Euc T → Set (Euc T)) (V : Fin p → Euc T)
    (τ : ℝ) : ApproxStationaryMT D Y S V τ ↔ ∀ j, RowStationary D Y S V τ j := Iff.rfl

/-- The full statement of C86: an early exit certifies stationarity up to the tolerance. -/
def C86_full : Prop :=
  ∀ (srt : Argsort XR), ArgsortSpec srt → ∀ (n p T : ℕ), 0 < n → ∀ (D : Design n p) (Y : Fin n → Fin T → ℝ)
    (α γ : ℝ), 0 < α → 1 < γ → ∀ (cfg : Solver XR) (τ : ℝ), cfg.tolerance = XR.fin τ →
    ∀ (st : BCDState XR) (log : List (Event XR)),
      traceMT srt (cfg.setVerbose true) D Y (.mcp α γ) = .ok (st, log) →
      iterationsPrinted log < cfg.maxIterations →
      ∃ V : Fin p → Euc T, solveMT srt cfg D Y (.mcp α γ) = .ok (emat V) ∧
        ApproxStationaryMT D Y (frechetSubdiff (mcp α γ : Euc T → ℝ)) V τ

/-- What an early exit does guarantee: every row is `tol`-stationary, or its norm lies strictly between zero and
`alpha * gamma`, and not more than `gamma * tol` below the latter. -/
theorem C86_certificate_partial {srt : Argsort XR} (hs : ArgsortSpec srt) (hn : 0 < n) (D : Design n p)
    (Y : Fin n → Fin T → ℝ) (α γ : ℝ) (hα : 0 ≤ α) (hγ : 0 < γ) (cfg : Solver XR) (τ : ℝ)
    (ht : cfg.tolerance = XR.fin τ) (st : BCDState XR) (log : List (Event XR))
    (h : traceMT srt (cfg.setVerbose true) D Y (.mcp α γ) = .ok (st, log))
    (hit : iterationsPrinted log < cfg.maxIterations) :
    ∃ V : Fin p → Euc T, solveMT srt cfg D Y (.mcp α γ) = .ok (emat V) ∧
      ∀ j, (V j = 0 ∨ α * γ ≤ ‖V j‖) ∧ RowStationary D Y (frechetSubdiff (mcp α γ : Euc T → ℝ)) V τ j ∨
        (0 < ‖V j‖ ∧ ‖V j‖ < α * γ ∧ α * γ - γ * τ ≤ ‖V j‖) := by
  obtain ⟨V, m, h1, -, h3⟩ := traceMT_run hs hn D Y (.mcp α γ) ⟨hα, hγ⟩ _ st log h
  have hx := RProb.run_exit _ _ h1 (by rw [← h3 rfl]; exact hit)
  refine ⟨V, ?_, fun j => ?_⟩
  · rw [solveMT_eq hs hn D Y (.mcp α γ) ⟨hα, hγ⟩]
    have : (probMT D Y (.mcp α γ)).run srt cfg = .ok (V, m) := h1
    rw [this]; rfl
  · have hsc : blockMcpScore α γ (V j) ((probMT D Y (.mcp α γ)).G V j) ≤ τ :=
      (probMT D Y (.mcp α γ)).viol_le (w := V) (τ := τ) (by rw [← ht]; exact hx) j
    have hp := fun t => mt_partial hn D.matrix Y (fun j => (V j).ofLp) j t
    unfold blockMcpScore at hsc
    split_ifs at hsc with h4 h5
    · refine Or.inl ⟨Or.inl h4, (probMT D Y (.mcp α γ)).G V j, _, hp, ?_, hsc⟩
      rw [h4, frechet_mcp_zero hα hγ]
      exact isDist_ball hα _
    · have hN : 0 < ‖V j‖ := norm_pos_iff.mpr h4
      refine Or.inr ⟨hN, h5, ?_⟩
      rw [norm_smul, Real.norm_eq_abs, ← abs_of_pos hN, ← abs_mul, abs_of_pos hN] at hsc
      have e : (α / ‖V j‖ - 1 / γ) * ‖V j‖ = (α * γ - ‖V j‖) / γ := by field_simp
      rw [e] at hsc
      have h6 := le_trans (le_abs_self _) hsc
      rw [div_le_iff₀ hγ] at h6
      linarith
    · have h5 := not_lt.mp h5
      refine Or.inl ⟨Or.inr h5, (probMT D Y (.mcp α γ)).G V j, _, hp, ?_, hsc⟩
      rw [frechet_mcp_out hα hγ h4 (by rw [mul_comm]; exact h5)]
      have := isDist_singleton ((probMT D Y (.mcp α γ)).G V j) 0
      rwa [add_zero] at this

/-- A result with a row in the interior of the zone uses all iterations, however accurate it is. -/
theorem C86_all_iterations {srt : Argsort XR} (hs : ArgsortSpec srt) (hn : 0 < n) (D : Design n p)
    (Y : Fin n → Fin T → ℝ) (α γ : ℝ) (hα : 0 ≤ α) (hγ : 0 < γ) (cfg : Solver XR) (τ : ℝ)
    (ht : cfg.tolerance = XR.fin τ) (st : BCDState XR) (log : List (Event XR))
    (h : traceMT srt (cfg.setVerbose true) D Y (.mcp α γ) = .ok (st, log)) (V : Fin p → Euc T)
    (hV : solveMT srt cfg D Y (.mcp α γ) = .ok (emat V)) (j : Fin p) (h0 : 0 < ‖V j‖)
    (h1 : ‖V j‖ < γ * (α - τ)) (hτ : 0 ≤ τ) : iterationsPrinted log = cfg.maxIterations := by
  obtain ⟨V', m, h3, -, h4⟩ := traceMT_run hs hn D Y (.mcp α γ) ⟨hα, hγ⟩ _ st log h
  have hle : iterationsPrinted log ≤ cfg.maxIterations := by
    rw [h4 rfl]
    exact (Skel.outer_exit _ _ _ _ _ h3).1
  rcases hle.lt_or_eq with hlt | heq
  · obtain ⟨U, h5, h6⟩ := C86_certificate_partial hs hn D Y α γ hα hγ cfg τ ht st log h hlt
    rw [hV] at h5
    injection h5 with h5
    obtain rfl := emat_injective h5
    exfalso
    rcases h6 j with ⟨h7, -⟩ | ⟨-, -, h7⟩
    · rcases h7 with h7 | h7
      · rw [h7, norm_zero] at h0; exact lt_irrefl _ h0
      · have : 0 ≤ γ * τ := by positivity
        linarith
    · linarith
  · exact heq

/-! ## The witnesses -/

/-- The vector `(a)` of length one. -/
noncomputable def e1 (a : ℝ) : Euc 1 := WithLp.toLp 2 fun _ => a

theorem e1_norm (a : ℝ) : ‖e1 a‖ = |a| := by
  rw [EuclideanSpace.norm_eq, Fin.sum_univ_one]
  show Real.sqrt (‖a‖ ^ 2) = _
  rw [Real.sqrt_sq (norm_nonneg _), Real.norm_eq_abs]

theorem e1_smul (k a : ℝ) : k • e1 a = e1 (k * a) := rfl
theorem e1_sub (a b : ℝ) : e1 a - e1 b = e1 (a - b) := rfl
theorem e1_add (a b : ℝ) : e1 a + e1 b = e1 (a + b) := rfl
theorem e1_zero : e1 0 = 0 := rfl

theorem e1_ne {a : ℝ} (h : a ≠ 0) : e1 a ≠ 0 := by
  intro h'
  have := e1_norm a
  rw [h', norm_zero] at this
  exact h (abs_eq_zero.mp this.symm)

/-- Two samples, two features: `x₁ = (2, 0)`, `x₂ = (1, 1)`. -/
noncomputable def c86D : Design 2 2 := .dense ![![2, 1], ![0, 1]]

/-- One task with targets `57/8` and `55/8`. -/
noncomputable def c86Y : Fin 2 → Fin 1 → ℝ := ![![57 / 8], ![55 / 8]]

/-- One epoch per iteration, tolerance `1/4`. -/
noncomputable def c86Cfg : Solver XR := ⟨10, 50, 1, XR.fin (1 / 4), 5, false, true⟩

theorem c86_grad (V : Fin 2 → ℝ) : (probMT c86D c86Y (.mcp 1 4)).G (fun j => e1 (V j)) =
    fun j => e1 ((![4 * V 0 + 2 * V 1 - 57 / 4, 2 * V 0 + 2 * V 1 - 14] : Fin 2 → ℝ) j / 2) := by
  funext j
  ext t
  rw [Subsingleton.elim t 0]
  show (∑ i : Fin 2, c86D.matrix i j * (∑ k : Fin 2, c86D.matrix i k * V k) - ∑ i : Fin 2, c86D.matrix i j * c86Y i 0) /
    ((2 : ℕ) : ℝ) = _
  fin_cases j
  · simp [c86D, c86Y, Design.matrix, Fin.sum_univ_two, e1]; ring
  · simp [c86D, c86Y, Design.matrix, Fin.sum_univ_two, e1]; ring

theorem c86_L : (probMT c86D c86Y (.mcp 1 4)).L = ![2, 1] := by
  funext j
  show (∑ i : Fin 2, c86D.matrix i j * c86D.matrix i j) / ((2 : ℕ) : ℝ) = _
  fin_cases j
  · norm_num [c86D, Design.matrix, Fin.sum_univ_two]
  · norm_num [c86D, Design.matrix, Fin.sum_univ_two]

/-- A proximal step in the zone, for positive arguments. -/
theorem mcp_zone {α γ s a : ℝ} (h0 : 0 < s) (ha : 0 < a) (h1 : α * s < a) (h2 : a ≤ γ * α) :
    blockMcpProxR α γ (e1 a) s = e1 ((a - α * s) / (1 - s / γ)) := by
  unfold blockMcpProxR
  rw [e1_norm, abs_of_pos ha, if_neg (not_le.mpr h1), if_neg, e1_smul]
  · congr 1
    rw [one_div_div]
    field_simp
  · rw [not_lt]
    refine le_trans h2 (le_of_eq ?_)
    field_simp

theorem c86_step1 : (probMT c86D c86Y (.mcp 1 4)).step (fun _ => 0) 0 = fun j => e1 ((![7 / 2, 0] : Fin 2 → ℝ) j) := by
  unfold RProb.step
  have hG := c86_grad (fun _ => 0)
  simp only [e1_zero] at hG
  rw [c86_L, hG, if_neg (by simp)]
  have e : (probMT c86D c86Y (.mcp 1 4)).px ((0 : Euc 1) - (1 / (![2, 1] : Fin 2 → ℝ) 0) •
      e1 ((![4 * (0 : ℝ) + 2 * 0 - 57 / 4, 2 * 0 + 2 * 0 - 14] : Fin 2 → ℝ) 0 / 2)) (1 / (![2, 1] : Fin 2 → ℝ) 0) =
      e1 (7 / 2) := by
    show blockMcpProxR 1 4 _ _ = _
    rw [← e1_zero, e1_smul, e1_sub]
    simp only [Matrix.cons_val_zero]
    rw [mcp_zone (by norm_num) (by norm_num) (by norm_num) (by norm_num)]
    norm_num
  dsimp only
  rw [e]
  funext j
  fin_cases j
  · rfl
  · rfl

theorem c86_step2 : (probMT c86D c86Y (.mcp 1 4)).step (fun j => e1 ((![7 / 2, 0] : Fin 2 → ℝ) j)) 1 =
    fun j => e1 ((![7 / 2, 10 / 3] : Fin 2 → ℝ) j) := by
  unfold RProb.step
  rw [c86_L, c86_grad, if_neg (by simp)]
  have e : (probMT c86D c86Y (.mcp 1 4)).px (e1 ((![7 / 2, 0] : Fin 2 → ℝ) 1) - (1 / (![2, 1] : Fin 2 → ℝ) 1) •
      e1 ((![4 * (![7 / 2, 0] : Fin 2 → ℝ) 0 + 2 * (![7 / 2, 0] : Fin 2 → ℝ) 1 - 57 / 4,
        2 * (![7 / 2, 0] : Fin 2 → ℝ) 0 + 2 * (![7 / 2, 0] : Fin 2 → ℝ) 1 - 14] : Fin 2 → ℝ) 1 / 2))
      (1 / (![2, 1] : Fin 2 → ℝ) 1) = e1 (10 / 3) := by
    show blockMcpProxR 1 4 _ _ = _
    rw [e1_smul, e1_sub]
    simp only [Matrix.cons_val_zero, Matrix.cons_val_one]
    rw [mcp_zone (by norm_num) (by norm_num) (by norm_num) (by norm_num)]
    norm_num
  dsimp only
  rw [e]
  funext j
  fin_cases j
  · rfl
  · rfl

theorem score_zone {α γ a : ℝ} (ha : 0 < a) (h : a < α * γ) (b : Euc 1) : blockMcpScore α γ (e1 a) b = |α - a / γ| := by
  unfold blockMcpScore
  rw [if_neg (e1_ne ha.ne'), e1_norm, abs_of_pos ha, if_pos h, e1_smul, e1_norm]
  congr 1
  field_simp

theorem c86_run {srt : Argsort XR} (hs : ArgsortSpec srt) (cfg : Solver XR) (hu : cfg.useAcceleration = false)
    (he : cfg.maxEpochs = 1) (hw : 2 ≤ cfg.wsStartSize) (hit : 0 < cfg.maxIterations)
    (ht : cfg.tolerance = XR.fin (1 / 4)) :
    (probMT c86D c86Y (.mcp 1 4)).run srt cfg = .ok (fun j => e1 ((![7 / 2, 10 / 3] : Fin 2 → ℝ) j), 1) := by
  have hG := c86_grad (fun _ => 0)
  simp only [e1_zero] at hG
  have hsc : ∀ j, (probMT c86D c86Y (.mcp 1 4)).sc 0 ((probMT c86D c86Y (.mcp 1 4)).G (fun _ => 0) j) =
      (![49 / 8, 6] : Fin 2 → ℝ) j := by
    intro j
    rw [hG]
    show blockMcpScore 1 4 0 _ = _
    unfold blockMcpScore
    rw [if_pos rfl, e1_norm]
    fin_cases j <;> norm_num
  rw [RProb.run_pair hs cfg hu he hw hit, c86_step1, c86_step2]
  · rw [hsc, hsc]; norm_num
  · rw [ht]
    refine RProb.viol_gt _ 0 ?_
    rw [hsc]; norm_num
  · rw [c86_step1, c86_step2, ht]
    refine RProb.viol_le_of _ (Or.inl rfl) fun j => ?_
    show blockMcpScore 1 4 (e1 _) _ ≤ _
    fin_cases j
    · rw [score_zone (by norm_num) (by norm_num)]; norm_num
    · rw [score_zone (by norm_num) (by norm_num)]; norm_num

/-- The bug: with tolerance `1/4` the run stops after one iteration... -/
theorem C86_stops {srt : Argsort XR} (hs : ArgsortSpec srt) (N : ℕ) (hN : 0 < N) (verb : Bool) :
    solveMT srt ⟨10, N, 1, XR.fin (1 / 4), 5, false, verb⟩ c86D c86Y (.mcp 1 4) = .ok (emat ![e1 (7 / 2), e1 (10 / 3)]) ∧
    ∃ st log, traceMT srt ⟨10, N, 1, XR.fin (1 / 4), 5, false, true⟩ c86D c86Y (.mcp 1 4) = .ok (st, log) ∧
      iterationsPrinted log = 1 := by
  have e : (fun j => e1 ((![7 / 2, 10 / 3] : Fin 2 → ℝ) j)) = ![e1 (7 / 2), e1 (10 / 3)] := by
    funext j; fin_cases j <;> rfl
  have := callMT_of_run hs two_pos c86D c86Y (.mcp 1 4) ⟨zero_le_one, four_pos⟩ ⟨10, N, 1, XR.fin (1 / 4), 5, false, verb⟩
    (c86_run hs _ rfl rfl (Nat.le_of_ble_eq_true rfl) hN rfl)
  rw [e] at this
  exact this

/-- ... at a point whose first row violates the optimality condition by `10/3`. -/
theorem C86_violation : ∃ g : Euc 1,
    (∀ t, IsPartialMT (fun W => mtLoss c86Y (fitMT c86D.matrix W))
      (fun j => ((![e1 (7 / 2), e1 (10 / 3)] : Fin 2 → Euc 1) j).ofLp) 0 t (g t)) ∧
    IsDist (-g) (frechetSubdiff (mcp 1 4 : Euc 1 → ℝ) (e1 (7 / 2))) (10 / 3) := by
  have e : (fun j => e1 ((![7 / 2, 10 / 3] : Fin 2 → ℝ) j)) = ![e1 (7 / 2), e1 (10 / 3)] := by
    funext j; fin_cases j <;> rfl
  refine ⟨(probMT c86D c86Y (.mcp 1 4)).G ![e1 (7 / 2), e1 (10 / 3)] 0,
    fun t => mt_partial two_pos c86D.matrix c86Y (fun j => ((![e1 (7 / 2), e1 (10 / 3)] : Fin 2 → Euc 1) j).ofLp) 0 t, ?_⟩
  rw [← e, c86_grad, frechet_mcp_mid (e1_ne (by norm_num)) (by rw [e1_norm]; norm_num [abs_of_pos])]
  have := isDist_singleton (e1 ((![4 * (![7 / 2, 10 / 3] : Fin 2 → ℝ) 0 + 2 * (![7 / 2, 10 / 3] : Fin 2 → ℝ) 1 - 57 / 4,
    2 * (![7 / 2, 10 / 3] : Fin 2 → ℝ) 0 + 2 * (![7 / 2, 10 / 3] : Fin 2 → ℝ) 1 - 14] : Fin 2 → ℝ) 0 / 2))
    (((1 : ℝ) / ‖e1 (7 / 2)‖ - 1 / 4) • e1 (7 / 2))
  refine (congrArg (IsDist _ _) ?_).mpr this
  rw [e1_norm, e1_smul, e1_add, e1_norm]
  simp only [Matrix.cons_val_zero, Matrix.cons_val_one]
  norm_num [abs_of_pos]

/-- C86 is false of the code. -/
theorem C86_false : ¬ C86_full := by
  intro h
  obtain ⟨h1, st, log, h2, h3⟩ := C86_stops argsortIns_spec 50 (by norm_num) true
  obtain ⟨V, h4, h5⟩ := h argsortIns argsortIns_spec 2 2 1 two_pos c86D c86Y 1 4 one_pos (by norm_num)
    c86Cfg (1 / 4) rfl st log h2 (by rw [h3]; decide)
  have h1' : solveMT argsortIns c86Cfg c86D c86Y (.mcp 1 4) = .ok (emat ![e1 (7 / 2), e1 (10 / 3)]) := h1
  rw [h1'] at h4
  injection h4 with h4
  obtain rfl := emat_injective h4
  obtain ⟨g, d, h6, h7, h8⟩ := h5 0
  obtain ⟨g', h9, h10⟩ := C86_violation
  have hg : g = g' := by
    ext t
    exact HasDerivAt.unique (h6 t) (h9 t)
  rw [hg] at h7
  have : d = 10 / 3 := h7.2.trans h10.2.symm
  linarith

/-- One sample `x = 1`, target `3/2`, `alpha = 1`, `gamma = 2`, tolerance below `1/2`: the first epoch finds the exact
minimiser `1`, and stays there, but the run goes on until all iterations are used up. -/
theorem C86_never_stops {srt : Argsort XR} (hs : ArgsortSpec srt) (cfg : Solver XR) (τ : ℝ) (hτ : τ < 1 / 2)
    (ht : cfg.tolerance = XR.fin τ) (hu : cfg.useAcceleration = false) (he : 0 < cfg.maxEpochs)
    (hw : 0 < cfg.wsStartSize) (hit : 0 < cfg.maxIterations) :
    solveMT srt cfg oneD (fun _ (_ : Fin 1) => 3 / 2) (.mcp 1 2) = .ok (emat fun _ : Fin 1 => e1 1) ∧
    (∃ st log, traceMT srt (cfg.setVerbose true) oneD (fun _ (_ : Fin 1) => 3 / 2) (.mcp 1 2) = .ok (st, log) ∧
      iterationsPrinted log = cfg.maxIterations) ∧
    ∀ W : Fin 1 → Euc 1, (W ≠ fun _ => e1 1) →
      objectiveMT oneD (fun _ (_ : Fin 1) => 3 / 2) (.mcp 1 2) (fun _ => e1 1) <
        objectiveMT oneD (fun _ (_ : Fin 1) => 3 / 2) (.mcp 1 2) W := by
  have hG : ∀ v : ℝ, (probMT oneD (fun _ (_ : Fin 1) => 3 / 2) (.mcp 1 2)).G (fun _ => e1 v) 0 = e1 (v - 3 / 2) := by
    intro v
    ext t
    show (∑ i : Fin 1, (1 : ℝ) * (∑ j : Fin 1, (1 : ℝ) * v) - ∑ i : Fin 1, (1 : ℝ) * (3 / 2)) / ((1 : ℕ) : ℝ) = _
    simp [e1]
  have hL : (probMT oneD (fun _ (_ : Fin 1) => 3 / 2) (.mcp 1 2)).L 0 = 1 := by
    show (∑ i : Fin 1, (1 : ℝ) * 1) / ((1 : ℕ) : ℝ) = 1
    simp
  have hstep : ∀ v : ℝ, (probMT oneD (fun _ (_ : Fin 1) => 3 / 2) (.mcp 1 2)).step (fun _ => e1 v) 0 = fun _ => e1 1 := by
    intro v
    funext j
    rw [Subsingleton.elim j 0]
    unfold RProb.step
    rw [hL, hG, if_neg one_ne_zero, Function.update_self]
    show blockMcpProxR 1 2 _ _ = _
    rw [e1_smul, e1_sub]
    have e : v - 1 / 1 * (v - 3 / 2) = 3 / 2 := by ring
    rw [e, mcp_zone (by norm_num) (by norm_num) (by norm_num) (by norm_num)]
    norm_num
  have h0 := hstep 0
  rw [e1_zero] at h0
  have hr : (probMT oneD (fun _ (_ : Fin 1) => 3 / 2) (.mcp 1 2)).run srt (cfg.setVerbose true) =
      .ok (fun _ => e1 1, cfg.maxIterations) := by
    refine RProb.run_stuck hs _ hu he hw hit h0 (hstep 1) ?_ ?_
    · rw [ht]
      refine RProb.viol_gt _ 0 ?_
      have := hG 0
      rw [e1_zero] at this
      rw [this]
      show τ < blockMcpScore 1 2 0 _
      unfold blockMcpScore
      rw [if_pos rfl, e1_norm]
      refine lt_of_lt_of_le hτ (le_trans (le_of_eq ?_) (le_max_right _ _))
      norm_num [abs_of_neg]
    · rw [ht]
      refine RProb.viol_gt _ 0 ?_
      show τ < blockMcpScore 1 2 (e1 1) _
      rw [score_zone one_pos (by norm_num)]
      refine lt_of_lt_of_le hτ (le_trans (le_of_eq ?_) (le_abs_self _))
      norm_num
  obtain ⟨h1, h2⟩ := callMT_of_run hs one_pos oneD (fun _ (_ : Fin 1) => 3 / 2) (.mcp 1 2) ⟨zero_le_one, two_pos⟩ cfg hr
  refine ⟨h1, h2, fun W hW => ?_⟩
  obtain ⟨x, hx⟩ : ∃ x, W = fun _ => e1 x := ⟨W 0 0, by
    funext j; ext t; rw [Subsingleton.elim j 0, Subsingleton.elim t 0]; rfl⟩
  have hx1 : x ≠ 1 := by rintro rfl; exact hW hx
  have ho : ∀ v : ℝ, objectiveMT oneD (fun _ (_ : Fin 1) => 3 / 2) (.mcp 1 2) (fun _ => e1 v) =
      (3 / 2 - v) ^ 2 / 2 + if |v| ≤ 2 * 1 then 1 * |v| - |v| ^ 2 / (2 * 2) else 2 * 1 ^ 2 / 2 := by
    intro v
    simp [objectiveMT, mtLoss, fitMT, oneD, Design.matrix, BPen.fn, mcp, e1_norm]
    simp [e1]
  have hx2 : 0 < (x - 1) ^ 2 := by
    have : x - 1 ≠ 0 := sub_ne_zero.mpr hx1
    positivity
  rw [hx, ho, ho, abs_one, if_pos (by norm_num)]
  split_ifs with h
  · rw [sq_abs]
    have := le_abs_self x
    linarith [this, hx2, show (x - 1) ^ 2 = x ^ 2 - 2 * x + 1 by ring, show (3 / 2 - x) ^ 2 = x ^ 2 - 3 * x + 9 / 4 by ring]
  · have : 0 ≤ (3 / 2 - x) ^ 2 := by positivity
    norm_num
    linarith

/-- The opposite failure of the stopping test of the multi-task elastic net (see C31): one sample `x = 1`, target `2`,
`alpha = 3`, `l1_ratio = 1`, tolerance below `1`.  Zero is the exact minimiser and the starting point, but all iterations
are used up. -/
theorem C31_never_stops {srt : Argsort XR} (hs : ArgsortSpec srt) (cfg : Solver XR) (τ : ℝ) (hτ : τ < 1)
    (ht : cfg.tolerance = XR.fin τ) (hu : cfg.useAcceleration = false) (he : 0 < cfg.maxEpochs)
    (hw : 0 < cfg.wsStartSize) (hit : 0 < cfg.maxIterations) :
    solveMT srt cfg oneD (fun _ (_ : Fin 1) => 2) (.enet 3 1) = .ok (emat fun _ : Fin 1 => (0 : Euc 1)) ∧
    (∃ st log, traceMT srt (cfg.setVerbose true) oneD (fun _ (_ : Fin 1) => 2) (.enet 3 1) = .ok (st, log) ∧
      iterationsPrinted log = cfg.maxIterations) ∧
    ∀ W : Fin 1 → Euc 1, (W ≠ fun _ => 0) →
      objectiveMT oneD (fun _ (_ : Fin 1) => 2) (.enet 3 1) (fun _ => 0) <
        objectiveMT oneD (fun _ (_ : Fin 1) => 2) (.enet 3 1) W := by
  have hG : (probMT oneD (fun _ (_ : Fin 1) => 2) (.enet 3 1)).G (fun _ => 0) 0 = e1 (-2) := by
    ext t
    show (∑ i : Fin 1, (1 : ℝ) * (∑ j : Fin 1, (1 : ℝ) * 0) - ∑ i : Fin 1, (1 : ℝ) * 2) / ((1 : ℕ) : ℝ) = _
    simp [e1]
  have hL : (probMT oneD (fun _ (_ : Fin 1) => 2) (.enet 3 1)).L 0 = 1 := by
    show (∑ i : Fin 1, (1 : ℝ) * 1) / ((1 : ℕ) : ℝ) = 1
    simp
  have hstep : (probMT oneD (fun _ (_ : Fin 1) => 2) (.enet 3 1)).step (fun _ => 0) 0 = fun _ => 0 := by
    funext j
    rw [Subsingleton.elim j 0]
    unfold RProb.step
    rw [hL, hG, if_neg one_ne_zero, Function.update_self]
    show blockEnetProxR 3 1 _ _ = _
    rw [← e1_zero, e1_smul, e1_sub]
    unfold blockEnetProxR blockSoftR
    rw [if_pos (by rw [e1_norm]; norm_num), smul_zero]
    rfl
  have h0 : (((probMT oneD (fun _ (_ : Fin 1) => 2) (.enet 3 1)).viol (fun _ => 0) (List.finRange 1)).2 <=. cfg.tolerance) =
      false := by
    rw [ht]
    refine RProb.viol_gt _ 0 ?_
    rw [hG]
    show τ < blockEnetScore 3 1 0 _
    unfold blockEnetScore
    rw [if_pos rfl, e1_norm]
    refine lt_of_lt_of_le hτ (le_trans (le_of_eq ?_) (le_max_right _ _))
    norm_num
  have hr : (probMT oneD (fun _ (_ : Fin 1) => 2) (.enet 3 1)).run srt (cfg.setVerbose true) =
      .ok (fun _ => 0, cfg.maxIterations) :=
    RProb.run_stuck hs (cfg.setVerbose true) hu he hw hit hstep hstep h0 h0
  obtain ⟨h1, h2⟩ := callMT_of_run hs one_pos oneD (fun _ (_ : Fin 1) => 2) (.enet 3 1) ⟨three_pos, one_pos, le_rfl⟩ cfg hr
  refine ⟨h1, h2, fun W hW => ?_⟩
  obtain ⟨x, hx⟩ : ∃ x, W = fun _ => e1 x := ⟨W 0 0, by
    funext j; ext t; rw [Subsingleton.elim j 0, Subsingleton.elim t 0]; rfl⟩
  have hx1 : x ≠ 0 := by rintro rfl; exact hW hx
  have ho : ∀ v : ℝ, objectiveMT oneD (fun _ (_ : Fin 1) => 2) (.enet 3 1) (fun _ => e1 v) =
      (2 - v) ^ 2 / 2 + 3 * |v| := by
    intro v
    simp [objectiveMT, mtLoss, fitMT, oneD, Design.matrix, BPen.fn, enet, e1_norm]
    simp [e1]
  have h0' := ho 0
  rw [e1_zero] at h0'
  rw [hx, ho, h0', abs_zero]
  have h3 : 0 < |x| := abs_pos.mpr hx1
  have h4 := le_abs_self x
  have h5 : 0 ≤ x ^ 2 := by positivity
  linarith [show (2 - x) ^ 2 = x ^ 2 - 4 * x + 4 by ring]

-- the witness meets the hypotheses of the partial theorem
example : ∃ V : Fin 2 → Euc 1, solveMT argsortIns c86Cfg c86D c86Y (.mcp 1 4) = .ok (emat V) ∧
    ∀ j, (V j = 0 ∨ (1 : ℝ) * 4 ≤ ‖V j‖) ∧ RowStationary c86D c86Y (frechetSubdiff (mcp 1 4 : Euc 1 → ℝ)) V (1 / 4) j ∨
      (0 < ‖V j‖ ∧ ‖V j‖ < (1 : ℝ) * 4 ∧ (1 : ℝ) * 4 - 4 * (1 / 4) ≤ ‖V j‖) := by
  obtain ⟨-, st, log, h2, h3⟩ := C86_stops argsortIns_spec 50 (by norm_num) true
  exact C86_certificate_partial argsortIns_spec two_pos c86D c86Y 1 4 zero_le_one four_pos c86Cfg (1 / 4) rfl st log h2
    (by rw [h3]; decide)

example : ∃ st log, traceMT argsortIns (oneCfg.setVerbose true) oneD (fun _ (_ : Fin 1) => 3 / 2) (.mcp 1 2) = .ok (st, log) ∧
    iterationsPrinted log = 50 := by
  obtain ⟨h1, ⟨st, log, h2, -⟩, -⟩ := C86_never_stops argsortIns_spec oneCfg 0 (by norm_num) rfl rfl (by decide) (by decide)
    (by decide)
  exact ⟨st, log, h2, C86_all_iterations argsortIns_spec one_pos oneD _ 1 2 zero_le_one two_pos oneCfg 0 rfl st log h2 _ h1 0
    (by rw [e1_norm]; norm_num) (by rw [e1_norm]; norm_num) le_rfl⟩

example : ∃ st log, traceMT argsortIns (oneCfg.setVerbose true) oneD (fun _ (_ : Fin 1) => 2) (.enet 3 1) = .ok (st, log) ∧
    iterationsPrinted log = 50 :=
  (C31_never_stops argsortIns_spec oneCfg 0 one_pos rfl rfl (by decide) (by decide) (by decide)).2.1

end Sglm
