import Verif.Proofs.Duplicates
import Verif.Props.Predictions

/-!
# C110: sparse arrays in which positions are stored more than once
-/

namespace Sglm
open Scalar Spec
variable {n p : ℕ}

/-- However often positions are stored: a call which stops before `max_iterations` has solved the problem of the matrix in which the
entries are added. -/
theorem C110_certified {srt : Argsort XR} (hs : ArgsortSpec srt) (hn : 0 < n) (A : CSCData n p) (y : Fin n → ℝ) (k : LossKind) {pen : Pen}
    (hv : pen.Valid) (hc : pen.Convex) {cfg : Solver XR} {τ : ℝ} (ht : cfg.tolerance = XR.fin τ) {v : Fin p → ℝ}
    (h : Stops srt cfg (.csc A) y k pen v) (u : Fin p → ℝ) :
    objective1 (.dense A.dense) y k pen v - objective1 (.dense A.dense) y k pen u ≤ τ * ∑ j, |v j - u j| :=
  (stops_cert hs hn hv hc ht h).2 u

/-- The same for the multi-task Lasso. -/
theorem C110_certified_mt {srt : Argsort XR} (hs : ArgsortSpec srt) (hn : 0 < n) {T : ℕ} (A : CSCData n p) (Y : Fin n → Fin T → ℝ) {α : ℝ}
    (hα : 0 < α) {cfg : Solver XR} {τ : ℝ} (ht : cfg.tolerance = XR.fin τ) {V : Fin p → Euc T} (h : StopsMT srt cfg (.csc A) Y (.l21 α) V)
    (W : Fin p → Euc T) : objectiveMT (.dense A.dense) Y (.l21 α) V - objectiveMT (.dense A.dense) Y (.l21 α) W ≤ τ * ∑ j, ‖V j - W j‖ :=
  stopsMT_cert hs hn hα ht h W

/-- If no position is stored more than twice, the result is not worse than zero, for the convex penalties. -/
theorem C110_twice {srt : Argsort XR} (hs : ArgsortSpec srt) (hn : 0 < n) (A : CSCData n p) (hA : StoredTimes 2 A) (y : Fin n → ℝ)
    (k : LossKind) (hy : k.LabelsOK y) {pen : Pen} (hv : pen.Valid) (hc : pen.Convex) (cfg : Solver XR) {v : Fin p → ℝ}
    (h : solve1 srt cfg (.csc A) y k pen = .ok (vec v)) :
    objective1 (.dense A.dense) y k pen v ≤ objective1 (.dense A.dense) y k pen fun _ => 0 := by
  rw [solve1_eq hs hn _ y k pen hv] at h
  cases hr : (prob1 (.csc A) y k pen).run srt cfg with
  | error e => rw [hr] at h; cases h
  | ok q =>
    rw [hr] at h
    rw [← vec_injective (Except.ok.inj h)]
    have h2 : StoredBound 2 A := by
      have := storedBound_times hA
      rwa [show ((2 : ℕ) : ℝ) = 2 from by norm_num] at this
    exact dup_run_le hn h2 y k hy pen hv hc hs cfg q.1 q.2 hr

/-- A single position stored as `2 - 1`. -/
def twoCSC : CSCData 1 1 := ⟨2, ![2, -1], ![0, 0], ![0, 2], by decide⟩

/-- The full statement: the solver converges however often positions are stored. -/
def C110_full : Prop :=
  ∀ {n p : ℕ}, 0 < n → ∀ (A : CSCData n p) (y : Fin n → ℝ) (k : LossKind), k.LabelsOK y → ∀ pen : Pen, pen.Valid → pen.Convex → 0 < pen.fn 1 →
    ∀ τ : ℝ, 0 < τ →
    ∃ N : ℕ, ∀ srt, ArgsortSpec srt → ∀ cfg : Solver XR, cfg.tolerance = XR.fin τ → 0 < cfg.wsStartSize → 0 < cfg.maxEpochs →
      StopsPlain cfg → N < cfg.maxIterations → ∀ v : Fin p → ℝ, solve1 srt cfg (.csc A) y k pen = .ok (vec v) →
        Stops srt cfg (.csc A) y k pen v

/-- If entries at the same position have opposite signs (in particular if no position is stored twice), the solver converges. -/
theorem C110_partial (hn : 0 < n) (A : CSCData n p) (hA : StoredOpposite A) (y : Fin n → ℝ) (k : LossKind) (hy : k.LabelsOK y) (pen : Pen)
    (hv : pen.Valid) (hc : pen.Convex) (hα : 0 < pen.fn 1) (τ : ℝ) (hτ : 0 < τ) :
    ∃ N : ℕ, ∀ srt, ArgsortSpec srt → ∀ cfg : Solver XR, cfg.tolerance = XR.fin τ → 0 < cfg.wsStartSize → 0 < cfg.maxEpochs →
      StopsPlain cfg → N < cfg.maxIterations → ∀ v : Fin p → ℝ, solve1 srt cfg (.csc A) y k pen = .ok (vec v) →
        Stops srt cfg (.csc A) y k pen v := by
  obtain ⟨a, b, H⟩ := dup_cvx hn (storedBound_opposite hA) y k hy pen hv hc hα
  have hm0 : (prob1 (.csc A) y k pen).m0 = XR.ninf ∨ (prob1 (.csc A) y k pen).m0 = XR.fin 0 := by
    cases pen <;> first | exact Or.inl rfl | exact Or.inr rfl
  obtain ⟨N, h2⟩ := H.run_terminates hm0 τ hτ
  refine ⟨N, fun srt hs cfg ht hw he hp hN v hr => ?_⟩
  rw [solve1_eq hs hn _ y k pen hv] at hr
  cases hq : (prob1 (.csc A) y k pen).run srt cfg with
  | error e => rw [hq] at hr; cases hr
  | ok q =>
    rw [hq] at hr
    obtain ⟨v', m⟩ := q
    have hv' := vec_injective (Except.ok.inj hr)
    dsimp only at hv'
    subst hv'
    exact stops_of_run hs hn hv hq (lt_of_le_of_lt (h2 hs cfg ht hw he hp.plainEnd v' m hq).1 hN)

/-- The multi-task Lasso converges under the same condition. -/
theorem C110_partial_mt (hn : 0 < n) {T : ℕ} (A : CSCData n p) (hA : StoredOpposite A) (Y : Fin n → Fin T → ℝ) (α : ℝ) (hα : 0 < α)
    (τ : ℝ) (hτ : 0 < τ) :
    ∃ N : ℕ, ∀ ws, 0 < ws → ∃ V, StopsMT argsortIns ⟨ws, N, 50, XR.fin τ, 5, false, true⟩ (.csc A) Y (.l21 α) V := by
  obtain ⟨N, h2⟩ := (dup_cvx_mt hn (storedBound_opposite hA) Y α hα).run_terminates (Or.inl rfl) τ hτ
  refine ⟨N + 1, fun ws hws => ?_⟩
  obtain ⟨cfg, hcfg⟩ : ∃ cfg : Solver XR, cfg = ⟨ws, N + 1, 50, XR.fin τ, 5, false, true⟩ := ⟨_, rfl⟩
  have hpl : StopsPlain cfg := by rw [hcfg]; exact fun _ _ _ => Or.inl rfl
  obtain ⟨V, m, h⟩ := (probMT (.csc A) Y (.l21 α)).run_ok argsortIns_spec cfg (fun hu => by rw [hcfg] at hu; cases hu)
  have h5 := (h2 argsortIns_spec cfg (by rw [hcfg]) (by rw [hcfg]; exact hws) (by rw [hcfg]; norm_num) hpl.plainEnd V m h).1
  refine ⟨V, ?_⟩
  rw [← hcfg]
  refine ⟨by rw [solveMT_eq argsortIns_spec hn _ Y (.l21 α) hα, h]; rfl, ?_⟩
  have h2 := traceMT_solve argsortIns (.csc A) Y (.l21 α) (cfg.setVerbose true)
  have h' : (probMT (.csc A) Y (.l21 α)).run argsortIns (cfg.setVerbose true) = .ok (V, m) := h
  rw [solveMT_eq argsortIns_spec hn _ Y (.l21 α) hα, h'] at h2
  cases h3 : traceMT argsortIns (cfg.setVerbose true) (.csc A) Y (.l21 α) with
  | error e => rw [h3] at h2; cases h2
  | ok r =>
    obtain ⟨v', m', h4, -, h7⟩ := traceMT_run argsortIns_spec hn (.csc A) Y (.l21 α) hα _ r.1 r.2 h3
    rw [h'] at h4
    have h6 : m = m' := by injection h4 with h4; injection h4
    exact ⟨r.1, r.2, rfl, by rw [h7 rfl, ← h6, hcfg]; show m < N + 1; omega⟩

theorem twoCSC_opposite : StoredOpposite twoCSC := by
  intro j k k' _ _ _ hne
  have : ∀ k k' : Fin 2, k ≠ k' → (![2, -1] : Fin 2 → ℝ) k * (![2, -1] : Fin 2 → ℝ) k' ≤ 0 := by
    intro k k'
    fin_cases k <;> fin_cases k' <;> norm_num
  exact this k k' hne

theorem twoCSC_twice : StoredTimes 2 twoCSC := fun _ _ => (Finset.card_le_univ _).trans (le_of_eq (Fintype.card_fin 2))

/-- A converged fit of the array with `2 - 1`. -/
example : ∃ (cfg : Solver XR) (v : Fin 1 → ℝ), cfg.tolerance = XR.fin 1 ∧ Stops argsortIns cfg (.csc twoCSC) (fun _ => 5) .quadratic (.l1 2) v ∧
    objective1 (.dense twoCSC.dense) (fun _ => 5) .quadratic (.l1 2) v ≤ objective1 (.dense twoCSC.dense) (fun _ => 5) .quadratic (.l1 2) fun _ => 0 := by
  have hv : (Pen.l1 2).Valid := by show (0 : ℝ) ≤ 2; norm_num
  obtain ⟨N, hN⟩ := C110_partial one_pos twoCSC twoCSC_opposite (fun _ => 5) .quadratic trivial (.l1 2) hv trivial
    (by show (0 : ℝ) < 2 * |1|; norm_num) 1 one_pos
  obtain ⟨v, m, h⟩ := (prob1 (.csc twoCSC) (fun _ => 5) .quadratic (.l1 2)).run_ok argsortIns_spec
    (⟨1, N + 1, 50, XR.fin 1, 5, false, false⟩ : Solver XR) (fun hu => by cases hu)
  have h1 : solve1 argsortIns (⟨1, N + 1, 50, XR.fin 1, 5, false, false⟩ : Solver XR) (.csc twoCSC) (fun _ => 5) .quadratic (.l1 2) =
      .ok (vec v) := by
    rw [solve1_eq argsortIns_spec one_pos _ _ _ (.l1 2) hv, h]
    rfl
  exact ⟨_, v, rfl, hN argsortIns argsortIns_spec _ rfl (by norm_num) (by norm_num) (fun _ _ _ => Or.inl rfl) (by simp) v h1,
    C110_twice argsortIns_spec one_pos twoCSC twoCSC_twice (fun _ => 5) .quadratic trivial hv trivial _ h1⟩

/-- Two tasks: a converged fit, and its certificate. -/
example : ∃ N V, StopsMT argsortIns ⟨1, N, 50, XR.fin 1, 5, false, true⟩ (.csc twoCSC) ![![5, -4]] (.l21 2) V ∧
    ∀ W, objectiveMT (.dense twoCSC.dense) ![![5, -4]] (.l21 2) V - objectiveMT (.dense twoCSC.dense) ![![5, -4]] (.l21 2) W ≤
      1 * ∑ j, ‖V j - W j‖ := by
  obtain ⟨N, hN⟩ := C110_partial_mt one_pos twoCSC twoCSC_opposite ![![5, -4]] 2 two_pos 1 one_pos
  obtain ⟨V, hV⟩ := hN 1 one_pos
  exact ⟨N, V, hV, C110_certified_mt argsortIns_spec one_pos twoCSC ![![5, -4]] two_pos rfl hV⟩

/-! ## Two equal entries: no convergence -/

theorem ones_objective (r : ℕ) (y α : ℝ) (w : Fin 1 → ℝ) :
    objective1 (.dense (onesCSC r).dense) (fun _ => y) .quadratic (.l1 α) w = (y - r * w 0) ^ 2 / 2 + α * |w 0| := by
  show quadLoss (fun _ => y) (fit (onesCSC r).dense w) + ∑ j, α * |w j| = _
  unfold quadLoss
  simp [ones_fit]

theorem cycle_iter {α : ℝ} (h0 : 0 ≤ α) (h4 : α < 4) (k : ℕ) :
    (prob1 (.csc (onesCSC 2)) (fun _ => 2) .quadratic (.l1 α)).iter (fun _ => 0) k = fun _ => if k % 2 = 0 then 0 else 2 - α / 2 := by
  induction k with
  | zero => rfl
  | succ k ih =>
    show (prob1 (.csc (onesCSC 2)) (fun _ => 2) .quadratic (.l1 α)).step (RProb.iter _ _ k) 0 = _
    rw [ih, ones_update (by norm_num)]
    funext _
    rcases Nat.mod_two_eq_zero_or_one k with hk | hk
    · rw [if_pos hk, if_neg (by omega)]
      unfold softR
      norm_num
      intro h
      linarith
    · rw [if_neg (by omega), if_pos (by omega)]
      unfold softR
      rw [if_neg (by push_cast; linarith), if_neg (by push_cast; linarith)]

/-- The matrix `(2)` stored as `1 + 1`, target 2: without acceleration the result alternates between 0 and `2 - α / 2` with the total number
of epochs, whatever the settings; the minimiser is `1 - α / 4`. -/
theorem C110_cycles {srt : Argsort XR} (hs : ArgsortSpec srt) {α τ : ℝ} (h0 : 0 ≤ α) (h4 : α + τ < 4) (hτ : 0 ≤ τ) (cfg : Solver XR)
    (hu : cfg.useAcceleration = false) (hw : 0 < cfg.wsStartSize) (ht : cfg.tolerance = XR.fin τ) :
    solve1 srt cfg (.csc (onesCSC 2)) (fun _ => 2) .quadratic (.l1 α) =
      .ok [XR.fin (if cfg.maxIterations * cfg.maxEpochs % 2 = 0 then 0 else 2 - α / 2)] := by
  have hr := RProb.run_iter (R := prob1 (.csc (onesCSC 2)) (fun _ => 2) .quadratic (.l1 α)) hs cfg hu hw ht fun k => by
    rw [ones_grad, cycle_iter h0 (by linarith)]
    show τ < l1Score α _ _
    rcases Nat.mod_two_eq_zero_or_one k with hk | hk
    · rw [if_pos hk]
      unfold l1Score
      rw [if_pos rfl]
      refine lt_of_lt_of_le ?_ (le_max_right _ _)
      norm_num
      linarith
    · rw [if_neg (by omega)]
      unfold l1Score
      rw [if_neg (by linarith), if_neg (by linarith)]
      refine lt_of_lt_of_le ?_ (neg_le_abs _)
      push_cast
      linarith
  rw [solve1_eq hs one_pos _ _ _ (.l1 α) (show (Pen.l1 α).Valid from h0), hr, cycle_iter h0 (by linarith)]
  rfl

/-- One epoch in each of 50 iterations, and one epoch in one iteration. -/
example : solve1 argsortIns ⟨10, 50, 1, XR.fin (1 / 10), 5, false, false⟩ (.csc (onesCSC 2)) (fun _ => 2) .quadratic (.l1 1) = .ok [XR.fin 0] ∧
    solve1 argsortIns ⟨10, 1, 1, XR.fin (1 / 10), 5, false, false⟩ (.csc (onesCSC 2)) (fun _ => 2) .quadratic (.l1 1) = .ok [XR.fin (2 - 1 / 2)] :=
  ⟨C110_cycles argsortIns_spec (by norm_num) (by norm_num) (by norm_num) _ rfl (by norm_num) rfl,
    C110_cycles argsortIns_spec (by norm_num) (by norm_num) (by norm_num) _ rfl (by norm_num) rfl⟩

/-- **False**: two equal entries at the same position. -/
theorem C110_false : ¬ C110_full := by
  intro H
  have hv : (Pen.l1 1).Valid := by show (0 : ℝ) ≤ 1; norm_num
  obtain ⟨N, hN⟩ := H one_pos (onesCSC 2) (fun _ => 2) .quadratic trivial (.l1 1) hv trivial (by show (0 : ℝ) < 1 * |1|; norm_num) 1 one_pos
  obtain ⟨cfg, hcfg⟩ : ∃ cfg : Solver XR, cfg = ⟨1, N + 1, 50, XR.fin 1, 5, false, false⟩ := ⟨_, rfl⟩
  have ht : cfg.tolerance = XR.fin 1 := by rw [hcfg]
  have h := C110_cycles argsortIns_spec (α := 1) (τ := 1) (by norm_num) (by norm_num) (by norm_num) cfg (by rw [hcfg]) (by rw [hcfg]; norm_num) ht
  set x : ℝ := if cfg.maxIterations * cfg.maxEpochs % 2 = 0 then 0 else 2 - 1 / 2 with hx
  have h1 : solve1 argsortIns cfg (.csc (onesCSC 2)) (fun _ => 2) .quadratic (.l1 1) = .ok (vec fun _ : Fin 1 => x) := h
  have h2 := C110_certified argsortIns_spec one_pos _ _ _ hv trivial ht
    (hN argsortIns argsortIns_spec cfg ht (by rw [hcfg]; norm_num) (by rw [hcfg]; norm_num) (by rw [hcfg]; exact fun _ _ _ => Or.inl rfl)
      (by rw [hcfg]; simp) _ h1) fun _ => 3 / 4
  rw [ones_objective, ones_objective, Fin.sum_univ_one] at h2
  rcases Nat.mod_two_eq_zero_or_one (cfg.maxIterations * cfg.maxEpochs) with hk | hk
  · rw [if_pos hk] at hx
    rw [hx] at h2
    norm_num [abs_of_nonneg, abs_of_nonpos] at h2
  · rw [if_neg (by omega)] at hx
    rw [hx] at h2
    norm_num [abs_of_nonneg, abs_of_nonpos] at h2

/-! ## Three equal entries: divergence -/

theorem explode_iter (k : ℕ) :
    (prob1 (.csc (onesCSC 3)) (fun _ => 3) .quadratic (.l1 0)).iter (fun _ => 0) k = fun _ => 1 - (-2) ^ k := by
  induction k with
  | zero => funext _; show (0 : ℝ) = _; norm_num
  | succ k ih =>
    show (prob1 (.csc (onesCSC 3)) (fun _ => 3) .quadratic (.l1 0)).step (RProb.iter _ _ k) 0 = _
    rw [ih, ones_update (by norm_num)]
    funext _
    have e : ∀ v : ℝ, softR v (0 / ((3 : ℕ) : ℝ)) = v := fun v => by
      unfold softR
      rw [zero_div, sub_zero, neg_zero, add_zero]
      split_ifs with h1 h2
      · rfl
      · rfl
      · linarith
    rw [e, pow_succ]
    push_cast
    ring

/-- The matrix `(3)` stored as `1 + 1 + 1`, target 3, no penalty: after `N` epochs the coefficient is `1 - (-2)^N`, whatever the settings; the
minimiser is 1. -/
theorem C110_explodes {srt : Argsort XR} (hs : ArgsortSpec srt) {τ : ℝ} (hτ : τ < 9) (cfg : Solver XR) (hu : cfg.useAcceleration = false)
    (hw : 0 < cfg.wsStartSize) (ht : cfg.tolerance = XR.fin τ) :
    solve1 srt cfg (.csc (onesCSC 3)) (fun _ => 3) .quadratic (.l1 0) = .ok [XR.fin (1 - (-2) ^ (cfg.maxIterations * cfg.maxEpochs))] := by
  have hr := RProb.run_iter (R := prob1 (.csc (onesCSC 3)) (fun _ => 3) .quadratic (.l1 0)) hs cfg hu hw ht fun k => by
    rw [ones_grad, explode_iter]
    show τ < l1Score 0 _ _
    have e : ∀ a b : ℝ, |b| ≤ l1Score 0 a b := fun a b => by
      unfold l1Score
      split
      · exact (le_of_eq (sub_zero _).symm).trans (le_max_right _ _)
      · rw [mul_zero, sub_zero, abs_neg]
    refine lt_of_lt_of_le hτ (le_trans ?_ (e _ _))
    have e2 : ((3 : ℕ) : ℝ) * (((3 : ℕ) : ℝ) * (1 - (-2) ^ k) - 3) = 9 * -(-2) ^ k := by push_cast; ring
    rw [e2, abs_mul, abs_neg, abs_pow, abs_neg, abs_of_pos (by norm_num : (0 : ℝ) < 9), abs_of_pos (by norm_num : (0 : ℝ) < 2)]
    have := one_le_pow₀ (by norm_num : (1 : ℝ) ≤ 2) (n := k)
    linarith
  rw [solve1_eq hs one_pos _ _ _ (.l1 0) (show (Pen.l1 0).Valid from le_refl 0), hr, explode_iter]
  rfl

/-- After ten iterations of one epoch. -/
example : solve1 argsortIns ⟨10, 10, 1, XR.fin (1 / 10), 5, false, false⟩ (.csc (onesCSC 3)) (fun _ => 3) .quadratic (.l1 0) =
    .ok [XR.fin (1 - (-2) ^ 10)] :=
  C110_explodes argsortIns_spec (by norm_num : (1 / 10 : ℝ) < 9) _ rfl (by norm_num) rfl

end Sglm
