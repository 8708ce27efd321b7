import Verif.Props.NullModel
import Verif.Props.Selected
import Verif.Props.Examples

/-!
# C118: nothing is left in the residuals

A second fit to the residuals of a finished fit, with at least the same strength and tolerance, returns zeros; the strength from which on
this is so (`compute_alpha_max` of the residuals) is the strength of the first fit, up to its tolerance.
-/

namespace Sglm
open Scalar Spec
variable {n p T : ℕ}

theorem strength_slope {α : ℝ} {pen : Pen} (hpen : HasStrength α pen) : pen.slope = α := by
  rcases hpen with rfl | ⟨γ, -, rfl⟩ <;> rfl

theorem strength_valid {α : ℝ} (hα : 0 ≤ α) {pen : Pen} (hpen : HasStrength α pen) : pen.Valid := by
  rcases hpen with rfl | ⟨γ, hγ, rfl⟩
  · exact hα
  · exact ⟨hα, hγ⟩

theorem resid_corr_le {srt : Argsort XR} (hs : ArgsortSpec srt) (hn : 0 < n) {D : Design n p} {y : Fin n → ℝ} {α : ℝ} (hα : 0 ≤ α)
    {pen : Pen} (hpen : HasStrength α pen) {cfg : Solver XR} {τ : ℝ} (ht : cfg.tolerance = XR.fin τ) {v : Fin p → ℝ}
    (h : Stops srt cfg D y .quadratic pen v) (j : Fin p) : |corr D (resid D y v) j| ≤ α + τ := by
  have a := strength_grad hs hn hα hpen ht h j
  have e : corr D (resid D y v) j = -quadGrad D.matrix y (fit D.matrix v) j := corr_grad D y v j
  rw [e, abs_neg]
  exact a

/-- **Refitting**: a fit to the residuals of a finished Lasso or MCP fit, by whatever settings with at least its strength and tolerance,
returns exact zeros. -/
theorem C118_refit {srt : Argsort XR} (hs : ArgsortSpec srt) (hn : 0 < n) (D : Design n p) (hD : D.Canonical) (y : Fin n → ℝ) (α α' : ℝ)
    (hα : 0 ≤ α) (hαα : α ≤ α') (pen pen' : Pen) (hpen : HasStrength α pen) (hpen' : HasStrength α' pen') (cfg cfg' : Solver XR)
    (τ τ' : ℝ) (hτ : 0 ≤ τ) (hττ : τ ≤ τ') (ht : cfg.tolerance = XR.fin τ) (ht' : cfg'.tolerance = XR.fin τ') (hw : 0 < cfg'.wsStartSize)
    (he : 0 < cfg'.maxEpochs) (hi : 0 < cfg'.maxIterations)
    (hconc : ∀ j, lipschitz D .quadratic j ≠ 0 → pen'.concavity < lipschitz D .quadratic j) (v : Fin p → ℝ)
    (h : Stops srt cfg D y .quadratic pen v) (v' : Fin p → ℝ)
    (h' : solve1 srt cfg' D (fun i => y i - fit D.matrix v i) .quadratic pen' = .ok (vec v')) : ∀ j, v' j = 0 := by
  refine (C91_null hn D hD _ .quadratic trivial pen' (strength_valid (hα.trans hαα) hpen') (fun a e => ?_) hconc hs cfg' τ' (hτ.trans hττ)
    ht' hw he hi v' h').mpr fun j => ?_
  · rcases hpen' with rfl | ⟨γ, -, rfl⟩ <;> cases e
  · rw [strength_slope hpen']
    show 1 * |corr D (resid D y v) j| ≤ α' + τ'
    linarith [resid_corr_le hs hn hα hpen ht h j]

/-- **`compute_alpha_max` of the residuals** is at most `α + tol`, and at least `α - tol` if a Lasso fit is not null. -/
theorem C118_alpha_max {srt : Argsort XR} (hs : ArgsortSpec srt) (hn : 0 < n) (D : Design n p) (y : Fin n → ℝ) (α : ℝ)
    (hα : 0 ≤ α) (cfg : Solver XR) (τ : ℝ) (hτ : 0 ≤ τ) (ht : cfg.tolerance = XR.fin τ)
    (v : Fin p → ℝ) (h : Stops srt cfg D y .quadratic (.l1 α) v) :
    ∃ a, computeAlphaMax (mat D.matrix) (vec fun i => y i - fit D.matrix v i) = .ok (XR.fin a) ∧ a ≤ α + τ ∧
      ((∃ j, v j ≠ 0) → α - τ ≤ a) := by
  have hn' : (0 : ℝ) < n := by exact_mod_cast hn
  have e : ∀ j, |∑ i, D.matrix i j * (y i - fit D.matrix v i)| = |corr D (resid D y v) j| * n := fun j => by
    show _ = |(∑ i, D.matrix i j * (y i - fit D.matrix v i)) / (n : ℝ)| * n
    rw [abs_div, Nat.abs_cast, div_mul_cancel₀ _ hn'.ne']
  refine ⟨_, alphaMax_eq hn D.matrix _, ?_, ?_⟩
  · rw [div_le_iff₀ hn', absMax_le _ (by positivity)]
    intro j
    rw [e]
    exact mul_le_mul_of_nonneg_right (resid_corr_le hs hn hα (Or.inl rfl) ht h j) hn'.le
  · rintro ⟨j, hj⟩
    have a := selected_grad hn hα (stops_cert (pen := .l1 α) hs hn hα trivial ht h).2 hj
    have b : |gradOf D.matrix y .quadratic (fit D.matrix v) j| = |corr D (resid D y v) j| := by
      have e : corr D (resid D y v) j = -quadGrad D.matrix y (fit D.matrix v) j := corr_grad D y v j
      rw [e, abs_neg]
      rfl
    rw [b] at a
    rw [le_div_iff₀ hn']
    refine (mul_le_mul_of_nonneg_right a hn'.le).trans ?_
    rw [← e]
    exact (absMax_le (fun j => ∑ i, D.matrix i j * (y i - fit D.matrix v i)) (absMax_nonneg _)).mp le_rfl j

/-- **`Lasso::fit` twice with the same parameters**: the second call, on the residuals of the first, returns zeros. -/
theorem C118_lasso {srt : Argsort XR} (hs : ArgsortSpec srt) (hn : 0 < n) (D : Design n p) (hD : D.Canonical) (y : Fin n → ℝ) (α τ : ℝ)
    (hα : 0 ≤ α) (hτ : 0 ≤ τ) (ps : LassoParams XR) (hps : ps.checkRef = .ok ps) (ha : ps.alpha = XR.fin α)
    (ht : ps.tolerance = XR.fin τ) (he : 0 < ps.maxEpochs) (hi : 0 < ps.maxIterations) (v v' : Fin p → ℝ)
    (h : Stops srt ps.solver D y .quadratic (.l1 α) v)
    (h' : fitLasso srt ps D (fun i => y i - fit D.matrix v i) = .ok (.ok (vec v'))) :
    fitLasso srt ps D y = .ok (.ok (vec v)) ∧ ∀ j, v' j = 0 := by
  have h2 := checkTail_pos (τ := ps.tolerance) (a := ps) (b := ps) (K := ps.K) (ws := ps.wsStartSize) (by
    have h := hps
    unfold LassoParams.checkRef at h
    split at h
    · cases h
    · exact h)
  rw [fitLasso_eq srt ps α ha] at h'
  refine ⟨?_, C118_refit hs hn D hD y α α hα le_rfl _ _ (Or.inl rfl) (Or.inl rfl) ps.solver ps.solver τ τ hτ le_rfl ht ht h2.2 he hi
    (fun j hj => lt_of_le_of_ne (lip_nonneg D hD .quadratic j) (Ne.symm hj)) v h v' (guarded_ok_eq h')⟩
  rw [fitLasso_eq srt ps α ha, hps, guarded_ok, h.1]
  rfl

/-- **Multi-task Lasso.** -/
theorem C118_refit_mt {srt : Argsort XR} (hs : ArgsortSpec srt) (hn : 0 < n) (D : Design n p) (hD : D.Canonical) (Y : Fin n → Fin T → ℝ)
    (α α' : ℝ) (hα : 0 < α) (hαα : α ≤ α') (cfg cfg' : Solver XR) (τ τ' : ℝ) (hτ : 0 ≤ τ) (hττ : τ ≤ τ')
    (ht : cfg.tolerance = XR.fin τ) (ht' : cfg'.tolerance = XR.fin τ') (hw : 0 < cfg'.wsStartSize)
    (he : 0 < cfg'.maxEpochs) (hi : 0 < cfg'.maxIterations) (V : Fin p → Euc T) (h : StopsMT srt cfg D Y (.l21 α) V) (V' : Fin p → Euc T)
    (h' : solveMT srt cfg' D (fun i t => Y i t - fitMT D.matrix (fun j => (V j).ofLp) i t) (.l21 α') = .ok (emat V')) : ∀ j, V' j = 0 := by
  refine (C91_multitask hn D hD _ (.l21 α') (show 0 < α' by linarith) (fun _ _ => by simp)
    (fun j hj => lt_of_le_of_ne (lip_nonneg D hD .quadratic j) (Ne.symm hj)) hs cfg' τ' (hτ.trans hττ) ht' hw he hi V' h').1.mpr fun j => ?_
  have a : ‖residCorrMT D Y V j‖ ≤ α + τ := by
    rw [corrMT_grad]
    exact (corrMT_of_score hα.le (stopsMT_scores hs hn (show (BPen.l21 α).Valid from hα) ht h j)).1
  show ‖residCorrMT D Y V j‖ ≤ α' + τ'
  linarith

/-! ## Example -/

-- a fit which is not null, and the fit to its residuals
example : ∃ (N : ℕ) (v v' : Fin 2 → ℝ), Stops argsortIns ⟨1, N, 50, XR.fin (1 / 100), 5, false, true⟩ idD ![4, 3] .quadratic (.l1 1) v ∧
    solve1 argsortIns ⟨2, 7, 50, XR.fin (1 / 100), 5, false, false⟩ idD (fun i => (![4, 3] : Fin 2 → ℝ) i - fit idD.matrix v i) .quadratic
      (.l1 1) = .ok (vec v') ∧ ∀ j, v' j = 0 := by
  obtain ⟨N, h⟩ := stops_exists (n := 2) two_pos idD trivial ![4, 3] .quadratic trivial (.l1 1) (by norm_num [Pen.Valid]) trivial
    (by norm_num [Pen.fn]) (1 / 100) (by norm_num)
  obtain ⟨v, hv⟩ := h 1 one_pos
  obtain ⟨v', m, h'⟩ := (prob1 idD (fun i => (![4, 3] : Fin 2 → ℝ) i - fit idD.matrix v i) .quadratic (.l1 1)).run_ok argsortIns_spec
    ⟨2, 7, 50, XR.fin (1 / 100), 5, false, false⟩ (fun hu => by cases hu)
  have h1 : solve1 argsortIns ⟨2, 7, 50, XR.fin (1 / 100), 5, false, false⟩ idD (fun i => (![4, 3] : Fin 2 → ℝ) i - fit idD.matrix v i)
      .quadratic (.l1 1) = .ok (vec v') := by
    rw [solve1_eq argsortIns_spec two_pos idD _ .quadratic (.l1 1) (by norm_num [Pen.Valid]), h']
    rfl
  exact ⟨N, v, v', hv, h1, C118_refit argsortIns_spec two_pos idD trivial ![4, 3] 1 1 zero_le_one le_rfl _ _ (Or.inl rfl) (Or.inl rfl) _ _
    (1 / 100) (1 / 100) (by norm_num) le_rfl rfl rfl two_pos (by norm_num) (by norm_num)
    (fun j hj => lt_of_le_of_ne (lip_nonneg idD trivial .quadratic j) (Ne.symm hj)) v hv v' h1⟩

example : ∃ (N : ℕ) (v : Fin 2 → ℝ), Stops argsortIns ⟨1, N, 50, XR.fin (1 / 100), 5, false, true⟩ idD ![4, 3] .quadratic (.l1 1) v ∧
    ∃ a, computeAlphaMax (mat idD.matrix) (vec fun i => (![4, 3] : Fin 2 → ℝ) i - fit idD.matrix v i) = .ok (XR.fin a) ∧ a ≤ 1 + 1 / 100 ∧
      ((∃ j, v j ≠ 0) → 1 - 1 / 100 ≤ a) := by
  obtain ⟨N, h⟩ := stops_exists (n := 2) two_pos idD trivial ![4, 3] .quadratic trivial (.l1 1) (by norm_num [Pen.Valid]) trivial
    (by norm_num [Pen.fn]) (1 / 100) (by norm_num)
  obtain ⟨v, hv⟩ := h 1 one_pos
  exact ⟨N, v, hv, C118_alpha_max argsortIns_spec two_pos idD ![4, 3] 1 zero_le_one _ (1 / 100) (by norm_num) rfl v hv⟩

-- the estimator, called twice
example : ∃ (N : ℕ) (v v' : Fin 2 → ℝ),
    fitLasso argsortIns ⟨XR.fin 1, N, 50, 1, XR.fin (1 / 100), 5, false, true⟩ idD ![4, 3] = .ok (.ok (vec v)) ∧
    fitLasso argsortIns ⟨XR.fin 1, N, 50, 1, XR.fin (1 / 100), 5, false, true⟩ idD
      (fun i => (![4, 3] : Fin 2 → ℝ) i - fit idD.matrix v i) = .ok (.ok (vec v')) ∧ ∀ j, v' j = 0 := by
  obtain ⟨N, h⟩ := stops_exists (n := 2) two_pos idD trivial ![4, 3] .quadratic trivial (.l1 1) (by norm_num [Pen.Valid]) trivial
    (by norm_num [Pen.fn]) (1 / 100) (by norm_num)
  obtain ⟨v, hv⟩ := h 1 one_pos
  have hN : 0 < N := by
    obtain ⟨-, st, log, -, h3⟩ := hv
    exact lt_of_le_of_lt (Nat.zero_le _) h3
  obtain ⟨v', m, h'⟩ := (prob1 idD (fun i => (![4, 3] : Fin 2 → ℝ) i - fit idD.matrix v i) .quadratic (.l1 1)).run_ok argsortIns_spec
    ⟨1, N, 50, XR.fin (1 / 100), 5, false, true⟩ (fun hu => by cases hu)
  have hc : (⟨XR.fin 1, N, 50, 1, XR.fin (1 / 100), 5, false, true⟩ : LassoParams XR).checkRef = .ok _ :=
    checkRef_ok (α := 1) (τ := 1 / 100) _ rfl zero_le_one rfl (by norm_num) (by norm_num) (by norm_num)
  have h1 : fitLasso argsortIns ⟨XR.fin 1, N, 50, 1, XR.fin (1 / 100), 5, false, true⟩ idD
      (fun i => (![4, 3] : Fin 2 → ℝ) i - fit idD.matrix v i) = .ok (.ok (vec v')) := by
    have h2 : solve1 argsortIns ⟨1, N, 50, XR.fin (1 / 100), 5, false, true⟩ idD (fun i => (![4, 3] : Fin 2 → ℝ) i - fit idD.matrix v i)
        .quadratic (.l1 1) = .ok (vec v') := by
      rw [solve1_eq argsortIns_spec two_pos idD _ .quadratic (.l1 1) (by norm_num [Pen.Valid]), h']
      rfl
    rw [fitLasso_eq argsortIns _ 1 rfl, hc, guarded_ok]
    exact congrArg (fun x => Except.ok <$> x) h2
  obtain ⟨a, b⟩ := C118_lasso argsortIns_spec two_pos idD trivial ![4, 3] 1 (1 / 100) zero_le_one (by norm_num) _ hc rfl rfl (by norm_num) hN
    v v' hv h1
  exact ⟨N, v, v', a, h1, b⟩

-- two tasks
example : ∃ (N : ℕ) (V V' : Fin 2 → Euc 2), StopsMT argsortIns ⟨1, N, 50, XR.fin (1 / 100), 5, false, true⟩ idD ![![4, 0], ![0, 1]] (.l21 1) V ∧
    solveMT argsortIns ⟨2, 7, 50, XR.fin (1 / 100), 5, false, false⟩ idD
      (fun i t => (![![4, 0], ![0, 1]] : Fin 2 → Fin 2 → ℝ) i t - fitMT idD.matrix (fun j => (V j).ofLp) i t) (.l21 1) = .ok (emat V') ∧
      ∀ j, V' j = 0 := by
  obtain ⟨N, h⟩ := stopsMT_exists two_pos idD trivial ![![4, 0], ![0, 1]] 1 one_pos (1 / 100) (by norm_num)
  obtain ⟨V, hV⟩ := h 1 one_pos
  obtain ⟨V', m, h'⟩ := (probMT idD (fun i t => (![![4, 0], ![0, 1]] : Fin 2 → Fin 2 → ℝ) i t - fitMT idD.matrix (fun j => (V j).ofLp) i t)
    (.l21 1)).run_ok argsortIns_spec ⟨2, 7, 50, XR.fin (1 / 100), 5, false, false⟩ (fun hu => by cases hu)
  have h1 : solveMT argsortIns ⟨2, 7, 50, XR.fin (1 / 100), 5, false, false⟩ idD
      (fun i t => (![![4, 0], ![0, 1]] : Fin 2 → Fin 2 → ℝ) i t - fitMT idD.matrix (fun j => (V j).ofLp) i t) (.l21 1) = .ok (emat V') := by
    rw [solveMT_eq argsortIns_spec two_pos idD _ (.l21 1) (show (0 : ℝ) < 1 from one_pos), h']
    rfl
  exact ⟨N, V, V', hV, h1, C118_refit_mt argsortIns_spec two_pos idD trivial _ 1 1 one_pos le_rfl _ _
    (1 / 100) (1 / 100) (by norm_num) le_rfl rfl rfl two_pos (by norm_num) (by norm_num) V hV V' h1⟩

end Sglm
