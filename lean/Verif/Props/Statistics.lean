import Verif.Proofs.Gram
import Verif.Props.Symmetry
import Verif.Props.Predictions

/-!
# C76, C77, C78: the statistics on which a fit depends; elastic net by Lasso; intercept by centring
-/

namespace Sglm
open Scalar Spec
variable {n n' p T : ℕ}

theorem run_of_scaling {E : Type} [AddCommGroup E] [Module ℝ E] [Coord E] {R R' : RProb E p} {κ β : ℝ}
    (h : RProb.Scaling R R' 1 κ β) {srt : Argsort XR} (hs : RProb.SortOK srt β) (cfg : Solver XR) :
    R'.run srt (scaleTolerance cfg β) = R.run srt cfg := by
  rw [h.run hs cfg]
  simp only [one_smul]
  cases R.run srt cfg <;> rfl

/-! ## C76 -/

/-- **Only the Gram matrix and the correlations matter** (least squares, every penalty, all settings): datasets for which
`Xᵀ X / n` and `Xᵀ y / n` agree are fitted alike, including panics.  The numbers of samples may differ. -/
theorem C76_statistics {srt : Argsort XR} (hs : ArgsortSpec srt) (hn : 0 < n) (hn' : 0 < n') (D : Design n p) (D' : Design n' p)
    (hD : D.Canonical) (hD' : D'.Canonical) (y : Fin n → ℝ) (y' : Fin n' → ℝ) (hg : ∀ j k, gramMat D' j k = gramMat D j k)
    (hc : ∀ j, corr D' y' j = corr D y j) (pen : Pen) (hv : pen.Valid) (cfg : Solver XR) :
    solve1 srt cfg D' y' .quadratic pen = solve1 srt cfg D y .quadratic pen := by
  have hp : pen.Scaled 1 1 pen := by
    cases pen with
    | l1 α => have := Pen.Scaled.l1 (a := 1) (b := 1) α; rwa [one_mul] at this
    | enet α ρ => exact .enet _ _ _ _ (by rw [one_mul]) (by rw [div_one, one_mul])
    | mcp α γ => have := Pen.Scaled.mcp (a := 1) (b := 1) α γ; rwa [one_mul, div_one, one_mul] at this
    | l05 α => have := Pen.Scaled.l05 (a := 1) (b := 1) α; rwa [Real.sqrt_one, one_mul, one_mul] at this
  have := run_of_scaling (prob1_statistics hn hn' hD hD' one_pos (fun j k => by rw [one_mul, hg]) (fun j => by rw [one_mul, hc]) hp hv)
    (Or.inl rfl) cfg (srt := srt)
  rw [scaleTolerance_one] at this
  rw [solve1_eq hs hn D y .quadratic pen hv, solve1_eq hs hn' D' y' .quadratic pen hv, this]

/-- If the statistics are multiplied by `β`, multiply the strength of the penalty and the tolerance by `β` as well. -/
theorem C76_scaled {srt : Argsort XR} (hs : ArgsortSpec srt) (hsc : SortsByComparison srt) (hn : 0 < n) (hn' : 0 < n')
    (D : Design n p) (D' : Design n' p) (hD : D.Canonical) (hD' : D'.Canonical) (y : Fin n → ℝ) (y' : Fin n' → ℝ) (β : ℝ) (hβ : 0 < β)
    (hg : ∀ j k, gramMat D' j k = β * gramMat D j k) (hc : ∀ j, corr D' y' j = β * corr D y j) (pen pen' : Pen) (hv : pen.Valid)
    (hv' : pen'.Valid) (hp : pen.Scaled 1 β pen') (cfg : Solver XR) :
    solve1 srt (scaleTolerance cfg β) D' y' .quadratic pen' = solve1 srt cfg D y .quadratic pen := by
  rw [solve1_eq hs hn D y .quadratic pen hv, solve1_eq hs hn' D' y' .quadratic pen' hv',
    run_of_scaling (prob1_statistics hn hn' hD hD' hβ hg hc hp hv) (Or.inr hsc) cfg]

/-- Several tasks. -/
theorem C76_statistics_mt {srt : Argsort XR} (hs : ArgsortSpec srt) (hn : 0 < n) (hn' : 0 < n') (D : Design n p) (D' : Design n' p)
    (hD : D.Canonical) (hD' : D'.Canonical) (Y : Fin n → Fin T → ℝ) (Y' : Fin n' → Fin T → ℝ)
    (hg : ∀ j k, gramMat D' j k = gramMat D j k) (hc : ∀ j, corrMT D' Y' j = corrMT D Y j) (pen : BPen) (hv : pen.Valid)
    (cfg : Solver XR) : solveMT srt cfg D' Y' pen = solveMT srt cfg D Y pen := by
  have := run_of_scaling (probMT_statistics hn hn' hD hD' hg hc pen) (Or.inl rfl) cfg (srt := srt)
  rw [scaleTolerance_one] at this
  rw [solveMT_eq hs hn D Y pen hv, solveMT_eq hs hn' D' Y' pen hv, this]

theorem guarded_eq_of {A Ps : Type} (c : Except (EstimatorError XR) Ps) {r r' : M A} (h : ∀ q, c = .ok q → r' = r) :
    guarded c r' = guarded c r := by
  cases c with
  | error e => rfl
  | ok q => rw [h q rfl]

/-- The estimators: whatever the settings, the outcome (coefficients, refusal or panic) is the same. -/
theorem C76_fit {srt : Argsort XR} (hs : ArgsortSpec srt) (hn : 0 < n) (hn' : 0 < n') (D : Design n p) (D' : Design n' p)
    (hD : D.Canonical) (hD' : D'.Canonical) (y : Fin n → ℝ) (y' : Fin n' → ℝ) (hg : ∀ j k, gramMat D' j k = gramMat D j k)
    (hc : ∀ j, corr D' y' j = corr D y j) (α c : ℝ) :
    (∀ ps : LassoParams XR, ps.alpha = XR.fin α → fitLasso srt ps D' y' = fitLasso srt ps D y) ∧
    (∀ ps : ElasticNetParams XR, ps.alpha = XR.fin α → ps.l1Ratio = XR.fin c →
      fitElasticNet srt ps D' y' = fitElasticNet srt ps D y) ∧
    ∀ ps : MCParams XR, ps.alpha = XR.fin α → ps.gamma = XR.fin c → fitMCP srt ps D' y' = fitMCP srt ps D y := by
  refine ⟨fun ps ha => ?_, fun ps ha hr => ?_, fun ps ha hr => ?_⟩
  · rw [fitLasso_eq srt ps α ha, fitLasso_eq srt ps α ha]
    exact guarded_eq_of _ fun q hq => C76_statistics hs hn hn' D D' hD hD' y y' hg hc _ (lasso_valid ha hq) _
  · rw [fitElasticNet_eq srt ps α c ha hr, fitElasticNet_eq srt ps α c ha hr]
    exact guarded_eq_of _ fun q hq => C76_statistics hs hn hn' D D' hD hD' y y' hg hc _ (enet_valid ha hr hq) _
  · rw [fitMCP_eq srt ps α c ha hr, fitMCP_eq srt ps α c ha hr]
    exact guarded_eq_of _ fun q hq => C76_statistics hs hn hn' D D' hD hD' y y' hg hc _ (mcp_valid ha hr hq) _

theorem corr_shift {D : Design n p} (h : CentredColumns D) (y : Fin n → ℝ) (c : ℝ) (j : Fin p) :
    corr D (fun i => y i + c) j = corr D y j := by
  unfold corr
  simp only [mul_add, Finset.sum_add_distrib]
  rw [← Finset.sum_mul, h j, zero_mul, add_zero]

/-- **Shifted targets**: for centred features a constant added to all targets does not matter. -/
theorem C76_shift {srt : Argsort XR} (hs : ArgsortSpec srt) (hn : 0 < n) (D : Design n p) (hD : D.Canonical) (h : CentredColumns D)
    (y : Fin n → ℝ) (c : ℝ) (pen : Pen) (hv : pen.Valid) (cfg : Solver XR) :
    solve1 srt cfg D (fun i => y i + c) .quadratic pen = solve1 srt cfg D y .quadratic pen :=
  C76_statistics hs hn hn D D hD hD y _ (fun _ _ => rfl) (corr_shift h y c) pen hv cfg

/-- Several tasks, each shifted by its own constant. -/
theorem C76_shift_mt {srt : Argsort XR} (hs : ArgsortSpec srt) (hn : 0 < n) (D : Design n p) (hD : D.Canonical) (h : CentredColumns D)
    (Y : Fin n → Fin T → ℝ) (c : Fin T → ℝ) (pen : BPen) (hv : pen.Valid) (cfg : Solver XR) :
    solveMT srt cfg D (fun i t => Y i t + c t) pen = solveMT srt cfg D Y pen :=
  C76_statistics_mt hs hn hn D D hD hD Y _ (fun _ _ => rfl)
    (fun j => by ext t; exact corr_shift h (fun i => Y i t) (c t) j) pen hv cfg

/-- **Rotated samples**: an orthogonal transformation of the samples (features and targets alike) does not matter. -/
theorem C76_rotate {srt : Argsort XR} (hs : ArgsortSpec srt) (hn : 0 < n) (D D' : Design n p) (hD : D.Canonical) (hD' : D'.Canonical)
    (y y' : Fin n → ℝ) (U : Euc n →ₗᵢ[ℝ] Euc n) (hX : ∀ j, WithLp.toLp 2 (fun i => D'.matrix i j) = U (WithLp.toLp 2 fun i => D.matrix i j))
    (hy : WithLp.toLp 2 y' = U (WithLp.toLp 2 y)) (pen : Pen) (hv : pen.Valid) (cfg : Solver XR) :
    solve1 srt cfg D' y' .quadratic pen = solve1 srt cfg D y .quadratic pen := by
  have key : ∀ a b : Fin n → ℝ, ∑ i, a i * b i = inner ℝ (WithLp.toLp 2 a : Euc n) (WithLp.toLp 2 b) := by
    intro a b
    rw [PiLp.inner_apply]
    exact Finset.sum_congr rfl fun i _ => by simp [mul_comm]
  refine C76_statistics hs hn hn D D' hD hD' y y' (fun j k => ?_) (fun j => ?_) pen hv cfg
  · unfold gramMat
    rw [key (fun i => D'.matrix i j) (fun i => D'.matrix i k), hX, hX, U.inner_map_map, ← key]
  · unfold corr
    rw [key (fun i => D'.matrix i j) y', hX, hy, U.inner_map_map, ← key]

/-! ## C77 -/

theorem ridge_gram (X : Fin n → Fin p → ℝ) {δ : ℝ} (hδ : 0 ≤ δ) (j k : Fin p) :
    gramMat (.dense (ridgeRows X δ)) j k = ((∑ i, X i j * X i k) + if j = k then δ else 0) / (n + p : ℕ) := by
  unfold gramMat
  congr 1
  show ∑ i, ridgeRows X δ i j * ridgeRows X δ i k = _
  rw [Fin.sum_univ_add]
  congr 1
  · refine Finset.sum_congr rfl fun i _ => ?_
    unfold ridgeRows
    rw [Fin.addCases_left]
  · have : ∀ i : Fin p, ridgeRows X δ (Fin.natAdd n i) j * ridgeRows X δ (Fin.natAdd n i) k =
        if i = j then (if j = k then δ else 0) else 0 := by
      intro i
      unfold ridgeRows
      rw [Fin.addCases_right]
      by_cases h1 : i = j
      · subst h1
        rw [if_pos rfl, if_pos rfl]
        by_cases h2 : i = k
        · rw [if_pos h2, if_pos h2, Real.mul_self_sqrt hδ]
        · rw [if_neg h2, if_neg h2, mul_zero]
      · rw [if_neg h1, if_neg h1, zero_mul]
    simp only [this]
    rw [Finset.sum_ite_eq' Finset.univ j, if_pos (Finset.mem_univ j)]

theorem ridge_corr (X : Fin n → Fin p → ℝ) (δ : ℝ) (y : Fin n → ℝ) (j : Fin p) :
    corr (.dense (ridgeRows X δ)) (ridgeTargets y) j = (∑ i, X i j * y i) / (n + p : ℕ) := by
  unfold corr
  congr 1
  show ∑ i, ridgeRows X δ i j * ridgeTargets y i = _
  rw [Fin.sum_univ_add]
  have h1 : ∀ i : Fin n, ridgeRows X δ (Fin.castAdd p i) j * ridgeTargets y (Fin.castAdd p i) = X i j * y i := by
    intro i
    unfold ridgeRows ridgeTargets
    rw [Fin.addCases_left, Fin.addCases_left]
  have h2 : ∀ i : Fin p, ridgeRows X δ (Fin.natAdd n i) j * ridgeTargets y (Fin.natAdd n i) = 0 := by
    intro i
    unfold ridgeTargets
    rw [Fin.addCases_right, mul_zero]
  simp only [h1, h2, Finset.sum_const_zero, add_zero]

/-- **The elastic net is a Lasso** on data with `p` additional samples: `√(n α (1 - ρ))` times the unit matrix, with targets `0`.
With `alpha` and the tolerance adapted to the new number of samples, the runs are the same, whatever the settings.  (Columns which are
zero are excluded: the solver skips them in the elastic net, and they are not zero in the Lasso.) -/
theorem C77_solve {srt : Argsort XR} (hs : ArgsortSpec srt) (hsc : SortsByComparison srt) (hn : 0 < n) (D : Design n p)
    (hD : D.Canonical) (hnz : ∀ j, ∃ i, D.matrix i j ≠ 0) (D' : Design (n + p) p) (hD' : D'.Canonical) (y : Fin n → ℝ) (α ρ : ℝ)
    (hα : 0 ≤ α) (hρ0 : 0 ≤ ρ) (hρ1 : ρ ≤ 1) (hX : D'.matrix = ridgeRows D.matrix (n * (α * (1 - ρ)))) (cfg : Solver XR) :
    solve1 srt (scaleTolerance cfg (n / (n + p : ℕ))) D' (ridgeTargets y) .quadratic (.l1 (n / (n + p : ℕ) * (α * ρ))) =
      solve1 srt cfg D y .quadratic (.enet α ρ) := by
  have hn0 : (0 : ℝ) < n := by exact_mod_cast hn
  have hm0 : (0 : ℝ) < (n + p : ℕ) := by exact_mod_cast Nat.lt_of_lt_of_le hn (Nat.le_add_right n p)
  have hβ : (0 : ℝ) < n / (n + p : ℕ) := div_pos hn0 hm0
  have hδ : 0 ≤ n * (α * (1 - ρ)) := mul_nonneg hn0.le (mul_nonneg hα (by linarith))
  have hG : ∀ j k, gramMat D' j k = n / (n + p : ℕ) * (gramMat D j k + if j = k then α * (1 - ρ) else 0) := by
    intro j k
    have : gramMat D' j k = gramMat (.dense (ridgeRows D.matrix (n * (α * (1 - ρ))))) j k := by
      unfold gramMat
      rw [hX]
      rfl
    rw [this, ridge_gram _ hδ]
    unfold gramMat
    split
    · field_simp
    · field_simp; ring
  have hC : ∀ j, corr D' (ridgeTargets y) j = n / (n + p : ℕ) * corr D y j := by
    intro j
    have : corr D' (ridgeTargets y) j = corr (.dense (ridgeRows D.matrix (n * (α * (1 - ρ))))) (ridgeTargets y) j := by
      unfold corr
      rw [hX]
      rfl
    rw [this, ridge_corr]
    unfold corr
    field_simp
  have hz : ∀ j, gramMat D j j ≠ 0 := by
    intro j h
    obtain ⟨i, hi⟩ := hnz j
    unfold gramMat at h
    rw [div_eq_zero_iff, or_iff_left hn0.ne', Finset.sum_eq_zero_iff_of_nonneg fun i _ => mul_self_nonneg _] at h
    exact hi (mul_self_eq_zero.mp (h i (Finset.mem_univ i)))
  rw [solve1_eq hs hn D y .quadratic (.enet α ρ) (show (Pen.enet α ρ).Valid from ⟨hα, hρ0, hρ1⟩),
    solve1_eq hs (Nat.lt_of_lt_of_le hn (Nat.le_add_right n p)) D' _ .quadratic (.l1 _)
      (show 0 ≤ n / (n + p : ℕ) * (α * ρ) from mul_nonneg hβ.le (mul_nonneg hα hρ0)),
    run_of_scaling (prob1_ridge hn (Nat.lt_of_lt_of_le hn (Nat.le_add_right n p)) hD hD' hβ hα hρ1 hG hC hz) (Or.inr hsc) cfg]

/-- Settings of the Lasso which replaces an elastic net. -/
noncomputable def asLasso (ps : ElasticNetParams XR) (β : ℝ) : LassoParams XR :=
  ⟨XR.fin β *. (ps.alpha *. ps.l1Ratio), ps.maxIterations, ps.maxEpochs, ps.wsStartSize, XR.fin β *. ps.tolerance, ps.K,
    ps.useAcceleration, ps.verbose⟩

/-- `ElasticNet::fit` and `Lasso::fit`, for all accepted settings. -/
theorem C77_fit {srt : Argsort XR} (hs : ArgsortSpec srt) (hsc : SortsByComparison srt) (hn : 0 < n) (D : Design n p)
    (hD : D.Canonical) (hnz : ∀ j, ∃ i, D.matrix i j ≠ 0) (D' : Design (n + p) p) (hD' : D'.Canonical) (y : Fin n → ℝ)
    (ps : ElasticNetParams XR) (hq : ps.checkRef = .ok ps) (α ρ : ℝ) (ha : ps.alpha = XR.fin α) (hr : ps.l1Ratio = XR.fin ρ)
    (hX : D'.matrix = ridgeRows D.matrix (n * (α * (1 - ρ)))) :
    fitLasso srt (asLasso ps (n / (n + p : ℕ))) D' (ridgeTargets y) = fitElasticNet srt ps D y := by
  obtain ⟨hα, hρ0, hρ1⟩ := enet_valid ha hr hq
  have hn0 : (0 : ℝ) < n := by exact_mod_cast hn
  have hm0 : (0 : ℝ) < (n + p : ℕ) := by exact_mod_cast Nat.lt_of_lt_of_le hn (Nat.le_add_right n p)
  have hβ : (0 : ℝ) < n / (n + p : ℕ) := div_pos hn0 hm0
  have ha' : (asLasso ps (n / (n + p : ℕ))).alpha = XR.fin (n / (n + p : ℕ) * (α * ρ)) := by
    show (XR.fin _ *. (ps.alpha *. ps.l1Ratio)) = _
    rw [ha, hr]
    rfl
  have hq' : (asLasso ps (n / (n + p : ℕ))).checkRef = .ok (asLasso ps (n / (n + p : ℕ))) := by
    unfold LassoParams.checkRef
    rw [ha', XR.s_signBit, if_neg (by
      rw [decide_eq_true_eq, not_lt]
      exact mul_nonneg hβ.le (mul_nonneg hα hρ0))]
    obtain ⟨-, h1, h2, h3⟩ := ElasticNetParams.checkRef_ok hq
    unfold ElasticNetParams.checkRef at hq
    rw [if_neg (by simp [h1]), if_neg (by rw [h2, h3]; exact Bool.false_ne_true)] at hq
    exact checkTail_scale hβ _ hq
  rw [fitLasso_eq srt _ _ ha', fitElasticNet_eq srt ps α ρ ha hr, hq, hq']
  exact congrArg (fun r => Except.ok <$> r) (C77_solve hs hsc hn D hD hnz D' hD' y α ρ hα hρ0 hρ1 hX ps.solver)

/-! ## C78 -/

theorem sum_sub_mean (hn : 0 < n) (y : Fin n → ℝ) : ∑ i, (y i - mean y) = 0 := by
  have hn' : (n : ℝ) ≠ 0 := by exact_mod_cast hn.ne'
  rw [Finset.sum_sub_distrib, Finset.sum_const, Finset.card_univ, Fintype.card_fin, nsmul_eq_mul]
  unfold mean
  rw [mul_div_cancel₀ _ hn', sub_self]

theorem centred_columns (hn : 0 < n) (D : Design n p) : CentredColumns (centred D) := fun j => sum_sub_mean hn fun i => D.matrix i j

theorem quadLoss_centre (hn : 0 < n) (D : Design n p) (y : Fin n → ℝ) (w : Fin p → ℝ) (b : ℝ) :
    quadLoss y (fun i => fit D.matrix w i + b) =
      quadLoss (centredTargets y) (fit (centred D).matrix w) + (b - interceptOf D y w) ^ 2 / 2 := by
  have hn' : (n : ℝ) ≠ 0 := by exact_mod_cast hn.ne'
  obtain ⟨d, hd⟩ : ∃ d, d = b - interceptOf D y w := ⟨_, rfl⟩
  obtain ⟨r, hr⟩ : ∃ r : Fin n → ℝ, r = fun i => centredTargets y i - fit (centred D).matrix w i := ⟨_, rfl⟩
  have h1 : ∀ i, y i - (fit D.matrix w i + b) = r i - d := by
    intro i
    have : fit (centred D).matrix w i = fit D.matrix w i - ∑ j, (mean fun i => D.matrix i j) * w j := by
      show ∑ j, (D.matrix i j - mean fun i => D.matrix i j) * w j = _
      simp only [sub_mul, Finset.sum_sub_distrib]
      rfl
    rw [hr, hd]
    unfold interceptOf centredTargets
    simp only [this]
    ring
  have h2 : ∑ i, r i = 0 := by
    have : ∑ i, fit (centred D).matrix w i = 0 := by
      unfold fit
      rw [Finset.sum_comm]
      refine Finset.sum_eq_zero fun j _ => ?_
      rw [← Finset.sum_mul, centred_columns hn D j, zero_mul]
    rw [hr]
    simp only [Finset.sum_sub_distrib]
    rw [this, sub_zero]
    exact sum_sub_mean hn y
  unfold quadLoss
  have e : ∑ i, (y i - (fit D.matrix w i + b)) ^ 2 = ∑ i, r i ^ 2 + n * d ^ 2 := by
    simp only [h1]
    have : ∀ i, (r i - d) ^ 2 = r i ^ 2 - 2 * d * r i + d ^ 2 := fun i => by ring
    simp only [this, Finset.sum_add_distrib, Finset.sum_sub_distrib]
    rw [← Finset.mul_sum, h2, Finset.sum_const, Finset.card_univ, Fintype.card_fin, nsmul_eq_mul]
    ring
  have e2 : ∑ i, (centredTargets y i - fit (centred D).matrix w i) ^ 2 = ∑ i, r i ^ 2 := by rw [hr]
  rw [e, e2, ← hd]
  field_simp

/-- **What centring does**: the objective with an intercept is that of the centred data, plus half the squared distance of the intercept
to the one which belongs to the coefficients.  For every penalty. -/
theorem C78_objective (hn : 0 < n) (D : Design n p) (y : Fin n → ℝ) (pen : Pen) (w : Fin p → ℝ) (b : ℝ) :
    objectiveIntercept D y pen w b =
      objective1 (centred D) (centredTargets y) .quadratic pen w + (b - interceptOf D y w) ^ 2 / 2 := by
  unfold objectiveIntercept objective1
  rw [quadLoss_centre hn]
  show _ = quadLoss _ _ + _ + _
  ring

/-- Several tasks. -/
theorem C78_objective_mt (hn : 0 < n) (D : Design n p) (Y : Fin n → Fin T → ℝ) (pen : BPen) (W : Fin p → Euc T) (b : Fin T → ℝ) :
    objectiveInterceptMT D Y pen W b =
      objectiveMT (centred D) (fun i t => centredTargets (fun i => Y i t) i) pen W +
        ∑ t, (b t - interceptOf D (fun i => Y i t) fun j => (W j).ofLp t) ^ 2 / 2 := by
  unfold objectiveInterceptMT objectiveMT
  rw [mtLoss_tasks, mtLoss_tasks]
  have : ∀ t, quadLoss (fun i => Y i t) (fun i => fitMT D.matrix (fun j => (W j).ofLp) i t + b t) = _ :=
    fun t => quadLoss_centre hn D (fun i => Y i t) (fun j => (W j).ofLp t) (b t)
  simp only [this, Finset.sum_add_distrib]
  exact add_right_comm _ _ _

/-- **Fitting an intercept by centring** (Lasso, elastic net): the coefficients returned for the centred data, with the intercept computed
from the means, are optimal among all coefficients *and intercepts*, up to the tolerance. -/
theorem C78_intercept {srt : Argsort XR} (hs : ArgsortSpec srt) (hn : 0 < n) (D D' : Design n p) (hD' : D'.matrix = (centred D).matrix)
    (y : Fin n → ℝ) (pen : Pen) (hv : pen.Valid) (hc : pen.Convex) (cfg : Solver XR) (τ : ℝ) (ht : cfg.tolerance = XR.fin τ)
    (v : Fin p → ℝ) (h : Stops srt cfg D' (centredTargets y) .quadratic pen v) (w : Fin p → ℝ) (b : ℝ) :
    objectiveIntercept D y pen v (interceptOf D y v) ≤ objectiveIntercept D y pen w b + τ * ∑ j, |v j - w j| := by
  have h1 := (stops_cert hs hn hv hc ht h).2 w
  have e : objective1 D' (centredTargets y) .quadratic pen = objective1 (centred D) (centredTargets y) .quadratic pen := by
    funext u; unfold objective1; rw [hD']
  rw [e] at h1
  rw [C78_objective hn, C78_objective hn, sub_self]
  have := sq_nonneg (b - interceptOf D y w)
  linarith

/-- Multi-task Lasso. -/
theorem C78_intercept_mt {srt : Argsort XR} (hs : ArgsortSpec srt) (hn : 0 < n) (D D' : Design n p) (hD' : D'.matrix = (centred D).matrix)
    (Y : Fin n → Fin T → ℝ) (α : ℝ) (hα : 0 < α) (cfg : Solver XR) (τ : ℝ) (ht : cfg.tolerance = XR.fin τ) (V : Fin p → Euc T)
    (h : StopsMT srt cfg D' (fun i t => centredTargets (fun i => Y i t) i) (.l21 α) V) (W : Fin p → Euc T) (b : Fin T → ℝ) :
    objectiveInterceptMT D Y (.l21 α) V (fun t => interceptOf D (fun i => Y i t) fun j => (V j).ofLp t) ≤
      objectiveInterceptMT D Y (.l21 α) W b + τ * ∑ j, ‖V j - W j‖ := by
  have h1 := stopsMT_cert hs hn hα ht h W
  have e : objectiveMT D' (fun i t => centredTargets (fun i => Y i t) i) (.l21 α) =
      objectiveMT (T := T) (centred D) (fun i t => centredTargets (fun i => Y i t) i) (.l21 α) := by
    funext U; unfold objectiveMT; rw [hD']
  rw [e] at h1
  rw [C78_objective_mt hn, C78_objective_mt hn]
  simp only [sub_self]
  have : 0 ≤ ∑ t, (b t - interceptOf D (fun i => Y i t) fun j => (W j).ofLp t) ^ 2 / 2 :=
    Finset.sum_nonneg fun t _ => by positivity
  norm_num
  linarith

/-- The targets need not be centred: the call with the original targets has the same outcome. -/
theorem C78_targets {srt : Argsort XR} (hs : ArgsortSpec srt) (hn : 0 < n) (D D' : Design n p) (hD' : D'.matrix = (centred D).matrix)
    (hc : D'.Canonical) (y : Fin n → ℝ) (pen : Pen) (hv : pen.Valid) (cfg : Solver XR) :
    solve1 srt cfg D' (centredTargets y) .quadratic pen = solve1 srt cfg D' y .quadratic pen :=
  C76_shift hs hn D' hc (fun j => by rw [hD']; exact centred_columns hn D j) y (-mean y) pen hv cfg

/-- Distance to the best coefficients and intercept, if the centred problem is strongly convex. -/
theorem C78_accuracy {srt : Argsort XR} (hs : ArgsortSpec srt) (hn : 0 < n) (D D' : Design n p) (hD' : D'.matrix = (centred D).matrix)
    (y : Fin n → ℝ) (pen : Pen) (hv : pen.Valid) (hc : pen.Convex) (c : ℝ) (hcurv : Curvature D' .quadratic c) (hμ : 0 < c + pen.modulus)
    (cfg : Solver XR) (τ : ℝ) (ht : cfg.tolerance = XR.fin τ) (v : Fin p → ℝ) (h : Stops srt cfg D' (centredTargets y) .quadratic pen v)
    (w : Fin p → ℝ) (b : ℝ) (hw : ∀ u b', objectiveIntercept D y pen w b ≤ objectiveIntercept D y pen u b') :
    ∑ j, (v j - w j) ^ 2 ≤ p * (τ / (c + pen.modulus)) ^ 2 ∧
      interceptOf D y v - b = ∑ j, (mean fun i => D.matrix i j) * (w j - v j) := by
  have e : objective1 D' (centredTargets y) .quadratic pen = objective1 (centred D) (centredTargets y) .quadratic pen := by
    funext u; unfold objective1; rw [hD']
  have hb : b = interceptOf D y w := by
    have := hw w (interceptOf D y w)
    rw [C78_objective hn, C78_objective hn, sub_self] at this
    have h2 := sq_nonneg (b - interceptOf D y w)
    have : (b - interceptOf D y w) ^ 2 = 0 := by linarith
    linarith [pow_eq_zero_iff (two_ne_zero) |>.mp this]
  constructor
  · have hmin : ∀ u, objective1 D' (centredTargets y) .quadratic pen w ≤ objective1 D' (centredTargets y) .quadratic pen u := by
      intro u
      have := hw u (interceptOf D y u)
      rw [C78_objective hn, C78_objective hn, sub_self, hb, sub_self] at this
      rw [e]
      linarith
    obtain ⟨v', h3, h4⟩ := C65_accuracy hs hn D' (centredTargets y) .quadratic pen hv hc c hcurv hμ w hmin cfg τ ht _ _
      h.2.choose_spec.choose_spec.1 h.2.choose_spec.choose_spec.2
    rw [h.1] at h3
    rw [vec_injective (Except.ok.inj h3)]
    exact h4
  · rw [hb]
    unfold interceptOf
    rw [sub_sub_sub_cancel_left, ← Finset.sum_sub_distrib]
    exact Finset.sum_congr rfl fun j _ => by ring

/-- In floating point: with sufficient precision the run stops, and the same holds up to `ε`. -/
theorem C78_float (hn : 0 < n) (hp : 0 < p) (D D' : Design n p) (hD' : D'.matrix = (centred D).matrix) (hD : D'.Canonical)
    (y : Fin n → ℝ) (pen : Pen) (hv : pen.Valid) (hc : pen.Convex) (hα : 0 < pen.fn 1) (τ : ℝ) (hτ : 0 < τ) :
    ∃ N : ℕ, ∀ (E : ℕ) (ε : ℝ), 0 < ε → ∃ e₀ : ℝ, 0 < e₀ ∧ ∀ (F : Type) [Scalar F] [LawfulCmp F] (e : ℝ),
      FloatLaws .quadratic F e → e ≤ e₀ →
      ∀ (x : D'.Entries F) (y' : Fin n → F) (pen' : PenOf F), D'.StoredAs e x → (∀ i, Stores e (y' i) (centredTargets y i)) →
      pen'.Stored e pen → ∀ srt : Argsort F, ArgsortSpec srt → ∀ cfg : Solver F, SettingsOK cfg p → Stores e cfg.tolerance τ →
      N ≤ cfg.maxIterations → cfg.maxEpochs ≤ E → 0 < cfg.maxEpochs → StopsPlain cfg →
      ∃ v m, RunsTo srt cfg D' x y' .quadratic pen' v m ∧ m ≤ N ∧ ∀ w b,
        objectiveIntercept D y pen v (interceptOf D y v) ≤ objectiveIntercept D y pen w b + (τ + ε) * ∑ j, |v j - w j| := by
  obtain ⟨N, h⟩ := C63_terminates hn hp D' hD (centredTargets y) .quadratic trivial pen hv hc hα τ hτ
  refine ⟨N, fun E ε hε => ?_⟩
  obtain ⟨e₀, he₀, h⟩ := h E ε hε
  refine ⟨e₀, he₀, fun F _ _ e hl hee x y' pen' hx hy' hpn srt hs cfg hcfg ht hN hE hE1 hpl => ?_⟩
  obtain ⟨v, m, h1, h2, -, -, h3⟩ := h F e hl hee x y' pen' hx hy' hpn srt hs cfg hcfg ht hN hE hE1 hpl
  refine ⟨v, m, h1, h2, fun w b => ?_⟩
  have h4 := h3 w
  have e' : objective1 D' (centredTargets y) .quadratic pen = objective1 (centred D) (centredTargets y) .quadratic pen := by
    funext u; unfold objective1; rw [hD']
  rw [e'] at h4
  rw [C78_objective hn, C78_objective hn, sub_self]
  have := sq_nonneg (b - interceptOf D y w)
  linarith

/-! ## Examples -/

/-- One sample and two samples with the same statistics: `25` and `10`. -/
def stA : Design 1 1 := .dense fun _ _ => 5
def stB : Design 2 1 := .dense ![![1], ![7]]

theorem st_gram (j k : Fin 1) : gramMat stB j k = gramMat stA j k := by
  fin_cases j; fin_cases k
  norm_num [gramMat, stA, stB, Design.matrix, Fin.sum_univ_two]

theorem st_corr (j : Fin 1) : corr stB ![6, 2] j = corr stA (fun _ => 2) j := by
  fin_cases j
  norm_num [corr, stA, stB, Design.matrix, Fin.sum_univ_two]

example (cfg : Solver XR) : solve1 argsortIns cfg stB ![6, 2] .quadratic (.mcp 1 3) = solve1 argsortIns cfg stA (fun _ => 2) .quadratic (.mcp 1 3) :=
  C76_statistics argsortIns_spec one_pos two_pos stA stB trivial trivial _ _ st_gram st_corr (.mcp 1 3) ⟨zero_le_one, by norm_num⟩ cfg

example (ps : LassoParams XR) (h : ps.alpha = XR.fin 1) : fitLasso argsortIns ps stB ![6, 2] = fitLasso argsortIns ps stA (fun _ => 2) :=
  (C76_fit argsortIns_spec one_pos two_pos stA stB trivial trivial _ _ st_gram st_corr 1 0).1 ps h

-- two tasks
example (cfg : Solver XR) : solveMT argsortIns cfg stB (fun i _ => ![6, 2] i : Fin 2 → Fin 2 → ℝ) (.mcp 1 3) =
    solveMT argsortIns cfg stA (fun (_ : Fin 1) (_ : Fin 2) => 2) (.mcp 1 3) :=
  C76_statistics_mt argsortIns_spec one_pos two_pos stA stB trivial trivial _ _ st_gram (fun j => by ext t; exact st_corr j) (.mcp 1 3)
    ⟨zero_le_one, by norm_num⟩ cfg

-- a sample of zeros: `alpha` and the tolerance are halved
example (cfg : Solver XR) : solve1 argsortIns (scaleTolerance cfg (1 / 2)) (.dense ![![5], ![0]]) ![2, 0] .quadratic (.l1 (1 / 2 * 1)) =
    solve1 argsortIns cfg stA (fun _ => 2) .quadratic (.l1 1) :=
  C76_scaled argsortIns_spec argsortIns_comparison one_pos two_pos stA (.dense ![![5], ![0]]) trivial trivial _ _ (1 / 2) (by norm_num)
    (fun j k => by fin_cases j; fin_cases k; norm_num [gramMat, stA, Design.matrix, Fin.sum_univ_two])
    (fun j => by fin_cases j; norm_num [corr, stA, Design.matrix, Fin.sum_univ_two]) (.l1 1) (.l1 (1 / 2 * 1))
    (by norm_num [Pen.Valid]) (by norm_num [Pen.Valid]) (.l1 1) cfg

example (cfg : Solver XR) (y : Fin 2 → ℝ) : solve1 argsortIns cfg (.dense ![![3], ![-3]]) (fun i => y i + 100) .quadratic (.enet 1 (1 / 2)) =
    solve1 argsortIns cfg (.dense ![![3], ![-3]]) y .quadratic (.enet 1 (1 / 2)) :=
  C76_shift argsortIns_spec two_pos (.dense ![![3], ![-3]]) trivial
    (fun j => by fin_cases j; norm_num [Design.matrix, Fin.sum_univ_two]) y 100 (.enet 1 (1 / 2))
    ⟨by norm_num, by norm_num, by norm_num⟩ cfg

example (cfg : Solver XR) (Y : Fin 2 → Fin 2 → ℝ) : solveMT argsortIns cfg (.dense ![![3], ![-3]]) (fun i t => Y i t + ![100, 5] t) (.l21 1) =
    solveMT argsortIns cfg (.dense ![![3], ![-3]]) Y (.l21 1) :=
  C76_shift_mt argsortIns_spec two_pos (.dense ![![3], ![-3]]) trivial
    (fun j => by fin_cases j; norm_num [Design.matrix, Fin.sum_univ_two]) Y ![100, 5] (.l21 1) one_pos cfg

-- the samples are swapped
example (cfg : Solver XR) : solve1 argsortIns cfg (.dense fun i j => ![![1, 2], ![3, 1]] (Equiv.swap 0 1 i) j)
      (fun i => ![1, -2] (Equiv.swap 0 1 i)) .quadratic (.l1 1) =
    solve1 argsortIns cfg cvD ![1, -2] .quadratic (.l1 1) := by
  refine C76_rotate argsortIns_spec two_pos cvD (.dense fun i j => ![![1, 2], ![3, 1]] (Equiv.swap 0 1 i) j) trivial trivial
    ![1, -2] _ (LinearIsometryEquiv.piLpCongrLeft 2 ℝ ℝ (Equiv.swap (0 : Fin 2) 1)).toLinearIsometry (fun j => ?_) ?_ _ (by norm_num [Pen.Valid]) cfg
  · ext i
    fin_cases i <;> fin_cases j <;> simp [cvD, Design.matrix]
  · ext i
    fin_cases i <;> simp

example (cfg : Solver XR) : solve1 argsortIns (scaleTolerance cfg (((2 : ℕ) : ℝ) / ((2 + 2 : ℕ) : ℝ)))
      (.dense (ridgeRows cvD.matrix (((2 : ℕ) : ℝ) * (1 * (1 - 1 / 2))))) (ridgeTargets ![1, -2]) .quadratic
      (.l1 (((2 : ℕ) : ℝ) / ((2 + 2 : ℕ) : ℝ) * (1 * (1 / 2)))) =
    solve1 argsortIns cfg cvD ![1, -2] .quadratic (.enet 1 (1 / 2)) :=
  C77_solve argsortIns_spec argsortIns_comparison two_pos cvD trivial
    (fun j => ⟨0, by fin_cases j <;> norm_num [cvD, Design.matrix]⟩) (.dense (ridgeRows cvD.matrix _)) trivial ![1, -2] 1 (1 / 2)
    zero_le_one (by norm_num) (by norm_num) rfl cfg

example : ∃ ps : ElasticNetParams XR, ps.checkRef = .ok ps ∧
    fitLasso argsortIns (asLasso ps (((2 : ℕ) : ℝ) / ((2 + 2 : ℕ) : ℝ)))
      (.dense (ridgeRows cvD.matrix (((2 : ℕ) : ℝ) * (1 * (1 - 1 / 2))))) (ridgeTargets ![1, -2]) =
    fitElasticNet argsortIns ps cvD ![1, -2] := by
  have hq : (⟨XR.fin 1, XR.fin (1 / 2), 50, 1000, 10, XR.fin (1 / 100), 5, true, true⟩ : ElasticNetParams XR).checkRef =
      .ok ⟨XR.fin 1, XR.fin (1 / 2), 50, 1000, 10, XR.fin (1 / 100), 5, true, true⟩ := by
    have e0 : (signBit (XR.fin (1 / 100)) : Bool) = false := by
      show decide ((1 / 100 : ℝ) < 0) = false
      simp
    have e1 : (signBit (XR.fin 1) : Bool) = false := by
      show decide ((1 : ℝ) < 0) = false
      simp
    unfold ElasticNetParams.checkRef checkTail
    simp only [e0, e1]
    norm_num
  exact ⟨_, hq, C77_fit argsortIns_spec argsortIns_comparison two_pos cvD trivial
    (fun j => ⟨0, by fin_cases j <;> norm_num [cvD, Design.matrix]⟩) (.dense (ridgeRows cvD.matrix _)) trivial ![1, -2] _ hq 1 (1 / 2)
    rfl rfl rfl⟩

-- Lasso with intercept
example : ∃ (N : ℕ) (v : Fin 2 → ℝ),
    solve1 argsortIns ⟨1, N, 50, XR.fin (1 / 100), 5, false, true⟩ (centred cvD) ![1, -2] .quadratic (.l1 (1 / 10)) = .ok (vec v) ∧
    ∀ w b, objectiveIntercept cvD ![1, -2] (.l1 (1 / 10)) v (interceptOf cvD ![1, -2] v) ≤
      objectiveIntercept cvD ![1, -2] (.l1 (1 / 10)) w b + 1 / 100 * ∑ j, |v j - w j| := by
  have hv : (Pen.l1 (1 / 10)).Valid := by norm_num [Pen.Valid]
  obtain ⟨N, h⟩ := stops_exists two_pos (centred cvD) trivial (centredTargets ![1, -2]) .quadratic trivial (.l1 (1 / 10)) hv
    trivial (by norm_num [Pen.fn]) (1 / 100) (by norm_num)
  obtain ⟨v, h⟩ := h 1 one_pos
  refine ⟨N, v, ?_, fun w b => C78_intercept argsortIns_spec two_pos cvD (centred cvD) rfl _ _ hv trivial _ (1 / 100) rfl v h w b⟩
  rw [← C78_targets argsortIns_spec two_pos cvD (centred cvD) rfl trivial ![1, -2] (.l1 (1 / 10)) hv]
  exact h.1

-- elastic net with intercept
example (w : Fin 2 → ℝ) (b : ℝ) (hw : ∀ u b', objectiveIntercept cvD ![1, -2] (.enet 1 (1 / 2)) w b ≤
      objectiveIntercept cvD ![1, -2] (.enet 1 (1 / 2)) u b') : ∃ (N : ℕ) (v : Fin 2 → ℝ),
    Stops argsortIns ⟨1, N, 50, XR.fin (1 / 100), 5, false, true⟩ (centred cvD) (centredTargets ![1, -2]) .quadratic (.enet 1 (1 / 2)) v ∧
    ∑ j, (v j - w j) ^ 2 ≤ 2 * (1 / 50) ^ 2 := by
  have hv : (Pen.enet 1 (1 / 2)).Valid := ⟨by norm_num, by norm_num, by norm_num⟩
  obtain ⟨N, h⟩ := stops_exists two_pos (centred cvD) trivial (centredTargets ![1, -2]) .quadratic trivial (.enet 1 (1 / 2)) hv
    trivial (by norm_num [Pen.fn, enet]) (1 / 100) (by norm_num)
  obtain ⟨v, h⟩ := h 1 one_pos
  exact ⟨N, v, h, (C78_accuracy argsortIns_spec two_pos cvD (centred cvD) rfl ![1, -2] _ hv trivial 0 (curvature_zero _ _)
    (by norm_num [Pen.modulus]) _ (1 / 100) rfl v h w b hw).1.trans (by norm_num [Pen.modulus])⟩

-- two tasks with intercepts
example : ∃ (N : ℕ) (V : Fin 2 → Euc 2),
    StopsMT argsortIns ⟨1, N, 50, XR.fin (1 / 100), 5, false, true⟩ (centred cvD)
      (fun i t => centredTargets (fun i => ![![1, 2], ![0, -1]] i t) i) (.l21 (1 / 10)) V ∧
    ∀ W b, objectiveInterceptMT cvD ![![1, 2], ![0, -1]] (.l21 (1 / 10)) V
        (fun t => interceptOf cvD (fun i => ![![1, 2], ![0, -1]] i t) fun j => (V j).ofLp t) ≤
      objectiveInterceptMT cvD ![![1, 2], ![0, -1]] (.l21 (1 / 10)) W b + 1 / 100 * ∑ j, ‖V j - W j‖ := by
  obtain ⟨N, h⟩ := stopsMT_exists two_pos (centred cvD) trivial (fun i t => centredTargets (fun i => ![![1, 2], ![0, -1]] i t) i)
    (1 / 10) (by norm_num) (1 / 100) (by norm_num)
  obtain ⟨V, h⟩ := h 1 one_pos
  exact ⟨N, V, h, fun W b => C78_intercept_mt argsortIns_spec two_pos cvD (centred cvD) rfl _ (1 / 10) (by norm_num) _ (1 / 100) rfl V h W b⟩

-- floating point
example : ∃ (t N : ℕ) (v : Fin 2 → ℝ) (m : ℕ),
    RunsTo argsortIns (binCfg t N (1 / 200)) (centred cvD) (fun i j => Fl.of t ((centred cvD).matrix i j))
      (fun i => Fl.of t (centredTargets ![1, -2] i)) .quadratic (.l1 (Fl.of t (1 / 10))) v m ∧
    ∀ w b, objectiveIntercept cvD ![1, -2] (.l1 (1 / 10)) v (interceptOf cvD ![1, -2] v) ≤
      objectiveIntercept cvD ![1, -2] (.l1 (1 / 10)) w b + (1 / 200 + 1 / 1000) * ∑ j, |v j - w j| := by
  obtain ⟨N, h⟩ := C78_float two_pos two_pos cvD (centred cvD) rfl trivial ![1, -2] (.l1 (1 / 10)) (by norm_num [Pen.Valid]) trivial
    (by norm_num [Pen.fn]) (1 / 200) (by norm_num)
  obtain ⟨e₀, he₀, h⟩ := h 10 (1 / 1000) (by norm_num)
  obtain ⟨t, ht⟩ := bin_exists he₀
  obtain ⟨v, m, h1, -, h2⟩ := h _ _ (bin_laws t .quadratic) ht (fun i j => Fl.of t ((centred cvD).matrix i j))
    (fun i => Fl.of t (centredTargets ![1, -2] i)) (.l1 (Fl.of t (1 / 10))) (fun i j => bin_stores t _) (fun i => bin_stores t _)
    (bin_stores t _) argsortIns (argsortFl t) (binCfg t N (1 / 200)) (binCfg_ok _ _ _) (bin_stores t _) le_rfl le_rfl
    (by norm_num [binCfg]) (binCfg_plain _ _ _)
  exact ⟨t, N, v, m, h1, h2⟩

end Sglm
