import Verif.Proofs.ConstraintEx
import Verif.Props.Custom

/-!
# C103: constraints supplied by the user as penalties with infinite values

Exact arithmetic.  Penalties which are `+∞` outside an interval (sign constraints, boxes) are used with the solver like all others: the
iterates stay feasible, calls which stop early are optimal among feasible coefficients, and enough iterations suffice.
-/

namespace Sglm
open Scalar Spec
variable {n p : ℕ} {DM DF P : Type} [DesignMatrix XR DM] [Datafit XR DM DF] [Penalty XR P]
  {ds : Dataset DM XR} {df : DF} {pen : P} {f : (Fin n → ℝ) → ℝ} {X : Fin n → Fin p → ℝ} {L : Fin p → ℝ} {φ : ℝ → ℝ} {D : Set ℝ}

/-- **The call returns** finite coefficients (without acceleration, or with `0 < K ≤ ws_start_size` and at least `K` features). -/
theorem C103_returns (hX : StorageOK ds.designMatrix X) (hf : LossOK f X L) (hd : DatafitOK ds df f X L) (hp : ConstrainedOK pen φ D L)
    {srt : Argsort XR} (hs : ArgsortSpec srt) (cfg : Solver XR)
    (hacc : cfg.useAcceleration = true → 0 < cfg.K ∧ cfg.K ≤ cfg.wsStartSize ∧ cfg.K ≤ p) :
    ∃ v : Fin p → ℝ, cfg.solve srt ds df pen = .ok (vec v) := by
  obtain ⟨R, -, -, -, -, -, -, hrun⟩ := constrained_run hX hf hd hp
  obtain ⟨v, k, h⟩ := R.run_ok hs cfg (fun hu => by
    obtain ⟨h1, h2, h3⟩ := hacc hu
    exact ⟨h1, by show cfg.K ≤ cfg.wsStartSize * 1; omega, by show cfg.K ≤ p * 1; omega⟩)
  exact ⟨v, by rw [custom_solve (hrun hs cfg), h]; rfl⟩

/-- **The result satisfies the constraint and is not worse than zero coefficients**, however few iterations were made. -/
theorem C103_feasible (hX : StorageOK ds.designMatrix X) (hf : LossOK f X L) (hd : DatafitOK ds df f X L) (hp : ConstrainedOK pen φ D L)
    {srt : Argsort XR} (hs : ArgsortSpec srt) (cfg : Solver XR) (v : Fin p → ℝ) (hv : cfg.solve srt ds df pen = .ok (vec v)) :
    Feasible D v ∧ customObjective f X φ v ≤ customObjective f X φ 0 := by
  obtain ⟨R, hF, -, -, -, -, H, hrun⟩ := constrained_run hX hf hd hp
  obtain ⟨k, hk⟩ := custom_of_solve (hrun hs cfg) hv
  obtain ⟨h1, h2⟩ := H.run_inv hs cfg v k hk
  rw [hF _ h1, hF _ fun _ => hp.zero] at h2
  exact ⟨h1, h2⟩

/-- **Calls which stop early are stationary** up to the tolerance. -/
theorem C103_stationary (hX : StorageOK ds.designMatrix X) (hf : LossOK f X L) (hd : DatafitOK ds df f X L) (hp : ConstrainedOK pen φ D L)
    {srt : Argsort XR} (hs : ArgsortSpec srt) (cfg : Solver XR) (τ : ℝ) (ht : cfg.tolerance = XR.fin τ) (v : Fin p → ℝ)
    (hv : CustomStops srt cfg ds df pen v) (j : Fin p) : constrainedViolation f X φ D v j ≤ τ := by
  obtain ⟨R, -, hG, -, hsc, -, -, hrun⟩ := constrained_run hX hf hd hp
  obtain ⟨h1, st, df', log, h2, h3⟩ := hv
  obtain ⟨k, hk⟩ := custom_of_solve (hrun hs cfg) h1
  obtain ⟨st', df'', log', h4, h5⟩ := custom_trace (fun cfg => hrun hs cfg) hk
  rw [h2] at h4
  injection h4 with h4
  injection h4 with _ h4
  injection h4 with _ h4
  rw [← h4] at h5
  have h6 := R.run_exit cfg hk (by omega)
  rw [ht] at h6
  have h7 := R.viol_le h6 j
  rw [hsc, hG] at h7
  exact h7

/-- **Calls which stop early are optimal** up to the tolerance, among all coefficients which satisfy the constraint. -/
theorem C103_certificate (hX : StorageOK ds.designMatrix X) (hf : LossOK f X L) (hd : DatafitOK ds df f X L) (hp : ConstrainedOK pen φ D L)
    {srt : Argsort XR} (hs : ArgsortSpec srt) (cfg : Solver XR) (τ : ℝ) (ht : cfg.tolerance = XR.fin τ)
    (v : Fin p → ℝ) (hv : CustomStops srt cfg ds df pen v) (w : Fin p → ℝ) (hw : Feasible D w) :
    customObjective f X φ v ≤ customObjective f X φ w + τ * ∑ j, |v j - w j| := by
  have h1 := C103_stationary hX hf hd hp hs cfg τ ht v hv
  have hvD := (C103_feasible hX hf hd hp hs cfg v hv.1).1
  have h2 := tangent_le hf.convex hf.diff (fit X v) (fit X w)
  rw [fit_sub_columns, map_sum] at h2
  have h3 : ∑ j, φ (v j) ≤ ∑ j, (φ (w j) + fderiv ℝ f (fit X v) ((w j - v j) • column X j) + τ * |v j - w j|) := by
    refine Finset.sum_le_sum fun j _ => ?_
    rw [map_smul, smul_eq_mul]
    have := subdiffOn_gap (hp.subdiff _ (hvD j)) (h1 j) (hw j)
    linarith
  rw [Finset.sum_add_distrib, Finset.sum_add_distrib, ← Finset.mul_sum] at h3
  unfold customObjective
  linarith

/-- **The number of iterations is bounded**: by `4 p (2 Λ + b)² (F(0) - p c) / (μ τ²)`, where `F(0)` is the objective of zero coefficients,
if the nonzero step constants lie in `[μ, Λ]`, and features with vanishing step constants are optimal at zero. -/
theorem C103_iterations (hX : StorageOK ds.designMatrix X) (hf : LossOK f X L) (hd : DatafitOK ds df f X L) (hp : ConstrainedOK pen φ D L)
    (hz : ∀ j, L j = 0 → (0 : ℝ) ∈ subdiffOn φ D 0)
    {c b B : ℝ} (hr : RegularOn φ D c b B) {μ Λ τ : ℝ} (hμ : 0 < μ) (hm : ∀ j, L j ≠ 0 → μ ≤ L j) (hΛ : ∀ j, L j ≤ Λ)
    (hB : 2 * √(2 * Λ * (customObjective f X φ 0 - p * c)) ≤ B) (hτ : 0 < τ)
    {srt : Argsort XR} (hs : ArgsortSpec srt) (cfg : Solver XR) (ht : cfg.tolerance = XR.fin τ) (hw : 0 < cfg.wsStartSize)
    (he : 0 < cfg.maxEpochs) (hpl : StopsPlain cfg) {st : CDState XR} {df' : DF} {log : List (Event XR)}
    (hc : coordinateDescent srt ds df pen (cfg.setVerbose true) = .ok (st, df', log)) :
    iterationsPrinted log * (μ * τ ^ 2) ≤ 4 * p * (2 * Λ + b) ^ 2 * (customObjective f X φ 0 - p * c) := by
  obtain ⟨R, hF, -, hL, -, hm0, H, hrun⟩ := constrained_run hX hf hd hp
  have hF0 : (R.F fun _ => 0) = customObjective f X φ 0 := hF _ fun _ => hp.zero
  have h1 := cd_rel srt ds df pen (cfg.setVerbose true)
  rw [hc, hrun hs] at h1
  cases hq : R.run srt (cfg.setVerbose true) with
  | error e => rw [hq] at h1; exact h1.elim
  | ok q =>
    rw [hq] at h1
    have h2 := h1.2.1 rfl
    have h3 := H.run_bound hm0 (by rw [hL]; exact hz) hr hμ (by rw [hL]; exact hm) (by rw [hL]; exact hΛ) (by rw [hF0]; exact hB) hτ hs cfg ht
      hw he hpl.plainEnd q.1 q.2 hq
    rw [hF0] at h3
    rw [h2]
    exact h3

/-- **The solver solves the constrained problem**: with a `max_iterations` larger than the bound, the call stops early, hence returns feasible
coefficients which are `τ`-optimal among the feasible ones. -/
theorem C103_solves (hX : StorageOK ds.designMatrix X) (hf : LossOK f X L) (hd : DatafitOK ds df f X L) (hp : ConstrainedOK pen φ D L)
    (hz : ∀ j, L j = 0 → (0 : ℝ) ∈ subdiffOn φ D 0)
    {c b B : ℝ} (hr : RegularOn φ D c b B) {μ Λ τ : ℝ} (hμ : 0 < μ) (hm : ∀ j, L j ≠ 0 → μ ≤ L j) (hΛ : ∀ j, L j ≤ Λ)
    (hB : 2 * √(2 * Λ * (customObjective f X φ 0 - p * c)) ≤ B) (hτ : 0 < τ)
    {srt : Argsort XR} (hs : ArgsortSpec srt) (cfg : Solver XR) (ht : cfg.tolerance = XR.fin τ) (hw : 0 < cfg.wsStartSize)
    (he : 0 < cfg.maxEpochs) (hpl : StopsPlain cfg)
    (hacc : cfg.useAcceleration = true → 0 < cfg.K ∧ cfg.K ≤ cfg.wsStartSize ∧ cfg.K ≤ p)
    (hmax : 4 * p * (2 * Λ + b) ^ 2 * (customObjective f X φ 0 - p * c) < cfg.maxIterations * (μ * τ ^ 2)) :
    ∃ v : Fin p → ℝ, CustomStops srt cfg ds df pen v ∧ Feasible D v ∧
      ∀ w, Feasible D w → customObjective f X φ v ≤ customObjective f X φ w + τ * ∑ j, |v j - w j| := by
  obtain ⟨v, hv⟩ := C103_returns hX hf hd hp hs cfg hacc
  have hst : CustomStops srt cfg ds df pen v := by
    refine ⟨hv, ?_⟩
    obtain ⟨R, -, -, -, -, -, -, hrun⟩ := constrained_run hX hf hd hp
    obtain ⟨k, hk⟩ := custom_of_solve (hrun hs cfg) hv
    obtain ⟨st, df', log, h1, -⟩ := custom_trace (fun cfg => hrun hs cfg) hk
    refine ⟨st, df', log, h1, ?_⟩
    have h2 := C103_iterations hX hf hd hp hz hr hμ hm hΛ hB hτ hs cfg ht hw he hpl h1
    exact_mod_cast lt_of_mul_lt_mul_right (lt_of_le_of_lt h2 hmax) (by positivity)
  exact ⟨v, hst, (C103_feasible hX hf hd hp hs cfg v hv).1, C103_certificate hX hf hd hp hs cfg τ ht v hst⟩

/-- The condition on features with vanishing step constants is needed: if the penalty alone has no minimum at zero, such features (zero
columns of the design) stay at zero, and **no call ever stops early** if the tolerance is below the distance of zero to the
subdifferential. -/
theorem C103_zero_column (hX : StorageOK ds.designMatrix X) (hf : LossOK f X L) (hd : DatafitOK ds df f X L) (hp : ConstrainedOK pen φ D L)
    {srt : Argsort XR} (hs : ArgsortSpec srt) (cfg : Solver XR) (τ : ℝ) (ht : cfg.tolerance = XR.fin τ) (hw : 0 < cfg.wsStartSize)
    (he : 0 < cfg.maxEpochs) (j : Fin p) (hL0 : L j = 0) (hcol : ∀ i, X i j = 0)
    (hτ : τ < Metric.infDist 0 (subdiffOn φ D 0)) (v : Fin p → ℝ) : ¬ CustomStops srt cfg ds df pen v := by
  intro hv
  have h1 := C103_stationary hX hf hd hp hs cfg τ ht v hv j
  obtain ⟨R, -, -, hL, -, -, H, hrun⟩ := constrained_run hX hf hd hp
  obtain ⟨k, hk⟩ := custom_of_solve (hrun hs cfg) hv.1
  have h2 := H.run_zero hs cfg hw he v k hk j (by rw [hL]; exact hL0)
  unfold constrainedViolation at h1
  rw [h2, show column X j = 0 from funext hcol, map_zero, neg_zero] at h1
  linarith

/-! ## Support vector machines -/

omit [DesignMatrix XR DM] [Datafit XR DM DF] [Penalty XR P] in
/-- **Support vector machines through the dual**: with the quadratic datafit of the library, targets zero, and the penalty `-z` on `[0, C]`, calls which
stop early yield, through `β = X v / n`, a minimiser of the hinge loss objective up to `p C τ`. -/
theorem C103_svm (hn : 0 < n) (X : Fin n → Fin p → ℝ) {C : ℝ} (hC : 0 < C) {srt : Argsort XR} (hs : ArgsortSpec srt) (cfg : Solver XR) (τ : ℝ)
    (ht : cfg.tolerance = XR.fin τ) (v : Fin p → ℝ)
    (hv : CustomStops srt cfg (⟨mat X, Targets.one (vec fun _ : Fin n => 0)⟩ : Dataset (Mat XR) XR) (Quadratic.new : Quadratic XR)
      (⟨XR.fin (-1), XR.fin C⟩ : Capped XR) v) (β : Fin n → ℝ) :
    svmPrimal C X (fun i => (∑ j, X i j * v j) / n) ≤ svmPrimal C X β + p * C * τ := by
  obtain ⟨h1, h2, h3⟩ := quadratic_dense hn X fun _ => 0
  have hst := C103_stationary h1 h2 h3 (capped_ok (-1) hC _) hs cfg τ ht v hv
  have hvD := (C103_feasible h1 h2 h3 (capped_ok (-1) hC _) hs cfg v hv.1).1
  have a := svm_gap hn X hC v hvD fun j => by
    have h := hst j
    unfold constrainedViolation at h
    rw [← (cappedScore_dist hC (hvD j) _).2, quadratic_zero_grad] at h
    exact h
  have b := svm_weak hn X v hvD β
  linarith

omit [DesignMatrix XR DM] [Datafit XR DM DF] [Penalty XR P] in
/-- **and enough iterations suffice**, if no observation vanishes. -/
theorem C103_svm_solves (hn : 0 < n) (X : Fin n → Fin p → ℝ) {C : ℝ} (hC : 0 < C) {μ Λ τ : ℝ} (hμ : 0 < μ)
    (hm : ∀ j, μ ≤ (∑ i, X i j ^ 2) / n) (hΛ : ∀ j, (∑ i, X i j ^ 2) / n ≤ Λ) (hτ : 0 < τ)
    {srt : Argsort XR} (hs : ArgsortSpec srt) (cfg : Solver XR) (ht : cfg.tolerance = XR.fin τ) (hw : 0 < cfg.wsStartSize)
    (he : 0 < cfg.maxEpochs) (hpl : StopsPlain cfg)
    (hacc : cfg.useAcceleration = true → 0 < cfg.K ∧ cfg.K ≤ cfg.wsStartSize ∧ cfg.K ≤ p)
    (hmax : 4 * p * (2 * Λ + (2 * √(2 * Λ * (p * C)) + 1) / C) ^ 2 * (p * C) < cfg.maxIterations * (μ * τ ^ 2)) :
    ∃ v : Fin p → ℝ, cfg.solve srt (⟨mat X, Targets.one (vec fun _ : Fin n => 0)⟩ : Dataset (Mat XR) XR) (Quadratic.new : Quadratic XR)
      (⟨XR.fin (-1), XR.fin C⟩ : Capped XR) = .ok (vec v) ∧
      ∀ β, svmPrimal C X (fun i => (∑ j, X i j * v j) / n) ≤ svmPrimal C X β + p * C * τ := by
  obtain ⟨h1, h2, h3⟩ := quadratic_dense hn X fun _ => 0
  have e : ∀ j, quadStep X j = (∑ i, X i j ^ 2) / n := fun j => by
    unfold quadStep
    congr 1; exact Finset.sum_congr rfl fun i _ => by ring
  have hF : customObjective (quadLoss fun _ => 0) X (fun z => -1 * z) 0 - p * (-1 * C) = p * C := by
    unfold customObjective
    rw [show fit X (0 : Fin p → ℝ) = 0 from funext fun i => by unfold fit; simp]
    unfold quadLoss
    simp
  obtain ⟨v, a, -⟩ := C103_solves h1 h2 h3 (capped_ok (-1) hC _) (fun j h => absurd h (by rw [e]; linarith [hm j]))
    (capped_regular (by norm_num) hC (by positivity : (0 : ℝ) ≤ 2 * √(2 * Λ * (p * C)))) hμ (fun j _ => by rw [e]; exact hm j)
    (fun j => by rw [e]; exact hΛ j) (by rw [hF]) hτ hs cfg ht hw he hpl hacc (by rw [hF, sub_neg_eq_add]; exact hmax)
  exact ⟨v, a.1, C103_svm hn X hC hs cfg τ ht v a⟩

/-! ## Examples -/

-- the non-negative Lasso: all requirements hold
example (X : Fin 3 → Fin 2 → ℝ) (y : Fin 3 → ℝ) :
    StorageOK (mat X) X ∧ LossOK (quadLoss y) X (quadStep X) ∧
      DatafitOK (⟨mat X, Targets.one (vec y)⟩ : Dataset (Mat XR) XR) (Quadratic.new : Quadratic XR) (quadLoss y) X (quadStep X) ∧
      ConstrainedOK (⟨XR.fin (1 / 2)⟩ : NonNeg XR) (fun z => 1 / 2 * z) (Set.Ici 0) (quadStep X) ∧
      (0 : ℝ) ∈ subdiffOn (fun z => 1 / 2 * z) (Set.Ici 0) 0 ∧
      ∀ B, RegularOn (fun z => (1 / 2 : ℝ) * z) (Set.Ici 0) 0 0 B :=
  ⟨(quadratic_dense (by norm_num) X y).1, (quadratic_dense (by norm_num) X y).2.1, (quadratic_dense (by norm_num) X y).2.2, nonNeg_ok _ _,
    by rw [sub_nonneg_zero]; norm_num, nonNeg_regular (by norm_num)⟩

-- and the call solves it, whatever the design, here with acceleration
example (X : Fin 3 → Fin 2 → ℝ) (hX : X = fun (i : Fin 3) (j : Fin 2) => if i.val = j.val then 1 else 0) (y : Fin 3 → ℝ) (τ : ℝ) (hτ : 0 < τ) : ∃ N : ℕ, ∃ v : Fin 2 → ℝ,
    (⟨10, N, 1001, XR.fin τ, 1, true, true⟩ : Solver XR).solve argsortIns
      (⟨mat X, Targets.one (vec y)⟩ : Dataset (Mat XR) XR) (Quadratic.new : Quadratic XR) (⟨XR.fin (1 / 2)⟩ : NonNeg XR) = .ok (vec v) ∧
    (∀ j, 0 ≤ v j) ∧ ∀ w : Fin 2 → ℝ, (∀ j, 0 ≤ w j) → customObjective (quadLoss y) X (fun z => 1 / 2 * z) v ≤
      customObjective (quadLoss y) X (fun z => 1 / 2 * z) w + τ * ∑ j, |v j - w j| := by
  have hL : ∀ j, quadStep X j = 1 / 3 := by
    intro j
    unfold quadStep
    rw [hX]
    fin_cases j <;> simp [Fin.sum_univ_three]
  obtain ⟨h1, h2, h3⟩ := quadratic_dense (n := 3) (by norm_num) X y
  obtain ⟨N, hN⟩ := exists_nat_gt (4 * (2 : ℕ) * (2 * (1 / 3) + 0) ^ 2 * (customObjective (quadLoss y) X (fun z => 1 / 2 * z) 0 - (2 : ℕ) * 0) / (1 / 3 * τ ^ 2))
  obtain ⟨v, h4, h5, h6⟩ := C103_solves h1 h2 h3 (nonNeg_ok (1 / 2) _) (fun j _ => by rw [sub_nonneg_zero]; norm_num)
    (nonNeg_regular (by norm_num) _) (μ := 1 / 3) (Λ := 1 / 3) (τ := τ) (by norm_num) (fun j _ => (hL j).ge) (fun j => (hL j).le) le_rfl hτ
    argsortIns_spec ⟨10, N, 1001, XR.fin τ, 1, true, true⟩ rfl (by norm_num) (by norm_num) 
    (fun e h1 h2 => Or.inr (by dsimp only at h1 h2 ⊢; omega))
    (fun _ => ⟨by norm_num, by norm_num, by norm_num⟩) ((div_lt_iff₀ (by positivity)).mp hN)
  exact ⟨N, v, h4.1, h5, fun w hw => h6 w hw⟩

-- support vector machine with three observations of two variables
example (X : Fin 2 → Fin 3 → ℝ) (hX : X = fun i j => (i.val : ℝ) + j.val + 1) (τ : ℝ) (hτ : 0 < τ) : ∃ N : ℕ, ∃ v : Fin 3 → ℝ,
    (⟨10, N, 1000, XR.fin τ, 5, false, true⟩ : Solver XR).solve argsortIns
      (⟨mat X, Targets.one (vec fun _ : Fin 2 => 0)⟩ : Dataset (Mat XR) XR) (Quadratic.new : Quadratic XR)
      (⟨XR.fin (-1), XR.fin 2⟩ : Capped XR) = .ok (vec v) ∧
    ∀ β, svmPrimal 2 X (fun i => (∑ j, X i j * v j) / (2 : ℕ)) ≤ svmPrimal 2 X β + (3 : ℕ) * 2 * τ := by
  obtain ⟨N, hN⟩ := exists_nat_gt (4 * (3 : ℕ) * (2 * 13 + (2 * √(2 * 13 * ((3 : ℕ) * 2)) + 1) / 2) ^ 2 * ((3 : ℕ) * 2) / (1 * τ ^ 2))
  obtain ⟨v, h⟩ := C103_svm_solves (n := 2) (p := 3) (by norm_num) X (C := 2) (by norm_num) (μ := 1) (Λ := 13) (τ := τ) (by norm_num)
    (fun j => by rw [hX]; fin_cases j <;> norm_num [Fin.sum_univ_two]) (fun j => by rw [hX]; fin_cases j <;> norm_num [Fin.sum_univ_two]) hτ argsortIns_spec
    ⟨10, N, 1000, XR.fin τ, 5, false, true⟩ rfl (by norm_num) (by norm_num) (StopsPlain.default rfl rfl) (fun h => by cases h)
    ((div_lt_iff₀ (by positivity)).mp hN)
  exact ⟨N, v, h⟩

-- an observation which vanishes: the call never stops early
example (cfg : Solver XR) (ht : cfg.tolerance = XR.fin (1 / 2)) (hw : 0 < cfg.wsStartSize) (he : 0 < cfg.maxEpochs) (v : Fin 1 → ℝ) :
    ¬ CustomStops argsortIns cfg (⟨mat fun (_ : Fin 2) (_ : Fin 1) => 0, Targets.one (vec fun _ : Fin 2 => 0)⟩ : Dataset (Mat XR) XR)
      (Quadratic.new : Quadratic XR) (⟨XR.fin (-1), XR.fin 2⟩ : Capped XR) v := by
  obtain ⟨h1, h2, h3⟩ := quadratic_dense (n := 2) (by norm_num) (fun (_ : Fin 2) (_ : Fin 1) => 0) fun _ => 0
  refine C103_zero_column h1 h2 h3 (capped_ok (-1) (by norm_num) _) argsortIns_spec cfg (1 / 2) ht hw he 0 (by simp [quadStep]) (fun _ => rfl) ?_ v
  rw [sub_cap_zero (by norm_num), ← (isDist_Iic (-1) 0).2]
  norm_num

end Sglm
