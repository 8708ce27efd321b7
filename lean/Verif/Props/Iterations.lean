import Verif.Proofs.IterBound
import Verif.Props.Converge

/-!
# C68: an explicit bound on the number of iterations, also for the MCP

`C50` says that the solver stops eventually, for convex penalties.  Here the number of iterations is bounded by an explicit
expression in the data and the tolerance, which does not depend on the other settings.  The MCP is covered (the solver does not
find its minimisers in general, so the claim is stationarity).  Exact arithmetic.
-/

namespace Sglm
open Scalar Spec
variable {n p T : ℕ}

theorem stepOK_of_conc {pen : Pen} (hv : pen.Valid) {D : Design n p} {k : LossKind} {μ : ℝ} (hμ0 : 0 < μ)
    (hμ : ∀ j, lipschitz D k j ≠ 0 → μ + pen.concavity ≤ lipschitz D k j) : pen.StepOK D k := by
  cases pen with
  | mcp α γ =>
    intro j hj
    have h1 : 1 / γ ≤ lipschitz D k j := by
      have : μ + 1 / γ ≤ lipschitz D k j := hμ j hj
      linarith
    rwa [div_le_iff₀ hv.2, mul_comm] at h1
  | _ => trivial

theorem iter_bound1 (hn : 0 < n) (D : Design n p) (hD : D.Canonical) (y : Fin n → ℝ) (k : LossKind) (hy : k.LabelsOK y) (pen : Pen)
    (hv : pen.Valid) (hne : ∀ α, pen ≠ .l05 α) (μ Λ τ : ℝ) (hμ0 : 0 < μ)
    (hμ : ∀ j, lipschitz D k j ≠ 0 → μ + pen.concavity ≤ lipschitz D k j) (hΛ : ∀ j, lipschitz D k j ≤ Λ) (hτ : 0 < τ)
    {srt : Argsort XR} (hs : ArgsortSpec srt) (cfg : Solver XR) (ht : cfg.tolerance = XR.fin τ) (hw : 0 < cfg.wsStartSize)
    (he : 0 < cfg.maxEpochs) (hpl : StopsPlain cfg) (v : Fin p → ℝ) (m : ℕ) (h : (prob1 D y k pen).run srt cfg = .ok (v, m)) :
    (m : ℝ) ≤ 4 * p * (2 * Λ + pen.modulus) ^ 2 * objective1 D y k pen (fun _ => 0) / (μ * τ ^ 2) := by
  have hm0 : (prob1 D y k pen).m0 = XR.ninf ∨ (prob1 D y k pen).m0 = XR.fin 0 := by
    cases pen <;> first | exact Or.inl rfl | exact Or.inr rfl
  have H := prob1_weak hn D hD y k hy pen hv (stepOK_of_conc hv hμ0 hμ) hne
  rw [le_div_iff₀ (by positivity)]
  refine H.run_bound hm0 hμ0 (fun j hj => ?_) (fun j => ?_) hτ hs cfg ht hw he hpl.plainEnd v m h
  · have := hμ j (by rw [← stepsOf_lipschitz D hD]; exact hj)
    rw [← stepsOf_lipschitz D hD] at this
    exact this
  · have := hΛ j
    rw [← stepsOf_lipschitz D hD] at this
    exact this

/-- Distance of stationarity of a result with small scores. -/
theorem stationary_of_exit (hn : 0 < n) (D : Design n p) (hD : D.Canonical) (y : Fin n → ℝ) (k : LossKind) (hy : k.LabelsOK y) (pen : Pen)
    (hv : pen.Valid) (hst : pen.StepOK D k) (hne : ∀ α, pen ≠ .l05 α) {srt : Argsort XR} {cfg : Solver XR} {τ : ℝ}
    (ht : cfg.tolerance = XR.fin τ) {v : Fin p → ℝ} {m : ℕ} (h : (prob1 D y k pen).run srt cfg = .ok (v, m))
    (hm : m < cfg.maxIterations) : ApproxStationary D y k (frechetSubdiff pen.fn) v τ := by
  have h1 := (prob1 D y k pen).run_exit cfg h hm
  rw [ht] at h1
  exact fun j => ⟨_, _, loss_partial hn D.matrix y k v j, (prob1_weak hn D hD y k hy pen hv hst hne).score _ _,
    (prob1 D y k pen).viol_le h1 j⟩

/-- **Number of iterations**: with `μ` and `Λ` lower and upper bounds of the step constants `L_j` (for the MCP, `μ + 1/γ` a lower
bound), a run with tolerance `τ` prints at most `4 p (2 Λ + b)² F(0) / (μ τ²)` iterations (`b = α (1 - ρ)` for the elastic net,
else `0`; `F(0)` the objective at zero), and if `max_iterations` is larger its result is `τ`-stationary.  Lasso, elastic
net and MCP, least squares and logistic loss; all working set sizes, with acceleration or not. -/
theorem C68_iterations (hn : 0 < n) (D : Design n p) (hD : D.Canonical) (y : Fin n → ℝ) (k : LossKind) (hy : k.LabelsOK y) (pen : Pen)
    (hv : pen.Valid) (hne : ∀ α, pen ≠ .l05 α) (μ Λ τ : ℝ) (hμ0 : 0 < μ)
    (hμ : ∀ j, lipschitz D k j ≠ 0 → μ + pen.concavity ≤ lipschitz D k j) (hΛ : ∀ j, lipschitz D k j ≤ Λ) (hτ : 0 < τ)
    {srt : Argsort XR} (hs : ArgsortSpec srt) (cfg : Solver XR) (ht : cfg.tolerance = XR.fin τ) (hw : 0 < cfg.wsStartSize)
    (he : 0 < cfg.maxEpochs) (hpl : StopsPlain cfg) (st : CDState XR) (log : List (Event XR))
    (h : trace1 srt (cfg.setVerbose true) D y k pen = .ok (st, log)) :
    (iterationsPrinted log : ℝ) ≤ 4 * p * (2 * Λ + pen.modulus) ^ 2 * objective1 D y k pen (fun _ => 0) / (μ * τ ^ 2) ∧
    (4 * p * (2 * Λ + pen.modulus) ^ 2 * objective1 D y k pen (fun _ => 0) / (μ * τ ^ 2) < cfg.maxIterations →
      ∃ v : Fin p → ℝ, solve1 srt cfg D y k pen = .ok (vec v) ∧ ApproxStationary D y k (frechetSubdiff pen.fn) v τ) := by
  obtain ⟨v, m, h3, -, h4⟩ := trace1_run hs hn D y k pen hv _ st log h
  have h3 : (prob1 D y k pen).run srt cfg = .ok (v, m) := h3
  have hb := iter_bound1 hn D hD y k hy pen hv hne μ Λ τ hμ0 hμ hΛ hτ hs cfg ht hw he hpl v m h3
  rw [h4 rfl]
  refine ⟨hb, fun hN => ⟨v, by rw [solve1_eq hs hn D y k pen hv, h3]; rfl, ?_⟩⟩
  exact stationary_of_exit hn D hD y k hy pen hv (stepOK_of_conc hv hμ0 hμ) hne ht h3 (by exact_mod_cast lt_of_le_of_lt hb hN)

/-- Multi-task Lasso. -/
theorem C68_iterations_mt (hn : 0 < n) (D : Design n p) (hD : D.Canonical) (Y : Fin n → Fin T → ℝ) (α : ℝ) (hα : 0 < α)
    (μ Λ τ : ℝ) (hμ0 : 0 < μ) (hμ : ∀ j, lipschitz D .quadratic j ≠ 0 → μ ≤ lipschitz D .quadratic j)
    (hΛ : ∀ j, lipschitz D .quadratic j ≤ Λ) (hτ : 0 < τ)
    {srt : Argsort XR} (hs : ArgsortSpec srt) (cfg : Solver XR) (ht : cfg.tolerance = XR.fin τ) (hw : 0 < cfg.wsStartSize)
    (he : 0 < cfg.maxEpochs) (hpl : StopsPlain cfg) (st : BCDState XR) (log : List (Event XR))
    (h : traceMT srt (cfg.setVerbose true) D Y (.l21 α) = .ok (st, log)) :
    (iterationsPrinted log : ℝ) ≤ 4 * p * (2 * Λ) ^ 2 * objectiveMT D Y (.l21 α) (fun _ => 0) / (μ * τ ^ 2) ∧
    (4 * p * (2 * Λ) ^ 2 * objectiveMT D Y (.l21 α) (fun _ => 0) / (μ * τ ^ 2) < cfg.maxIterations →
      ∃ V : Fin p → Euc T, solveMT srt cfg D Y (.l21 α) = .ok (emat V) ∧
        ApproxStationaryMT D Y (subdiff fun z => α * ‖z‖) V τ) := by
  obtain ⟨V, m, h3, -, h4⟩ := traceMT_run hs hn D Y (.l21 α) hα _ st log h
  have h3 : (probMT D Y (.l21 α)).run srt cfg = .ok (V, m) := h3
  have hb : (m : ℝ) ≤ 4 * p * (2 * Λ) ^ 2 * objectiveMT D Y (.l21 α) (fun _ => 0) / (μ * τ ^ 2) := by
    rw [le_div_iff₀ (by positivity)]
    have := (probMT_weak hn D hD Y α hα).run_bound (Or.inl rfl) hμ0 (Λ := Λ) (fun j hj => by
        have := hμ j (by rw [← stepsOf_lipschitz D hD]; exact hj)
        rw [← stepsOf_lipschitz D hD] at this
        rw [add_zero]; exact this)
      (fun j => by
        have := hΛ j
        rw [← stepsOf_lipschitz D hD] at this
        exact this) hτ hs cfg ht hw he hpl.plainEnd V m h3
    rw [add_zero] at this
    exact this
  rw [h4 rfl]
  refine ⟨hb, fun hN => ⟨V, by rw [solveMT_eq hs hn D Y (.l21 α) hα, h3]; rfl, fun j => ?_⟩⟩
  have h1 := (probMT D Y (.l21 α)).run_exit cfg h3 (by exact_mod_cast lt_of_le_of_lt hb hN)
  rw [ht] at h1
  exact ⟨_, _, fun t => mt_partial hn D.matrix Y (fun j => (V j).ofLp) j t, l21Score_dist hα.le _ _,
    (probMT D Y (.l21 α)).viol_le h1 j⟩

/-! ## Estimators -/

theorem checkTail_pos {A : Type} {τ : XR} {K ws : ℕ} {a b : A} (h : checkTail τ K ws a = .ok b) : 0 < K ∧ 0 < ws := by
  unfold checkTail at h
  split at h
  · cases h
  · split at h
    · cases h
    · split at h
      · cases h
      · omega

theorem alpha_nonneg {a : XR} {α : ℝ} (ha : a = XR.fin α) (h : signBit a = false) : 0 ≤ α := by
  rw [ha] at h
  have h : decide (α < 0) = false := h
  simpa using h

theorem objective1_zero (D : Design n p) (y : Fin n → ℝ) (pen : Pen) (h0 : pen.fn 0 = 0) :
    objective1 D y .quadratic pen (fun _ => 0) = (∑ i, y i ^ 2) / (2 * n) := by
  unfold objective1
  simp only [h0, Finset.sum_const_zero, add_zero, LossKind.loss, quadLoss, fit, mul_zero, sub_zero]

/-- The result of a call with enough iterations, no panic assumed. -/
theorem solve_stationary (hn : 0 < n) (D : Design n p) (hD : D.Canonical) (y : Fin n → ℝ) (pen : Pen)
    (hv : pen.Valid) (hne : ∀ α, pen ≠ .l05 α) (h0 : pen.fn 0 = 0) (μ Λ τ : ℝ) (hμ0 : 0 < μ)
    (hμ : ∀ j, lipschitz D .quadratic j ≠ 0 → μ + pen.concavity ≤ lipschitz D .quadratic j)
    (hΛ : ∀ j, lipschitz D .quadratic j ≤ Λ) (hτ : 0 < τ)
    {srt : Argsort XR} (hs : ArgsortSpec srt) (cfg : Solver XR) (ht : cfg.tolerance = XR.fin τ) (hK : 0 < cfg.K) (hw : 0 < cfg.wsStartSize)
    (he : 0 < cfg.maxEpochs) (hpl : StopsPlain cfg) (hacc : cfg.useAcceleration = true → cfg.K ≤ cfg.wsStartSize ∧ cfg.K ≤ p)
    (hN : 2 * p * (2 * Λ + pen.modulus) ^ 2 * (∑ i, y i ^ 2) / (n * μ * τ ^ 2) < cfg.maxIterations) :
    ∃ v : Fin p → ℝ, solve1 srt cfg D y .quadratic pen = .ok (vec v) ∧
      ApproxStationary D y .quadratic (frechetSubdiff pen.fn) v τ := by
  obtain ⟨v, m, h⟩ := (prob1 D y .quadratic pen).run_ok hs cfg (fun hu => by
    obtain ⟨h3, h4⟩ := hacc hu
    exact ⟨hK, by show cfg.K ≤ cfg.wsStartSize * 1; omega, by show cfg.K ≤ p * 1; omega⟩)
  have hb := iter_bound1 hn D hD y .quadratic trivial pen hv hne μ Λ τ hμ0 hμ hΛ hτ hs cfg ht hw he hpl v m h
  rw [objective1_zero D y pen h0] at hb
  have hn' : (0 : ℝ) < n := by exact_mod_cast hn
  have e : 4 * p * (2 * Λ + pen.modulus) ^ 2 * ((∑ i, y i ^ 2) / (2 * n)) / (μ * τ ^ 2) =
      2 * p * (2 * Λ + pen.modulus) ^ 2 * (∑ i, y i ^ 2) / (n * μ * τ ^ 2) := by field_simp; ring
  rw [e] at hb
  refine ⟨v, by rw [solve1_eq hs hn D y .quadratic pen hv, h]; rfl, ?_⟩
  exact stationary_of_exit hn D hD y .quadratic trivial pen hv (stepOK_of_conc hv hμ0 hμ) hne ht h
    (by exact_mod_cast lt_of_le_of_lt hb hN)

/-- **`MCPEstimator::fit`** with valid parameters and enough iterations returns a `τ`-stationary point. -/
theorem C68_mcp_fit (hn : 0 < n) (D : Design n p) (hD : D.Canonical) (y : Fin n → ℝ) (α γ : ℝ) (μ Λ τ : ℝ) (hμ0 : 0 < μ)
    (hμ : ∀ j, lipschitz D .quadratic j ≠ 0 → μ + 1 / γ ≤ lipschitz D .quadratic j)
    (hΛ : ∀ j, lipschitz D .quadratic j ≤ Λ) (hτ : 0 < τ)
    {srt : Argsort XR} (hs : ArgsortSpec srt) (ps : MCParams XR) (hps : ps.checkRef = .ok ps) (ha : ps.alpha = XR.fin α)
    (hg : ps.gamma = XR.fin γ) (ht : ps.tolerance = XR.fin τ) (he : 0 < ps.maxEpochs) (hpl : StopsPlain ps.solver)
    (hacc : ps.useAcceleration = true → ps.K ≤ ps.wsStartSize ∧ ps.K ≤ p)
    (hN : 8 * p * Λ ^ 2 * (∑ i, y i ^ 2) / (n * μ * τ ^ 2) < ps.maxIterations) :
    ∃ v : Fin p → ℝ, fitMCP srt ps D y = .ok (.ok (vec v)) ∧
      ApproxStationary D y .quadratic (frechetSubdiff (mcp α γ : ℝ → ℝ)) v τ := by
  have hα := alpha_nonneg ha (MCParams.checkRef_ok hps).2.1
  have h1 := (MCParams.checkRef_ok hps).2.2
  rw [hg] at h1
  have hγ : 0 < γ := by
    have : ¬ γ < 1 := by
      have e : (XR.fin γ <. (one : XR)) = decide (γ < 1) := XR.s_lt γ 1
      rw [e] at h1
      simpa using h1
    linarith
  have h2 := checkTail_pos (τ := ps.tolerance) (a := ps) (b := ps) (K := ps.K) (ws := ps.wsStartSize) (by
    have h := hps
    unfold MCParams.checkRef at h
    split at h
    · cases h
    · split at h
      · cases h
      · exact h)
  obtain ⟨v, h3, h4⟩ := solve_stationary hn D hD y (.mcp α γ) ⟨hα, hγ⟩ (fun _ => by simp) (mcp_zero hα hγ) μ Λ τ hμ0 hμ hΛ hτ hs
    ps.solver ht h2.1 h2.2 he hpl hacc (by
      refine lt_of_le_of_lt (le_of_eq ?_) hN
      show 2 * p * (2 * Λ + 0) ^ 2 * (∑ i, y i ^ 2) / (n * μ * τ ^ 2) = _
      ring)
  refine ⟨v, ?_, h4⟩
  rw [fitMCP_eq srt ps α γ ha hg, hps, guarded_ok, h3]
  rfl

/-- **`ElasticNet::fit`**: likewise, with its smooth part `α (1 - ρ)` in the bound. -/
theorem C68_enet_fit (hn : 0 < n) (D : Design n p) (hD : D.Canonical) (y : Fin n → ℝ) (α ρ : ℝ) (μ Λ τ : ℝ) (hμ0 : 0 < μ)
    (hμ : ∀ j, lipschitz D .quadratic j ≠ 0 → μ ≤ lipschitz D .quadratic j)
    (hΛ : ∀ j, lipschitz D .quadratic j ≤ Λ) (hτ : 0 < τ)
    {srt : Argsort XR} (hs : ArgsortSpec srt) (ps : ElasticNetParams XR) (hps : ps.checkRef = .ok ps) (ha : ps.alpha = XR.fin α)
    (hr : ps.l1Ratio = XR.fin ρ) (ht : ps.tolerance = XR.fin τ) (he : 0 < ps.maxEpochs) (hpl : StopsPlain ps.solver)
    (hacc : ps.useAcceleration = true → ps.K ≤ ps.wsStartSize ∧ ps.K ≤ p)
    (hN : 2 * p * (2 * Λ + α * (1 - ρ)) ^ 2 * (∑ i, y i ^ 2) / (n * μ * τ ^ 2) < ps.maxIterations) :
    ∃ v : Fin p → ℝ, fitElasticNet srt ps D y = .ok (.ok (vec v)) ∧
      ApproxStationary D y .quadratic (subdiff (enet α ρ : ℝ → ℝ)) v τ := by
  have h2 := checkTail_pos (τ := ps.tolerance) (a := ps) (b := ps) (K := ps.K) (ws := ps.wsStartSize) (by
    have h := hps
    unfold ElasticNetParams.checkRef at h
    split at h
    · cases h
    · split at h
      · cases h
      · exact h)
  have hα := alpha_nonneg ha (ElasticNetParams.checkRef_ok hps).2.1
  have hρ : 0 ≤ ρ ∧ ρ ≤ 1 := by
    have h := hps
    unfold ElasticNetParams.checkRef at h
    split at h
    · cases h
    · split at h
      · cases h
      · next h1 =>
        rw [hr] at h1
        have e1 : ((one : XR) <. XR.fin ρ) = decide ((1 : ℝ) < ρ) := XR.s_lt 1 ρ
        have e2 : (XR.fin ρ <. (zero : XR)) = decide (ρ < (0 : ℝ)) := XR.s_lt ρ 0
        rw [e1, e2] at h1
        simp only [Bool.or_eq_true, decide_eq_true_iff, not_or, not_lt] at h1
        exact ⟨h1.2, h1.1⟩
  obtain ⟨v, h3, h4⟩ := solve_stationary hn D hD y (.enet α ρ) ⟨hα, hρ.1, hρ.2⟩ (fun _ => by simp) (by simp [Pen.fn, enet]) μ Λ τ hμ0
    (fun j hj => (add_zero μ).le.trans (hμ j hj)) hΛ hτ hs ps.solver ht h2.1 h2.2 he hpl hacc hN
  refine ⟨v, ?_, ?_⟩
  · rw [fitElasticNet_eq srt ps α ρ ha hr, hps, guarded_ok, h3]
    rfl
  · have e : frechetSubdiff (Pen.enet α ρ).fn = subdiff (enet α ρ : ℝ → ℝ) := by
      funext x
      obtain ⟨a, h5, h6, h7⟩ := pen_fn_pen2 (.enet α ρ) ⟨hα, hρ.1, hρ.2⟩ trivial
      rw [h7, pen2_frechet h5 h6, ← h7]
      rfl
    rw [e] at h4
    exact h4

/-- **`Lasso::fit`** on columns of norm `√n`: `8 p ‖y‖² / (n τ²)` iterations suffice for tolerance `τ`. -/
theorem C68_lasso_fit (hn : 0 < n) (D : Design n p) (hD : D.Canonical) (hX : ∀ j, ∑ i, D.matrix i j ^ 2 = n) (y : Fin n → ℝ) (α : ℝ)
    (τ : ℝ) (hτ : 0 < τ)
    {srt : Argsort XR} (hs : ArgsortSpec srt) (ps : LassoParams XR) (hps : ps.checkRef = .ok ps) (ha : ps.alpha = XR.fin α)
    (ht : ps.tolerance = XR.fin τ) (he : 0 < ps.maxEpochs) (hpl : StopsPlain ps.solver)
    (hacc : ps.useAcceleration = true → ps.K ≤ ps.wsStartSize ∧ ps.K ≤ p)
    (hN : 8 * p * (∑ i, y i ^ 2) / (n * τ ^ 2) < ps.maxIterations) :
    ∃ v : Fin p → ℝ, fitLasso srt ps D y = .ok (.ok (vec v)) ∧
      ApproxStationary D y .quadratic (subdiff fun z => α * |z|) v τ := by
  have h2 := checkTail_pos (τ := ps.tolerance) (a := ps) (b := ps) (K := ps.K) (ws := ps.wsStartSize) (by
    have h := hps
    unfold LassoParams.checkRef at h
    split at h
    · cases h
    · exact h)
  have hα := alpha_nonneg ha (LassoParams.checkRef_ok hps).2
  have hn' : (n : ℝ) ≠ 0 := by exact_mod_cast hn.ne'
  have hL : ∀ j, lipschitz D .quadratic j = 1 := fun j => by
    show (∑ i, D.matrix i j ^ 2) / (n : ℝ) = 1
    rw [hX j, div_self hn']
  obtain ⟨v, h3, h4⟩ := solve_stationary hn D hD y (.l1 α) hα (fun _ => by simp) (by simp [Pen.fn]) 1 1 τ one_pos
    (fun j _ => by rw [hL j]; exact (add_zero _).le) (fun j => (hL j).le) hτ hs ps.solver ht h2.1 h2.2 he hpl hacc (by
      refine lt_of_le_of_lt (le_of_eq ?_) hN
      show 2 * p * (2 * 1 + 0) ^ 2 * (∑ i, y i ^ 2) / (n * 1 * τ ^ 2) = _
      ring)
  refine ⟨v, ?_, ?_⟩
  · rw [fitLasso_eq srt ps α ha, hps, guarded_ok, h3]
    rfl
  · have e : frechetSubdiff (Pen.l1 α).fn = subdiff fun z : ℝ => α * |z| := by
      funext x
      obtain ⟨a, h5, h6, h7⟩ := pen_fn_pen2 (.l1 α) hα trivial
      rw [h7, pen2_frechet h5 h6, ← h7]
      rfl
    rw [e] at h4
    exact h4

/-! ## Examples -/

-- Four features, MCP, with acceleration; zero itself is not `τ`-stationary here
theorem exIter_lip (j : Fin 4) : lipschitz (.dense fun i j => if i = j then 2 else 0 : Design 4 4) .quadratic j = 1 := by
  show (∑ i : Fin 4, (if i = j then (2 : ℝ) else 0) ^ 2) / ((4 : ℕ) : ℝ) = 1
  simp only [ite_pow, ne_eq, OfNat.ofNat_ne_zero, not_false_eq_true, zero_pow, Finset.sum_ite_eq', Finset.mem_univ, if_true]
  norm_num

example : ∃ v : Fin 4 → ℝ,
    fitMCP argsortIns ⟨XR.fin (1 / 10), XR.fin 3, 200, 50, 10, XR.fin 1, 3, true, true⟩ (.dense fun i j => if i = j then 2 else 0)
      ![1, -2, 0, 3] = .ok (.ok (vec v)) ∧
    ApproxStationary (.dense fun i j : Fin 4 => if i = j then 2 else 0) ![1, -2, 0, 3] .quadratic (frechetSubdiff (mcp (1 / 10) 3 : ℝ → ℝ))
      v 1 := by
  refine C68_mcp_fit (by norm_num) (.dense fun i j : Fin 4 => if i = j then 2 else 0) trivial ![1, -2, 0, 3] (1 / 10) 3
    (2 / 3) 1 1 (by norm_num) (fun j _ => by rw [exIter_lip j]; norm_num) (fun j => (exIter_lip j).le) one_pos argsortIns_spec
    ⟨XR.fin (1 / 10), XR.fin 3, 200, 50, 10, XR.fin 1, 3, true, true⟩ ?_ rfl rfl rfl (by norm_num) ?_
    (fun _ => ⟨by norm_num, by norm_num⟩) (by norm_num [Fin.sum_univ_succ])
  · have e0 : (signBit (XR.fin (1 / 10)) : Bool) = false := by
      show decide ((1 / 10 : ℝ) < 0) = false
      simp
    have e1 : (signBit (XR.fin 1) : Bool) = false := by
      show decide ((1 : ℝ) < 0) = false
      simp
    have e2 : (XR.fin 3 <. (one : XR)) = false := by
      have e : (XR.fin 3 <. (one : XR)) = decide ((3 : ℝ) < 1) := XR.s_lt 3 1
      rw [e]; norm_num
    unfold MCParams.checkRef checkTail
    simp only [e0, e1, e2]
    rfl
  · intro e h1 h2
    refine Or.inr ?_
    have h1 : e < 50 := h1
    have h2 : e + 1 = 50 ∨ (0 < e ∧ e % 10 = 0) := h2
    show e % 4 ≠ 3
    omega

-- ... and the Lasso on the same data
example : ∃ v : Fin 4 → ℝ,
    fitLasso argsortIns ⟨XR.fin (1 / 10), 200, 50, 10, XR.fin 1, 3, true, true⟩ (.dense fun i j => if i = j then 2 else 0)
      ![1, -2, 0, 3] = .ok (.ok (vec v)) ∧
    ApproxStationary (.dense fun i j : Fin 4 => if i = j then 2 else 0) ![1, -2, 0, 3] .quadratic (subdiff fun z => (1 / 10) * |z|) v 1 := by
  refine C68_lasso_fit (by norm_num) (.dense fun i j : Fin 4 => if i = j then 2 else 0) trivial (fun j => ?_) ![1, -2, 0, 3] (1 / 10)
    1 one_pos argsortIns_spec ⟨XR.fin (1 / 10), 200, 50, 10, XR.fin 1, 3, true, true⟩ ?_ rfl rfl (by norm_num) ?_
    (fun _ => ⟨by norm_num, by norm_num⟩) (by norm_num [Fin.sum_univ_succ])
  · have h : (∑ i : Fin 4, (if i = j then (2 : ℝ) else 0) ^ 2) / ((4 : ℕ) : ℝ) = 1 := exIter_lip j
    rw [div_eq_one_iff_eq (by norm_num)] at h
    exact h
  · have e0 : (signBit (XR.fin (1 / 10)) : Bool) = false := by
      show decide ((1 / 10 : ℝ) < 0) = false
      simp
    have e1 : (signBit (XR.fin 1) : Bool) = false := by
      show decide ((1 : ℝ) < 0) = false
      simp
    unfold LassoParams.checkRef checkTail
    simp only [e0, e1]
    rfl
  · intro e h1 h2
    refine Or.inr ?_
    have h1 : e < 50 := h1
    have h2 : e + 1 = 50 ∨ (0 < e ∧ e % 10 = 0) := h2
    show e % 4 ≠ 3
    omega

-- ... the elastic net on the same data, without acceleration
example : ∃ v : Fin 4 → ℝ,
    fitElasticNet argsortIns ⟨XR.fin (1 / 10), XR.fin (1 / 2), 200, 50, 10, XR.fin 1, 5, false, true⟩
      (.dense fun i j => if i = j then 2 else 0) ![1, -2, 0, 3] = .ok (.ok (vec v)) ∧
    ApproxStationary (.dense fun i j : Fin 4 => if i = j then 2 else 0) ![1, -2, 0, 3] .quadratic
      (subdiff (enet (1 / 10) (1 / 2) : ℝ → ℝ)) v 1 := by
  refine C68_enet_fit (by norm_num) (.dense fun i j : Fin 4 => if i = j then 2 else 0) trivial ![1, -2, 0, 3] (1 / 10) (1 / 2)
    1 1 1 one_pos (fun j _ => (exIter_lip j).ge) (fun j => (exIter_lip j).le) one_pos argsortIns_spec
    ⟨XR.fin (1 / 10), XR.fin (1 / 2), 200, 50, 10, XR.fin 1, 5, false, true⟩ ?_ rfl rfl rfl (by norm_num)
    (fun _ _ _ => Or.inl rfl) (fun h => by cases h) (by norm_num [Fin.sum_univ_succ])
  have e0 : (signBit (XR.fin (1 / 10)) : Bool) = false := by
    show decide ((1 / 10 : ℝ) < 0) = false
    simp
  have e1 : (signBit (XR.fin 1) : Bool) = false := by
    show decide ((1 : ℝ) < 0) = false
    simp
  have e2 : ((one : XR) <. XR.fin (1 / 2)) = false := by
    have e : ((one : XR) <. XR.fin (1 / 2)) = decide ((1 : ℝ) < 1 / 2) := XR.s_lt 1 (1 / 2)
    rw [e]; norm_num
  have e3 : (XR.fin (1 / 2) <. (zero : XR)) = false := by
    have e : (XR.fin (1 / 2) <. (zero : XR)) = decide ((1 / 2 : ℝ) < 0) := XR.s_lt (1 / 2) 0
    rw [e]; norm_num
  unfold ElasticNetParams.checkRef checkTail
  simp only [e0, e1, e2, e3]
  rfl

-- A sparse logistic regression run: it does not panic and prints at most 256 iterations
example : ∃ st log, trace1 argsortIns ⟨10, 1000, 50, XR.fin (1 / 4), 3, false, true⟩ (.dense fun i j : Fin 4 => if i = j then 2 else 0)
    ![1, -1, 1, 1] .logistic (.l1 (1 / 10)) = .ok (st, log) ∧ (iterationsPrinted log : ℝ) ≤ 256 := by
  have hα : (0 : ℝ) ≤ 1 / 10 := by norm_num
  obtain ⟨y, hY⟩ : ∃ y : Fin 4 → ℝ, y = ![1, -1, 1, 1] := ⟨_, rfl⟩
  obtain ⟨D, hD⟩ : ∃ D : Design 4 4, D = .dense fun i j : Fin 4 => if i = j then 2 else 0 := ⟨_, rfl⟩
  obtain ⟨cfg, hc⟩ : ∃ cfg : Solver XR, cfg = ⟨10, 1000, 50, XR.fin (1 / 4), 3, false, true⟩ := ⟨_, rfl⟩
  rw [← hY, ← hD, ← hc]
  have hL : ∀ j, lipschitz D .logistic j = 1 / 4 := fun j => by
    have h := exIter_lip j
    rw [← hD] at h
    have h : (∑ i, D.matrix i j ^ 2) / ((4 : ℕ) : ℝ) = 1 := h
    show (∑ i, D.matrix i j ^ 2) / (4 * ((4 : ℕ) : ℝ)) = 1 / 4
    rw [div_eq_one_iff_eq (by norm_num)] at h
    rw [h]; norm_num
  obtain ⟨v, m, h⟩ := (prob1 D y .logistic (.l1 (1 / 10))).run_ok argsortIns_spec cfg (fun hu => by rw [hc] at hu; cases hu)
  have h2 := trace1_solve argsortIns D y .logistic (.l1 (1 / 10)) cfg
  rw [solve1_eq argsortIns_spec (by norm_num) D y .logistic (.l1 (1 / 10)) hα, h] at h2
  cases h3 : trace1 argsortIns cfg D y .logistic (.l1 (1 / 10)) with
  | error e => rw [h3] at h2; cases h2
  | ok r =>
    refine ⟨r.1, r.2, rfl, ?_⟩
    refine le_trans (C68_iterations (by norm_num) D (by rw [hD]; trivial) y .logistic (fun i => ?_) (.l1 (1 / 10)) hα (fun _ => by simp)
      (1 / 4) (1 / 4) (1 / 4) (by norm_num) (fun j _ => by rw [hL j]; exact (add_zero _).le)
      (fun j => (hL j).le) (by norm_num) argsortIns_spec cfg (by rw [hc]) (by rw [hc]; norm_num) (by rw [hc]; norm_num)
      (by rw [hc]; exact fun _ _ _ => Or.inl rfl) r.1 r.2 (by rw [← h3, hc]; rfl)).1 ?_
    · rw [hY]; fin_cases i <;> simp
    have e : objective1 D y .logistic (.l1 (1 / 10)) (fun _ => 0) = Real.log 2 := by
      unfold objective1
      simp only [LossKind.loss, logLoss, fit, mul_zero, Finset.sum_const_zero, Pen.fn, abs_zero]
      norm_num
    rw [e]
    have := Real.log_le_sub_one_of_pos (show (0 : ℝ) < 2 by norm_num)
    show 4 * ((4 : ℕ) : ℝ) * (2 * (1 / 4) + 0) ^ 2 * Real.log 2 / _ ≤ _
    norm_num
    linarith

-- A multi-task run: it does not panic and prints at most 224 iterations
example : ∃ st log, traceMT argsortIns ⟨10, 1000, 50, XR.fin 1, 3, false, true⟩ (.dense fun i j : Fin 4 => if i = j then 2 else 0)
    (fun i (_ : Fin 2) => (![1, -2, 0, 3] : Fin 4 → ℝ) i) (.l21 (1 / 10)) = .ok (st, log) ∧ (iterationsPrinted log : ℝ) ≤ 224 := by
  have hα : (0 : ℝ) < 1 / 10 := by norm_num
  obtain ⟨Y, hY⟩ : ∃ Y : Fin 4 → Fin 2 → ℝ, Y = fun i _ => (![1, -2, 0, 3] : Fin 4 → ℝ) i := ⟨_, rfl⟩
  obtain ⟨D, hD⟩ : ∃ D : Design 4 4, D = .dense fun i j : Fin 4 => if i = j then 2 else 0 := ⟨_, rfl⟩
  obtain ⟨cfg, hc⟩ : ∃ cfg : Solver XR, cfg = ⟨10, 1000, 50, XR.fin 1, 3, false, true⟩ := ⟨_, rfl⟩
  rw [← hY, ← hD, ← hc]
  have hL : ∀ j, lipschitz D .quadratic j = 1 := fun j => by rw [hD]; exact exIter_lip j
  obtain ⟨V, m, h⟩ := (probMT D Y (.l21 (1 / 10))).run_ok argsortIns_spec cfg (fun hu => by rw [hc] at hu; cases hu)
  have h2 := traceMT_solve argsortIns D Y (.l21 (1 / 10)) cfg
  rw [solveMT_eq argsortIns_spec (by norm_num) D _ (.l21 (1 / 10)) hα, h] at h2
  cases h3 : traceMT argsortIns cfg D Y (.l21 (1 / 10)) with
  | error e => rw [h3] at h2; cases h2
  | ok r =>
    refine ⟨r.1, r.2, rfl, ?_⟩
    refine le_trans (C68_iterations_mt (by norm_num) D (by rw [hD]; trivial) Y (1 / 10) hα 1 1 1 one_pos (fun j _ => (hL j).ge)
      (fun j => (hL j).le) one_pos argsortIns_spec cfg (by rw [hc]) (by rw [hc]; norm_num) (by rw [hc]; norm_num)
      (by rw [hc]; exact fun _ _ _ => Or.inl rfl) r.1 r.2 (by rw [← h3, hc]; rfl)).1 (le_of_eq ?_)
    have e : objectiveMT D Y (.l21 (1 / 10)) (fun _ => 0) = 7 / 2 := by
      unfold objectiveMT mtLoss fitMT
      rw [hY]
      norm_num [Fin.sum_univ_succ, BPen.fn]
    rw [e]
    norm_num

end Sglm
