import Verif.Proofs.Linear
import Verif.Props.Iterates
import Verif.Props.Concave

/-!
# C89: linear convergence

If the objective is strongly convex (independent columns, or an elastic net; for the MCP: curvature above `1/γ`), the excess of the
objective decreases geometrically in the number of iterations, so that the number of iterations before the solver stops is logarithmic
in the tolerance.  Exact arithmetic.
-/

namespace Sglm
open Scalar Spec
variable {n p T : ℕ}

/-- Strong convexity of the single-task objectives. -/
theorem strong_all (hn : 0 < n) (D : Design n p) (y : Fin n → ℝ) (k : LossKind) (pen : Pen) (hv : pen.Valid)
    (hne : ∀ α, pen ≠ .l05 α) (hk : k = .quadratic ∨ pen.Convex) {c : ℝ} (hcurv : Curvature D k c) :
    StrongConv (objective1 D y k pen) (c + pen.modulus - pen.concavity) := by
  cases pen with
  | l1 α =>
    have : c + (Pen.l1 α).modulus - (Pen.l1 α).concavity = c + (Pen.l1 α).modulus := sub_zero _
    rw [this]; exact strong1 hn D y k _ hv trivial hcurv
  | enet α ρ =>
    have : c + (Pen.enet α ρ).modulus - (Pen.enet α ρ).concavity = c + (Pen.enet α ρ).modulus := sub_zero _
    rw [this]; exact strong1 hn D y k _ hv trivial hcurv
  | mcp α γ =>
    rcases hk with rfl | hk
    · have : c + (Pen.mcp α γ).modulus - (Pen.mcp α γ).concavity = c - 1 / γ := by
        show c + 0 - 1 / γ = _; ring
      rw [this]; exact strong_mcp D y hv.1 hv.2 hcurv
    · exact hk.elim
  | l05 α => exact absurd rfl (hne α)

theorem bpen_line {pen : BPen} (hv : pen.Valid) (x z : Euc T) (t : ℝ) (h0 : 0 ≤ t) (h1 : t ≤ 1) :
    pen.fn (x + t • (z - x)) ≤ (1 - t) * pen.fn x + t * pen.fn z - (pen.modulus - pen.concavity) / 2 * (t * (1 - t)) * ‖x - z‖ ^ 2 := by
  cases pen with
  | l21 α =>
    have := enet_line (ρ := 1) (le_of_lt hv) zero_le_one x z t h0 h1
    simp only [enet, sub_self, zero_mul, zero_div, add_zero, one_mul, mul_zero, sub_zero] at this
    refine this.trans (le_of_eq ?_)
    show _ = _ - ((0 : ℝ) - 0) / 2 * _ * _
    rw [sub_zero, zero_div, zero_mul, zero_mul, sub_zero]; rfl
  | enet α ρ =>
    refine (enet_line hv.1.le hv.2.1.le x z t h0 h1).trans (le_of_eq ?_)
    show _ = _ - (α * (1 - ρ) - 0) / 2 * _ * _
    rw [sub_zero]; rfl
  | mcp α γ =>
    refine (mcp_weak hv.1 hv.2 x z t h0 h1).trans (le_of_eq ?_)
    show _ = (1 - t) * mcp α γ x + t * mcp α γ z - ((0 : ℝ) - 1 / γ) / 2 * _ * _
    rw [norm_sub_rev x z]
    ring

/-- Strong convexity of the multi-task objectives. -/
theorem strongMT_all (D : Design n p) (Y : Fin n → Fin T → ℝ) {pen : BPen} (hv : pen.Valid) {c : ℝ}
    (hcurv : Curvature D .quadratic c) : StrongConv (objectiveMT D Y pen) (c + pen.modulus - pen.concavity) := by
  intro V W t h0 h1
  have ht : 0 ≤ t * (1 - t) := mul_nonneg h0 (by linarith)
  have hl : c * ∑ j, ‖V j - W j‖ ^ 2 ≤ ∑ s, (∑ i, fit D.matrix (fun j => (V j).ofLp s - (W j).ofLp s) i ^ 2) / n := by
    have : ∑ j, ‖V j - W j‖ ^ 2 = ∑ s, ∑ j, ((V j).ofLp s - (W j).ofLp s) ^ 2 := by
      rw [Finset.sum_comm]
      refine Finset.sum_congr rfl fun j _ => ?_
      rw [EuclideanSpace.norm_sq_eq]
      simp
    rw [this, Finset.mul_sum]
    exact Finset.sum_le_sum fun s _ => hcurv _
  have hp : ∑ j, pen.fn (V j + t • (W j - V j)) ≤ (1 - t) * ∑ j, pen.fn (V j) + t * ∑ j, pen.fn (W j) -
      (pen.modulus - pen.concavity) / 2 * (t * (1 - t)) * ∑ j, ‖V j - W j‖ ^ 2 := by
    rw [Finset.mul_sum, Finset.mul_sum, Finset.mul_sum, ← Finset.sum_add_distrib, ← Finset.sum_sub_distrib]
    exact Finset.sum_le_sum fun j _ => bpen_line hv _ _ t h0 h1
  have h2 := mt_line D.matrix Y V W t
  have h3 := mul_le_mul_of_nonneg_left hl ht
  show mtLoss _ _ + ∑ j, pen.fn (V j + t • (W j - V j)) ≤ (1 - t) * (mtLoss _ _ + ∑ j, pen.fn (V j)) +
    t * (mtLoss _ _ + ∑ j, pen.fn (W j)) - _
  rw [h2]
  linarith

/-- The scores at zero are ordered like the distances. -/
theorem bscore_order_le {pen : BPen} (hv : pen.Valid) (ho : pen.OrdersZeros) (g g' : Euc T)
    (h : bscoreOf pen 0 g ≤ bscoreOf pen 0 g') : frechetDist pen.fn 0 g ≤ frechetDist pen.fn 0 g' := by
  by_contra hc
  push Not at hc
  have h0 : 0 ≤ frechetDist pen.fn 0 g' := Metric.infDist_nonneg
  have := bscore_order hv ho (τ := (frechetDist pen.fn 0 g + frechetDist pen.fn 0 g') / 2) (by linarith) g g' (by linarith) h
  linarith

theorem pen_concavity_nonneg {pen : Pen} (hv : pen.Valid) : 0 ≤ pen.concavity := by
  cases pen with
  | mcp α γ => exact div_nonneg zero_le_one (le_of_lt hv.2)
  | _ => exact le_rfl

theorem bpen_concavity_nonneg {pen : BPen} (hv : pen.Valid) : 0 ≤ pen.concavity := by
  cases pen with
  | mcp α γ => exact div_nonneg zero_le_one (le_of_lt hv.2)
  | _ => exact le_rfl

/-- **Linear convergence, one task.**  `v i` is the result of the same call with `max_iterations = i`; `w` is arbitrary; `κ` depends on
the design and the penalty only.  Every two iterations remove the fraction `1 / (κ + 1)` of the excess of the objective, and the
coefficients approach the minimiser at the same rate. -/
theorem C89_linear (hn : 0 < n) (D : Design n p) (hD : D.Canonical) (y : Fin n → ℝ) (k : LossKind) (hy : k.LabelsOK y) (pen : Pen)
    (hv : pen.Valid) (hne : ∀ α, pen ≠ .l05 α) (hk : k = .quadratic ∨ pen.Convex) (c μ Λ σ κ : ℝ) (hcurv : Curvature D k c)
    (hσ : σ = c + pen.modulus - pen.concavity) (hσ0 : 0 < σ) (hμ0 : 0 < μ)
    (hμ : ∀ j, lipschitz D k j ≠ 0 → μ + pen.concavity ≤ lipschitz D k j) (hΛ : ∀ j, lipschitz D k j ≤ Λ)
    (hκ : κ = p ^ 2 * (2 * Λ + pen.modulus) ^ 2 / (μ * σ))
    {srt : Argsort XR} (hs : ArgsortSpec srt) (cfg : Solver XR) (hw : 0 < cfg.wsStartSize) (he : 0 < cfg.maxEpochs)
    (hpl : StopsPlain cfg) (st : CDState XR) (log : List (Event XR))
    (h : trace1 srt (cfg.setVerbose true) D y k pen = .ok (st, log)) :
    ∃ v : ℕ → Fin p → ℝ,
      (∀ i ≤ iterationsPrinted log, solve1 srt { cfg with maxIterations := i } D y k pen = .ok (vec (v i))) ∧
      solve1 srt cfg D y k pen = .ok (vec (v (iterationsPrinted log))) ∧
      ∀ i ≤ iterationsPrinted log,
        (∀ w, objective1 D y k pen (v i) - objective1 D y k pen w ≤
          (κ / (κ + 1)) ^ (i / 2) * (objective1 D y k pen (fun _ => 0) - objective1 D y k pen w)) ∧
        ∀ w, (∀ u, objective1 D y k pen w ≤ objective1 D y k pen u) → ∑ j, (v i j - w j) ^ 2 ≤
          2 * ((κ / (κ + 1)) ^ (i / 2) * (objective1 D y k pen (fun _ => 0) - objective1 D y k pen w)) / σ := by
  obtain ⟨v, m, h3, -, h4⟩ := trace1_run hs hn D y k pen hv _ st log h
  have h3 : ((prob1 D y k pen).skel srt cfg (ws0CD cfg p)).outer cfg.maxIterations (fun _ => 0) = .ok (v, m) := h3
  rw [h4 rfl]
  have h5 := Skel.outer_cut _ h3
  have H := prob1_weak hn D hD y k hy pen hv (stepOK_of_conc hv hμ0 hμ) hne
  have hsc := strong_all hn D y k pen hv hne hk hcurv
  rw [← hσ] at hsc
  obtain ⟨u, k1, k2, -⟩ := RProb.run_linear (R := prob1 D y k pen) (d := (prob1 D y k pen).sc) H (pen_concavity_nonneg hv) (Λ := Λ)
    (σ := σ) hμ0 (fun j hj => by
      have := hμ j (by rw [← stepsOf_lipschitz D hD]; exact hj)
      rw [← stepsOf_lipschitz D hD] at this
      exact this)
    (fun j => by
      have := hΛ j
      rw [← stepsOf_lipschitz D hD] at this
      exact this) hσ0 hsc hs cfg hw (Or.inl fun g g' a => a) he hpl.plainEnd m v h5
  rw [← hκ] at k2
  refine ⟨u, fun i hi => ?_, ?_, fun i hi => ⟨k2 i hi, fun w hw => ?_⟩⟩
  · rw [solve1_eq hs hn D y k pen hv]
    have : (prob1 D y k pen).run srt { cfg with maxIterations := i } = .ok (u i, i) := k1 i hi
    rw [this]; rfl
  · rw [solve1_eq hs hn D y k pen hv]
    have : (prob1 D y k pen).run srt cfg = .ok (v, m) := h3
    rw [this]
    have := k1 m le_rfl
    rw [h5] at this
    injection this with this
    injection this with this _
    rw [← this]; rfl
  · rw [← sum_norm_sq]
    refine hsc.near_min hσ0 hw ?_
    have := k2 i hi w
    have this : objective1 D y k pen (u i) - objective1 D y k pen w ≤
      (κ / (κ + 1)) ^ (i / 2) * (objective1 D y k pen (fun _ => 0) - objective1 D y k pen w) := this
    linarith

/-- **Linear convergence, several tasks**: all penalties, whether or not the stopping test is right. -/
theorem C89_linear_mt (hn : 0 < n) (D : Design n p) (hD : D.Canonical) (Y : Fin n → Fin T → ℝ) (pen : BPen) (hv : pen.Valid)
    (c μ Λ σ κ : ℝ) (hcurv : Curvature D .quadratic c)
    (hσ : σ = c + pen.modulus - pen.concavity) (hσ0 : 0 < σ) (hμ0 : 0 < μ)
    (hμ : ∀ j, lipschitz D .quadratic j ≠ 0 → μ + pen.concavity ≤ lipschitz D .quadratic j) (hΛ : ∀ j, lipschitz D .quadratic j ≤ Λ)
    (hκ : κ = p ^ 2 * (2 * Λ + pen.modulus) ^ 2 / (μ * σ))
    {srt : Argsort XR} (hs : ArgsortSpec srt) (cfg : Solver XR) (hw : 0 < cfg.wsStartSize)
    (ho : pen.OrdersZeros ∨ p ≤ cfg.wsStartSize) (he : 0 < cfg.maxEpochs) (hpl : StopsPlain cfg)
    (st : BCDState XR) (log : List (Event XR)) (h : traceMT srt (cfg.setVerbose true) D Y pen = .ok (st, log)) :
    ∃ V : ℕ → Fin p → Euc T,
      (∀ i ≤ iterationsPrinted log, solveMT srt { cfg with maxIterations := i } D Y pen = .ok (emat (V i))) ∧
      solveMT srt cfg D Y pen = .ok (emat (V (iterationsPrinted log))) ∧
      ∀ i ≤ iterationsPrinted log,
        (∀ W, objectiveMT D Y pen (V i) - objectiveMT D Y pen W ≤
          (κ / (κ + 1)) ^ (i / 2) * (objectiveMT D Y pen (fun _ => 0) - objectiveMT D Y pen W)) ∧
        ∀ W, (∀ U, objectiveMT D Y pen W ≤ objectiveMT D Y pen U) → ∑ j, ‖V i j - W j‖ ^ 2 ≤
          2 * ((κ / (κ + 1)) ^ (i / 2) * (objectiveMT D Y pen (fun _ => 0) - objectiveMT D Y pen W)) / σ := by
  obtain ⟨V, m, h3, -, h4⟩ := traceMT_run hs hn D Y pen hv _ st log h
  have h3 : ((probMT D Y pen).skel srt cfg (ws0CD cfg p)).outer cfg.maxIterations (fun _ => 0) = .ok (V, m) := h3
  rw [h4 rfl]
  have h5 := Skel.outer_cut _ h3
  have H := probMT_weak_all hn D hD Y pen hv (bstepOK_of_conc hv hμ0 hμ)
  have hsc := strongMT_all D Y hv hcurv
  rw [← hσ] at hsc
  obtain ⟨u, k1, k2, -⟩ := RProb.run_linear (R := probMT D Y pen) H (bpen_concavity_nonneg hv) (Λ := Λ) (σ := σ) hμ0 (fun j hj => by
      have := hμ j (by rw [← stepsOf_lipschitz D hD]; exact hj)
      rw [← stepsOf_lipschitz D hD] at this
      exact this)
    (fun j => by
      have := hΛ j
      rw [← stepsOf_lipschitz D hD] at this
      exact this) hσ0 hsc hs cfg hw (ho.imp (fun ho g g' => bscore_order_le hv ho g g') id) he hpl.plainEnd m V h5
  rw [← hκ] at k2
  refine ⟨u, fun i hi => ?_, ?_, fun i hi => ⟨k2 i hi, fun W hW => ?_⟩⟩
  · rw [solveMT_eq hs hn D Y pen hv]
    have : (probMT D Y pen).run srt { cfg with maxIterations := i } = .ok (u i, i) := k1 i hi
    rw [this]; rfl
  · rw [solveMT_eq hs hn D Y pen hv]
    have : (probMT D Y pen).run srt cfg = .ok (V, m) := h3
    rw [this]
    have := k1 m le_rfl
    rw [h5] at this
    injection this with this
    injection this with this _
    rw [← this]; rfl
  · refine hsc.near_min hσ0 hW ?_
    have := k2 i hi W
    have this : objectiveMT D Y pen (u i) - objectiveMT D Y pen W ≤
      (κ / (κ + 1)) ^ (i / 2) * (objectiveMT D Y pen (fun _ => 0) - objectiveMT D Y pen W) := this
    linarith

/-- **The number of iterations is logarithmic in the tolerance**: Lasso, elastic net, MCP; compare C68, where the bound is of order
`1 / τ²`. -/
theorem C89_iterations (hn : 0 < n) (D : Design n p) (hD : D.Canonical) (y : Fin n → ℝ) (k : LossKind) (hy : k.LabelsOK y) (pen : Pen)
    (hv : pen.Valid) (hne : ∀ α, pen ≠ .l05 α) (hk : k = .quadratic ∨ pen.Convex) (c μ Λ σ κ τ : ℝ) (hcurv : Curvature D k c)
    (hσ : σ = c + pen.modulus - pen.concavity) (hσ0 : 0 < σ) (hμ0 : 0 < μ)
    (hμ : ∀ j, lipschitz D k j ≠ 0 → μ + pen.concavity ≤ lipschitz D k j) (hΛ : ∀ j, lipschitz D k j ≤ Λ)
    (hκ : κ = p ^ 2 * (2 * Λ + pen.modulus) ^ 2 / (μ * σ)) (hτ : 0 < τ)
    {srt : Argsort XR} (hs : ArgsortSpec srt) (cfg : Solver XR) (ht : cfg.tolerance = XR.fin τ) (hw : 0 < cfg.wsStartSize)
    (he : 0 < cfg.maxEpochs) (hpl : StopsPlain cfg) (st : CDState XR) (log : List (Event XR))
    (h : trace1 srt (cfg.setVerbose true) D y k pen = .ok (st, log)) :
    (iterationsPrinted log : ℝ) ≤ 3 + 2 * (κ + 1) *
      Real.log (1 + 2 * p * (2 * Λ + pen.modulus) ^ 2 * objective1 D y k pen (fun _ => 0) / (μ * τ ^ 2)) := by
  obtain ⟨v, m, h3, -, h4⟩ := trace1_run hs hn D y k pen hv _ st log h
  have h3 : ((prob1 D y k pen).skel srt cfg (ws0CD cfg p)).outer cfg.maxIterations (fun _ => 0) = .ok (v, m) := h3
  rw [h4 rfl]
  have h5 := Skel.outer_cut _ h3
  have H := prob1_weak hn D hD y k hy pen hv (stepOK_of_conc hv hμ0 hμ) hne
  have hsc := strong_all hn D y k pen hv hne hk hcurv
  rw [← hσ] at hsc
  have hm0 : (prob1 D y k pen).m0 = XR.ninf ∨ (prob1 D y k pen).m0 = XR.fin 0 := by
    cases pen <;> first | exact Or.inl rfl | exact Or.inr rfl
  rw [hκ]
  exact RProb.run_log (R := prob1 D y k pen) H (pen_concavity_nonneg hv) hm0 hμ0 (fun j hj => by
      have := hμ j (by rw [← stepsOf_lipschitz D hD]; exact hj)
      rw [← stepsOf_lipschitz D hD] at this
      exact this)
    (fun j => by
      have := hΛ j
      rw [← stepsOf_lipschitz D hD] at this
      exact this) hσ0 hsc hτ hs cfg ht hw he hpl.plainEnd m v h5

/-- The same for the multi-task Lasso. -/
theorem C89_iterations_mt (hn : 0 < n) (D : Design n p) (hD : D.Canonical) (Y : Fin n → Fin T → ℝ) (α : ℝ) (hα : 0 < α)
    (c μ Λ κ τ : ℝ) (hcurv : Curvature D .quadratic c) (hc : 0 < c) (hμ0 : 0 < μ)
    (hμ : ∀ j, lipschitz D .quadratic j ≠ 0 → μ ≤ lipschitz D .quadratic j) (hΛ : ∀ j, lipschitz D .quadratic j ≤ Λ)
    (hκ : κ = p ^ 2 * (2 * Λ) ^ 2 / (μ * c)) (hτ : 0 < τ)
    {srt : Argsort XR} (hs : ArgsortSpec srt) (cfg : Solver XR) (ht : cfg.tolerance = XR.fin τ) (hw : 0 < cfg.wsStartSize)
    (he : 0 < cfg.maxEpochs) (hpl : StopsPlain cfg) (st : BCDState XR) (log : List (Event XR))
    (h : traceMT srt (cfg.setVerbose true) D Y (.l21 α) = .ok (st, log)) :
    (iterationsPrinted log : ℝ) ≤ 3 + 2 * (κ + 1) *
      Real.log (1 + 2 * p * (2 * Λ) ^ 2 * objectiveMT D Y (.l21 α) (fun _ => 0) / (μ * τ ^ 2)) := by
  obtain ⟨V, m, h3, -, h4⟩ := traceMT_run hs hn D Y (.l21 α) hα _ st log h
  have h3 : ((probMT D Y (.l21 α)).skel srt cfg (ws0CD cfg p)).outer cfg.maxIterations (fun _ => 0) = .ok (V, m) := h3
  rw [h4 rfl]
  have h5 := Skel.outer_cut _ h3
  have H := probMT_weak hn D hD Y α hα
  have hm0 : (probMT D Y (.l21 α)).m0 = XR.ninf ∨ (probMT D Y (.l21 α)).m0 = XR.fin 0 := by
    exact Or.inl rfl
  have key := RProb.run_log (R := probMT D Y (.l21 α)) H le_rfl hm0 (μ := μ) (Λ := Λ) hμ0 (fun j hj => by
      have := hμ j (by rw [← stepsOf_lipschitz D hD]; exact hj)
      rw [← stepsOf_lipschitz D hD] at this
      rw [add_zero]
      exact this)
    (fun j => by
      have := hΛ j
      rw [← stepsOf_lipschitz D hD] at this
      exact this) hc (strongMT D Y hα.le hcurv) hτ hs cfg ht hw he hpl.plainEnd m V h5
  rw [add_zero, ← hκ] at key
  exact key

/-- **Enough iterations**: if `max_iterations` exceeds the logarithmic bound, the run stops. -/
theorem C89_stops (hn : 0 < n) (D : Design n p) (hD : D.Canonical) (y : Fin n → ℝ) (k : LossKind) (hy : k.LabelsOK y) (pen : Pen)
    (hv : pen.Valid) (hne : ∀ α, pen ≠ .l05 α) (hk : k = .quadratic ∨ pen.Convex) (c μ Λ σ κ τ : ℝ) (hcurv : Curvature D k c)
    (hσ : σ = c + pen.modulus - pen.concavity) (hσ0 : 0 < σ) (hμ0 : 0 < μ)
    (hμ : ∀ j, lipschitz D k j ≠ 0 → μ + pen.concavity ≤ lipschitz D k j) (hΛ : ∀ j, lipschitz D k j ≤ Λ)
    (hκ : κ = p ^ 2 * (2 * Λ + pen.modulus) ^ 2 / (μ * σ)) (hτ : 0 < τ)
    {srt : Argsort XR} (hs : ArgsortSpec srt) (cfg : Solver XR) (ht : cfg.tolerance = XR.fin τ) (hw : 0 < cfg.wsStartSize)
    (he : 0 < cfg.maxEpochs) (hpl : StopsPlain cfg) (hacc : cfg.useAcceleration = true → 0 < cfg.K ∧ cfg.K ≤ cfg.wsStartSize ∧ cfg.K ≤ p)
    (hN : 3 + 2 * (κ + 1) * Real.log (1 + 2 * p * (2 * Λ + pen.modulus) ^ 2 * objective1 D y k pen (fun _ => 0) / (μ * τ ^ 2)) <
      cfg.maxIterations) :
    ∃ v, Stops srt cfg D y k pen v := by
  obtain ⟨v, m, h⟩ := (prob1 D y k pen).run_ok hs cfg fun hu => by
    have e : Coord.dim ℝ = 1 := rfl
    rw [e, mul_one, mul_one]; exact hacc hu
  have h' : (prob1 D y k pen).run srt (cfg.setVerbose true) = .ok (v, m) := h
  refine ⟨v, by rw [solve1_eq hs hn D y k pen hv, h]; rfl, ?_⟩
  have h2 := trace1_solve srt D y k pen (cfg.setVerbose true)
  rw [solve1_eq hs hn D y k pen hv, h'] at h2
  cases h3 : trace1 srt (cfg.setVerbose true) D y k pen with
  | error e => rw [h3] at h2; cases h2
  | ok q =>
    obtain ⟨st, log⟩ := q
    refine ⟨st, log, rfl, ?_⟩
    have := C89_iterations hn D hD y k hy pen hv hne hk c μ Λ σ κ τ hcurv hσ hσ0 hμ0 hμ hΛ hκ hτ hs cfg ht hw he hpl st log h3
    exact_mod_cast lt_of_le_of_lt this hN

/-! ## Examples -/

-- The orthogonal design of C70, with the Lasso: `κ = 4 · 1 / (1/2 · 1/2) = 16`; 1500 iterations suffice for a tolerance of `10^-8`
example : ∃ v, Stops argsortIns ⟨1, 1500, 50, XR.fin (1 / 10 ^ 8), 5, false, true⟩ idD ![4, 1 / 2] .quadratic (.l1 1) v := by
  have hF : objective1 idD ![4, 1 / 2] .quadratic (.l1 1) (fun _ => 0) = 65 / 16 := by
    rw [idD_objective]; norm_num
  refine C89_stops two_pos idD trivial ![4, 1 / 2] .quadratic trivial (.l1 1) zero_le_one (fun α h => by cases h) (Or.inl rfl)
    (1 / 2) (1 / 2) (1 / 2) (1 / 2) 16 (1 / 10 ^ 8) idD_curvature (by norm_num [Pen.modulus, Pen.concavity]) (by norm_num) (by norm_num)
    (fun j _ => by rw [idD_lip]; norm_num [Pen.concavity]) (fun j => (idD_lip j).le) (by norm_num [Pen.modulus]) (by norm_num)
    argsortIns_spec _ rfl (by norm_num) (by norm_num) (fun _ _ _ => Or.inl rfl) (fun hu => by cases hu) ?_
  rw [hF]
  have h1 : Real.log (1 + 2 * ((2 : ℕ) : ℝ) * (2 * (1 / 2) + (Pen.l1 1).modulus) ^ 2 * (65 / 16) / (1 / 2 * (1 / 10 ^ 8) ^ 2)) ≤ 42 := by
    rw [Real.log_le_iff_le_exp (by norm_num [Pen.modulus])]
    have h2 : Real.exp 42 = Real.exp 1 ^ 42 := by rw [← Real.exp_nat_mul]; norm_num
    rw [h2]
    refine le_trans ?_ (pow_le_pow_left₀ (by norm_num) Real.exp_one_gt_d9.le 42)
    norm_num [Pen.modulus]
  refine lt_of_le_of_lt (add_le_add_right (mul_le_mul_of_nonneg_left h1 (by norm_num)) 3) ?_
  norm_num

-- the multi-task MCP run of C86, which never stops: the call with 200 iterations is within `(16/17)^100` of every other objective
example : ∃ V : Fin 1 → Euc 1,
    solveMT argsortIns ({ oneCfg with maxIterations := 200 } : Solver XR) oneD (fun _ (_ : Fin 1) => 3 / 2) (.mcp 1 2) = .ok (emat V) ∧
    ∀ W, objectiveMT oneD (fun _ (_ : Fin 1) => 3 / 2) (.mcp 1 2) V - objectiveMT oneD (fun _ (_ : Fin 1) => 3 / 2) (.mcp 1 2) W ≤
      (16 / 17) ^ 100 * (objectiveMT oneD (fun _ (_ : Fin 1) => 3 / 2) (.mcp 1 2) (fun _ => 0) -
        objectiveMT oneD (fun _ (_ : Fin 1) => 3 / 2) (.mcp 1 2) W) := by
  obtain ⟨-, ⟨st, log, h2, h3⟩, -⟩ := C86_never_stops argsortIns_spec ({ oneCfg with maxIterations := 200 } : Solver XR) 0
    (by norm_num) rfl rfl (by decide) (by decide) (Nat.le_of_ble_eq_true rfl)
  obtain ⟨V, -, h5, h6⟩ := C89_linear_mt one_pos oneD trivial (fun _ (_ : Fin 1) => 3 / 2) (.mcp 1 2)
    ⟨zero_le_one, two_pos⟩ 1 (1 / 2) 1 (1 / 2) 16 oneD_curvature (by norm_num [BPen.modulus, BPen.concavity]) (by norm_num)
    (by norm_num) (fun j _ => by rw [oneD_lipschitz]; norm_num [BPen.concavity]) (fun j => (oneD_lipschitz j).le)
    (by norm_num [BPen.modulus]) argsortIns_spec ({ oneCfg with maxIterations := 200 } : Solver XR) (by decide) (Or.inl trivial)
    (by decide) (fun _ _ _ => Or.inl rfl) st log h2
  have h3 : iterationsPrinted log = 200 := h3
  rw [h3] at h5 h6
  refine ⟨V 200, h5, fun W => ?_⟩
  have e : (16 : ℝ) / (16 + 1) = 16 / 17 := by norm_num
  have := (h6 200 le_rfl).1 W
  rwa [e] at this

-- any run of the Lasso on the orthogonal design
example (srt : Argsort XR) (hs : ArgsortSpec srt) (N : ℕ) (st : CDState XR) (log : List (Event XR))
    (h : trace1 srt ⟨1, N, 50, XR.fin 0, 5, false, true⟩ idD ![4, 1 / 2] .quadratic (.l1 1) = .ok (st, log)) :
    ∃ v, solve1 srt ⟨1, N, 50, XR.fin 0, 5, false, true⟩ idD ![4, 1 / 2] .quadratic (.l1 1) = .ok (vec v) ∧
      ∑ j, (v j - (![2, 0] : Fin 2 → ℝ) j) ^ 2 ≤
        2 * ((16 / (16 + 1)) ^ (iterationsPrinted log / 2) * (objective1 idD ![4, 1 / 2] .quadratic (.l1 1) (fun _ => 0) -
          objective1 idD ![4, 1 / 2] .quadratic (.l1 1) ![2, 0])) / (1 / 2) := by
  obtain ⟨v, -, h5, h6⟩ := C89_linear two_pos idD trivial ![4, 1 / 2] .quadratic trivial (.l1 1) zero_le_one (fun α h => by cases h)
    (Or.inl rfl) (1 / 2) (1 / 2) (1 / 2) (1 / 2) 16 idD_curvature (by norm_num [Pen.modulus, Pen.concavity]) (by norm_num)
    (by norm_num) (fun j _ => by rw [idD_lip]; norm_num [Pen.concavity]) (fun j => (idD_lip j).le) (by norm_num [Pen.modulus])
    hs ⟨1, N, 50, XR.fin 0, 5, false, true⟩ (by norm_num) (by norm_num) (fun _ _ _ => Or.inl rfl) st log h
  exact ⟨_, h5, (h6 _ le_rfl).2 _ idD_min⟩

-- a multi-task Lasso run with tolerance `10^-8`: at most 1500 iterations are printed, however large `max_iterations`
example (srt : Argsort XR) (hs : ArgsortSpec srt) (N : ℕ) (st : BCDState XR) (log : List (Event XR))
    (h : traceMT srt ⟨1, N, 50, XR.fin (1 / 10 ^ 8), 5, false, true⟩ idD ![![4, 1], ![1 / 2, 1]] (.l21 1) = .ok (st, log)) :
    (iterationsPrinted log : ℝ) ≤ 1500 := by
  have hF : objectiveMT idD ![![4, 1], ![1 / 2, 1]] (.l21 1) (fun _ => 0) = 73 / 16 := by
    simp [objectiveMT, mtLoss, fitMT, BPen.fn, Fin.sum_univ_two]
    norm_num
  refine (C89_iterations_mt two_pos idD trivial _ 1 one_pos (1 / 2) (1 / 2) (1 / 2) 16 (1 / 10 ^ 8) idD_curvature (by norm_num)
    (by norm_num) (fun j _ => (idD_lip j).ge) (fun j => (idD_lip j).le) (by norm_num) (by norm_num) hs
    ⟨1, N, 50, XR.fin (1 / 10 ^ 8), 5, false, true⟩ rfl (by norm_num) (by norm_num) (fun _ _ _ => Or.inl rfl) st log h).trans ?_
  rw [hF]
  have h1 : Real.log (1 + 2 * ((2 : ℕ) : ℝ) * (2 * (1 / 2)) ^ 2 * (73 / 16) / (1 / 2 * (1 / 10 ^ 8) ^ 2)) ≤ 42 := by
    rw [Real.log_le_iff_le_exp (by norm_num)]
    have h2 : Real.exp 42 = Real.exp 1 ^ 42 := by rw [← Real.exp_nat_mul]; norm_num
    rw [h2]
    refine le_trans ?_ (pow_le_pow_left₀ (by norm_num) Real.exp_one_gt_d9.le 42)
    norm_num
  refine (add_le_add_right (mul_le_mul_of_nonneg_left h1 (by norm_num)) 3).trans ?_
  norm_num

end Sglm
