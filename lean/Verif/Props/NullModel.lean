import Verif.Proofs.Null
import Verif.Props.Predictions
import Verif.Props.Concave
import Verif.Props.Linear
import Verif.Props.Tasks
import Verif.Spec.NullModel

/-!
# C91: when a fit is the null model

A fit returns zeros exactly if `alpha + tolerance` reaches the largest correlation of a feature with the targets; otherwise it is
strictly better than zero, by an explicit amount.
-/

namespace Sglm

open Scalar Spec
variable {n p T : ℕ}

theorem grad_at_zero (D : Design n p) (y : Fin n → ℝ) (k : LossKind) (pen : Pen) (j : Fin p) :
    |(prob1 D y k pen).G (fun _ => 0) j| = k.atZero * |corr D y j| := by
  show |gradOf D.matrix y k (fit D.matrix fun _ => 0) j| = _
  rw [fit_zero]
  cases k with
  | quadratic =>
    show |quadGrad D.matrix y _ j| = 1 * _
    rw [quadGrad_zero, one_mul]
    unfold corr
    rw [abs_div, Nat.abs_cast]
  | logistic =>
    show |logGrad D.matrix y _ j| = 1 / 2 * _
    have e : logGrad D.matrix y (fun _ => 0) j = -(corr D y j / 2) := by
      unfold logGrad corr
      have : sigm 0 = 1 / 2 := by unfold sigm; norm_num
      simp only [mul_zero, this]
      rw [div_div, mul_comm (n : ℝ) 2, ← div_div, ← neg_div, Finset.sum_div]
      congr 2
      exact Finset.sum_congr rfl fun i _ => by rw [mul_one_div, mul_div_assoc]
    rw [e, abs_neg, abs_div, abs_two]
    ring

theorem score_at_zero (D : Design n p) (y : Fin n → ℝ) (k : LossKind) {pen : Pen} (hne : ∀ α, pen ≠ .l05 α) (j : Fin p) :
    (prob1 D y k pen).sc 0 ((prob1 D y k pen).G (fun _ => 0) j) = max 0 (k.atZero * |corr D y j| - pen.slope) := by
  rw [← grad_at_zero D y k pen j]
  show scoreOf pen 0 _ = _
  cases pen with
  | l1 α => show l1Score α 0 _ = _; unfold l1Score; rw [if_pos rfl]; rfl
  | enet α ρ => show enetScore α ρ 0 _ = _; unfold enetScore; rw [if_pos rfl]; rfl
  | mcp α γ => show mcpScore α γ 0 _ = _; unfold mcpScore; rw [if_pos rfl]; rfl
  | l05 α => exact absurd rfl (hne α)

theorem conc_bounds {L : Fin p → ℝ} {m : ℝ} (h : ∀ j, L j ≠ 0 → m < L j) : ∃ μ, 0 < μ ∧ ∀ j, L j ≠ 0 → μ + m ≤ L j := by
  have key : ∀ s : Finset (Fin p), ∃ μ, 0 < μ ∧ ∀ j ∈ s, L j ≠ 0 → μ + m ≤ L j := by
    intro s
    induction s using Finset.induction_on with
    | empty => exact ⟨1, one_pos, by simp⟩
    | insert a s ha ih =>
      obtain ⟨μ, h1, h2⟩ := ih
      by_cases h0 : L a = 0
      · exact ⟨μ, h1, fun j hj hn => (Finset.mem_insert.mp hj).elim (fun e => absurd (e ▸ h0) hn) fun e => h2 j e hn⟩
      · have h3 := h a h0
        refine ⟨min μ (L a - m), lt_min h1 (by linarith), fun j hj hn => ?_⟩
        rcases Finset.mem_insert.mp hj with rfl | e
        · have := min_le_right μ (L j - m); linarith
        · have := min_le_left μ (L a - m); have := h2 j e hn; linarith
  obtain ⟨μ, h1, h2⟩ := key Finset.univ
  exact ⟨μ, h1, fun j => h2 j (Finset.mem_univ j)⟩

theorem lip_bound (D : Design n p) (k : LossKind) : ∃ Λ, 0 < Λ ∧ ∀ j, lipschitz D k j ≤ Λ := by
  have h0 : 0 ≤ ∑ i, |lipschitz D k i| := Finset.sum_nonneg fun i _ => abs_nonneg _
  refine ⟨∑ i, |lipschitz D k i| + 1, by linarith, fun j => ?_⟩
  have := Finset.single_le_sum (f := fun i => |lipschitz D k i|) (fun _ _ => abs_nonneg _) (Finset.mem_univ j)
  have h2 := le_abs_self (lipschitz D k j)
  linarith

theorem lip_nonneg (D : Design n p) (hD : D.Canonical) (k : LossKind) (j : Fin p) : 0 ≤ lipschitz D k j := by
  rw [← stepsOf_lipschitz D hD]
  exact stepsOf_nonneg D k j

/-- **Strict improvement**: if the correlation of some feature exceeds `alpha` (`alpha * l1_ratio`) by more than the tolerance, the
objective of the result is smaller than the objective of zero, by a multiple of the squared excess of every feature. -/
theorem C91_improves (hn : 0 < n) (D : Design n p) (hD : D.Canonical) (y : Fin n → ℝ) (k : LossKind) (hy : k.LabelsOK y) (pen : Pen)
    (hv : pen.Valid) (hne : ∀ α, pen ≠ .l05 α) (μ Λ : ℝ) (hμ0 : 0 < μ)
    (hμ : ∀ j, lipschitz D k j ≠ 0 → μ + pen.concavity ≤ lipschitz D k j) (hΛ0 : 0 < Λ) (hΛ : ∀ j, lipschitz D k j ≤ Λ)
    {srt : Argsort XR} (hs : ArgsortSpec srt) (cfg : Solver XR) (τ : ℝ) (hτ : 0 ≤ τ) (ht : cfg.tolerance = XR.fin τ)
    (hw : 0 < cfg.wsStartSize) (he : 0 < cfg.maxEpochs) (hi : 0 < cfg.maxIterations) (v : Fin p → ℝ)
    (h : solve1 srt cfg D y k pen = .ok (vec v)) (hbig : ∃ j, pen.slope + τ < k.atZero * |corr D y j|) (j : Fin p) :
    μ * max 0 (k.atZero * |corr D y j| - pen.slope) ^ 2 ≤
      2 * p * (2 * Λ + pen.modulus) ^ 2 * (objective1 D y k pen (fun _ => 0) - objective1 D y k pen v) := by
  have H := prob1_weak hn D hD y k hy pen hv (stepOK_of_conc hv hμ0 hμ) hne
  rw [solve1_eq hs hn D y k pen hv] at h
  cases hr : (prob1 D y k pen).run srt cfg with
  | error e => rw [hr] at h; cases h
  | ok q =>
    obtain ⟨v', m⟩ := q
    rw [hr] at h
    have : v' = v := vec_injective (Except.ok.inj h)
    subst this
    have key := (RProb.run_null (R := prob1 D y k pen) (d := (prob1 D y k pen).sc) H
      (by cases pen <;> first | exact Or.inl rfl | exact absurd rfl (hne _)) hμ0
      (fun j hj => by
        have := hμ j (by rw [← stepsOf_lipschitz D hD]; exact hj)
        rw [← stepsOf_lipschitz D hD] at this
        exact this) hΛ0
      (fun j => by
        have := hΛ j
        rw [← stepsOf_lipschitz D hD] at this
        exact this) hτ hs cfg ht hw (Or.inl fun g g' a => a) he hi v' m hr).2 (by
      obtain ⟨i, hi⟩ := hbig
      refine ⟨i, ?_⟩
      rw [score_at_zero D y k hne]
      exact lt_of_lt_of_le (by linarith) (le_max_right _ _)) j
    rw [score_at_zero D y k hne] at key
    exact key

/-- **The null model, exactly**: a fit (Lasso, elastic net, MCP, logistic) returns zeros if and only if the largest correlation of a
feature with the targets is at most `alpha` (`alpha * l1_ratio`) plus the tolerance. -/
theorem C91_null (hn : 0 < n) (D : Design n p) (hD : D.Canonical) (y : Fin n → ℝ) (k : LossKind) (hy : k.LabelsOK y) (pen : Pen)
    (hv : pen.Valid) (hne : ∀ α, pen ≠ .l05 α) (hconc : ∀ j, lipschitz D k j ≠ 0 → pen.concavity < lipschitz D k j)
    {srt : Argsort XR} (hs : ArgsortSpec srt) (cfg : Solver XR) (τ : ℝ) (hτ : 0 ≤ τ) (ht : cfg.tolerance = XR.fin τ)
    (hw : 0 < cfg.wsStartSize) (he : 0 < cfg.maxEpochs) (hi : 0 < cfg.maxIterations) (v : Fin p → ℝ)
    (h : solve1 srt cfg D y k pen = .ok (vec v)) :
    (∀ j, v j = 0) ↔ ∀ j, k.atZero * |corr D y j| ≤ pen.slope + τ := by
  obtain ⟨μ, hμ0, hμ⟩ := conc_bounds hconc
  obtain ⟨Λ, hΛ0, hΛ⟩ := lip_bound D k
  constructor
  · intro h0
    by_contra hc
    push Not at hc
    obtain ⟨i, hi'⟩ := hc
    have key := C91_improves hn D hD y k hy pen hv hne μ Λ hμ0 hμ hΛ0 hΛ hs cfg τ hτ ht hw he hi v h ⟨i, hi'⟩ i
    have e : v = fun _ => 0 := funext h0
    rw [e, sub_self, mul_zero] at key
    have h1 : 0 < max 0 (k.atZero * |corr D y i| - pen.slope) := lt_of_lt_of_le (by linarith) (le_max_right _ _)
    have : 0 < μ * max 0 (k.atZero * |corr D y i| - pen.slope) ^ 2 := by positivity
    linarith
  · intro hall
    have H := prob1_weak hn D hD y k hy pen hv (stepOK_of_conc hv hμ0 hμ) hne
    rw [solve1_eq hs hn D y k pen hv] at h
    cases hr : (prob1 D y k pen).run srt cfg with
    | error e => rw [hr] at h; cases h
    | ok q =>
      obtain ⟨v', m⟩ := q
      rw [hr] at h
      have : v' = v := vec_injective (Except.ok.inj h)
      subst this
      have key := (RProb.run_null (R := prob1 D y k pen) (d := (prob1 D y k pen).sc) H
        (by cases pen <;> first | exact Or.inl rfl | exact absurd rfl (hne _)) hμ0
        (fun j hj => by
          have := hμ j (by rw [← stepsOf_lipschitz D hD]; exact hj)
          rw [← stepsOf_lipschitz D hD] at this
          exact this) hΛ0
        (fun j => by
          have := hΛ j
          rw [← stepsOf_lipschitz D hD] at this
          exact this) hτ hs cfg ht hw (Or.inl fun g g' a => a) he hi v' m hr).1 (fun j => by
        rw [score_at_zero D y k hne]
        exact max_le hτ (by linarith [hall j]))
      intro j
      rw [key]

/-! ### Several tasks -/

theorem gradMT_at_zero (D : Design n p) (Y : Fin n → Fin T → ℝ) (pen : BPen) (j : Fin p) :
    ‖(probMT D Y pen).G (fun _ => 0) j‖ = ‖corrMT D Y j‖ := by
  show ‖(WithLp.toLp 2 (mtGrad D.matrix Y (fitMT D.matrix fun _ _ => 0) j) : Euc T)‖ = _
  rw [fitMT_zero, ← norm_neg]
  congr 1
  ext t
  show -((∑ i, D.matrix i j * 0 - ∑ i, D.matrix i j * Y i t) / (n : ℝ)) = (∑ i, D.matrix i j * Y i t) / n
  simp only [mul_zero, Finset.sum_const_zero]
  ring

theorem bpen_dist_zero {pen : BPen} (hv : pen.Valid) (g : Euc T) : frechetDist pen.fn 0 g = max 0 (‖g‖ - pen.slope) := by
  cases pen with
  | l21 α =>
    have hf : frechetSubdiff ((BPen.l21 α).fn : Euc T → ℝ) 0 = Metric.closedBall 0 α := by
      have : ((BPen.l21 α).fn : Euc T → ℝ) = pen2 α 0 := by
        funext z; show α * ‖z‖ = α * ‖z‖ + 0 * ‖z‖ ^ 2 / 2; ring
      rw [this]; exact pen2_zero (le_of_lt hv) le_rfl
    exact frechetDist_zero (le_of_lt hv) hf g
  | mcp α γ => exact frechetDist_zero hv.1 (frechet_mcp_zero hv.1 hv.2) g
  | enet α ρ =>
    obtain ⟨v1, v2, v3⟩ := hv
    have hf : frechetSubdiff ((BPen.enet α ρ).fn : Euc T → ℝ) 0 = Metric.closedBall 0 (α * ρ) := by
      have : ((BPen.enet α ρ).fn : Euc T → ℝ) = pen2 (α * ρ) (α * (1 - ρ)) := by
        funext z; show enet α ρ z = α * ρ * ‖z‖ + α * (1 - ρ) * ‖z‖ ^ 2 / 2; unfold enet; ring
      rw [this]; exact pen2_zero (mul_nonneg v1.le v2.le) (mul_nonneg v1.le (by linarith))
    exact frechetDist_zero (mul_nonneg v1.le v2.le) hf g

/-- **Several tasks**: with the stopping test of the code at zero (`bscore`, which for the block elastic net compares the *squared* norm):
if it is met the result is zero; if not, the objective decreases by a multiple of the squared excess of every feature. -/
theorem null_mt (hn : 0 < n) (D : Design n p) (hD : D.Canonical) (Y : Fin n → Fin T → ℝ) (pen : BPen) (hv : pen.Valid)
    (μ Λ : ℝ) (hμ0 : 0 < μ) (hμ : ∀ j, lipschitz D .quadratic j ≠ 0 → μ + pen.concavity ≤ lipschitz D .quadratic j)
    (hΛ0 : 0 < Λ) (hΛ : ∀ j, lipschitz D .quadratic j ≤ Λ)
    {srt : Argsort XR} (hs : ArgsortSpec srt) (cfg : Solver XR) (τ : ℝ) (hτ : 0 ≤ τ) (ht : cfg.tolerance = XR.fin τ)
    (hw : 0 < cfg.wsStartSize) (ho : pen.OrdersZeros ∨ p ≤ cfg.wsStartSize) (he : 0 < cfg.maxEpochs) (hi : 0 < cfg.maxIterations)
    (V : Fin p → Euc T) (h : solveMT srt cfg D Y pen = .ok (emat V)) :
    ((∀ j, bscoreOf pen 0 ((probMT D Y pen).G (fun _ => 0) j) ≤ τ) → V = fun _ => 0) ∧
    ((∃ j, τ < bscoreOf pen 0 ((probMT D Y pen).G (fun _ => 0) j)) → ∀ j, μ * max 0 (‖corrMT D Y j‖ - pen.slope) ^ 2 ≤
      2 * p * (2 * Λ + pen.modulus) ^ 2 * (objectiveMT D Y pen (fun _ => 0) - objectiveMT D Y pen V)) := by
  have H := probMT_weak_all hn D hD Y pen hv (bstepOK_of_conc hv hμ0 hμ)
  rw [solveMT_eq hs hn D Y pen hv] at h
  cases hr : (probMT D Y pen).run srt cfg with
  | error e => rw [hr] at h; cases h
  | ok q =>
    obtain ⟨V', m⟩ := q
    rw [hr] at h
    have : V' = V := emat_injective (Except.ok.inj h)
    subst this
    have key := RProb.run_null (R := probMT D Y pen) H (Or.inl rfl) hμ0
      (fun j hj => by
        have := hμ j (by rw [← stepsOf_lipschitz D hD]; exact hj)
        rw [← stepsOf_lipschitz D hD] at this
        exact this) hΛ0
      (fun j => by
        have := hΛ j
        rw [← stepsOf_lipschitz D hD] at this
        exact this) hτ hs cfg ht hw (ho.imp (fun ho g g' => bscore_order_le hv ho g g') id) he hi V' m hr
    refine ⟨key.1, fun hb j => ?_⟩
    have := key.2 hb j
    rw [bpen_dist_zero hv, gradMT_at_zero] at this
    exact this

theorem bscore_at_zero (D : Design n p) (Y : Fin n → Fin T → ℝ) {pen : BPen} (hne : ∀ α ρ, pen ≠ .enet α ρ) (j : Fin p) :
    bscoreOf pen 0 ((probMT D Y pen).G (fun _ => 0) j) = max 0 (‖corrMT D Y j‖ - pen.slope) := by
  rw [← gradMT_at_zero D Y pen j]
  cases pen with
  | l21 α => show l21Score α 0 _ = _; unfold l21Score; rw [if_pos rfl]; rfl
  | mcp α γ => show blockMcpScore α γ 0 _ = _; unfold blockMcpScore; rw [if_pos rfl]; rfl
  | enet α ρ => exact absurd rfl (hne α ρ)

/-- The multi-task Lasso and MCP return zeros exactly if no feature has a correlation of norm above `alpha` plus the tolerance;
otherwise the objective decreases. -/
theorem C91_multitask (hn : 0 < n) (D : Design n p) (hD : D.Canonical) (Y : Fin n → Fin T → ℝ) (pen : BPen) (hv : pen.Valid)
    (hne : ∀ α ρ, pen ≠ .enet α ρ) (hconc : ∀ j, lipschitz D .quadratic j ≠ 0 → pen.concavity < lipschitz D .quadratic j)
    {srt : Argsort XR} (hs : ArgsortSpec srt) (cfg : Solver XR) (τ : ℝ) (hτ : 0 ≤ τ) (ht : cfg.tolerance = XR.fin τ)
    (hw : 0 < cfg.wsStartSize) (he : 0 < cfg.maxEpochs) (hi : 0 < cfg.maxIterations) (V : Fin p → Euc T)
    (h : solveMT srt cfg D Y pen = .ok (emat V)) :
    ((∀ j, V j = 0) ↔ ∀ j, ‖corrMT D Y j‖ ≤ pen.slope + τ) ∧
    ((∃ j, pen.slope + τ < ‖corrMT D Y j‖) → objectiveMT D Y pen V < objectiveMT D Y pen (fun _ => 0)) := by
  obtain ⟨μ, hμ0, hμ⟩ := conc_bounds hconc
  obtain ⟨Λ, hΛ0, hΛ⟩ := lip_bound D .quadratic
  have ho : pen.OrdersZeros := by cases pen <;> first | trivial | exact absurd rfl (hne _ _)
  obtain ⟨k1, k2⟩ := null_mt hn D hD Y pen hv μ Λ hμ0 hμ hΛ0 hΛ hs cfg τ hτ ht hw (Or.inl ho) he hi V h
  simp only [bscore_at_zero D Y hne] at k1 k2
  have dec : (∃ j, pen.slope + τ < ‖corrMT D Y j‖) → objectiveMT D Y pen V < objectiveMT D Y pen (fun _ => 0) := by
    rintro ⟨j, hj⟩
    have h1 : τ < max 0 (‖corrMT D Y j‖ - pen.slope) := lt_of_lt_of_le (by linarith) (le_max_right _ _)
    have h2 := k2 ⟨j, h1⟩ j
    have h3 : 0 < μ * max 0 (‖corrMT D Y j‖ - pen.slope) ^ 2 := by
      have : 0 < max 0 (‖corrMT D Y j‖ - pen.slope) := lt_of_le_of_lt hτ h1
      positivity
    exact sub_pos.mp (pos_of_mul_pos_right (lt_of_lt_of_le h3 h2) (by positivity))
  refine ⟨⟨fun h0 => ?_, fun hall j => ?_⟩, dec⟩
  · by_contra hc
    push Not at hc
    have := dec hc
    rw [show V = fun _ => 0 from funext h0] at this
    exact lt_irrefl _ this
  · rw [k1 fun j => max_le hτ (by linarith [hall j])]

/-- The block elastic net stops at zero as soon as every *squared* norm is at most `alpha * l1_ratio` plus the tolerance; if some
squared norm is larger, and some norm is larger than `alpha * l1_ratio`, the objective decreases. -/
theorem C91_block_enet (hn : 0 < n) (D : Design n p) (hD : D.Canonical) (Y : Fin n → Fin T → ℝ) (α ρ : ℝ)
    (hv : (BPen.enet α ρ).Valid) {srt : Argsort XR} (hs : ArgsortSpec srt) (cfg : Solver XR) (τ : ℝ) (hτ : 0 ≤ τ)
    (ht : cfg.tolerance = XR.fin τ) (hw : 0 < cfg.wsStartSize) (ho : 1 ≤ α * ρ ∨ p ≤ cfg.wsStartSize) (he : 0 < cfg.maxEpochs)
    (hi : 0 < cfg.maxIterations) (V : Fin p → Euc T) (h : solveMT srt cfg D Y (.enet α ρ) = .ok (emat V)) :
    ((∀ j, ‖corrMT D Y j‖ ^ 2 ≤ α * ρ + τ) → ∀ j, V j = 0) ∧
    ((∃ j, α * ρ + τ < ‖corrMT D Y j‖ ^ 2) → (∃ j, α * ρ < ‖corrMT D Y j‖) →
      objectiveMT D Y (.enet α ρ) V < objectiveMT D Y (.enet α ρ) (fun _ => 0)) := by
  have hL : ∀ j, lipschitz D .quadratic j ≠ 0 → (BPen.enet α ρ).concavity < lipschitz D .quadratic j := fun j hj =>
    lt_of_le_of_ne (lip_nonneg D hD .quadratic j) (Ne.symm hj)
  obtain ⟨μ, hμ0, hμ⟩ := conc_bounds hL
  obtain ⟨Λ, hΛ0, hΛ⟩ := lip_bound D .quadratic
  obtain ⟨k1, k2⟩ := null_mt hn D hD Y _ hv μ Λ hμ0 hμ hΛ0 hΛ hs cfg τ hτ ht hw ho he hi V h
  have e : ∀ j, bscoreOf (.enet α ρ) 0 ((probMT D Y (.enet α ρ)).G (fun _ => 0) j) = max 0 (‖corrMT D Y j‖ ^ 2 - α * ρ) := fun j => by
    rw [← gradMT_at_zero D Y (.enet α ρ) j]
    show blockEnetScore α ρ 0 _ = _
    unfold blockEnetScore
    rw [if_pos rfl]
  simp only [e] at k1 k2
  refine ⟨fun hall j => ?_, fun ⟨i, hi⟩ ⟨j, hj⟩ => ?_⟩
  · rw [k1 fun j => max_le hτ (by linarith [hall j])]
  · have h2 := k2 ⟨i, lt_of_lt_of_le (by linarith) (le_max_right _ _)⟩ j
    have h3 : 0 < μ * max 0 (‖corrMT D Y j‖ - (BPen.enet α ρ).slope) ^ 2 := by
      have : 0 < max 0 (‖corrMT D Y j‖ - (BPen.enet α ρ).slope) :=
        lt_of_lt_of_le (by show 0 < ‖corrMT D Y j‖ - α * ρ; linarith) (le_max_right _ _)
      positivity
    exact sub_pos.mp (pos_of_mul_pos_right (lt_of_lt_of_le h3 h2) (by positivity))

/-! ### `alpha_max` -/

/-- **`Lasso::fit` and `compute_alpha_max`**: the fitted coefficients are all zero if and only if
`compute_alpha_max(X, y) ≤ alpha + tolerance`. -/
theorem C91_lasso (hn : 0 < n) (D : Design n p) (hD : D.Canonical) (y : Fin n → ℝ) (α τ a : ℝ) (hα : 0 ≤ α) (hτ : 0 ≤ τ)
    {srt : Argsort XR} (hs : ArgsortSpec srt) (ps : LassoParams XR) (hps : ps.checkRef = .ok ps) (ha : ps.alpha = XR.fin α)
    (ht : ps.tolerance = XR.fin τ) (he : 0 < ps.maxEpochs) (hi : 0 < ps.maxIterations)
    (hmax : computeAlphaMax (mat D.matrix) (vec y) = .ok (XR.fin a)) (v : Fin p → ℝ) (h : fitLasso srt ps D y = .ok (.ok (vec v))) :
    (∀ j, v j = 0) ↔ a ≤ α + τ := by
  have h2 := checkTail_pos (τ := ps.tolerance) (a := ps) (b := ps) (K := ps.K) (ws := ps.wsStartSize) (by
    have h := hps
    unfold LassoParams.checkRef at h
    split at h
    · cases h
    · exact h)
  rw [fitLasso_eq srt ps α ha] at h
  rw [C91_null hn D hD y .quadratic trivial (.l1 α) hα (fun _ => by simp)
    (fun j hj => lt_of_le_of_ne (lip_nonneg D hD .quadratic j) (Ne.symm hj)) hs ps.solver τ hτ ht h2.2 he hi v (guarded_ok_eq h)]
  rw [alphaMax_eq hn] at hmax
  injection hmax with hmax
  injection hmax with hmax
  have hn' : (0 : ℝ) < n := by exact_mod_cast hn
  rw [← hmax, div_le_iff₀ hn', absMax_le _ (by positivity)]
  refine forall_congr' fun j => ?_
  show 1 * |(∑ i, D.matrix i j * y i) / (n : ℝ)| ≤ α + τ ↔ _
  rw [one_mul, abs_div, Nat.abs_cast, div_le_iff₀ hn']

/-- The same for `MultiTaskLasso::fit` and `compute_alpha_max_mtl`. -/
theorem C91_lasso_mt (hn : 0 < n) (D : Design n p) (hD : D.Canonical) (Y : Fin n → Fin T → ℝ) (α τ a : ℝ) (hα : 0 < α) (hτ : 0 ≤ τ)
    {srt : Argsort XR} (hs : ArgsortSpec srt) (ps : LassoParams XR) (hps : ps.checkRef = .ok ps) (ha : ps.alpha = XR.fin α)
    (ht : ps.tolerance = XR.fin τ) (he : 0 < ps.maxEpochs) (hi : 0 < ps.maxIterations)
    (hmax : computeAlphaMaxMtl (mat D.matrix) (mat Y) = .ok (XR.fin a)) (V : Fin p → Euc T)
    (h : fitMTLasso srt ps D Y = .ok (.ok (emat V))) : (∀ j, V j = 0) ↔ a ≤ α + τ := by
  have h2 := checkTail_pos (τ := ps.tolerance) (a := ps) (b := ps) (K := ps.K) (ws := ps.wsStartSize) (by
    have h := hps
    unfold LassoParams.checkRef at h
    split at h
    · cases h
    · exact h)
  rw [fitMTLasso_eq srt ps α ha] at h
  rw [(C91_multitask hn D hD Y (.l21 α) hα (fun _ _ => by simp)
    (fun j hj => lt_of_le_of_ne (lip_nonneg D hD .quadratic j) (Ne.symm hj)) hs ps.solver τ hτ ht h2.2 he hi V (guarded_ok_eq h)).1]
  rw [alphaMaxMtl_eq hn] at hmax
  injection hmax with hmax
  injection hmax with hmax
  have hn' : (0 : ℝ) < n := by exact_mod_cast hn
  rw [← hmax, div_le_iff₀ hn', absMax_le _ (by positivity)]
  refine forall_congr' fun j => ?_
  show ‖corrMT D Y j‖ ≤ α + τ ↔ _
  have e : ‖corrMT D Y j‖ = nrm (fun t => ∑ i, D.matrix i j * Y i t) / n := by
    rw [EuclideanSpace.norm_eq]
    unfold corrMT nrm
    simp only [Real.norm_eq_abs, sq_abs, div_pow, ← Finset.sum_div]
    rw [Real.sqrt_div' _ (sq_nonneg _), Real.sqrt_sq hn'.le]
  rw [e, div_le_iff₀ hn', abs_of_nonneg (show 0 ≤ nrm _ from Real.sqrt_nonneg _)]

/-! ### Examples -/

theorem solve1_plain_ok {srt : Argsort XR} (hs : ArgsortSpec srt) (hn : 0 < n) (D : Design n p) (y : Fin n → ℝ) (k : LossKind)
    (pen : Pen) (hv : pen.Valid) (cfg : Solver XR) (hu : cfg.useAcceleration = false) :
    ∃ v : Fin p → ℝ, solve1 srt cfg D y k pen = .ok (vec v) := by
  obtain ⟨v, m, h⟩ := (prob1 D y k pen).run_ok hs cfg (by simp [hu])
  exact ⟨v, by rw [solve1_eq hs hn D y k pen hv, h]; rfl⟩

theorem solveMT_plain_ok {srt : Argsort XR} (hs : ArgsortSpec srt) (hn : 0 < n) (D : Design n p) (Y : Fin n → Fin T → ℝ)
    (pen : BPen) (hv : pen.Valid) (cfg : Solver XR) (hu : cfg.useAcceleration = false) :
    ∃ V : Fin p → Euc T, solveMT srt cfg D Y pen = .ok (emat V) := by
  obtain ⟨v, m, h⟩ := (probMT D Y pen).run_ok hs cfg (by simp [hu])
  exact ⟨v, by rw [solveMT_eq hs hn D Y pen hv, h]; rfl⟩

theorem cvD_lip (k : LossKind) : lipschitz cvD k 0 = (match k with | .quadratic => 5 | .logistic => 5 / 4) ∧
    lipschitz cvD k 1 = (match k with | .quadratic => 5 / 2 | .logistic => 5 / 8) := by
  cases k <;> constructor <;> norm_num [lipschitz, cvD, Design.matrix, Fin.sum_univ_two]

theorem cvD_corr : corr cvD ![1, -2] 0 = -5 / 2 ∧ corr cvD ![1, -2] 1 = 0 := by
  constructor <;> norm_num [corr, cvD, Design.matrix, Fin.sum_univ_two]

-- MCP: `alpha_max = 5/2`; with tolerance `1/4` the fit is null at `alpha = 9/4` and not at `alpha = 2`
example : ∃ v w : Fin 2 → ℝ,
    solve1 argsortIns ⟨1, 1, 1, XR.fin (1 / 4), 5, false, true⟩ cvD ![1, -2] .quadratic (.mcp (9 / 4) 1) = .ok (vec v) ∧
    solve1 argsortIns ⟨1, 1, 1, XR.fin (1 / 4), 5, false, true⟩ cvD ![1, -2] .quadratic (.mcp 2 1) = .ok (vec w) ∧
    (∀ j, v j = 0) ∧ ¬ ∀ j, w j = 0 := by
  have hv : (Pen.mcp (9 / 4) 1).Valid := ⟨by norm_num, by norm_num⟩
  have hw : (Pen.mcp 2 1).Valid := ⟨by norm_num, by norm_num⟩
  obtain ⟨v, h1⟩ := solve1_plain_ok argsortIns_spec two_pos cvD ![1, -2] .quadratic _ hv ⟨1, 1, 1, XR.fin (1 / 4), 5, false, true⟩ rfl
  obtain ⟨w, h2⟩ := solve1_plain_ok argsortIns_spec two_pos cvD ![1, -2] .quadratic _ hw ⟨1, 1, 1, XR.fin (1 / 4), 5, false, true⟩ rfl
  have hc : ∀ α, ∀ j, lipschitz cvD .quadratic j ≠ 0 → (Pen.mcp α 1).concavity < lipschitz cvD .quadratic j := by
    intro α j _
    have := cvD_lip .quadratic
    fin_cases j
    · exact lt_of_lt_of_eq (by norm_num [Pen.concavity]) this.1.symm
    · exact lt_of_lt_of_eq (by norm_num [Pen.concavity]) this.2.symm
  refine ⟨v, w, h1, h2, ?_, ?_⟩
  · rw [C91_null two_pos cvD trivial _ .quadratic trivial _ hv (fun _ => by simp) (hc _) argsortIns_spec _ (1 / 4) (by norm_num) rfl
      one_pos one_pos one_pos v h1]
    intro j
    fin_cases j
    · show 1 * |corr cvD ![1, -2] 0| ≤ 9 / 4 + 1 / 4
      rw [cvD_corr.1]; norm_num [abs_div]
    · show 1 * |corr cvD ![1, -2] 1| ≤ 9 / 4 + 1 / 4
      rw [cvD_corr.2]; norm_num
  · rw [C91_null two_pos cvD trivial _ .quadratic trivial _ hw (fun _ => by simp) (hc _) argsortIns_spec _ (1 / 4) (by norm_num) rfl
      one_pos one_pos one_pos w h2]
    intro h
    have h : 1 * |corr cvD ![1, -2] 0| ≤ 2 + 1 / 4 := h 0
    rw [cvD_corr.1] at h
    norm_num [abs_div] at h

-- one iteration of logistic regression: the objective falls below its value at zero by `1/500`
example : ∃ v : Fin 2 → ℝ,
    solve1 argsortIns ⟨1, 1, 1, XR.fin (1 / 4), 5, false, true⟩ cvD ![1, -1] .logistic (.l1 (1 / 10)) = .ok (vec v) ∧
    objective1 cvD ![1, -1] .logistic (.l1 (1 / 10)) v + 1 / 500 ≤ objective1 cvD ![1, -1] .logistic (.l1 (1 / 10)) (fun _ => 0) := by
  have hv : (Pen.l1 (1 / 10)).Valid := by norm_num [Pen.Valid]
  obtain ⟨v, h1⟩ := solve1_plain_ok argsortIns_spec two_pos cvD ![1, -1] .logistic _ hv ⟨1, 1, 1, XR.fin (1 / 4), 5, false, true⟩ rfl
  have e : corr cvD ![1, -1] 0 = -1 := by norm_num [corr, cvD, Design.matrix, Fin.sum_univ_two]
  have hl := cvD_lip .logistic
  have := C91_improves two_pos cvD trivial ![1, -1] .logistic (by intro i; fin_cases i <;> simp) _ hv (fun _ => by simp) (5 / 8) (5 / 4)
    (by norm_num) (fun j _ => by
      show 5 / 8 + 0 ≤ lipschitz cvD .logistic j
      fin_cases j
      · exact le_of_le_of_eq (by norm_num) hl.1.symm
      · exact le_of_le_of_eq (by norm_num) hl.2.symm) (by norm_num) (fun j => by
      fin_cases j
      · exact le_of_eq_of_le hl.1 (by norm_num)
      · exact le_of_eq_of_le hl.2 (by norm_num)) argsortIns_spec _ (1 / 4) (by norm_num) rfl one_pos one_pos one_pos v h1
    ⟨0, by
      show 1 / 10 + 1 / 4 < 1 / 2 * |corr cvD ![1, -1] 0|
      rw [e]; norm_num⟩ 0
  refine ⟨v, h1, ?_⟩
  rw [e] at this
  have this : 5 / 8 * max 0 (1 / 2 * |(-1 : ℝ)| - 1 / 10) ^ 2 ≤ 2 * (2 : ℕ) * (2 * (5 / 4) + 0) ^ 2 *
    (objective1 cvD ![1, -1] .logistic (.l1 (1 / 10)) (fun _ => 0) - objective1 cvD ![1, -1] .logistic (.l1 (1 / 10)) v) := this
  norm_num at this
  linarith

-- the multi-task Lasso
example : ∃ V : Fin 2 → Euc 2,
    solveMT argsortIns ⟨1, 1, 1, XR.fin (1 / 4), 5, false, true⟩ cvD ![![1, 0], ![-2, 0]] (.l21 2) = .ok (emat V) ∧ ¬ ∀ j, V j = 0 := by
  have hv : (BPen.l21 2).Valid := by norm_num [BPen.Valid]
  obtain ⟨V, h1⟩ := solveMT_plain_ok argsortIns_spec two_pos cvD ![![1, 0], ![-2, 0]] _ hv ⟨1, 1, 1, XR.fin (1 / 4), 5, false, true⟩ rfl
  refine ⟨V, h1, ?_⟩
  rw [(C91_multitask two_pos cvD trivial _ _ hv (fun _ _ => by simp) (fun j hj =>
    lt_of_le_of_ne (lip_nonneg cvD trivial .quadratic j) (Ne.symm hj)) argsortIns_spec _ (1 / 4) (by norm_num) rfl one_pos one_pos
    one_pos V h1).1]
  intro h
  have h : ‖corrMT cvD ![![1, 0], ![-2, 0]] 0‖ ≤ 2 + 1 / 4 := h 0
  have e := PiLp.norm_apply_le (corrMT cvD ![![1, 0], ![-2, 0]] 0) 0
  have e2 : (corrMT cvD ![![1, 0], ![-2, 0]] 0) 0 = -5 / 2 := by
    show (∑ i : Fin 2, cvD.matrix i 0 * (![![1, 0], ![-2, 0]] : Fin 2 → Fin 2 → ℝ) i 0) / ((2 : ℕ) : ℝ) = _
    norm_num [cvD, Design.matrix, Fin.sum_univ_two]
  rw [e2, Real.norm_eq_abs] at e
  norm_num [abs_div] at e
  linarith

-- the block elastic net at zero although a feature has a correlation above `alpha * l1_ratio`: `5/8 < ‖corr‖ = 3/4`, `‖corr‖² < 5/8`
example : ∃ V : Fin 1 → Euc 1,
    solveMT argsortIns ⟨1, 9, 9, XR.fin 0, 5, false, true⟩ oneD (fun _ (_ : Fin 1) => 3 / 4) (.enet 1 (5 / 8)) = .ok (emat V) ∧
    (∀ j, V j = 0) ∧ 5 / 8 < ‖corrMT oneD (fun _ (_ : Fin 1) => 3 / 4) 0‖ := by
  have hv : (BPen.enet 1 (5 / 8)).Valid := ⟨by norm_num, by norm_num, by norm_num⟩
  obtain ⟨V, h1⟩ := solveMT_plain_ok argsortIns_spec one_pos oneD (fun _ (_ : Fin 1) => 3 / 4) _ hv ⟨1, 9, 9, XR.fin 0, 5, false, true⟩ rfl
  have e : ∀ j, ‖corrMT oneD (fun _ (_ : Fin 1) => 3 / 4) j‖ = 3 / 4 := by
    intro j
    rw [EuclideanSpace.norm_eq]
    simp only [corrMT, Real.norm_eq_abs, sq_abs, oneD, Design.matrix, Finset.univ_unique, Finset.sum_singleton, Nat.cast_one, div_one,
      one_mul]
    rw [Real.sqrt_sq (by norm_num)]
  refine ⟨V, h1, (C91_block_enet one_pos oneD trivial _ 1 (5 / 8) hv argsortIns_spec _ 0 le_rfl rfl one_pos (Or.inr le_rfl) (by norm_num)
    (by norm_num) V h1).1 fun j => ?_, ?_⟩ <;> rw [e] <;> norm_num

-- `Lasso::fit` at tolerance `1/4`: null at `alpha = 9/4`, as `compute_alpha_max = 5/2`
example : ∃ v : Fin 2 → ℝ,
    fitLasso argsortIns ⟨XR.fin (9 / 4), 5, 5, 2, XR.fin (1 / 4), 5, false, true⟩ cvD ![1, -2] = .ok (.ok (vec v)) ∧ ∀ j, v j = 0 := by
  have hps : LassoParams.checkRef (⟨XR.fin (9 / 4), 5, 5, 2, XR.fin (1 / 4), 5, false, true⟩ : LassoParams XR) =
      .ok ⟨XR.fin (9 / 4), 5, 5, 2, XR.fin (1 / 4), 5, false, true⟩ := by
    have e0 : (signBit (XR.fin (9 / 4)) : Bool) = false := by
      show decide ((9 / 4 : ℝ) < 0) = false
      norm_num
    have e1 : (signBit (XR.fin (1 / 4)) : Bool) = false := by
      show decide ((1 / 4 : ℝ) < 0) = false
      simp
    unfold LassoParams.checkRef checkTail
    simp only [e0, e1]
    rfl
  obtain ⟨v, h⟩ := solve1_plain_ok argsortIns_spec two_pos cvD ![1, -2] .quadratic (.l1 (9 / 4))
    (show (0 : ℝ) ≤ 9 / 4 by norm_num)
    (LassoParams.solver ⟨XR.fin (9 / 4), 5, 5, 2, XR.fin (1 / 4), 5, false, true⟩) rfl
  have hf : fitLasso argsortIns ⟨XR.fin (9 / 4), 5, 5, 2, XR.fin (1 / 4), 5, false, true⟩ cvD ![1, -2] = .ok (.ok (vec v)) := by
    rw [fitLasso_eq argsortIns _ (9 / 4) rfl, hps, guarded_ok, h]
    rfl
  refine ⟨v, hf, (C91_lasso two_pos cvD trivial _ (9 / 4) (1 / 4) (5 / 2) (by norm_num) (by norm_num) argsortIns_spec _ hps rfl rfl
    (by norm_num) (by norm_num) ?_ v hf).mpr (by norm_num)⟩
  rw [alphaMax_eq two_pos]
  have : absMax (fun j => ∑ i, cvD.matrix i j * (![1, -2] : Fin 2 → ℝ) i) = 5 := by
    norm_num [absMax, cvD, Design.matrix, Fin.sum_univ_two, List.finRange_succ]
  rw [this]
  norm_num

end Sglm
