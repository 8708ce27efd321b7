import Verif.Spec.NoPenalty
import Verif.Props.Linear
import Verif.Props.Bounds

/-!
# C114: fits without penalty

`alpha = 0` is accepted.  All penalties then give the same fit, which is the least-squares or the maximum-likelihood fit up to the
tolerance.  Exact arithmetic.
-/

namespace Sglm
open Scalar Spec
variable {n p : ℕ}

theorem softR_zero (v : ℝ) : softR v 0 = v := by
  unfold softR
  split_ifs <;> linarith

theorem unpenalised_prob (D : Design n p) (y : Fin n → ℝ) (k : LossKind) {pen : Pen} (h : Unpenalised pen) :
    prob1 D y k pen = prob1 D y k (.l1 0) := by
  have hl : l1Score 0 = fun _ b => |b| := by
    funext a b
    unfold l1Score
    split
    · rw [sub_zero, max_eq_right (abs_nonneg b)]
    · rw [mul_zero, sub_zero, abs_neg]
  cases pen with
  | l1 α => cases h; rfl
  | enet α ρ =>
    obtain ⟨rfl, h1, h2⟩ := h
    have e1 : (Pen.enet 0 ρ).fn = (Pen.l1 0).fn := by
      funext z; show (0 : ℝ) * _ = 0 * _; rw [zero_mul, zero_mul]
    have e2 : proxOf (.enet 0 ρ) = proxOf (.l1 0) := by
      funext v s
      show softR v (ρ * 0 * s) / (1 + s * (1 - ρ) * 0) = softR v (0 * s)
      rw [mul_zero, zero_mul, mul_zero, add_zero, div_one]
    have e3 : scoreOf (.enet 0 ρ) = scoreOf (.l1 0) := by
      show enetScore 0 ρ = l1Score 0
      rw [hl]
      funext a b
      unfold enetScore
      split
      · rw [zero_mul, sub_zero, max_eq_right (abs_nonneg b)]
      · rw [zero_mul, sub_zero, abs_neg]
    show probCD _ _ _ _ _ _ _ _ = probCD _ _ _ _ _ _ _ _
    rw [e1, e2, e3]; rfl
  | mcp α γ =>
    obtain ⟨rfl, h1⟩ := h
    have e1 : (Pen.mcp 0 γ).fn = (Pen.l1 0).fn := by
      funext z
      show mcp 0 γ z = 0 * _
      rw [← mcp_value_eq 0 γ h1, if_neg (by rw [mul_zero]; exact not_lt.mpr (abs_nonneg z))]; ring
    have e2 : proxOf (.mcp 0 γ) = proxOf (.l1 0) := by
      funext v s
      show mcpProxR 0 γ v s = softR v (0 * s)
      rw [zero_mul, softR_zero]
      unfold mcpProxR
      rw [zero_mul, mul_zero]
      by_cases a : |v| ≤ 0
      · rw [if_pos a]; exact (abs_nonpos_iff.mp a).symm
      · rw [if_neg a, if_pos (not_le.mp a)]
    have e3 : scoreOf (.mcp 0 γ) = scoreOf (.l1 0) := by
      show mcpScore 0 γ = l1Score 0
      rw [hl]
      funext a b
      unfold mcpScore
      rw [zero_mul, if_neg (c := |a| < 0) (not_lt.mpr (abs_nonneg a)), sub_zero, max_eq_right (abs_nonneg b), ite_self]
    show probCD _ _ _ _ _ _ _ _ = probCD _ _ _ _ _ _ _ _
    rw [e1, e2, e3]; rfl
  | l05 α => exact h.elim

theorem unpenalised_valid {pen : Pen} (h : Unpenalised pen) : pen.Valid := by
  cases pen with
  | l1 α => exact h.symm.le
  | enet α ρ => exact ⟨h.1.symm.le, h.2⟩
  | mcp α γ => exact ⟨h.1.symm.le, h.2⟩
  | l05 α => exact h.elim

/-- **All penalties agree** at strength zero: the same coefficients, or the same panic. -/
theorem C114_same {srt : Argsort XR} (hs : ArgsortSpec srt) (hn : 0 < n) (D : Design n p) (y : Fin n → ℝ) (k : LossKind)
    (pen pen' : Pen) (h : Unpenalised pen) (h' : Unpenalised pen') (cfg : Solver XR) :
    solve1 srt cfg D y k pen = solve1 srt cfg D y k pen' ∧ ∀ v, Stops srt cfg D y k pen v ↔ Stops srt cfg D y k pen' v := by
  have key : ∀ {pen pen' : Pen}, Unpenalised pen → Unpenalised pen' →
      solve1 srt cfg D y k pen = solve1 srt cfg D y k pen' ∧ ∀ v, Stops srt cfg D y k pen v → Stops srt cfg D y k pen' v := by
    intro pen pen' h h'
    have e : prob1 D y k pen = prob1 D y k pen' := (unpenalised_prob D y k h).trans (unpenalised_prob D y k h').symm
    have e2 : solve1 srt cfg D y k pen = solve1 srt cfg D y k pen' := by
      rw [solve1_eq hs hn D y k pen (unpenalised_valid h), solve1_eq hs hn D y k pen' (unpenalised_valid h'), e]
    refine ⟨e2, fun v ⟨h1, st, log, h2, h3⟩ => ?_⟩
    obtain ⟨v', m, h4, -, h5⟩ := trace1_run hs hn D y k pen (unpenalised_valid h) _ st log h2
    have h6 : (prob1 D y k pen).run srt cfg = .ok (v', m) := h4
    rw [solve1_eq hs hn D y k pen (unpenalised_valid h), h6] at h1
    have hv : v' = v := vec_injective (Except.ok.inj h1)
    rw [e, hv] at h6
    exact stops_of_run hs hn (unpenalised_valid h') h6 (by rw [← h5 rfl]; exact h3)
  exact ⟨(key h h').1, fun v => ⟨(key h h').2 v, (key h' h).2 v⟩⟩

theorem unpenalised_grad {srt : Argsort XR} (hs : ArgsortSpec srt) (hn : 0 < n) {D : Design n p} {y : Fin n → ℝ} {k : LossKind}
    {pen : Pen} (hu : Unpenalised pen) {cfg : Solver XR} {τ : ℝ} (ht : cfg.tolerance = XR.fin τ) {v : Fin p → ℝ}
    (h : Stops srt cfg D y k pen v) (j : Fin p) : |gradOf D.matrix y k (fit D.matrix v) j| ≤ τ := by
  have h0 : Unpenalised (.l1 0) := rfl
  have a : l1Score 0 (v j) _ ≤ τ :=
    stops_scores hs hn (unpenalised_valid h0) ht (((C114_same hs hn D y k pen (.l1 0) hu h0 cfg).2 v).mp h) j
  unfold l1Score at a
  split at a
  · rw [sub_zero, max_eq_right (abs_nonneg _)] at a; exact a
  · rw [mul_zero, sub_zero, abs_neg] at a; exact a

/-- **Stationarity**: all partial derivatives of the loss are at most the tolerance. -/
theorem C114_stationary {srt : Argsort XR} (hs : ArgsortSpec srt) (hn : 0 < n) (D : Design n p) (y : Fin n → ℝ) (k : LossKind)
    (pen : Pen) (hu : Unpenalised pen) (cfg : Solver XR) (τ : ℝ) (ht : cfg.tolerance = XR.fin τ) (v : Fin p → ℝ)
    (h : Stops srt cfg D y k pen v) (j : Fin p) :
    ∃ g, IsPartial (fun w => k.loss y (fit D.matrix w)) v j g ∧ |g| ≤ τ :=
  ⟨_, loss_partial hn D.matrix y k v j, unpenalised_grad hs hn hu ht h j⟩

/-- **Normal equations**: the residuals of least squares are uncorrelated with all features, up to the tolerance. -/
theorem C114_normal {srt : Argsort XR} (hs : ArgsortSpec srt) (hn : 0 < n) (D : Design n p) (y : Fin n → ℝ)
    (pen : Pen) (hu : Unpenalised pen) (cfg : Solver XR) (τ : ℝ) (ht : cfg.tolerance = XR.fin τ) (v : Fin p → ℝ)
    (h : Stops srt cfg D y .quadratic pen v) (j : Fin p) : |∑ i, D.matrix i j * (y i - fit D.matrix v i)| ≤ n * τ := by
  have hn' : (0 : ℝ) < n := by exact_mod_cast hn
  have a := unpenalised_grad hs hn hu ht h j
  have e : gradOf D.matrix y .quadratic (fit D.matrix v) j = -(∑ i, D.matrix i j * (y i - fit D.matrix v i)) / n := by
    show (_ - _) / _ = _
    rw [← Finset.sum_sub_distrib, ← Finset.sum_neg_distrib]
    congr 1
    exact Finset.sum_congr rfl fun i _ => by ring
  rw [e, abs_div, abs_neg, abs_of_pos hn', div_le_iff₀ hn'] at a
  linarith

/-- **Loss**: no other coefficients have a loss which is smaller by more than `tol` times their distance. -/
theorem C114_loss {srt : Argsort XR} (hs : ArgsortSpec srt) (hn : 0 < n) (D : Design n p) (y : Fin n → ℝ) (k : LossKind)
    (pen : Pen) (hu : Unpenalised pen) (cfg : Solver XR) (τ : ℝ) (ht : cfg.tolerance = XR.fin τ) (v : Fin p → ℝ)
    (h : Stops srt cfg D y k pen v) (w : Fin p → ℝ) :
    k.loss y (fit D.matrix v) - k.loss y (fit D.matrix w) ≤ τ * ∑ j, |v j - w j| := by
  have h0 : Unpenalised (.l1 0) := rfl
  have a := (stops_cert hs hn (unpenalised_valid h0) trivial ht
    (((C114_same hs hn D y k pen (.l1 0) hu h0 cfg).2 v).mp h)).2 w
  simpa [objective1, Pen.fn] using a

/-- **Least squares**: with linearly independent columns (curvature `c`), the coefficients are those of ordinary least squares up to
`√p · tol / c`. -/
theorem C114_ols {srt : Argsort XR} (hs : ArgsortSpec srt) (hn : 0 < n) (D : Design n p) (y : Fin n → ℝ)
    (pen : Pen) (hu : Unpenalised pen) (c : ℝ) (hc : 0 < c) (hcurv : Curvature D .quadratic c) (w : Fin p → ℝ)
    (hw : ∀ u, ∑ i, (y i - fit D.matrix w i) ^ 2 ≤ ∑ i, (y i - fit D.matrix u i) ^ 2) (cfg : Solver XR) (τ : ℝ)
    (ht : cfg.tolerance = XR.fin τ) (v : Fin p → ℝ) (h : Stops srt cfg D y .quadratic pen v) :
    ∑ j, (v j - w j) ^ 2 ≤ p * (τ / c) ^ 2 := by
  have h0 : Unpenalised (.l1 0) := rfl
  obtain ⟨h1, st, log, h2, h3⟩ := ((C114_same hs hn D y .quadratic pen (.l1 0) hu h0 cfg).2 v).mp h
  have hμ : c + (Pen.l1 0).modulus = c := add_zero c
  obtain ⟨v', h4, h5⟩ := C65_accuracy hs hn D y .quadratic (.l1 0) (unpenalised_valid h0) trivial c hcurv (by rw [hμ]; exact hc) w
    (fun u => by
      simp only [objective1, Pen.fn, zero_mul, Finset.sum_const_zero, add_zero]
      exact div_le_div_of_nonneg_right (hw u) (by positivity)) cfg τ ht st log h2 h3
  rw [h1] at h4
  rw [hμ] at h5
  rw [vec_injective (Except.ok.inj h4)]
  exact h5

/-- **Enough iterations**: the fit stops when `max_iterations` exceeds an explicit bound, also if the columns are dependent and also if
there is no maximum-likelihood fit. -/
theorem C114_stops (hn : 0 < n) (D : Design n p) (hD : D.Canonical) (y : Fin n → ℝ) (k : LossKind) (hy : k.LabelsOK y) (pen : Pen)
    (hu : Unpenalised pen) (μ Λ τ : ℝ) (hμ0 : 0 < μ) (hμ : ∀ j, lipschitz D k j ≠ 0 → μ ≤ lipschitz D k j)
    (hΛ : ∀ j, lipschitz D k j ≤ Λ) (hτ : 0 < τ) {srt : Argsort XR} (hs : ArgsortSpec srt) (cfg : Solver XR)
    (ht : cfg.tolerance = XR.fin τ) (hw : 0 < cfg.wsStartSize) (he : 0 < cfg.maxEpochs) (hpl : StopsPlain cfg)
    (hacc : cfg.useAcceleration = true → 0 < cfg.K ∧ cfg.K ≤ cfg.wsStartSize ∧ cfg.K ≤ p)
    (hN : 16 * p * Λ ^ 2 * k.loss y (fun _ => 0) / (μ * τ ^ 2) < cfg.maxIterations) :
    ∃ v, Stops srt cfg D y k pen v := by
  have h0 : Unpenalised (.l1 0) := rfl
  obtain ⟨v, m, h⟩ := (prob1 D y k (.l1 0)).run_ok hs cfg fun hu => by
    have e : Coord.dim ℝ = 1 := rfl
    rw [e, mul_one, mul_one]; exact hacc hu
  refine ⟨v, ((C114_same hs hn D y k pen (.l1 0) hu h0 cfg).2 v).mpr (stops_of_run hs hn (unpenalised_valid h0) h ?_)⟩
  have hb := iter_bound1 hn D hD y k hy (.l1 0) (unpenalised_valid h0) (fun _ => by simp) μ Λ τ hμ0
    (fun j hj => (add_zero μ).le.trans (hμ j hj)) hΛ hτ hs cfg ht hw he hpl v m h
  have e : objective1 D y k (.l1 0) (fun _ => 0) = k.loss y (fun _ => 0) := by
    have hz : fit D.matrix (fun _ : Fin p => 0) = fun _ => 0 := by
      funext i; exact Finset.sum_eq_zero fun j _ => mul_zero _
    simp [objective1, Pen.fn, hz]
  rw [e] at hb
  have e2 : 4 * p * (2 * Λ + (Pen.l1 0).modulus) ^ 2 * k.loss y (fun _ => 0) / (μ * τ ^ 2) =
      16 * p * Λ ^ 2 * k.loss y (fun _ => 0) / (μ * τ ^ 2) := by
    show 4 * p * (2 * Λ + 0) ^ 2 * _ / _ = _
    ring
  rw [e2] at hb
  exact_mod_cast lt_of_le_of_lt hb hN

/-! ## Logistic regression on separable classes -/

theorem sigm_half {x : ℝ} (h : 0 ≤ x) : 1 / 2 ≤ sigm x := by
  unfold sigm
  refine one_div_le_one_div_of_le (by positivity) ?_
  have : Real.exp (-x) ≤ 1 := Real.exp_le_one_iff.mpr (by linarith)
  linarith

theorem margin_sum {D : Design n p} {y : Fin n → ℝ} {u : Fin p → ℝ} {τ : ℝ} (hn : 0 < n) {v : Fin p → ℝ}
    (h : ∀ j, |gradOf D.matrix y .logistic (fit D.matrix v) j| ≤ τ) :
    ∑ i, y i * fit D.matrix u i * sigm (-y i * fit D.matrix v i) ≤ n * τ * ∑ j, |u j| := by
  have hn' : (0 : ℝ) < n := by exact_mod_cast hn
  have e : ∑ j, u j * gradOf D.matrix y .logistic (fit D.matrix v) j =
      -(∑ i, y i * fit D.matrix u i * sigm (-y i * fit D.matrix v i)) / n := by
    have : ∀ j, u j * gradOf D.matrix y .logistic (fit D.matrix v) j =
        -(∑ i, u j * (D.matrix i j * (y i * sigm (-y i * fit D.matrix v i)))) / n := fun j => by
      rw [← Finset.mul_sum]
      show u j * (-(∑ i, _) / _) = _
      ring
    rw [Finset.sum_congr rfl fun j _ => this j, ← Finset.sum_div, Finset.sum_neg_distrib, Finset.sum_comm]
    congr 2
    refine Finset.sum_congr rfl fun i _ => ?_
    have hf : fit D.matrix u i = ∑ j, D.matrix i j * u j := rfl
    rw [hf, Finset.mul_sum, Finset.sum_mul]
    exact Finset.sum_congr rfl fun j _ => by ring
  have a : -(∑ j, u j * gradOf D.matrix y .logistic (fit D.matrix v) j) ≤ τ * ∑ j, |u j| := by
    rw [← Finset.sum_neg_distrib, Finset.mul_sum]
    refine Finset.sum_le_sum fun j _ => (neg_le_abs _).trans ?_
    rw [abs_mul, mul_comm]
    exact mul_le_mul_of_nonneg_right (h j) (abs_nonneg _)
  rw [e, neg_div, neg_neg, div_le_iff₀ hn'] at a
  linarith

theorem separable_sum {D : Design n p} {y : Fin n → ℝ} {u : Fin p → ℝ} {m τ : ℝ} (hn : 0 < n)
    (hsep : Separates D y u m) {v : Fin p → ℝ} (h : ∀ j, |gradOf D.matrix y .logistic (fit D.matrix v) j| ≤ τ) :
    m * ∑ i, sigm (-y i * fit D.matrix v i) ≤ n * τ * ∑ j, |u j| := by
  refine le_trans ?_ (margin_sum hn h)
  rw [Finset.mul_sum]
  refine Finset.sum_le_sum fun i _ => mul_le_mul_of_nonneg_right (hsep i) ?_
  unfold sigm; positivity

theorem misclassified_sum {D : Design n p} {y : Fin n → ℝ} {v : Fin p → ℝ} :
    (1 / 2 : ℝ) * (misclassified D y v).card ≤ ∑ i, sigm (-y i * fit D.matrix v i) := by
  have : ∑ i ∈ misclassified D y v, (1 / 2 : ℝ) ≤ ∑ i ∈ misclassified D y v, sigm (-y i * fit D.matrix v i) := by
    refine Finset.sum_le_sum fun i hi => sigm_half ?_
    unfold misclassified at hi
    rw [Finset.mem_filter] at hi
    rw [neg_mul]; linarith [hi.2]
  rw [Finset.sum_const, nsmul_eq_mul] at this
  rw [mul_comm]
  refine this.trans (Finset.sum_le_sum_of_subset_of_nonneg (Finset.subset_univ _) fun i _ _ => ?_)
  unfold sigm; positivity

/-- **Separable classes**: if some direction `u` separates the classes with margin `m`, at most `2 n tol ‖u‖₁ / m` training samples are
misclassified by the fit. -/
theorem C114_separable {srt : Argsort XR} (hs : ArgsortSpec srt) (hn : 0 < n) (D : Design n p) (y : Fin n → ℝ)
    (pen : Pen) (hu : Unpenalised pen) (cfg : Solver XR) (τ : ℝ) (ht : cfg.tolerance = XR.fin τ) (v : Fin p → ℝ)
    (h : Stops srt cfg D y .logistic pen v) (u : Fin p → ℝ) (m : ℝ) (hm : 0 < m) (hsep : Separates D y u m) :
    ((misclassified D y v).card : ℝ) ≤ 2 * n * τ * (∑ j, |u j|) / m := by
  have a := separable_sum hn hsep fun j => unpenalised_grad hs hn hu ht h j
  have b := misclassified_sum (D := D) (y := y) (v := v)
  rw [le_div_iff₀ hm]
  nlinarith [mul_le_mul_of_nonneg_left b hm.le]

/-- With a small tolerance, all training samples are classified correctly. -/
theorem C114_classifies {srt : Argsort XR} (hs : ArgsortSpec srt) (hn : 0 < n) (D : Design n p) (y : Fin n → ℝ)
    (pen : Pen) (hu : Unpenalised pen) (cfg : Solver XR) (τ : ℝ) (ht : cfg.tolerance = XR.fin τ) (v : Fin p → ℝ)
    (h : Stops srt cfg D y .logistic pen v) (u : Fin p → ℝ) (m : ℝ) (hm : 0 < m) (hsep : Separates D y u m)
    (hτ : 2 * n * τ * ∑ j, |u j| < m) (i : Fin n) : 0 < y i * fit D.matrix v i := by
  by_contra hi
  have a := C114_separable hs hn D y pen hu cfg τ ht v h u m hm hsep
  have b : 2 * n * τ * (∑ j, |u j|) / m < 1 := (div_lt_one hm).mpr hτ
  have c : 1 ≤ (misclassified D y v).card := Finset.card_pos.mpr ⟨i, by
    unfold misclassified
    exact Finset.mem_filter.mpr ⟨Finset.mem_univ i, not_lt.mp hi⟩⟩
  have d : (1 : ℝ) ≤ (misclassified D y v).card := by exact_mod_cast c
  linarith

/-- Separable classes have no maximum-likelihood fit: with tolerance zero, no fit stops before `max_iterations`. -/
theorem C114_never_exact {srt : Argsort XR} (hs : ArgsortSpec srt) (hn : 0 < n) (D : Design n p) (y : Fin n → ℝ)
    (pen : Pen) (hu : Unpenalised pen) (cfg : Solver XR) (ht : cfg.tolerance = XR.fin 0) (u : Fin p → ℝ) (m : ℝ) (hm : 0 < m)
    (hsep : Separates D y u m) (v : Fin p → ℝ) : ¬ Stops srt cfg D y .logistic pen v := by
  intro h
  have a := separable_sum hn hsep fun j => unpenalised_grad hs hn hu ht h j
  rw [mul_zero, zero_mul] at a
  have : 0 < ∑ i, sigm (-y i * fit D.matrix v i) :=
    Finset.sum_pos (fun i _ => by unfold sigm; positivity) ⟨⟨0, hn⟩, Finset.mem_univ _⟩
  nlinarith [mul_pos hm this]

theorem guarded_tail {A P Q : Type} (τ : XR) (K ws : ℕ) (a : P) (b : Q) (m : M A) :
    guarded (checkTail τ K ws a) m = guarded (checkTail τ K ws b) m := by
  unfold checkTail
  split_ifs <;> rfl

/-- **Estimators**: with `alpha = 0` and equal settings, Lasso, elastic net (`l1_ratio` in `[0, 1]`) and MCP (`gamma ≥ 1`) return the
same: coefficients, error or panic. -/
theorem C114_estimators {srt : Argsort XR} (hs : ArgsortSpec srt) (hn : 0 < n) (D : Design n p) (y : Fin n → ℝ)
    (ps : LassoParams XR) (qs : ElasticNetParams XR) (rs : MCParams XR) (ρ γ : ℝ) (hp : ps.alpha = XR.fin 0)
    (hq : qs.alpha = XR.fin 0) (hr : rs.alpha = XR.fin 0) (hρ : qs.l1Ratio = XR.fin ρ) (hγ : rs.gamma = XR.fin γ) (h0 : 0 ≤ ρ)
    (h1 : ρ ≤ 1) (h2 : 1 ≤ γ) (e1 : ps.solver = qs.solver) (e2 : ps.solver = rs.solver) :
    fitLasso srt ps D y = fitElasticNet srt qs D y ∧ fitLasso srt ps D y = fitMCP srt rs D y := by
  have sb : signBit (XR.fin 0) = false := by
    show decide ((0 : ℝ) < 0) = false
    rw [decide_eq_false_iff_not]; exact lt_irrefl _
  have c1 : (one <. XR.fin ρ) = false := by
    show decide ((1 : ℝ) < ρ) = false
    rw [decide_eq_false_iff_not]; linarith
  have c2 : (XR.fin ρ <. zero) = false := by
    show decide (ρ < (0 : ℝ)) = false
    rw [decide_eq_false_iff_not]; linarith
  have c3 : (XR.fin γ <. one) = false := by
    show decide (γ < (1 : ℝ)) = false
    rw [decide_eq_false_iff_not]; linarith
  rw [fitLasso_eq srt ps 0 hp, fitElasticNet_eq srt qs 0 ρ hq hρ, fitMCP_eq srt rs 0 γ hr hγ]
  have u1 : Unpenalised (.l1 0) := rfl
  have u2 : Unpenalised (.enet 0 ρ) := ⟨rfl, h0, h1⟩
  have u3 : Unpenalised (.mcp 0 γ) := ⟨rfl, by linarith⟩
  constructor
  · rw [← e1, ← (C114_same hs hn D y .quadratic _ _ u1 u2 ps.solver).1]
    unfold LassoParams.checkRef ElasticNetParams.checkRef
    rw [hp, hq, hρ, sb, c1, c2]
    have t : ps.tolerance = qs.tolerance := congrArg Solver.tolerance e1
    have k : ps.K = qs.K := congrArg Solver.K e1
    have w : ps.wsStartSize = qs.wsStartSize := congrArg Solver.wsStartSize e1
    rw [t, k, w]
    exact guarded_tail _ _ _ _ _ _
  · rw [← e2, ← (C114_same hs hn D y .quadratic _ _ u1 u3 ps.solver).1]
    unfold LassoParams.checkRef MCParams.checkRef
    rw [hp, hr, hγ, sb, c3]
    have t : ps.tolerance = rs.tolerance := congrArg Solver.tolerance e2
    have k : ps.K = rs.K := congrArg Solver.K e2
    have w : ps.wsStartSize = rs.wsStartSize := congrArg Solver.wsStartSize e2
    rw [t, k, w]
    exact guarded_tail _ _ _ _ _ _

/-! ## Examples -/

-- the default settings with `alpha = 0`
example (D : Design n p) (hn : 0 < n) (y : Fin n → ℝ) :
    fitLasso argsortIns { (LassoParams.new : LassoParams XR) with alpha := XR.fin 0 } D y =
      fitMCP argsortIns { (MCParams.new : MCParams XR) with alpha := XR.fin 0, gamma := XR.fin 3 } D y :=
  (C114_estimators argsortIns_spec hn D y { (LassoParams.new : LassoParams XR) with alpha := XR.fin 0 }
    { (ElasticNetParams.new : ElasticNetParams XR) with alpha := XR.fin 0, l1Ratio := XR.fin (1 / 2) }
    { (MCParams.new : MCParams XR) with alpha := XR.fin 0, gamma := XR.fin 3 } (1 / 2) 3 rfl rfl rfl rfl rfl (by norm_num) (by norm_num)
    (by norm_num) rfl rfl).2

-- ordinary least squares on the identity design, by an MCP of strength zero with acceleration
example : ∃ v, Stops argsortIns ⟨2, 10 ^ 9, 51, XR.fin (1 / 100), 1, true, false⟩ idD ![4, 1 / 2] .quadratic (.mcp 0 3) v ∧
    ∑ j, (v j - (![4, 1 / 2] : Fin 2 → ℝ) j) ^ 2 ≤ 2 * (1 / 50) ^ 2 := by
  have hu : Unpenalised (.mcp 0 3) := ⟨rfl, by norm_num⟩
  obtain ⟨v, hv⟩ := C114_stops two_pos idD trivial ![4, 1 / 2] .quadratic trivial (.mcp 0 3) hu (1 / 2) (1 / 2) (1 / 100)
    (by norm_num) (fun j _ => (idD_lip j).ge) (fun j => (idD_lip j).le) (by norm_num) argsortIns_spec
    ⟨2, 10 ^ 9, 51, XR.fin (1 / 100), 1, true, false⟩ rfl (by norm_num) (by norm_num) (fun e he h => Or.inr (by dsimp only at *; omega))
    (fun _ => by norm_num) (by
      have : LossKind.quadratic.loss (![4, 1 / 2] : Fin 2 → ℝ) (fun _ => 0) = 65 / 16 := by
        show (∑ i, _) / _ = _
        rw [Fin.sum_univ_two]; norm_num
      refine lt_of_eq_of_lt (congrArg (fun x : ℝ => 16 * ((2 : ℕ) : ℝ) * (1 / 2) ^ 2 * x / (1 / 2 * (1 / 100) ^ 2)) this) ?_
      norm_num)
  refine ⟨v, hv, ?_⟩
  have := C114_ols argsortIns_spec two_pos idD ![4, 1 / 2] (.mcp 0 3) hu (1 / 2) (by norm_num) idD_curvature ![4, 1 / 2] (fun u => by
    rw [Fin.sum_univ_two, (idD_fit _).1, (idD_fit _).2]
    refine le_trans (le_of_eq ?_) (Finset.sum_nonneg fun i _ => sq_nonneg _)
    norm_num) _ (1 / 100) rfl v hv
  refine this.trans (le_of_eq ?_)
  norm_num

-- separable classes: every sample is classified correctly
example : ∃ v, Stops argsortIns ⟨1, 10 ^ 9, 50, XR.fin (1 / 100), 5, false, false⟩ idD ![1, -1] .logistic (.enet 0 (1 / 2)) v ∧
    0 < v 0 ∧ v 1 < 0 := by
  have hu : Unpenalised (.enet 0 (1 / 2)) := ⟨rfl, by norm_num, by norm_num⟩
  have hl : ∀ j, lipschitz idD .logistic j = 1 / 8 := fun j => by
    show (∑ i, idD.matrix i j ^ 2) / (4 * ((2 : ℕ) : ℝ)) = _
    rw [idD_sq]; norm_num
  obtain ⟨v, hv⟩ := C114_stops two_pos idD trivial ![1, -1] .logistic (fun i => by fin_cases i <;> norm_num) (.enet 0 (1 / 2)) hu
    (1 / 8) (1 / 8) (1 / 100) (by norm_num) (fun j _ => (hl j).ge) (fun j => (hl j).le) (by norm_num) argsortIns_spec
    ⟨1, 10 ^ 9, 50, XR.fin (1 / 100), 5, false, false⟩ rfl (by norm_num) (by norm_num) (fun _ _ _ => Or.inl rfl)
    (fun h => by cases h) (by
      have : LossKind.logistic.loss (![1, -1] : Fin 2 → ℝ) (fun _ => 0) = Real.log 2 := by
        show (∑ i, _) / _ = _
        rw [Fin.sum_univ_two]; norm_num
      refine lt_of_eq_of_lt (congrArg (fun x : ℝ => 16 * ((2 : ℕ) : ℝ) * (1 / 8) ^ 2 * x / (1 / 8 * (1 / 100) ^ 2)) this) ?_
      have := Real.log_two_lt_d9
      norm_num
      linarith)
  have key := C114_classifies argsortIns_spec two_pos idD ![1, -1] (.enet 0 (1 / 2)) hu _ (1 / 100) rfl v hv ![1, -1] 1 one_pos
    (fun i => by fin_cases i <;> simp [(idD_fit _).1, (idD_fit _).2]) (by rw [Fin.sum_univ_two]; norm_num)
  have k0 := key 0
  have k1 := key 1
  rw [(idD_fit _).1] at k0
  rw [(idD_fit _).2] at k1
  norm_num at k0 k1
  exact ⟨v, hv, k0, k1⟩

end Sglm
