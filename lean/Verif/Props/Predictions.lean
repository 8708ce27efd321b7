import Verif.Proofs.Quality
import Verif.Props.Iterations
import Verif.Props.Accuracy

/-!
# C69: predictions and objective, with explicit constants

Coefficients need not be unique (correlated features, more features than samples), but predictions are.  All bounds are explicit in
the tolerance, the targets and the strength of the penalty.
-/

namespace Sglm
open Scalar Spec
variable {n p T : ℕ}

theorem stops_cert {srt : Argsort XR} (hs : ArgsortSpec srt) (hn : 0 < n) {D : Design n p} {y : Fin n → ℝ} {k : LossKind} {pen : Pen}
    (hv : pen.Valid) (hc : pen.Convex) {cfg : Solver XR} {τ : ℝ} (ht : cfg.tolerance = XR.fin τ) {v : Fin p → ℝ}
    (h : Stops srt cfg D y k pen v) :
    ApproxStationary D y k (subdiff pen.fn) v τ ∧ ∀ w, objective1 D y k pen v - objective1 D y k pen w ≤ τ * ∑ j, |v j - w j| := by
  obtain ⟨h1, st, log, h2, h3⟩ := h
  obtain ⟨v', h4, h5⟩ := C30_certificate hs hn D y k pen hv hc cfg τ ht st log h2 h3
  rw [h1] at h4
  rw [vec_injective (Except.ok.inj h4)]
  exact h5

theorem stopsMT_cert {srt : Argsort XR} (hs : ArgsortSpec srt) (hn : 0 < n) {D : Design n p} {Y : Fin n → Fin T → ℝ} {α : ℝ}
    (hα : 0 < α) {cfg : Solver XR} {τ : ℝ} (ht : cfg.tolerance = XR.fin τ) {V : Fin p → Euc T}
    (h : StopsMT srt cfg D Y (.l21 α) V) (W : Fin p → Euc T) :
    objectiveMT D Y (.l21 α) V - objectiveMT D Y (.l21 α) W ≤ τ * ∑ j, ‖V j - W j‖ := by
  obtain ⟨h1, st, log, h2, h3⟩ := h
  obtain ⟨V', h4, -, h5⟩ := C30_certificate_mt hs hn D Y α hα cfg τ ht st log h2 h3
  rw [h1] at h4
  rw [emat_injective (Except.ok.inj h4)]
  exact h5 W

/-- The penalty grows at least like `κ |z|`: `κ = α` for the Lasso, `κ = α ρ` for the elastic net. -/
theorem pen_slope_l1 (α z : ℝ) : α * |z| ≤ (Pen.l1 α).fn z := le_rfl

theorem pen_slope_enet {α ρ : ℝ} (hα : 0 ≤ α) (hρ : ρ ≤ 1) (z : ℝ) : α * ρ * |z| ≤ (Pen.enet α ρ).fn z := by
  show α * ρ * |z| ≤ α * (ρ * ‖z‖ + (1 - ρ) * ‖z‖ ^ 2 / 2)
  rw [Real.norm_eq_abs]
  nlinarith [mul_nonneg hα (mul_nonneg (sub_nonneg.mpr hρ) (sq_nonneg |z|))]

theorem pen_zero_of {pen : Pen} (hc : pen.Convex) : pen.fn 0 = 0 := by
  cases pen with
  | l1 α => simp [Pen.fn]
  | enet α ρ => simp [Pen.fn, enet]
  | mcp α γ => exact hc.elim
  | l05 α => exact hc.elim

theorem size_of_objective {D : Design n p} {y : Fin n → ℝ} {k : LossKind} {pen : Pen} {κ c : ℝ} (hκ0 : 0 < κ)
    (hκ : ∀ z, κ * |z| ≤ pen.fn z) {v : Fin p → ℝ} (h : objective1 D y k pen v ≤ c) : ∑ j, |v j| ≤ c / κ := by
  rw [le_div_iff₀ hκ0]
  have h1 : κ * ∑ j, |v j| ≤ ∑ j, pen.fn (v j) := by
    rw [Finset.mul_sum]; exact Finset.sum_le_sum fun j _ => hκ _
  have h2 := loss_nonneg y k (fit D.matrix v)
  unfold objective1 at h
  linarith

/-- From a certificate and a bound of the objective to an explicit gap. -/
theorem gap_of_cert {D : Design n p} {y : Fin n → ℝ} {k : LossKind} {pen : Pen} {κ τ c : ℝ} (hτ : 0 ≤ τ) (hκ0 : 0 < κ)
    (hκ : ∀ z, κ * |z| ≤ pen.fn z) {v : Fin p → ℝ} (h0 : objective1 D y k pen v ≤ c) (hc : 0 ≤ c)
    (hv : ∀ w, objective1 D y k pen v - objective1 D y k pen w ≤ τ * ∑ j, |v j - w j|) (w : Fin p → ℝ) :
    objective1 D y k pen v ≤ objective1 D y k pen w + τ * (2 * c / κ) := by
  rcases le_total (objective1 D y k pen v) (objective1 D y k pen w) with h | h
  · have : 0 ≤ τ * (2 * c / κ) := by positivity
    linarith
  · have a := size_of_objective hκ0 hκ h0
    have b := size_of_objective hκ0 hκ (h.trans h0)
    have d := sum_norm_sub_le v w
    simp only [Real.norm_eq_abs] at d
    have e := mul_le_mul_of_nonneg_left (show ∑ j, |v j - w j| ≤ 2 * c / κ by
      have : 2 * c / κ = c / κ + c / κ := by ring
      linarith) hτ
    linarith [hv w]

/-- Distance of predictions of two certified vectors. -/
theorem predictions_of_cert (hn : 0 < n) {D : Design n p} {y : Fin n → ℝ} {pen : Pen} (hv : pen.Valid) (hc : pen.Convex)
    {τ σ : ℝ} {v w : Fin p → ℝ} (h1 : ∀ u, objective1 D y .quadratic pen v - objective1 D y .quadratic pen u ≤ τ * ∑ j, |v j - u j|)
    (h2 : ∀ u, objective1 D y .quadratic pen w - objective1 D y .quadratic pen u ≤ σ * ∑ j, |w j - u j|) :
    ∑ i, (fit D.matrix v i - fit D.matrix w i) ^ 2 ≤ n * ((τ + σ) * ∑ j, |v j - w j|) := by
  rw [← sqFit_real]
  refine lsq_near (φ := pen.fn) hn D.matrix y (fun x z t a b => ?_) (fun u => ?_) (fun u => ?_)
  · refine (pen_line pen hv hc x z t a b).trans ?_
    have : 0 ≤ pen.modulus := by
      cases pen with
      | enet α ρ => exact mul_nonneg hv.1 (sub_nonneg.mpr hv.2.2)
      | _ => exact le_rfl
    have : 0 ≤ pen.modulus / 2 * (t * (1 - t)) * ‖x - z‖ ^ 2 :=
      mul_nonneg (mul_nonneg (by linarith) (mul_nonneg a (by linarith))) (sq_nonneg _)
    linarith
  · rw [lsq_real, lsq_real]; exact h1 u
  · rw [lsq_real, lsq_real]; exact h2 u

/-- **Objective**: the result of a fit which stops before `max_iterations` is optimal up to `2 τ F(0) / κ`. -/
theorem C69_objective {srt : Argsort XR} (hs : ArgsortSpec srt) (hn : 0 < n) (D : Design n p) (hD : D.Canonical) (y : Fin n → ℝ)
    (k : LossKind) (hy : k.LabelsOK y) (pen : Pen) (hv : pen.Valid) (hc : pen.Convex) (κ : ℝ) (hκ0 : 0 < κ) (hκ : ∀ z, κ * |z| ≤ pen.fn z)
    (cfg : Solver XR) (τ : ℝ) (hτ : 0 ≤ τ) (ht : cfg.tolerance = XR.fin τ) (v : Fin p → ℝ) (h : Stops srt cfg D y k pen v) (w : Fin p → ℝ) :
    objective1 D y k pen v ≤ objective1 D y k pen w + τ * (2 * objective1 D y k pen (fun _ => 0) / κ) := by
  have hst : pen.StepOK D k := by cases pen <;> trivial
  exact gap_of_cert hτ hκ0 hκ (C28_result hs hn D hD y k hy pen hv hst cfg v h.1)
    (objective1_nonneg D y k pen hv hc _) (stops_cert hs hn hv hc ht h).2 w

/-- **Predictions do not depend on the settings**: two fits which stop before `max_iterations`, with whatever settings, ways to break
ties and storage formats, make almost the same predictions, even if the coefficients are not unique. -/
theorem C69_predictions {srt srt' : Argsort XR} (hs : ArgsortSpec srt) (hs' : ArgsortSpec srt') (hn : 0 < n) (D D' : Design n p)
    (hD : D.Canonical) (hD' : D'.Canonical) (hDD : D'.matrix = D.matrix) (y : Fin n → ℝ) (pen : Pen) (hv : pen.Valid) (hc : pen.Convex)
    (κ : ℝ) (hκ0 : 0 < κ) (hκ : ∀ z, κ * |z| ≤ pen.fn z) (cfg cfg' : Solver XR) (τ τ' : ℝ) (hτ : 0 ≤ τ) (hτ' : 0 ≤ τ')
    (ht : cfg.tolerance = XR.fin τ) (ht' : cfg'.tolerance = XR.fin τ') (v v' : Fin p → ℝ) (h : Stops srt cfg D y .quadratic pen v)
    (h' : Stops srt' cfg' D' y .quadratic pen v') :
    ∑ i, (fit D.matrix v i - fit D.matrix v' i) ^ 2 ≤ (τ + τ') * (∑ i, y i ^ 2) / κ := by
  have hst : ∀ D : Design n p, pen.StepOK D .quadratic := fun D => by cases pen <;> trivial
  have e : objective1 D' y .quadratic pen = objective1 D y .quadratic pen := by funext u; unfold objective1; rw [hDD]
  have a := C28_result hs hn D hD y .quadratic trivial pen hv (hst D) cfg v h.1
  have a' := C28_result hs' hn D' hD' y .quadratic trivial pen hv (hst D') cfg' v' h'.1
  have c := (stops_cert hs hn hv hc ht h).2
  have c' := (stops_cert hs' hn hv hc ht' h').2
  rw [e] at a' c'
  have b := size_of_objective hκ0 hκ a
  have b' := size_of_objective hκ0 hκ a'
  rw [objective1_zero D y pen (pen_zero_of hc)] at b b'
  have d := sum_norm_sub_le v v'
  simp only [Real.norm_eq_abs] at d
  have hn' : (0 : ℝ) < n := by exact_mod_cast hn
  refine (predictions_of_cert hn hv hc c c').trans ?_
  have f := mul_le_mul_of_nonneg_left (show ∑ j, |v j - v' j| ≤ (∑ i, y i ^ 2) / (n * κ) by
    have : (∑ i, y i ^ 2) / (n * κ) = (∑ i, y i ^ 2) / (2 * n) / κ + (∑ i, y i ^ 2) / (2 * n) / κ := by field_simp; ring
    linarith) (add_nonneg hτ hτ')
  refine (mul_le_mul_of_nonneg_left f hn'.le).trans (le_of_eq ?_)
  field_simp

theorem predictions_min (hn : 0 < n) {D : Design n p} {y : Fin n → ℝ} {pen : Pen} (hv : pen.Valid) (hc : pen.Convex) {κ τ ε : ℝ}
    (hκ0 : 0 < κ) (hκ : ∀ z, κ * |z| ≤ pen.fn z) (hτ : 0 ≤ τ) {v w : Fin p → ℝ}
    (h0 : objective1 D y .quadratic pen v ≤ objective1 D y .quadratic pen 0 + ε)
    (h1 : ∀ u, objective1 D y .quadratic pen v - objective1 D y .quadratic pen u ≤ τ * ∑ j, |v j - u j|)
    (hw : ∀ u, objective1 D y .quadratic pen w ≤ objective1 D y .quadratic pen u) :
    ∑ i, (fit D.matrix v i - fit D.matrix w i) ^ 2 ≤ τ * (∑ i, y i ^ 2 + n * ε) / κ := by
  have b := size_of_objective hκ0 hκ h0
  have b' := size_of_objective hκ0 hκ (hw 0)
  have e0 := objective1_zero D y pen (pen_zero_of hc)
  have e1 : objective1 D y .quadratic pen 0 = (∑ i, y i ^ 2) / (2 * n) := e0
  rw [e1] at b b'
  have d := sum_norm_sub_le v w
  simp only [Real.norm_eq_abs] at d
  have hn' : (0 : ℝ) < n := by exact_mod_cast hn
  refine (predictions_of_cert (σ := 0) hn hv hc h1 (fun u => by rw [zero_mul]; linarith [hw u])).trans ?_
  rw [add_zero]
  have f := mul_le_mul_of_nonneg_left (show ∑ j, |v j - w j| ≤ (∑ i, y i ^ 2 + n * ε) / (n * κ) by
    have : (∑ i, y i ^ 2 + n * ε) / (n * κ) = ((∑ i, y i ^ 2) / (2 * n) + ε) / κ + (∑ i, y i ^ 2) / (2 * n) / κ := by field_simp; ring
    linarith) hτ
  refine (mul_le_mul_of_nonneg_left f hn'.le).trans (le_of_eq ?_)
  field_simp

/-- **Predictions are those of a minimiser**, up to `τ ‖y‖² / κ`. -/
theorem C69_minimiser {srt : Argsort XR} (hs : ArgsortSpec srt) (hn : 0 < n) (D : Design n p) (hD : D.Canonical) (y : Fin n → ℝ)
    (pen : Pen) (hv : pen.Valid) (hc : pen.Convex) (κ : ℝ) (hκ0 : 0 < κ) (hκ : ∀ z, κ * |z| ≤ pen.fn z) (cfg : Solver XR) (τ : ℝ)
    (hτ : 0 ≤ τ) (ht : cfg.tolerance = XR.fin τ) (v : Fin p → ℝ) (h : Stops srt cfg D y .quadratic pen v)
    (w : Fin p → ℝ) (hw : ∀ u, objective1 D y .quadratic pen w ≤ objective1 D y .quadratic pen u) :
    ∑ i, (fit D.matrix v i - fit D.matrix w i) ^ 2 ≤ τ * (∑ i, y i ^ 2) / κ := by
  have hst : pen.StepOK D .quadratic := by cases pen <;> trivial
  have := predictions_min (ε := 0) hn hv hc hκ0 hκ hτ
    (by rw [add_zero]; exact C28_result hs hn D hD y .quadratic trivial pen hv hst cfg v h.1) (stops_cert hs hn hv hc ht h).2 hw
  rwa [mul_zero, add_zero] at this

/-- Minimisers all make the same predictions. -/
theorem C69_unique (hn : 0 < n) (D : Design n p) (y : Fin n → ℝ) (pen : Pen) (hv : pen.Valid) (hc : pen.Convex) (w w' : Fin p → ℝ)
    (hw : ∀ u, objective1 D y .quadratic pen w ≤ objective1 D y .quadratic pen u)
    (hw' : ∀ u, objective1 D y .quadratic pen w' ≤ objective1 D y .quadratic pen u) (i : Fin n) :
    fit D.matrix w i = fit D.matrix w' i := by
  have h := predictions_of_cert (τ := 0) (σ := 0) hn hv hc (fun u => by rw [zero_mul]; linarith [hw u])
    (fun u => by rw [zero_mul]; linarith [hw' u])
  rw [add_zero, zero_mul, mul_zero] at h
  have h1 : (fit D.matrix w i - fit D.matrix w' i) ^ 2 ≤ 0 :=
    (Finset.single_le_sum (f := fun i => (fit D.matrix w i - fit D.matrix w' i) ^ 2) (fun i _ => sq_nonneg _) (Finset.mem_univ i)).trans h
  have h2 := pow_eq_zero_iff (two_ne_zero) |>.mp (le_antisymm h1 (sq_nonneg _))
  linarith

/-! ## Several tasks -/

theorem sizeMT_of_objective {D : Design n p} {Y : Fin n → Fin T → ℝ} {α c : ℝ} (hα : 0 < α) {V : Fin p → Euc T}
    (h : objectiveMT D Y (.l21 α) V ≤ c) : ∑ j, ‖V j‖ ≤ c / α := by
  have := size_le (X := D.matrix) (Y := vecY Y) (φ := fun z : Euc T => α * ‖z‖) hα (fun z => le_rfl) V
  rw [lsq_mt] at this
  exact this.trans (div_le_div_of_nonneg_right h hα.le)

theorem objectiveMT_zero (D : Design n p) (Y : Fin n → Fin T → ℝ) (α : ℝ) :
    objectiveMT D Y (.l21 α) (fun _ => 0) = (∑ i, ∑ t, Y i t ^ 2) / (2 * n) := by
  unfold objectiveMT mtLoss fitMT
  simp [BPen.fn]

theorem predictionsMT_of_cert (hn : 0 < n) {D : Design n p} {Y : Fin n → Fin T → ℝ} {α : ℝ} (hα : 0 ≤ α) {τ σ : ℝ}
    {V W : Fin p → Euc T} (h1 : ∀ U, objectiveMT D Y (.l21 α) V - objectiveMT D Y (.l21 α) U ≤ τ * ∑ j, ‖V j - U j‖)
    (h2 : ∀ U, objectiveMT D Y (.l21 α) W - objectiveMT D Y (.l21 α) U ≤ σ * ∑ j, ‖W j - U j‖) :
    ∑ i, ∑ t, (fitMT D.matrix (fun j => (V j).ofLp) i t - fitMT D.matrix (fun j => (W j).ofLp) i t) ^ 2 ≤
      n * ((τ + σ) * ∑ j, ‖V j - W j‖) := by
  rw [← sqFit_mt]
  refine lsq_near (φ := fun z : Euc T => α * ‖z‖) hn D.matrix (vecY Y) (fun x z t a b => ?_) (fun U => ?_) (fun U => ?_)
  · have := enet_line (ρ := 1) hα zero_le_one x z t a b
    simpa only [enet, sub_self, zero_mul, zero_div, add_zero, one_mul, mul_zero, sub_zero] using this
  · rw [lsq_mt, lsq_mt]; exact h1 U
  · rw [lsq_mt, lsq_mt]; exact h2 U

/-- Multi-task Lasso: objective. -/
theorem C69_objective_mt {srt : Argsort XR} (hs : ArgsortSpec srt) (hn : 0 < n) (D : Design n p) (hD : D.Canonical)
    (Y : Fin n → Fin T → ℝ) (α : ℝ) (hα : 0 < α) (cfg : Solver XR) (τ : ℝ) (hτ : 0 ≤ τ) (ht : cfg.tolerance = XR.fin τ)
    (V : Fin p → Euc T) (h : StopsMT srt cfg D Y (.l21 α) V) (W : Fin p → Euc T) :
    objectiveMT D Y (.l21 α) V ≤ objectiveMT D Y (.l21 α) W + τ * (∑ i, ∑ t, Y i t ^ 2) / (n * α) := by
  have hn' : (0 : ℝ) < n := by exact_mod_cast hn
  have a := C28_result_mt hs hn D hD Y (.l21 α) hα trivial cfg V h.1
  have e := objectiveMT_zero D Y α
  have hy0 : 0 ≤ ∑ i, ∑ t, Y i t ^ 2 := Finset.sum_nonneg fun _ _ => Finset.sum_nonneg fun _ _ => sq_nonneg _
  rcases le_total (objectiveMT D Y (.l21 α) V) (objectiveMT D Y (.l21 α) W) with hle | hle
  · have : 0 ≤ τ * (∑ i, ∑ t, Y i t ^ 2) / (n * α) := by positivity
    linarith
  · have b := sizeMT_of_objective hα a
    have b' := sizeMT_of_objective hα (hle.trans a)
    rw [e] at b b'
    have d := sum_norm_sub_le V W
    have f := mul_le_mul_of_nonneg_left (show ∑ j, ‖V j - W j‖ ≤ (∑ i, ∑ t, Y i t ^ 2) / (n * α) by
      have : (∑ i, ∑ t, Y i t ^ 2) / (n * α) = (∑ i, ∑ t, Y i t ^ 2) / (2 * n) / α + (∑ i, ∑ t, Y i t ^ 2) / (2 * n) / α := by
        field_simp; ring
      linarith) hτ
    rw [mul_div_assoc]
    linarith [stopsMT_cert hs hn hα ht h W]

/-- Multi-task Lasso: predictions do not depend on the settings. -/
theorem C69_predictions_mt {srt srt' : Argsort XR} (hs : ArgsortSpec srt) (hs' : ArgsortSpec srt') (hn : 0 < n) (D D' : Design n p)
    (hD : D.Canonical) (hD' : D'.Canonical) (hDD : D'.matrix = D.matrix) (Y : Fin n → Fin T → ℝ) (α : ℝ) (hα : 0 < α)
    (cfg cfg' : Solver XR) (τ τ' : ℝ) (hτ : 0 ≤ τ) (hτ' : 0 ≤ τ') (ht : cfg.tolerance = XR.fin τ) (ht' : cfg'.tolerance = XR.fin τ')
    (V V' : Fin p → Euc T) (h : StopsMT srt cfg D Y (.l21 α) V) (h' : StopsMT srt' cfg' D' Y (.l21 α) V') :
    ∑ i, ∑ t, (fitMT D.matrix (fun j => (V j).ofLp) i t - fitMT D.matrix (fun j => (V' j).ofLp) i t) ^ 2 ≤
      (τ + τ') * (∑ i, ∑ t, Y i t ^ 2) / α := by
  have hn' : (0 : ℝ) < n := by exact_mod_cast hn
  have e : objectiveMT D' Y (.l21 α) = objectiveMT D Y (.l21 α) := by funext u; unfold objectiveMT; rw [hDD]
  have a := C28_result_mt hs hn D hD Y (.l21 α) hα trivial cfg V h.1
  have a' := C28_result_mt hs' hn D' hD' Y (.l21 α) hα trivial cfg' V' h'.1
  have c := stopsMT_cert hs hn hα ht h
  have c' := stopsMT_cert hs' hn hα ht' h'
  rw [e] at a' c'
  have b := sizeMT_of_objective hα a
  have b' := sizeMT_of_objective hα a'
  rw [objectiveMT_zero] at b b'
  have d := sum_norm_sub_le V V'
  refine (predictionsMT_of_cert hn hα.le c c').trans ?_
  have f := mul_le_mul_of_nonneg_left (show ∑ j, ‖V j - V' j‖ ≤ (∑ i, ∑ t, Y i t ^ 2) / (n * α) by
    have : (∑ i, ∑ t, Y i t ^ 2) / (n * α) = (∑ i, ∑ t, Y i t ^ 2) / (2 * n) / α + (∑ i, ∑ t, Y i t ^ 2) / (2 * n) / α := by
      field_simp; ring
    linarith) (add_nonneg hτ hτ')
  refine (mul_le_mul_of_nonneg_left f hn'.le).trans (le_of_eq ?_)
  field_simp

/-- **Predictions of the multi-task Lasso are those of a minimiser**. -/
theorem C69_minimiser_mt {srt : Argsort XR} (hs : ArgsortSpec srt) (hn : 0 < n) (D : Design n p) (hD : D.Canonical)
    (Y : Fin n → Fin T → ℝ) (α : ℝ) (hα : 0 < α) (cfg : Solver XR) (τ : ℝ) (hτ : 0 ≤ τ) (ht : cfg.tolerance = XR.fin τ)
    (V : Fin p → Euc T) (h : StopsMT srt cfg D Y (.l21 α) V) (W : Fin p → Euc T)
    (hW : ∀ U, objectiveMT D Y (.l21 α) W ≤ objectiveMT D Y (.l21 α) U) :
    ∑ i, ∑ t, (fitMT D.matrix (fun j => (V j).ofLp) i t - fitMT D.matrix (fun j => (W j).ofLp) i t) ^ 2 ≤
      τ * (∑ i, ∑ t, Y i t ^ 2) / α := by
  have hn' : (0 : ℝ) < n := by exact_mod_cast hn
  have b := sizeMT_of_objective hα (C28_result_mt hs hn D hD Y (.l21 α) hα trivial cfg V h.1)
  have b' := sizeMT_of_objective hα (hW 0)
  have e0 : objectiveMT D Y (.l21 α) 0 = (∑ i, ∑ t, Y i t ^ 2) / (2 * n) := objectiveMT_zero D Y α
  rw [objectiveMT_zero] at b
  rw [e0] at b'
  have d := sum_norm_sub_le V W
  refine (predictionsMT_of_cert (σ := 0) hn hα.le (stopsMT_cert hs hn hα ht h) (fun u => by rw [zero_mul]; linarith [hW u])).trans ?_
  rw [add_zero]
  have f := mul_le_mul_of_nonneg_left (show ∑ j, ‖V j - W j‖ ≤ (∑ i, ∑ t, Y i t ^ 2) / (n * α) by
    have : (∑ i, ∑ t, Y i t ^ 2) / (n * α) = (∑ i, ∑ t, Y i t ^ 2) / (2 * n) / α + (∑ i, ∑ t, Y i t ^ 2) / (2 * n) / α := by
      field_simp; ring
    linarith) hτ
  refine (mul_le_mul_of_nonneg_left f hn'.le).trans (le_of_eq ?_)
  field_simp

/-! ## Floating point -/

/-- Fits of the problem with tolerance `τ` stop in floating point if the precision is sufficient, and the values of the computed
coefficients satisfy `P ε` (with `ε` as small as desired). -/
def InFloat (D : Design n p) (y : Fin n → ℝ) (k : LossKind) (pen : Pen) (τ : ℝ) (P : ℝ → (Fin p → ℝ) → Prop) : Prop :=
  ∃ N : ℕ, ∀ (E : ℕ) (ε : ℝ), 0 < ε → ∃ e₀ : ℝ, 0 < e₀ ∧ ∀ (F : Type) [Scalar F] [LawfulCmp F] (e : ℝ), FloatLaws k F e → e ≤ e₀ →
    ∀ (x : D.Entries F) (y' : Fin n → F) (pen' : PenOf F), D.StoredAs e x → (∀ i, Stores e (y' i) (y i)) → pen'.Stored e pen →
    ∀ srt : Argsort F, ArgsortSpec srt → ∀ cfg : Solver F, SettingsOK cfg p → Stores e cfg.tolerance τ →
    N ≤ cfg.maxIterations → cfg.maxEpochs ≤ E → 0 < cfg.maxEpochs → StopsPlain cfg →
    ∃ v m, RunsTo srt cfg D x y' k pen' v m ∧ m ≤ N ∧ P ε v

theorem inFloat_of (hn : 0 < n) (hp : 0 < p) (D : Design n p) (hD : D.Canonical) (y : Fin n → ℝ) (k : LossKind) (hy : k.LabelsOK y)
    (pen : Pen) (hv : pen.Valid) (hc : pen.Convex) (hα : 0 < pen.fn 1) (τ : ℝ) (hτ : 0 < τ) {P : ℝ → (Fin p → ℝ) → Prop}
    (h : ∀ ε, 0 < ε → ∀ v, objective1 D y k pen v ≤ objective1 D y k pen 0 + ε →
      (∀ u, objective1 D y k pen v - objective1 D y k pen u ≤ (τ + ε) * ∑ j, |v j - u j|) → P ε v) : InFloat D y k pen τ P := by
  obtain ⟨N, h1⟩ := C63_terminates hn hp D hD y k hy pen hv hc hα τ hτ
  refine ⟨N, fun E ε hε => ?_⟩
  obtain ⟨e₀, he₀, h2⟩ := h1 E ε hε
  refine ⟨e₀, he₀, fun F _ _ e hl hee x y' pen' hx hy' hpn srt hs cfg hcfg ht hN hE hE1 hpl => ?_⟩
  obtain ⟨v, m, h3, h4, h5, -, h6⟩ := h2 F e hl hee x y' pen' hx hy' hpn srt hs cfg hcfg ht hN hE hE1 hpl
  exact ⟨v, m, h3, h4, h ε hε v h5 h6⟩

theorem slope_one {pen : Pen} {κ : ℝ} (hκ0 : 0 < κ) (hκ : ∀ z, κ * |z| ≤ pen.fn z) : 0 < pen.fn 1 := by
  have := hκ 1
  rw [abs_one, mul_one] at this
  linarith

/-- Predictions in floating point. -/
theorem C69_float (hn : 0 < n) (hp : 0 < p) (D : Design n p) (hD : D.Canonical) (y : Fin n → ℝ) (pen : Pen) (hv : pen.Valid)
    (hc : pen.Convex) (κ : ℝ) (hκ0 : 0 < κ) (hκ : ∀ z, κ * |z| ≤ pen.fn z) (τ : ℝ) (hτ : 0 < τ)
    (w : Fin p → ℝ) (hw : ∀ u, objective1 D y .quadratic pen w ≤ objective1 D y .quadratic pen u) :
    InFloat D y .quadratic pen τ fun ε v =>
      ∑ i, (fit D.matrix v i - fit D.matrix w i) ^ 2 ≤ (τ + ε) * (∑ i, y i ^ 2 + n * ε) / κ :=
  inFloat_of hn hp D hD y .quadratic trivial pen hv hc (slope_one hκ0 hκ) τ hτ fun _ hε _ h1 h2 =>
    predictions_min hn hv hc hκ0 hκ (by linarith) h1 h2 hw

/-! ## Estimators -/

theorem stops_of_run {srt : Argsort XR} (hs : ArgsortSpec srt) (hn : 0 < n) {D : Design n p} {y : Fin n → ℝ} {k : LossKind} {pen : Pen}
    (hv : pen.Valid) {cfg : Solver XR} {v : Fin p → ℝ} {m : ℕ} (h : (prob1 D y k pen).run srt cfg = .ok (v, m))
    (hm : m < cfg.maxIterations) : Stops srt cfg D y k pen v := by
  refine ⟨by rw [solve1_eq hs hn D y k pen hv, h]; rfl, ?_⟩
  have h2 := trace1_solve srt D y k pen (cfg.setVerbose true)
  have h' : (prob1 D y k pen).run srt (cfg.setVerbose true) = .ok (v, m) := h
  rw [solve1_eq hs hn D y k pen hv, h'] at h2
  cases h3 : trace1 srt (cfg.setVerbose true) D y k pen with
  | error e => rw [h3] at h2; cases h2
  | ok r =>
    obtain ⟨v', m', h4, -, h5⟩ := trace1_run hs hn D y k pen hv _ r.1 r.2 h3
    rw [h'] at h4
    have h6 : m = m' := by injection h4 with h4; injection h4
    exact ⟨r.1, r.2, rfl, by rw [h5 rfl, ← h6]; exact hm⟩

/-- `Lasso::fit` on columns of norm `√n`, with explicit constants only: at least `8 p ‖y‖² / (n τ²)` iterations allowed, the objective
is within `τ ‖y‖² / (n α)` of the minimum and the predictions have squared distance at most `τ ‖y‖² / α` to those of a minimiser. -/
theorem C69_lasso_fit (hn : 0 < n) (D : Design n p) (hD : D.Canonical) (hX : ∀ j, ∑ i, D.matrix i j ^ 2 = n) (y : Fin n → ℝ) (α : ℝ)
    (hα : 0 < α) (τ : ℝ) (hτ : 0 < τ)
    {srt : Argsort XR} (hs : ArgsortSpec srt) (ps : LassoParams XR) (hps : ps.checkRef = .ok ps) (ha : ps.alpha = XR.fin α)
    (ht : ps.tolerance = XR.fin τ) (he : 0 < ps.maxEpochs) (hpl : StopsPlain ps.solver)
    (hacc : ps.useAcceleration = true → ps.K ≤ ps.wsStartSize ∧ ps.K ≤ p)
    (hN : 8 * p * (∑ i, y i ^ 2) / (n * τ ^ 2) < ps.maxIterations) :
    ∃ v : Fin p → ℝ, fitLasso srt ps D y = .ok (.ok (vec v)) ∧
      (∀ w, objective1 D y .quadratic (.l1 α) v ≤ objective1 D y .quadratic (.l1 α) w + τ * (∑ i, y i ^ 2) / (n * α)) ∧
      ∀ w, (∀ u, objective1 D y .quadratic (.l1 α) w ≤ objective1 D y .quadratic (.l1 α) u) →
        ∑ i, (fit D.matrix v i - fit D.matrix w i) ^ 2 ≤ τ * (∑ i, y i ^ 2) / α := by
  have h2 := checkTail_pos (τ := ps.tolerance) (a := ps) (b := ps) (K := ps.K) (ws := ps.wsStartSize) (by
    have h := hps
    unfold LassoParams.checkRef at h
    split at h
    · cases h
    · exact h)
  have hn' : (0 : ℝ) < n := by exact_mod_cast hn
  have hL : ∀ j, lipschitz D .quadratic j = 1 := fun j => by
    show (∑ i, D.matrix i j ^ 2) / (n : ℝ) = 1
    rw [hX j, div_self hn'.ne']
  have hv : (Pen.l1 α).Valid := hα.le
  obtain ⟨v, m, h⟩ := (prob1 D y .quadratic (.l1 α)).run_ok hs ps.solver (fun hu => by
    obtain ⟨h3, h4⟩ := hacc hu
    exact ⟨h2.1, by show ps.K ≤ ps.wsStartSize * 1; omega, by show ps.K ≤ p * 1; omega⟩)
  have hb := iter_bound1 hn D hD y .quadratic trivial (.l1 α) hv (fun _ => by simp) 1 1 τ one_pos
    (fun j _ => by rw [hL j]; exact (add_zero _).le) (fun j => (hL j).le) hτ hs ps.solver ht h2.2 he hpl v m h
  rw [objective1_zero D y (.l1 α) (pen_zero_of trivial)] at hb
  have e : 4 * p * (2 * 1 + (Pen.l1 α).modulus) ^ 2 * ((∑ i, y i ^ 2) / (2 * n)) / (1 * τ ^ 2) = 8 * p * (∑ i, y i ^ 2) / (n * τ ^ 2) := by
    show 4 * p * (2 * 1 + 0) ^ 2 * ((∑ i, y i ^ 2) / (2 * n)) / (1 * τ ^ 2) = _
    field_simp; ring
  rw [e] at hb
  have hst : Stops srt ps.solver D y .quadratic (.l1 α) v := stops_of_run hs hn hv h (by exact_mod_cast lt_of_le_of_lt hb hN)
  refine ⟨v, ?_, fun w => ?_, fun w hw => ?_⟩
  · rw [fitLasso_eq srt ps α ha, hps, guarded_ok, hst.1]
    rfl
  · have := C69_objective hs hn D hD y .quadratic trivial (.l1 α) hv trivial α hα (pen_slope_l1 α) ps.solver τ hτ.le ht v hst w
    rw [objective1_zero D y (.l1 α) (pen_zero_of trivial)] at this
    refine this.trans (le_of_eq ?_)
    field_simp
  · exact C69_minimiser hs hn D hD y (.l1 α) hv trivial α hα (pen_slope_l1 α) ps.solver τ hτ.le ht v hst w hw

/-! ## Examples -/

/-- Fits which stop exist for every problem. -/
theorem stops_exists (hn : 0 < n) (D : Design n p) (hD : D.Canonical) (y : Fin n → ℝ) (k : LossKind) (hy : k.LabelsOK y) (pen : Pen)
    (hv : pen.Valid) (hc : pen.Convex) (hα : 0 < pen.fn 1) (τ : ℝ) (hτ : 0 < τ) :
    ∃ N : ℕ, ∀ ws, 0 < ws → ∃ v, Stops argsortIns ⟨ws, N, 50, XR.fin τ, 5, false, true⟩ D y k pen v := by
  obtain ⟨a, b, H⟩ := prob1_cvx hn D hD y k hy pen hv hc hα
  have hm0 : (prob1 D y k pen).m0 = XR.ninf ∨ (prob1 D y k pen).m0 = XR.fin 0 := by
    cases pen <;> first | exact Or.inl rfl | exact Or.inr rfl
  obtain ⟨N, h2⟩ := H.run_terminates hm0 τ hτ
  refine ⟨N + 1, fun ws hws => ?_⟩
  obtain ⟨v, m, h⟩ := (prob1 D y k pen).run_ok argsortIns_spec ⟨ws, N + 1, 50, XR.fin τ, 5, false, true⟩ (fun hu => by cases hu)
  have hpl : StopsPlain (⟨ws, N + 1, 50, XR.fin τ, 5, false, true⟩ : Solver XR) := fun _ _ _ => Or.inl rfl
  have h5 := (h2 argsortIns_spec _ rfl hws (by norm_num) hpl.plainEnd v m h).1
  exact ⟨v, stops_of_run argsortIns_spec hn hv h (by show m < N + 1; omega)⟩

theorem stopsMT_exists (hn : 0 < n) (D : Design n p) (hD : D.Canonical) (Y : Fin n → Fin T → ℝ) (α : ℝ) (hα : 0 < α) (τ : ℝ) (hτ : 0 < τ) :
    ∃ N : ℕ, ∀ ws, 0 < ws → ∃ V, StopsMT argsortIns ⟨ws, N, 50, XR.fin τ, 5, false, true⟩ D Y (.l21 α) V := by
  obtain ⟨N, h2⟩ := (probMT_cvx hn D hD Y α hα).run_terminates (Or.inl rfl) τ hτ
  refine ⟨N + 1, fun ws hws => ?_⟩
  obtain ⟨cfg, hcfg⟩ : ∃ cfg : Solver XR, cfg = ⟨ws, N + 1, 50, XR.fin τ, 5, false, true⟩ := ⟨_, rfl⟩
  have hpl : StopsPlain cfg := by rw [hcfg]; exact fun _ _ _ => Or.inl rfl
  obtain ⟨V, m, h⟩ := (probMT D Y (.l21 α)).run_ok argsortIns_spec cfg (fun hu => by rw [hcfg] at hu; cases hu)
  have h5 := (h2 argsortIns_spec cfg (by rw [hcfg]) (by rw [hcfg]; exact hws) (by rw [hcfg]; norm_num) hpl.plainEnd V m h).1
  refine ⟨V, ?_⟩
  rw [← hcfg]
  refine ⟨by rw [solveMT_eq argsortIns_spec hn D Y (.l21 α) hα, h]; rfl, ?_⟩
  have h2 := traceMT_solve argsortIns D Y (.l21 α) (cfg.setVerbose true)
  have h' : (probMT D Y (.l21 α)).run argsortIns (cfg.setVerbose true) = .ok (V, m) := h
  rw [solveMT_eq argsortIns_spec hn D Y (.l21 α) hα, h'] at h2
  cases h3 : traceMT argsortIns (cfg.setVerbose true) D Y (.l21 α) with
  | error e => rw [h3] at h2; cases h2
  | ok r =>
    obtain ⟨v', m', h4, -, h7⟩ := traceMT_run argsortIns_spec hn D Y (.l21 α) hα _ r.1 r.2 h3
    rw [h'] at h4
    have h6 : m = m' := by injection h4 with h4; injection h4
    exact ⟨r.1, r.2, rfl, by rw [h7 rfl, ← h6, hcfg]; show m < N + 1; omega⟩

/-- Two identical features: the coefficients of the Lasso are not unique. -/
noncomputable def dupD : Design 2 2 := .dense ![![1, 1], ![2, 2]]

example : ∃ N : ℕ, ∃ v v' : Fin 2 → ℝ, Stops argsortIns ⟨1, N, 50, XR.fin (1 / 1000), 5, false, true⟩ dupD ![1, 2] .quadratic (.l1 (1 / 10)) v ∧
    Stops argsortIns ⟨2, N, 50, XR.fin (1 / 1000), 5, false, true⟩ dupD ![1, 2] .quadratic (.l1 (1 / 10)) v' ∧
    ∑ i, (fit dupD.matrix v i - fit dupD.matrix v' i) ^ 2 ≤ 1 / 10 ∧
    ∀ w, objective1 dupD ![1, 2] .quadratic (.l1 (1 / 10)) v ≤ objective1 dupD ![1, 2] .quadratic (.l1 (1 / 10)) w + 1 / 40 := by
  have hv : (Pen.l1 (1 / 10)).Valid := by norm_num [Pen.Valid]
  obtain ⟨N, h⟩ := stops_exists two_pos dupD trivial ![1, 2] .quadratic trivial (.l1 (1 / 10)) hv trivial (by norm_num [Pen.fn])
    (1 / 1000) (by norm_num)
  obtain ⟨v, h1⟩ := h 1 one_pos
  obtain ⟨v', h2⟩ := h 2 two_pos
  refine ⟨N, v, v', h1, h2, ?_, fun w => ?_⟩
  · refine (C69_predictions argsortIns_spec argsortIns_spec two_pos dupD dupD trivial trivial rfl ![1, 2] (.l1 (1 / 10)) hv trivial (1 / 10)
      (by norm_num) (pen_slope_l1 _) _ _ (1 / 1000) (1 / 1000) (by norm_num) (by norm_num) rfl rfl v v' h1 h2).trans ?_
    norm_num [Fin.sum_univ_two]
  · refine (C69_objective argsortIns_spec two_pos dupD trivial ![1, 2] .quadratic trivial (.l1 (1 / 10)) hv trivial (1 / 10)
      (by norm_num) (pen_slope_l1 _) _ (1 / 1000) (by norm_num) rfl v h1 w).trans ?_
    rw [objective1_zero dupD _ _ (by norm_num [Pen.fn])]
    norm_num [Fin.sum_univ_two]

-- the elastic net has one minimiser, and the predictions of a fit are close to its predictions
example : ∃ (N : ℕ) (v w : Fin 2 → ℝ), Stops argsortIns ⟨1, N, 50, XR.fin (1 / 1000), 5, false, true⟩ dupD ![1, 2] .quadratic
      (.enet (1 / 10) (1 / 2)) v ∧
    (∀ u, objective1 dupD ![1, 2] .quadratic (.enet (1 / 10) (1 / 2)) w ≤ objective1 dupD ![1, 2] .quadratic (.enet (1 / 10) (1 / 2)) u) ∧
    ∑ i, (fit dupD.matrix v i - fit dupD.matrix w i) ^ 2 ≤ 1 / 10 := by
  have hv : (Pen.enet (1 / 10) (1 / 2)).Valid := ⟨by norm_num, by norm_num, by norm_num⟩
  obtain ⟨N, h⟩ := stops_exists two_pos dupD trivial ![1, 2] .quadratic trivial (.enet (1 / 10) (1 / 2)) hv trivial
    (by norm_num [Pen.fn, enet]) (1 / 1000) (by norm_num)
  obtain ⟨v, h1⟩ := h 1 one_pos
  obtain ⟨w, hw, -⟩ := C65_unique two_pos dupD ![1, 2] .quadratic (.enet (1 / 10) (1 / 2)) hv trivial 0 (curvature_zero _ _)
    (by norm_num [Pen.modulus])
  refine ⟨N, v, w, h1, hw, ?_⟩
  refine (C69_minimiser argsortIns_spec two_pos dupD trivial ![1, 2] (.enet (1 / 10) (1 / 2)) hv trivial (1 / 10 * (1 / 2))
    (by norm_num) (pen_slope_enet (by norm_num) (by norm_num)) _ (1 / 1000) (by norm_num) rfl v h1 w hw).trans ?_
  norm_num [Fin.sum_univ_two]

-- two minimisers of the Lasso with identical features
example (w w' : Fin 2 → ℝ)
    (hw : ∀ u, objective1 dupD ![1, 2] .quadratic (.l1 (1 / 10)) w ≤ objective1 dupD ![1, 2] .quadratic (.l1 (1 / 10)) u)
    (hw' : ∀ u, objective1 dupD ![1, 2] .quadratic (.l1 (1 / 10)) w' ≤ objective1 dupD ![1, 2] .quadratic (.l1 (1 / 10)) u) :
    w 0 + w 1 = w' 0 + w' 1 := by
  have h := C69_unique two_pos dupD ![1, 2] (.l1 (1 / 10)) (by norm_num [Pen.Valid]) trivial w w' hw hw' 0
  have e : ∀ u : Fin 2 → ℝ, fit dupD.matrix u 0 = u 0 + u 1 := fun u => by
    show ∑ j : Fin 2, (![![1, 1], ![2, 2]] : Fin 2 → Fin 2 → ℝ) 0 j * u j = _
    rw [Fin.sum_univ_two]; norm_num
  rw [e, e] at h
  exact h

-- multi-task Lasso
example : ∃ N : ℕ, ∃ V V' : Fin 2 → Euc 2,
    StopsMT argsortIns ⟨1, N, 50, XR.fin (1 / 1000), 5, false, true⟩ dupD ![![1, 2], ![0, -1]] (.l21 (1 / 10)) V ∧
    StopsMT argsortIns ⟨2, N, 50, XR.fin (1 / 1000), 5, false, true⟩ dupD ![![1, 2], ![0, -1]] (.l21 (1 / 10)) V' ∧
    ∑ i, ∑ t, (fitMT dupD.matrix (fun j => (V j).ofLp) i t - fitMT dupD.matrix (fun j => (V' j).ofLp) i t) ^ 2 ≤ 12 / 100 ∧
    ∀ W, objectiveMT dupD ![![1, 2], ![0, -1]] (.l21 (1 / 10)) V ≤ objectiveMT dupD ![![1, 2], ![0, -1]] (.l21 (1 / 10)) W + 3 / 100 := by
  obtain ⟨N, h⟩ := stopsMT_exists two_pos dupD trivial ![![1, 2], ![0, -1]] (1 / 10) (by norm_num) (1 / 1000) (by norm_num)
  obtain ⟨V, h1⟩ := h 1 one_pos
  obtain ⟨V', h2⟩ := h 2 two_pos
  refine ⟨N, V, V', h1, h2, ?_, fun W => ?_⟩
  · refine (C69_predictions_mt argsortIns_spec argsortIns_spec two_pos dupD dupD trivial trivial rfl _ (1 / 10) (by norm_num) _ _
      (1 / 1000) (1 / 1000) (by norm_num) (by norm_num) rfl rfl V V' h1 h2).trans ?_
    norm_num [Fin.sum_univ_two]
  · refine (C69_objective_mt argsortIns_spec two_pos dupD trivial _ (1 / 10) (by norm_num) _ (1 / 1000) (by norm_num) rfl V h1 W).trans ?_
    norm_num [Fin.sum_univ_two]

-- the Lasso estimator on orthogonal features (C68), tolerance 1
example : ∃ v : Fin 4 → ℝ,
    fitLasso argsortIns ⟨XR.fin (1 / 10), 200, 50, 10, XR.fin 1, 3, true, true⟩ (.dense fun i j => if i = j then 2 else 0)
      ![1, -2, 0, 3] = .ok (.ok (vec v)) ∧
    ∀ w, objective1 (.dense fun i j : Fin 4 => if i = j then 2 else 0) ![1, -2, 0, 3] .quadratic (.l1 (1 / 10)) v ≤
      objective1 (.dense fun i j : Fin 4 => if i = j then 2 else 0) ![1, -2, 0, 3] .quadratic (.l1 (1 / 10)) w + 35 := by
  obtain ⟨v, h1, h2, -⟩ := C69_lasso_fit (by norm_num) (.dense fun i j : Fin 4 => if i = j then 2 else 0) trivial (fun j => by
      have h : (∑ i : Fin 4, (if i = j then (2 : ℝ) else 0) ^ 2) / ((4 : ℕ) : ℝ) = 1 := exIter_lip j
      rw [div_eq_one_iff_eq (by norm_num)] at h
      exact h) ![1, -2, 0, 3] (1 / 10) (by norm_num) 1 one_pos argsortIns_spec
    ⟨XR.fin (1 / 10), 200, 50, 10, XR.fin 1, 3, true, true⟩ (by
      have e0 : (signBit (XR.fin (1 / 10)) : Bool) = false := by
        show decide ((1 / 10 : ℝ) < 0) = false
        simp
      have e1 : (signBit (XR.fin 1) : Bool) = false := by
        show decide ((1 : ℝ) < 0) = false
        simp
      unfold LassoParams.checkRef checkTail
      simp only [e0, e1]
      rfl) rfl rfl (by norm_num) (by
      intro e h1 h2
      refine Or.inr ?_
      have h1 : e < 50 := h1
      have h2 : e + 1 = 50 ∨ (0 < e ∧ e % 10 = 0) := h2
      show e % 4 ≠ 3
      omega) (fun _ => ⟨by norm_num, by norm_num⟩) (by norm_num [Fin.sum_univ_succ])
  refine ⟨v, h1, fun w => (h2 w).trans ?_⟩
  norm_num [Fin.sum_univ_succ]

-- floating point
example (w : Fin 2 → ℝ)
    (hw : ∀ u, objective1 dupD ![1, 2] .quadratic (.l1 (1 / 10)) w ≤ objective1 dupD ![1, 2] .quadratic (.l1 (1 / 10)) u) :
    ∃ (t N : ℕ) (v : Fin 2 → ℝ) (m : ℕ),
      RunsTo argsortIns (binCfg t N (1 / 1000)) dupD (fun i j => Fl.of t (dupD.matrix i j)) (fun i => Fl.of t (![1, 2] i)) .quadratic
        (.l1 (Fl.of t (1 / 10))) v m ∧
      ∑ i, (fit dupD.matrix v i - fit dupD.matrix w i) ^ 2 ≤ 11 / 100 := by
  obtain ⟨N, h⟩ := C69_float two_pos two_pos dupD trivial ![1, 2] (.l1 (1 / 10)) (by norm_num [Pen.Valid]) trivial (1 / 10) (by norm_num)
    (pen_slope_l1 _) (1 / 1000) (by norm_num) w hw
  obtain ⟨e₀, he₀, h⟩ := h 10 (1 / 1000) (by norm_num)
  obtain ⟨t, ht⟩ := bin_exists he₀
  obtain ⟨v, m, h1, h2, h3⟩ := h _ _ (bin_laws t .quadratic) ht (fun i j => Fl.of t (dupD.matrix i j)) (fun i => Fl.of t (![1, 2] i))
    (.l1 (Fl.of t (1 / 10))) (fun i j => bin_stores t _) (fun i => bin_stores t _) (bin_stores t _) argsortIns (argsortFl t)
    (binCfg t N (1 / 1000)) (binCfg_ok _ _ _) (bin_stores t _) le_rfl le_rfl (by norm_num [binCfg]) (binCfg_plain _ _ _)
  refine ⟨t, N, v, m, h1, h3.trans ?_⟩
  norm_num [Fin.sum_univ_two]

end Sglm
