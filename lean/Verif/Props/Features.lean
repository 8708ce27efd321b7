import Verif.Spec.Features
import Verif.Props.Selection

/-!
# C79: reordering, removing and adding features
-/

namespace Sglm
open Scalar Spec
variable {n p q T : ℕ}

section
variable {E : Type} [AddCommGroup E] {f : Fin q → Fin p}

theorem spread_apply (hf : Function.Injective f) (u : Fin q → E) (k : Fin q) : spread f u (f k) = u k := hf.extend_apply _ _ _

theorem spread_out (u : Fin q → E) {j : Fin p} (h : ∀ k, f k ≠ j) : spread f u j = 0 :=
  Function.extend_apply' _ _ _ (by rintro ⟨k, hk⟩; exact h k hk)

/-- Coefficients which vanish for the missing features. -/
theorem spread_of (hf : Function.Injective f) {v : Fin p → E} (h : ∀ j, (∀ k, f k ≠ j) → v j = 0) : spread f (fun k => v (f k)) = v := by
  funext j
  by_cases hj : ∃ k, f k = j
  · obtain ⟨k, rfl⟩ := hj
    exact spread_apply hf _ k
  · have hj : ∀ k, f k ≠ j := fun k hk => hj ⟨k, hk⟩
    rw [spread_out _ hj, h j hj]

theorem sum_spread (hf : Function.Injective f) {g : Fin p → E} (hg : ∀ j, (∀ k, f k ≠ j) → g j = 0) :
    ∑ j, g j = ∑ k, g (f k) := by
  rw [← Finset.sum_image (f := g) (g := f) fun a _ b _ h => hf h]
  symm
  refine Finset.sum_subset (Finset.subset_univ _) fun j _ hj => hg j fun k hk => hj ?_
  rw [← hk]
  exact Finset.mem_image_of_mem f (Finset.mem_univ k)
end

variable {D : Design n p} {D' : Design n q} {f : Fin q → Fin p}

theorem fit_spread (h : Subfeatures D D' f) (u : Fin q → ℝ) : fit D.matrix (spread f u) = fit D'.matrix u := by
  funext i
  unfold fit
  rw [sum_spread h.inj fun j hj => by rw [spread_out u hj, mul_zero]]
  exact Finset.sum_congr rfl fun k _ => by rw [spread_apply h.inj, h.cols]

theorem objective_spread (h : Subfeatures D D' f) (y : Fin n → ℝ) (k : LossKind) {pen : Pen} (h0 : pen.fn 0 = 0) (u : Fin q → ℝ) :
    objective1 D y k pen (spread f u) = objective1 D' y k pen u := by
  unfold objective1
  rw [fit_spread h, sum_spread h.inj fun j hj => by rw [spread_out u hj, h0]]
  congr 1
  exact Finset.sum_congr rfl fun k _ => by rw [spread_apply h.inj]

theorem dist_spread (hf : Function.Injective f) (u u' : Fin q → ℝ) : ∑ j, |spread f u j - spread f u' j| = ∑ k, |u k - u' k| := by
  rw [sum_spread hf fun j hj => by rw [spread_out u hj, spread_out u' hj, sub_zero, abs_zero]]
  exact Finset.sum_congr rfl fun k _ => by rw [spread_apply hf, spread_apply hf]

/-- From all features to some of them. -/
theorem cert_remove (h : Subfeatures D D' f) {y : Fin n → ℝ} {k : LossKind} {pen : Pen} (h0 : pen.fn 0 = 0) {τ : ℝ} {v : Fin p → ℝ}
    (hz : ∀ j, (∀ k, f k ≠ j) → v j = 0)
    (hv : ∀ u, objective1 D y k pen v - objective1 D y k pen u ≤ τ * ∑ j, |v j - u j|) (u : Fin q → ℝ) :
    objective1 D' y k pen (fun k => v (f k)) - objective1 D' y k pen u ≤ τ * ∑ k, |v (f k) - u k| := by
  rw [← objective_spread h y k h0, ← objective_spread h y k h0, ← dist_spread h.inj (fun k => v (f k)) u, spread_of h.inj hz]
  exact hv (spread f u)

theorem curvature_sub (h : Subfeatures D D' f) {k : LossKind} {c : ℝ} (hc : Curvature D k c) : Curvature D' k c := by
  cases k with
  | logistic => exact hc
  | quadratic =>
    intro d
    have := hc (spread f d)
    rw [fit_spread h, sum_spread h.inj fun j hj => by rw [spread_out d hj]; norm_num] at this
    refine le_trans (le_of_eq ?_) this
    congr 1
    exact Finset.sum_congr rfl fun k _ => by rw [spread_apply h.inj]

/-- **Features which are not selected may be removed**: the coefficients of the other features are optimal for the smaller dataset, up to
the same tolerance. -/
theorem C79_remove {srt : Argsort XR} (hs : ArgsortSpec srt) (hn : 0 < n) (D : Design n p) (D' : Design n q) (f : Fin q → Fin p)
    (hf : Subfeatures D D' f) (y : Fin n → ℝ) (k : LossKind) (pen : Pen) (hv : pen.Valid) (hc : pen.Convex) (cfg : Solver XR) (τ : ℝ)
    (ht : cfg.tolerance = XR.fin τ) (v : Fin p → ℝ) (h : Stops srt cfg D y k pen v) (hz : ∀ j, (∀ k, f k ≠ j) → v j = 0)
    (u : Fin q → ℝ) : objective1 D' y k pen (fun k => v (f k)) ≤ objective1 D' y k pen u + τ * ∑ k, |v (f k) - u k| := by
  linarith [cert_remove hf (pen_zero_of hc) hz (stops_cert hs hn hv hc ht h).2 u]

/-- **Refitting on the selected features**, or on reordered features, with whatever settings: the coefficients stay, up to the
tolerances. -/
theorem C79_refit {srt srt' : Argsort XR} (hs : ArgsortSpec srt) (hs' : ArgsortSpec srt') (hn : 0 < n) (D : Design n p)
    (D' : Design n q) (f : Fin q → Fin p) (hf : Subfeatures D D' f) (y : Fin n → ℝ) (k : LossKind) (pen : Pen) (hv : pen.Valid)
    (hc : pen.Convex) (c : ℝ) (hcurv : Curvature D' k c) (hμ : 0 < c + pen.modulus) (cfg cfg' : Solver XR) (τ τ' : ℝ)
    (ht : cfg.tolerance = XR.fin τ) (ht' : cfg'.tolerance = XR.fin τ') (v : Fin p → ℝ) (v' : Fin q → ℝ) (h : Stops srt cfg D y k pen v)
    (h' : Stops srt' cfg' D' y k pen v') (hz : ∀ j, (∀ k, f k ≠ j) → v j = 0) :
    ∑ k, (v (f k) - v' k) ^ 2 ≤ q * ((τ + τ') / (c + pen.modulus)) ^ 2 := by
  have h1 := cert_remove hf (pen_zero_of hc) hz (stops_cert hs hn hv hc ht h).2
  have := (strong1 hn D' y k pen hv hc hcurv).near hμ h1 (stops_cert hs' hn hv hc ht' h').2
  rwa [sum_norm_sq] at this

/-- **The order of the features does not matter**, up to the tolerances. -/
theorem C79_permute {srt srt' : Argsort XR} (hs : ArgsortSpec srt) (hs' : ArgsortSpec srt') (hn : 0 < n) (D D' : Design n p)
    (σ : Equiv.Perm (Fin p)) (hD : ∀ i k, D'.matrix i k = D.matrix i (σ k)) (y : Fin n → ℝ) (k : LossKind) (pen : Pen) (hv : pen.Valid)
    (hc : pen.Convex) (c : ℝ) (hcurv : Curvature D k c) (hμ : 0 < c + pen.modulus) (cfg cfg' : Solver XR) (τ τ' : ℝ)
    (ht : cfg.tolerance = XR.fin τ) (ht' : cfg'.tolerance = XR.fin τ') (v v' : Fin p → ℝ) (h : Stops srt cfg D y k pen v)
    (h' : Stops srt' cfg' D' y k pen v') : ∑ k, (v (σ k) - v' k) ^ 2 ≤ p * ((τ + τ') / (c + pen.modulus)) ^ 2 :=
  C79_refit hs hs' hn D D' σ ⟨σ.injective, hD⟩ y k pen hv hc c (curvature_sub ⟨σ.injective, hD⟩ hcurv) hμ cfg cfg' τ τ' ht ht' v v' h h'
    fun j hj => absurd (σ.apply_symm_apply j) (hj _)

/-- Without uniqueness: refitting on the selected features, or on reordered features, leaves the predictions. -/
theorem C79_predictions {srt srt' : Argsort XR} (hs : ArgsortSpec srt) (hs' : ArgsortSpec srt') (hn : 0 < n) (D : Design n p)
    (D' : Design n q) (hD : D.Canonical) (hD' : D'.Canonical) (f : Fin q → Fin p) (hf : Subfeatures D D' f) (y : Fin n → ℝ) (pen : Pen)
    (hv : pen.Valid) (hc : pen.Convex) (hκ : 0 < pen.slope) (cfg cfg' : Solver XR) (τ τ' : ℝ) (hτ : 0 ≤ τ) (hτ' : 0 ≤ τ')
    (ht : cfg.tolerance = XR.fin τ) (ht' : cfg'.tolerance = XR.fin τ') (v : Fin p → ℝ) (v' : Fin q → ℝ)
    (h : Stops srt cfg D y .quadratic pen v) (h' : Stops srt' cfg' D' y .quadratic pen v') (hz : ∀ j, (∀ k, f k ≠ j) → v j = 0) :
    ∑ i, (fit D.matrix v i - fit D'.matrix v' i) ^ 2 ≤ (τ + τ') * (∑ i, y i ^ 2) / pen.slope := by
  have h0 := pen_zero_of hc
  have hst : ∀ (q : ℕ) (D : Design n q), pen.StepOK D .quadratic := fun q D => by cases pen <;> trivial
  have a := C28_result hs hn D hD y .quadratic trivial pen hv (hst _ D) cfg v h.1
  have a' := C28_result hs' hn D' hD' y .quadratic trivial pen hv (hst _ D') cfg' v' h'.1
  have e := objective_spread hf y .quadratic h0 (fun k => v (f k))
  rw [spread_of hf.inj hz] at e
  rw [objective1_zero D y pen h0, e] at a
  rw [objective1_zero D' y pen h0] at a'
  have b := size_of_objective hκ (slope_le hv hc) a
  have b' := size_of_objective hκ (slope_le hv hc) a'
  have d := sum_norm_sub_le (fun k => v (f k)) v'
  simp only [Real.norm_eq_abs] at d
  have hn' : (0 : ℝ) < n := by exact_mod_cast hn
  have g := predictions_of_cert hn hv hc (cert_remove hf h0 hz (stops_cert hs hn hv hc ht h).2) (stops_cert hs' hn hv hc ht' h').2
  rw [← fit_spread hf, spread_of hf.inj hz] at g
  refine g.trans ?_
  have f := mul_le_mul_of_nonneg_left (show ∑ k, |v (f k) - v' k| ≤ (∑ i, y i ^ 2) / (n * pen.slope) by
    have : (∑ i, y i ^ 2) / (n * pen.slope) = (∑ i, y i ^ 2) / (2 * n) / pen.slope + (∑ i, y i ^ 2) / (2 * n) / pen.slope := by
      field_simp; ring
    linarith) (add_nonneg hτ hτ')
  refine (mul_le_mul_of_nonneg_left f hn'.le).trans (le_of_eq ?_)
  field_simp

/-! ## Adding features -/

theorem grad_spread (h : Subfeatures D D' f) (y : Fin n → ℝ) (k : LossKind) (u : Fin q → ℝ) (l : Fin q) :
    gradOf D.matrix y k (fit D.matrix (spread f u)) (f l) = gradOf D'.matrix y k (fit D'.matrix u) l := by
  rw [fit_spread h]
  cases k with
  | quadratic =>
    show quadGrad _ _ _ _ = quadGrad _ _ _ _
    unfold quadGrad
    simp only [h.cols]
  | logistic =>
    show logGrad _ _ _ _ = logGrad _ _ _ _
    unfold logGrad
    simp only [h.cols]

theorem scoreOf_zero (pen : Pen) (hc : pen.Convex) (g : ℝ) : scoreOf pen 0 g = max 0 (|g| - pen.slope) := by
  cases pen with
  | l1 α => show l1Score α 0 g = _; unfold l1Score; rw [if_pos rfl]; rfl
  | enet α ρ => show enetScore α ρ 0 g = _; unfold enetScore; rw [if_pos rfl]; rfl
  | mcp α γ => exact hc.elim
  | l05 α => exact hc.elim

theorem cert_add (hn : 0 < n) (h : Subfeatures D D' f) {y : Fin n → ℝ} {pen : Pen} (hv : pen.Valid) (hc : pen.Convex) {τ σ : ℝ}
    {v : Fin q → ℝ} (h1 : ApproxStationary D' y .quadratic (subdiff pen.fn) v τ) (hτ : τ ≤ σ) (hσ : 0 ≤ σ)
    (hz : ∀ j, (∀ k, f k ≠ j) → |residCorr D y (spread f v) j| ≤ pen.slope + σ) (u : Fin p → ℝ) :
    objective1 D y .quadratic pen (spread f v) - objective1 D y .quadratic pen u ≤ σ * ∑ j, |spread f v j - u j| := by
  have := cert_gap (f := fun w => LossKind.quadratic.loss y (fit D.matrix w))
    (G := gradOf D.matrix y .quadratic (fit D.matrix (spread f v))) (φ := pen.fn) (w := spread f v) (w' := u) (τ := σ) (by
      refine le_trans (le_of_eq ?_) (loss_convex hn D.matrix y .quadratic (spread f v) u)
      congr 1
      exact Finset.sum_congr rfl fun j _ => mul_comm _ _)
    (fun j => by
      by_cases hj : ∃ k, f k = j
      · obtain ⟨k, rfl⟩ := hj
        obtain ⟨g, d, hg, hd, hle⟩ := h1 k
        have e : g = gradOf D'.matrix y .quadratic (fit D'.matrix v) k := hg.unique (loss_partial hn D'.matrix y .quadratic v k)
        rw [grad_spread h, spread_apply h.inj, ← e]
        exact ⟨d, hd, hle.trans hτ⟩
      · have hj : ∀ k, f k ≠ j := fun k hk => hj ⟨k, hk⟩
        refine ⟨_, scoreOf_dist pen hv hc _ _, ?_⟩
        rw [spread_out v hj, scoreOf_zero pen hc]
        have e : gradOf D.matrix y .quadratic (fit D.matrix (spread f v)) j = -residCorr D y (spread f v) j := by
          show quadGrad _ _ _ _ = _
          unfold quadGrad residCorr
          simp only [mul_sub, Finset.sum_sub_distrib]
          ring
        rw [e, abs_neg]
        exact max_le hσ (by linarith [hz j hj]))
  exact this

/-- **Features which may be left out**: fit a part of the features; if the correlations of the others with the residual are at most the
slope of the penalty (plus the tolerance), then the coefficients, with zeros for the others, are optimal for all features. -/
theorem C79_add {srt : Argsort XR} (hs : ArgsortSpec srt) (hn : 0 < n) (D : Design n p) (D' : Design n q) (f : Fin q → Fin p)
    (hf : Subfeatures D D' f) (y : Fin n → ℝ) (pen : Pen) (hv : pen.Valid) (hc : pen.Convex) (cfg : Solver XR) (τ : ℝ) (hτ : 0 ≤ τ)
    (ht : cfg.tolerance = XR.fin τ) (v : Fin q → ℝ) (h : Stops srt cfg D' y .quadratic pen v)
    (hz : ∀ j, (∀ k, f k ≠ j) → |residCorr D y (spread f v) j| ≤ pen.slope + τ) (u : Fin p → ℝ) :
    objective1 D y .quadratic pen (spread f v) ≤ objective1 D y .quadratic pen u + τ * ∑ j, |spread f v j - u j| := by
  linarith [cert_add hn hf hv hc (stops_cert hs hn hv hc ht h).1 le_rfl hτ hz u]

/-- A fit of all features then returns almost these coefficients. -/
theorem C79_add_refit {srt srt' : Argsort XR} (hs : ArgsortSpec srt) (hs' : ArgsortSpec srt') (hn : 0 < n) (D : Design n p)
    (D' : Design n q) (f : Fin q → Fin p) (hf : Subfeatures D D' f) (y : Fin n → ℝ) (pen : Pen) (hv : pen.Valid)
    (hc : pen.Convex) (c : ℝ) (hcurv : Curvature D .quadratic c) (hμ : 0 < c + pen.modulus) (cfg cfg' : Solver XR) (τ τ' : ℝ)
    (hτ : 0 ≤ τ) (ht : cfg.tolerance = XR.fin τ) (ht' : cfg'.tolerance = XR.fin τ') (v : Fin q → ℝ) (v' : Fin p → ℝ)
    (h : Stops srt cfg D' y .quadratic pen v) (h' : Stops srt' cfg' D y .quadratic pen v')
    (hz : ∀ j, (∀ k, f k ≠ j) → |residCorr D y (spread f v) j| ≤ pen.slope + τ) :
    ∑ j, (spread f v j - v' j) ^ 2 ≤ p * ((τ + τ') / (c + pen.modulus)) ^ 2 := by
  have := (strong1 hn D y .quadratic pen hv hc hcurv).near hμ (cert_add hn hf hv hc (stops_cert hs hn hv hc ht h).1 le_rfl hτ hz)
    (stops_cert hs' hn hv hc ht' h').2
  rwa [sum_norm_sq] at this

/-- In floating point, the coefficients of the selected features are optimal for the smaller dataset. -/
theorem C79_float (hn : 0 < n) (hp : 0 < p) (D : Design n p) (hD : D.Canonical) (y : Fin n → ℝ) (k : LossKind) (hy : k.LabelsOK y)
    (pen : Pen) (hv : pen.Valid) (hc : pen.Convex) (hα : 0 < pen.fn 1) (τ : ℝ) (hτ : 0 < τ) :
    InFloat D y k pen τ fun ε v => ∀ (q : ℕ) (D' : Design n q) (f : Fin q → Fin p), Subfeatures D D' f →
      (∀ j, (∀ k, f k ≠ j) → v j = 0) →
      ∀ u, objective1 D' y k pen (fun k => v (f k)) ≤ objective1 D' y k pen u + (τ + ε) * ∑ k, |v (f k) - u k| :=
  inFloat_of hn hp D hD y k hy pen hv hc hα τ hτ fun _ _ _ _ h2 _ _ _ hf hz u => by
    linarith [cert_remove hf (pen_zero_of hc) hz h2 u]

/-! ## Multi-task -/

theorem fitMT_spread (h : Subfeatures D D' f) (U : Fin q → Euc T) :
    fitMT D.matrix (fun j => (spread f U j).ofLp) = fitMT D'.matrix (fun k => (U k).ofLp) := by
  funext i t
  unfold fitMT
  rw [sum_spread h.inj fun j hj => by show _ * (spread f U j).ofLp t = 0; rw [spread_out U hj]; exact mul_zero _]
  exact Finset.sum_congr rfl fun k _ => by show _ * (spread f U (f k)).ofLp t = _; rw [spread_apply h.inj, h.cols]

theorem objectiveMT_spread (h : Subfeatures D D' f) (Y : Fin n → Fin T → ℝ) {pen : BPen} (h0 : pen.fn (0 : Euc T) = 0)
    (U : Fin q → Euc T) : objectiveMT D Y pen (spread f U) = objectiveMT D' Y pen U := by
  unfold objectiveMT
  rw [fitMT_spread h, sum_spread h.inj fun j hj => by rw [spread_out U hj, h0]]
  congr 1
  exact Finset.sum_congr rfl fun k _ => by rw [spread_apply h.inj]

theorem l21_zero (α : ℝ) : (BPen.l21 α).fn (0 : Euc T) = 0 := by
  show α * ‖(0 : Euc T)‖ = 0
  rw [norm_zero, mul_zero]

theorem cert_remove_mt (h : Subfeatures D D' f) {Y : Fin n → Fin T → ℝ} {α τ : ℝ} {V : Fin p → Euc T}
    (hz : ∀ j, (∀ k, f k ≠ j) → V j = 0)
    (hV : ∀ U, objectiveMT D Y (.l21 α) V - objectiveMT D Y (.l21 α) U ≤ τ * ∑ j, ‖V j - U j‖) (U : Fin q → Euc T) :
    objectiveMT D' Y (.l21 α) (fun k => V (f k)) - objectiveMT D' Y (.l21 α) U ≤ τ * ∑ k, ‖V (f k) - U k‖ := by
  have e : ∑ j, ‖V j - spread f U j‖ = ∑ k, ‖V (f k) - U k‖ := by
    rw [sum_spread h.inj fun j hj => by rw [spread_out U hj, hz j hj, sub_zero, norm_zero]]
    exact Finset.sum_congr rfl fun k _ => by rw [spread_apply h.inj]
  rw [← objectiveMT_spread h Y (l21_zero α), ← objectiveMT_spread h Y (l21_zero α), spread_of h.inj hz, ← e]
  exact hV (spread f U)

/-- Multi-task Lasso: features with a zero row may be removed. -/
theorem C79_remove_mt {srt : Argsort XR} (hs : ArgsortSpec srt) (hn : 0 < n) (D : Design n p) (D' : Design n q) (f : Fin q → Fin p)
    (hf : Subfeatures D D' f) (Y : Fin n → Fin T → ℝ) (α : ℝ) (hα : 0 < α) (cfg : Solver XR) (τ : ℝ)
    (ht : cfg.tolerance = XR.fin τ) (V : Fin p → Euc T) (h : StopsMT srt cfg D Y (.l21 α) V) (hz : ∀ j, (∀ k, f k ≠ j) → V j = 0)
    (U : Fin q → Euc T) :
    objectiveMT D' Y (.l21 α) (fun k => V (f k)) ≤ objectiveMT D' Y (.l21 α) U + τ * ∑ k, ‖V (f k) - U k‖ := by
  linarith [cert_remove_mt hf hz (stopsMT_cert hs hn hα ht h) U]

/-- Multi-task Lasso: refitting on the selected features, or on reordered features. -/
theorem C79_refit_mt {srt srt' : Argsort XR} (hs : ArgsortSpec srt) (hs' : ArgsortSpec srt') (hn : 0 < n) (D : Design n p)
    (D' : Design n q) (f : Fin q → Fin p) (hf : Subfeatures D D' f) (Y : Fin n → Fin T → ℝ) (α : ℝ) (hα : 0 < α) (c : ℝ)
    (hcurv : Curvature D' .quadratic c) (hc : 0 < c) (cfg cfg' : Solver XR) (τ τ' : ℝ) (ht : cfg.tolerance = XR.fin τ)
    (ht' : cfg'.tolerance = XR.fin τ') (V : Fin p → Euc T) (V' : Fin q → Euc T) (h : StopsMT srt cfg D Y (.l21 α) V)
    (h' : StopsMT srt' cfg' D' Y (.l21 α) V') (hz : ∀ j, (∀ k, f k ≠ j) → V j = 0) :
    ∑ k, ‖V (f k) - V' k‖ ^ 2 ≤ q * ((τ + τ') / c) ^ 2 :=
  (strongMT D' Y hα.le hcurv).near hc (cert_remove_mt hf hz (stopsMT_cert hs hn hα ht h)) (stopsMT_cert hs' hn hα ht' h')

/-! ## Examples -/

noncomputable def colD : Design 2 1 := .dense ![![1], ![0]]

theorem colD_sub : Subfeatures idD colD (fun _ => 0) :=
  ⟨fun _ _ _ => Subsingleton.elim _ _, fun i k => by fin_cases i <;> fin_cases k <;> rfl⟩

theorem out_one {j : Fin 2} (h : ∀ _ : Fin 1, (0 : Fin 2) ≠ j) : j = 1 := by
  fin_cases j
  · exact absurd rfl (h 0)
  · rfl

-- the Lasso drops the second feature; the first one alone gives the same fit
example : ∃ (N N' : ℕ) (v : Fin 2 → ℝ) (v' : Fin 1 → ℝ),
    Stops argsortIns ⟨1, N, 50, XR.fin (1 / 100), 5, false, true⟩ idD ![4, 1 / 2] .quadratic (.l1 1) v ∧
    Stops argsortIns ⟨1, N', 50, XR.fin (1 / 100), 5, false, true⟩ colD ![4, 1 / 2] .quadratic (.l1 1) v' ∧
    (∀ u, objective1 colD ![4, 1 / 2] .quadratic (.l1 1) (fun _ => v 0) ≤
      objective1 colD ![4, 1 / 2] .quadratic (.l1 1) u + 1 / 100 * ∑ k, |v 0 - u k|) ∧
    ∑ k, (v 0 - v' k) ^ 2 ≤ (1 : ℕ) * ((1 / 100 + 1 / 100) / (1 / 2 + 0)) ^ 2 ∧
    ∑ i, (fit idD.matrix v i - fit colD.matrix v' i) ^ 2 ≤ (1 / 100 + 1 / 100) * (∑ i, ![4, 1 / 2] i ^ 2) / 1 := by
  obtain ⟨N, v, h⟩ := idD_stops
  obtain ⟨N', h'⟩ := stops_exists two_pos colD trivial ![4, 1 / 2] .quadratic trivial (.l1 1) (by norm_num [Pen.Valid]) trivial
    (by norm_num [Pen.fn]) (1 / 100) (by norm_num)
  obtain ⟨v', h'⟩ := h' 1 one_pos
  have hv : (Pen.l1 1).Valid := by norm_num [Pen.Valid]
  have h1 : v 1 = 0 := C70_zero argsortIns_spec two_pos idD trivial ![4, 1 / 2] (.l1 1) hv trivial one_pos _ (1 / 100) (by norm_num) rfl v h
    ![2, 0] idD_min 1 idD_margin
  have hz : ∀ j, (∀ _ : Fin 1, (0 : Fin 2) ≠ j) → v j = 0 := fun j hj => by rw [out_one hj, h1]
  exact ⟨N, N', v, v', h, h',
    C79_remove argsortIns_spec two_pos idD colD _ colD_sub ![4, 1 / 2] .quadratic (.l1 1) hv trivial _ (1 / 100) rfl v h hz,
    C79_refit argsortIns_spec argsortIns_spec two_pos idD colD _ colD_sub ![4, 1 / 2] .quadratic (.l1 1) hv trivial (1 / 2)
      (curvature_sub colD_sub idD_curvature) (by norm_num [Pen.modulus]) _ _ (1 / 100) (1 / 100) rfl rfl v v' h h' hz,
    C79_predictions argsortIns_spec argsortIns_spec two_pos idD colD trivial trivial _ colD_sub ![4, 1 / 2] (.l1 1) hv trivial one_pos _ _
      (1 / 100) (1 / 100) (by norm_num) (by norm_num) rfl rfl v v' h h' hz⟩

noncomputable def swapD : Design 2 2 := .dense ![![0, 1], ![1, 0]]

example : ∃ (N N' : ℕ) (v v' : Fin 2 → ℝ),
    Stops argsortIns ⟨1, N, 50, XR.fin (1 / 100), 5, false, true⟩ idD ![4, 1 / 2] .quadratic (.l1 1) v ∧
    Stops argsortIns ⟨1, N', 50, XR.fin (1 / 100), 5, false, true⟩ swapD ![4, 1 / 2] .quadratic (.l1 1) v' ∧
    ∑ k, (v (Equiv.swap 0 1 k) - v' k) ^ 2 ≤ (2 : ℕ) * ((1 / 100 + 1 / 100) / (1 / 2 + 0)) ^ 2 := by
  obtain ⟨N, v, h⟩ := idD_stops
  obtain ⟨N', h'⟩ := stops_exists two_pos swapD trivial ![4, 1 / 2] .quadratic trivial (.l1 1) (by norm_num [Pen.Valid]) trivial
    (by norm_num [Pen.fn]) (1 / 100) (by norm_num)
  obtain ⟨v', h'⟩ := h' 1 one_pos
  exact ⟨N, N', v, v', h, h', C79_permute argsortIns_spec argsortIns_spec two_pos idD swapD (Equiv.swap 0 1)
    (fun i k => by fin_cases i <;> fin_cases k <;> rfl) ![4, 1 / 2] .quadratic (.l1 1) (by norm_num [Pen.Valid]) trivial (1 / 2)
    idD_curvature (by norm_num [Pen.modulus]) _ _ (1 / 100) (1 / 100) rfl rfl v v' h h'⟩

theorem colD_corr (v : Fin 1 → ℝ) : residCorr idD ![4, 1 / 2] (spread (fun _ => (0 : Fin 2)) v) 1 = 1 / 4 := by
  unfold residCorr
  rw [fit_spread colD_sub, Fin.sum_univ_two]
  unfold fit
  simp only [Fin.sum_univ_one]
  show ((0 : ℝ) * _ + 1 * (1 / 2 - 0 * _)) / ((2 : ℕ) : ℝ) = 1 / 4
  norm_num

-- the first feature alone is fitted; the second one is not needed
example : ∃ (N N' : ℕ) (v : Fin 1 → ℝ) (v' : Fin 2 → ℝ),
    Stops argsortIns ⟨1, N, 50, XR.fin (1 / 100), 5, false, true⟩ colD ![4, 1 / 2] .quadratic (.l1 1) v ∧
    Stops argsortIns ⟨1, N', 50, XR.fin (1 / 100), 5, false, true⟩ idD ![4, 1 / 2] .quadratic (.l1 1) v' ∧
    (∀ u, objective1 idD ![4, 1 / 2] .quadratic (.l1 1) (spread (fun _ => 0) v) ≤
      objective1 idD ![4, 1 / 2] .quadratic (.l1 1) u + 1 / 100 * ∑ j, |spread (fun _ => 0) v j - u j|) ∧
    ∑ j, (spread (fun _ => 0) v j - v' j) ^ 2 ≤ (2 : ℕ) * ((1 / 100 + 1 / 100) / (1 / 2 + 0)) ^ 2 := by
  obtain ⟨N', v', h'⟩ := idD_stops
  obtain ⟨N, h⟩ := stops_exists two_pos colD trivial ![4, 1 / 2] .quadratic trivial (.l1 1) (by norm_num [Pen.Valid]) trivial
    (by norm_num [Pen.fn]) (1 / 100) (by norm_num)
  obtain ⟨v, h⟩ := h 1 one_pos
  have hv : (Pen.l1 1).Valid := by norm_num [Pen.Valid]
  have hz : ∀ j, (∀ _ : Fin 1, (0 : Fin 2) ≠ j) →
      |residCorr idD ![4, 1 / 2] (spread (fun _ => 0) v) j| ≤ (Pen.l1 1).slope + 1 / 100 := fun j hj => by
    rw [out_one hj, colD_corr]
    norm_num [Pen.slope, abs_of_pos]
  exact ⟨N, N', v, v', h, h',
    C79_add argsortIns_spec two_pos idD colD _ colD_sub ![4, 1 / 2] (.l1 1) hv trivial _ (1 / 100) (by norm_num) rfl v h hz,
    C79_add_refit argsortIns_spec argsortIns_spec two_pos idD colD _ colD_sub ![4, 1 / 2] (.l1 1) hv trivial (1 / 2)
      idD_curvature (by norm_num [Pen.modulus]) _ _ (1 / 100) (1 / 100) (by norm_num) rfl rfl v v' h h' hz⟩

example : ∃ (N N' : ℕ) (V V' : Fin 2 → Euc 2),
    StopsMT argsortIns ⟨1, N, 50, XR.fin (1 / 100), 5, false, true⟩ idD ![![4, 1], ![0, 1 / 2]] (.l21 1) V ∧
    StopsMT argsortIns ⟨1, N', 50, XR.fin (1 / 100), 5, false, true⟩ swapD ![![4, 1], ![0, 1 / 2]] (.l21 1) V' ∧
    ∑ k, ‖V (Equiv.swap 0 1 k) - V' k‖ ^ 2 ≤ (2 : ℕ) * ((1 / 100 + 1 / 100) / (1 / 2)) ^ 2 ∧
    ∀ U : Fin 2 → Euc 2, objectiveMT swapD ![![4, 1], ![0, 1 / 2]] (.l21 1) (fun k => V (Equiv.swap 0 1 k)) ≤
      objectiveMT swapD ![![4, 1], ![0, 1 / 2]] (.l21 1) U + 1 / 100 * ∑ k, ‖V (Equiv.swap 0 1 k) - U k‖ := by
  obtain ⟨N, h⟩ := stopsMT_exists two_pos idD trivial ![![4, 1], ![0, 1 / 2]] 1 one_pos (1 / 100) (by norm_num)
  obtain ⟨V, h⟩ := h 1 one_pos
  obtain ⟨N', h'⟩ := stopsMT_exists two_pos swapD trivial ![![4, 1], ![0, 1 / 2]] 1 one_pos (1 / 100) (by norm_num)
  obtain ⟨V', h'⟩ := h' 1 one_pos
  have hf : Subfeatures idD swapD (Equiv.swap 0 1) :=
    ⟨(Equiv.swap 0 1).injective, fun i k => by fin_cases i <;> fin_cases k <;> rfl⟩
  have hz : ∀ j, (∀ k, Equiv.swap (0 : Fin 2) 1 k ≠ j) → V j = 0 := fun j hj => absurd ((Equiv.swap 0 1).apply_symm_apply j) (hj _)
  exact ⟨N, N', V, V', h, h',
    C79_refit_mt argsortIns_spec argsortIns_spec two_pos idD swapD _ hf _ 1 one_pos (1 / 2) (curvature_sub hf idD_curvature) (by norm_num)
      _ _ (1 / 100) (1 / 100) rfl rfl V V' h h' hz,
    C79_remove_mt argsortIns_spec two_pos idD swapD _ hf _ 1 one_pos _ (1 / 100) rfl V h hz⟩

-- in floating point
example : ∃ (t N : ℕ) (v : Fin 2 → ℝ) (m : ℕ),
      RunsTo argsortIns (binCfg t N (1 / 200)) idD (fun i j => Fl.of t (idD.matrix i j)) (fun i => Fl.of t (![4, 1 / 2] i)) .quadratic
        (.l1 (Fl.of t 1)) v m ∧ ∀ u, objective1 swapD ![4, 1 / 2] .quadratic (.l1 1) (fun k => v (Equiv.swap 0 1 k)) ≤
          objective1 swapD ![4, 1 / 2] .quadratic (.l1 1) u + (1 / 200 + 1 / 1000) * ∑ k, |v (Equiv.swap 0 1 k) - u k| := by
  obtain ⟨N, h⟩ := C79_float two_pos two_pos idD trivial ![4, 1 / 2] .quadratic trivial (.l1 1) (by norm_num [Pen.Valid]) trivial
    (by norm_num [Pen.fn]) (1 / 200) (by norm_num)
  obtain ⟨e₀, he₀, h⟩ := h 10 (1 / 1000) (by norm_num)
  obtain ⟨t, ht⟩ := bin_exists he₀
  obtain ⟨v, m, h1, h2, h3⟩ := h _ _ (bin_laws t .quadratic) ht (fun i j => Fl.of t (idD.matrix i j)) (fun i => Fl.of t (![4, 1 / 2] i))
    (.l1 (Fl.of t 1)) (fun i j => bin_stores t _) (fun i => bin_stores t _) (bin_stores t _) argsortIns (argsortFl t)
    (binCfg t N (1 / 200)) (binCfg_ok _ _ _) (bin_stores t _) le_rfl le_rfl (by norm_num [binCfg]) (binCfg_plain _ _ _)
  exact ⟨t, N, v, m, h1, h3 2 swapD (Equiv.swap 0 1)
    ⟨(Equiv.swap 0 1).injective, fun i k => by fin_cases i <;> fin_cases k <;> rfl⟩
    fun j hj => absurd ((Equiv.swap 0 1).apply_symm_apply j) (hj _)⟩

end Sglm
