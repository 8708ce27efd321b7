import Verif.Spec.ClosedForm
import Verif.Props.Concave

/-!
# C75: orthogonal designs

If the columns of the design are orthogonal the features do not interact, and the solution is known: soft thresholding of the
correlations with the targets (Lasso, elastic net, and block-wise for the multi-task Lasso), firm thresholding (MCP).
-/

namespace Sglm
open Scalar Spec
variable {n p T : ℕ}

theorem fit_orth {D : Design n p} (hn : 0 < n) (hD : OrthogonalColumns D) (y : Fin n → ℝ) (v : Fin p → ℝ) (j : Fin p) :
    residCorr D y v j = corr D y j - lipschitz D .quadratic j * v j := by
  have hn' : (n : ℝ) ≠ 0 := by exact_mod_cast hn.ne'
  have e : ∑ i, D.matrix i j * fit D.matrix v i = (∑ i, D.matrix i j ^ 2) * v j := by
    unfold fit
    simp only [Finset.mul_sum]
    rw [Finset.sum_comm, Finset.sum_eq_single j]
    · rw [Finset.sum_mul]
      exact Finset.sum_congr rfl fun i _ => by ring
    · intro k _ hk
      have := hD j k (Ne.symm hk)
      rw [show ∑ i, D.matrix i j * (D.matrix i k * v k) = (∑ i, D.matrix i j * D.matrix i k) * v k by
        rw [Finset.sum_mul]; exact Finset.sum_congr rfl fun i _ => by ring, this, zero_mul]
    · intro h; exact absurd (Finset.mem_univ j) h
  unfold residCorr corr lipschitz
  simp only [mul_sub, Finset.sum_sub_distrib]
  rw [e]
  field_simp

theorem residCorrMT_apply (D : Design n p) (Y : Fin n → Fin T → ℝ) (V : Fin p → Euc T) (j : Fin p) (t : Fin T) :
    (residCorrMT D Y V j).ofLp t = residCorr D (fun i => Y i t) (fun j => (V j).ofLp t) j := rfl

theorem fit_orth_mt {D : Design n p} (hn : 0 < n) (hD : OrthogonalColumns D) (Y : Fin n → Fin T → ℝ) (V : Fin p → Euc T) (j : Fin p) :
    residCorrMT D Y V j = corrMT D Y j - lipschitz D .quadratic j • V j := by
  ext t
  rw [residCorrMT_apply, fit_orth hn hD]
  rfl

section
variable {E : Type} [NormedAddCommGroup E] [InnerProductSpace ℝ E]

/-- The solution of `z - L s ∈ ∂(a ‖s‖ + b ‖s‖²/2)`. -/
theorem pen2_solution {a b L : ℝ} (ha : 0 ≤ a) (hb : 0 ≤ b) (hL : 0 < L) (z : E) :
    z - L • (if ‖z‖ ≤ a then (0 : E) else (1 / (L + b)) • (1 - a / ‖z‖) • z) ∈
      frechetSubdiff (pen2 a b) (if ‖z‖ ≤ a then (0 : E) else (1 / (L + b)) • (1 - a / ‖z‖) • z) := by
  split_ifs with h
  · rw [smul_zero, sub_zero, pen2_zero ha hb, mem_closedBall_zero_iff]
    exact h
  · have hz : 0 < ‖z‖ := lt_of_le_of_lt ha (not_le.mp h)
    have hr : 0 < 1 - a / ‖z‖ := by rw [sub_pos, div_lt_one hz]; exact not_le.mp h
    have hLb : 0 < L + b := by linarith
    obtain ⟨q, hq⟩ : ∃ q, q = 1 / (L + b) * (1 - a / ‖z‖) := ⟨_, rfl⟩
    have hq0 : 0 < q := by rw [hq]; positivity
    rw [smul_smul, ← hq]
    have hne : q • z ≠ 0 := smul_ne_zero hq0.ne' (norm_pos_iff.mp hz)
    have e := subdiff_enet_ne ha hb hne
    rw [pen2_frechet ha hb]
    have e : subdiff (pen2 a b) (q • z) = {(a / ‖q • z‖ + b) • q • z} := e
    rw [e, Set.mem_singleton_iff, norm_smul, Real.norm_eq_abs, abs_of_pos hq0, smul_smul, smul_smul]
    nth_rewrite 1 [← one_smul ℝ z]
    rw [← sub_smul]
    congr 1
    have h4 : ‖z‖ - a ≠ 0 := by linarith [not_le.mp h]
    rw [hq]
    field_simp
    ring

/-- The solution of `z - L s ∈ ∂ mcp(s)`. -/
theorem mcp_solution {α γ L : ℝ} (hα : 0 ≤ α) (hγ : 0 < γ) (hL : 1 / γ < L) (z : E) :
    ∀ s, s = (if ‖z‖ ≤ α then (0 : E) else if ‖z‖ ≤ γ * α * L then (1 / (L - 1 / γ)) • (1 - α / ‖z‖) • z else (1 / L) • z) →
      z - L • s ∈ frechetSubdiff (mcp α γ) s := by
  intro s hs
  have hL0 : 0 < L := lt_trans (by positivity) hL
  have hd : 0 < L - 1 / γ := by linarith
  have hLg : L * γ - 1 ≠ 0 := by
    have : 1 < L * γ := by rwa [div_lt_iff₀ hγ] at hL
    linarith
  split_ifs at hs with h1 h2
  · rw [hs, smul_zero, sub_zero, frechet_mcp_zero hα hγ, mem_closedBall_zero_iff]
    exact h1
  · have hz : 0 < ‖z‖ := lt_of_le_of_lt hα (not_le.mp h1)
    have hr : 0 < 1 - α / ‖z‖ := by rw [sub_pos, div_lt_one hz]; exact not_le.mp h1
    obtain ⟨q, hq⟩ : ∃ q, q = 1 / (L - 1 / γ) * (1 - α / ‖z‖) := ⟨_, rfl⟩
    have hq0 : 0 < q := by rw [hq]; positivity
    rw [smul_smul, ← hq] at hs
    have hne : s ≠ 0 := by rw [hs]; exact smul_ne_zero hq0.ne' (norm_pos_iff.mp hz)
    have hns : ‖s‖ = (‖z‖ - α) / (L - 1 / γ) := by
      rw [hs, norm_smul, Real.norm_eq_abs, abs_of_pos hq0, hq]
      field_simp
    rcases lt_or_eq_of_le h2 with h3 | h3
    · have hlt : ‖s‖ < γ * α := by
        rw [hns, div_lt_iff₀ hd]
        have : γ * α * (L - 1 / γ) = γ * α * L - α := by field_simp
        linarith
      rw [frechet_mcp_mid hne hlt, Set.mem_singleton_iff, hns, hs, smul_smul, smul_smul]
      nth_rewrite 1 [← one_smul ℝ z]
      rw [← sub_smul]
      congr 1
      have h4 : ‖z‖ - α ≠ 0 := by linarith [not_le.mp h1]
      rw [hq]
      field_simp
      ring
    · have hge : γ * α ≤ ‖s‖ := by
        rw [hns, le_div_iff₀ hd]
        have : γ * α * (L - 1 / γ) = γ * α * L - α := by field_simp
        linarith
      rw [frechet_mcp_out hα hγ hne hge, Set.mem_singleton_iff, hs, smul_smul]
      nth_rewrite 1 [← one_smul ℝ z]
      rw [← sub_smul]
      have : 1 - L * q = 0 := by
        have h5 : α = ‖z‖ / (γ * L) := by rw [h3]; field_simp
        have h6 : q * (L - 1 / γ) = 1 - α / ‖z‖ := by rw [hq]; field_simp
        have h7 : α / ‖z‖ = 1 / (γ * L) := by rw [h5]; field_simp
        rw [h7] at h6
        have h8 : q * (L - 1 / γ) * L = L - 1 / γ := by rw [h6]; field_simp
        have h9 : (L - 1 / γ) * (1 - L * q) = 0 := by linarith
        exact (mul_eq_zero.mp h9).resolve_left hd.ne'
      rw [this, zero_smul]
  · have hz : 0 < ‖z‖ := lt_of_le_of_lt hα (not_le.mp h1)
    have hne : s ≠ 0 := by rw [hs]; exact smul_ne_zero (by positivity) (norm_pos_iff.mp hz)
    have hge : γ * α ≤ ‖s‖ := by
      rw [hs, norm_smul, Real.norm_eq_abs, abs_of_pos (by positivity), one_div, ← div_eq_inv_mul, le_div_iff₀ hL0]
      linarith
    rw [frechet_mcp_out hα hγ hne hge, Set.mem_singleton_iff, hs, smul_smul, mul_one_div_cancel hL0.ne', one_smul, sub_self]

end

theorem soft_eq {a : ℝ} (ha : 0 ≤ a) (z : ℝ) : soft a z = if ‖z‖ ≤ a then 0 else (1 - a / ‖z‖) • z := by
  unfold soft
  rw [Real.norm_eq_abs, smul_eq_mul]
  split_ifs with h1 h2 h2 h3 h4
  · rw [abs_le] at h2; linarith
  · rw [abs_of_neg (by linarith)]
    have : z ≠ 0 := by intro h; rw [h] at h1; linarith
    field_simp
    ring
  · rw [abs_le] at h3; linarith
  · have hz : 0 < z := by linarith
    rw [abs_of_pos hz]
    field_simp
  · rfl
  · exact absurd (abs_le.mpr ⟨by linarith, by linarith⟩) h4

/-- The closed form solves the problem with one feature. -/
theorem closedForm_solution (pen : Pen) (hv : pen.Valid) (hne : ∀ α, pen ≠ .l05 α) {L : ℝ} (hL : pen.concavity < L) (z : ℝ) :
    z - L • closedForm pen L z ∈ frechetSubdiff pen.fn (closedForm pen L z) := by
  cases pen with
  | l1 α =>
    have hα : 0 ≤ α := hv
    have hL : 0 < L := hL
    have h := pen2_solution (b := 0) hα le_rfl hL z
    have e : closedForm (.l1 α) L z = if ‖z‖ ≤ α then 0 else (1 / (L + 0)) • (1 - α / ‖z‖) • z := by
      show soft α z / L = _
      rw [soft_eq hα, add_zero]
      split_ifs
      · exact zero_div _
      · rw [smul_eq_mul (1 / L), one_div, div_eq_inv_mul]
    have e2 : (Pen.l1 α).fn = pen2 α 0 := by
      funext x
      show α * |x| = α * ‖x‖ + 0 * ‖x‖ ^ 2 / 2
      rw [Real.norm_eq_abs]; ring
    rw [e, e2]
    exact h
  | enet α ρ =>
    have ha : 0 ≤ α * ρ := mul_nonneg hv.1 hv.2.1
    have hb : 0 ≤ α * (1 - ρ) := mul_nonneg hv.1 (by linarith [hv.2.2])
    have hL : 0 < L := hL
    have h := pen2_solution ha hb hL z
    have e : closedForm (.enet α ρ) L z = if ‖z‖ ≤ α * ρ then 0 else (1 / (L + α * (1 - ρ))) • (1 - α * ρ / ‖z‖) • z := by
      show soft (α * ρ) z / (L + α * (1 - ρ)) = _
      rw [soft_eq ha]
      split_ifs
      · exact zero_div _
      · rw [smul_eq_mul (1 / _), one_div, div_eq_inv_mul]
    have e2 : (Pen.enet α ρ).fn = pen2 (α * ρ) (α * (1 - ρ)) := by
      funext x
      show α * (ρ * ‖x‖ + (1 - ρ) * ‖x‖ ^ 2 / 2) = α * ρ * ‖x‖ + α * (1 - ρ) * ‖x‖ ^ 2 / 2
      ring
    rw [e, e2]
    exact h
  | mcp α γ =>
    have hL : 1 / γ < L := hL
    refine mcp_solution hv.1 hv.2 hL z (closedForm (.mcp α γ) L z) ?_
    show firm α γ L z = _
    have hL0 : 0 < L := lt_trans (by have := hv.2; positivity) hL
    have h1 : α ≤ γ * α * L := by
      have : 1 ≤ γ * L := by rw [div_lt_iff₀ hv.2] at hL; linarith
      nlinarith [hv.1]
    unfold firm
    rw [soft_eq hv.1, Real.norm_eq_abs]
    split_ifs with h2 h3 h3
    · exact zero_div _
    · rw [smul_eq_mul (1 / (L - 1 / γ)), one_div (L - 1 / γ), div_eq_inv_mul]
    · exact absurd (h3.trans h1) h2
    · rw [smul_eq_mul (1 / _), one_div, div_eq_inv_mul]
  | l05 α => exact absurd rfl (hne α)

theorem pen_weak (pen : Pen) (hv : pen.Valid) (hne : ∀ α, pen ≠ .l05 α) : WeaklyConvex pen.fn pen.concavity := by
  cases pen with
  | l1 α =>
    intro x z t h0 h1
    have := pen_line (.l1 α) hv trivial x z t h0 h1
    simp only [Pen.modulus, zero_div, zero_mul, sub_zero] at this
    simp only [Pen.concavity, zero_mul, zero_div, add_zero]
    exact this
  | enet α ρ =>
    intro x z t h0 h1
    have := pen_line (.enet α ρ) hv trivial x z t h0 h1
    simp only [Pen.concavity, zero_mul, zero_div, add_zero]
    have h2 : 0 ≤ (Pen.enet α ρ).modulus / 2 * (t * (1 - t)) * ‖x - z‖ ^ 2 := by
      have h3 : 0 ≤ (Pen.enet α ρ).modulus := mul_nonneg hv.1 (by linarith [hv.2.2])
      have h4 : 0 ≤ t * (1 - t) := mul_nonneg h0 (by linarith)
      positivity
    linarith
  | mcp α γ => exact mcp_weak hv.1 hv.2
  | l05 α => exact absurd rfl (hne α)

theorem stops_frechet {srt : Argsort XR} (hs : ArgsortSpec srt) (hn : 0 < n) {D : Design n p} {y : Fin n → ℝ} {k : LossKind}
    {pen : Pen} (hv : pen.Valid) (hne : ∀ α, pen ≠ .l05 α) {cfg : Solver XR} {τ : ℝ} (ht : cfg.tolerance = XR.fin τ) {v : Fin p → ℝ}
    (h : Stops srt cfg D y k pen v) : ApproxStationary D y k (frechetSubdiff pen.fn) v τ := by
  cases pen with
  | l1 α =>
    intro j
    obtain ⟨g, d, h1, h2, h3⟩ := (stops_cert hs hn hv trivial ht h).1 j
    exact ⟨g, d, h1, by rw [frechet_convex (pen_weak (.l1 α) hv hne)]; exact h2, h3⟩
  | enet α ρ =>
    intro j
    obtain ⟨g, d, h1, h2, h3⟩ := (stops_cert hs hn hv trivial ht h).1 j
    exact ⟨g, d, h1, by rw [frechet_convex (pen_weak (.enet α ρ) hv hne)]; exact h2, h3⟩
  | mcp α γ => exact stops_stationary hs hn hv.1 hv.2 ht h
  | l05 α => exact absurd rfl (hne α)

theorem closed_of_stationary (hn : 0 < n) {D : Design n p} (hD : OrthogonalColumns D) {y : Fin n → ℝ} {pen : Pen} (hv : pen.Valid)
    (hne : ∀ α, pen ≠ .l05 α) {τ : ℝ} {v : Fin p → ℝ} (h : ApproxStationary D y .quadratic (frechetSubdiff pen.fn) v τ) (j : Fin p)
    (hL : pen.concavity < lipschitz D .quadratic j) :
    |v j - closedForm pen (lipschitz D .quadratic j) (corr D y j)| ≤ τ / (lipschitz D .quadratic j - pen.concavity) := by
  obtain ⟨d, h1, h2⟩ := stationary_corr hn h j
  rw [fit_orth hn hD] at h1
  have hm : 0 ≤ pen.concavity := by
    cases pen <;> first | exact le_rfl | exact div_nonneg zero_le_one hv.2.le
  exact weak_near hm (pen_weak pen hv hne) hL (g := corr D y j) h1 h2 (closedForm_solution pen hv hne hL _)

/-- **Orthogonal designs**: a fit which stops before `max_iterations` returns the closed form solution (soft thresholding for the Lasso
and the elastic net, firm thresholding for the MCP) up to the tolerance, feature by feature, for every nonzero column with squared
norm `n L_j` (`L_j > 1/γ` for the MCP). -/
theorem C75_closed_form {srt : Argsort XR} (hs : ArgsortSpec srt) (hn : 0 < n) (D : Design n p) (hD : OrthogonalColumns D)
    (y : Fin n → ℝ) (pen : Pen) (hv : pen.Valid) (hne : ∀ α, pen ≠ .l05 α) (cfg : Solver XR) (τ : ℝ) (ht : cfg.tolerance = XR.fin τ)
    (v : Fin p → ℝ) (h : Stops srt cfg D y .quadratic pen v) (j : Fin p) (hL : pen.concavity < lipschitz D .quadratic j) :
    |v j - closedForm pen (lipschitz D .quadratic j) (corr D y j)| ≤ τ / (lipschitz D .quadratic j - pen.concavity) :=
  closed_of_stationary hn hD hv hne (stops_frechet hs hn hv hne ht h) j hL

/-- **Exact zeros**: correlations with the targets of at most `κ - τ` (`κ` the threshold `α`, or `α ρ` for the elastic net) give
coefficients which are exactly zero. -/
theorem C75_zero {srt : Argsort XR} (hs : ArgsortSpec srt) (hn : 0 < n) (D : Design n p) (hD : OrthogonalColumns D)
    (y : Fin n → ℝ) (pen : Pen) (hv : pen.Valid) (hne : ∀ α, pen ≠ .l05 α) (cfg : Solver XR) (τ : ℝ) (ht : cfg.tolerance = XR.fin τ)
    (v : Fin p → ℝ) (h : Stops srt cfg D y .quadratic pen v) (j : Fin p) (hL : pen.concavity < lipschitz D .quadratic j)
    (hz : |corr D y j| ≤ pen.slope - τ) : v j = 0 := by
  by_contra h0
  obtain ⟨d, h1, h2⟩ := stationary_corr hn (stops_frechet hs hn hv hne ht h) j
  rw [fit_orth hn hD] at h1
  have hm : 0 ≤ pen.concavity := by
    cases pen <;> first | exact le_rfl | exact div_nonneg zero_le_one hv.2.le
  have hd0 : 0 ≤ d := by rw [h1.2]; exact Metric.infDist_nonneg
  have hpos : 0 < |v j| := abs_pos.mpr h0
  have key : pen.slope * |v j| ≤ pen.fn (v j) + pen.concavity / 2 * |v j| ^ 2 := by
    cases pen with
    | l1 α =>
      show α * |v j| ≤ α * |v j| + 0 / 2 * |v j| ^ 2
      rw [zero_div, zero_mul, add_zero]
    | enet α ρ =>
      have := slope_le hv trivial (v j)
      show α * ρ * |v j| ≤ _ + 0 / 2 * |v j| ^ 2
      rw [zero_div, zero_mul, add_zero]
      exact this
    | mcp α γ =>
      have := mcp_lower (E := ℝ) (α := α) hv.2 (v j)
      have e : 1 / (2 * γ) * ‖v j‖ ^ 2 = 1 / γ / 2 * |v j| ^ 2 := by rw [Real.norm_eq_abs, div_div, mul_comm 2 γ]
      show α * |v j| ≤ mcp α γ (v j) + 1 / γ / 2 * |v j| ^ 2
      rw [Real.norm_eq_abs] at this
      rw [← e, Real.norm_eq_abs]
      linarith
    | l05 α => exact absurd rfl (hne α)
  have hz0 : pen.fn 0 = 0 := by
    cases pen with
    | l1 α => show α * |0| = 0; simp
    | enet α ρ => show α * (ρ * ‖(0 : ℝ)‖ + (1 - ρ) * ‖(0 : ℝ)‖ ^ 2 / 2) = 0; simp
    | mcp α γ => exact mcp_zero hv.1 hv.2
    | l05 α => exact absurd rfl (hne α)
  have h3 := frechet_weak_near hm (pen_weak pen hv hne) h1 0
  rw [hz0, zero_sub, norm_neg, Real.norm_eq_abs, inner_neg_right] at h3
  have e : inner ℝ (corr D y j - lipschitz D .quadratic j * v j) (v j) = corr D y j * v j - lipschitz D .quadratic j * |v j| ^ 2 := by
    rw [sq_abs, RCLike.inner_apply, conj_trivial]
    ring
  rw [e] at h3
  have h4 : corr D y j * v j ≤ |corr D y j| * |v j| := by rw [← abs_mul]; exact le_abs_self _
  have h5 := mul_le_mul_of_nonneg_right hz hpos.le
  have h6 := mul_le_mul_of_nonneg_right h2 hpos.le
  have h7 : (lipschitz D .quadratic j - pen.concavity) * |v j| ^ 2 ≤ 0 := by nlinarith
  have h8 : 0 < (lipschitz D .quadratic j - pen.concavity) * |v j| ^ 2 := mul_pos (by linarith) (by positivity)
  linarith

/-- **Multi-task Lasso**: block soft thresholding. -/
theorem C75_closed_form_mt {srt : Argsort XR} (hs : ArgsortSpec srt) (hn : 0 < n) (D : Design n p) (hD : OrthogonalColumns D)
    (Y : Fin n → Fin T → ℝ) (α : ℝ) (hα : 0 < α) (cfg : Solver XR) (τ : ℝ) (ht : cfg.tolerance = XR.fin τ)
    (V : Fin p → Euc T) (h : StopsMT srt cfg D Y (.l21 α) V) (j : Fin p) (hL : 0 < lipschitz D .quadratic j) :
    ‖V j - (1 / lipschitz D .quadratic j) • blockSoft α (corrMT D Y j)‖ ≤ τ / lipschitz D .quadratic j := by
  obtain ⟨h1, st, log, h2, h3⟩ := h
  obtain ⟨V', h4, h5, -⟩ := C30_certificate_mt hs hn D Y α hα cfg τ ht st log h2 h3
  rw [h1] at h4
  rw [← emat_injective (Except.ok.inj h4)] at h5
  obtain ⟨g, d, h6, h7, h8⟩ := h5 j
  have e : g = -residCorrMT D Y V j := by
    ext t
    have h9 := mt_partial hn D.matrix Y (fun j => (V j).ofLp) j t
    have h10 : g t = _ := HasDerivAt.unique (h6 t) h9
    show g t = -((_ : ℝ) / _)
    rw [h10]
    show (_ - _) / _ = -(_ / _)
    rw [← neg_div, ← Finset.sum_sub_distrib, ← Finset.sum_neg_distrib]
    congr 1
    exact Finset.sum_congr rfl fun i _ => by ring
  rw [e, neg_neg, fit_orth_mt hn hD] at h7
  have e2 : (fun z : Euc T => α * ‖z‖) = pen2 α 0 := by
    funext x
    show α * ‖x‖ = α * ‖x‖ + 0 * ‖x‖ ^ 2 / 2
    ring
  rw [e2, ← pen2_frechet hα.le le_rfl] at h7
  have h9 := pen2_solution (b := 0) hα.le le_rfl hL (corrMT D Y j)
  have e3 : (1 / lipschitz D .quadratic j) • blockSoft α (corrMT D Y j) = if ‖corrMT D Y j‖ ≤ α then 0 else
      (1 / (lipschitz D .quadratic j + 0)) • (1 - α / ‖corrMT D Y j‖) • corrMT D Y j := by
    unfold blockSoft
    rw [add_zero]
    split_ifs
    · rw [smul_zero]
    · rfl
  rw [← e3] at h9
  have := weak_near le_rfl (pen2_weak hα.le le_rfl) hL h7 h8 h9
  rwa [sub_zero] at this

/-- **`Lasso::fit`** on orthogonal columns of norm `√n`, with enough iterations: the coefficients are the soft-thresholded correlations
with the targets, up to the tolerance. -/
theorem C75_lasso_fit (hn : 0 < n) (D : Design n p) (hD : D.Canonical) (hO : OrthogonalColumns D) (hX : ∀ j, ∑ i, D.matrix i j ^ 2 = n)
    (y : Fin n → ℝ) (α τ : ℝ) (hτ : 0 < τ)
    {srt : Argsort XR} (hs : ArgsortSpec srt) (ps : LassoParams XR) (hps : ps.checkRef = .ok ps) (ha : ps.alpha = XR.fin α)
    (ht : ps.tolerance = XR.fin τ) (he : 0 < ps.maxEpochs) (hpl : StopsPlain ps.solver)
    (hacc : ps.useAcceleration = true → ps.K ≤ ps.wsStartSize ∧ ps.K ≤ p)
    (hN : 8 * p * (∑ i, y i ^ 2) / (n * τ ^ 2) < ps.maxIterations) :
    ∃ v : Fin p → ℝ, fitLasso srt ps D y = .ok (.ok (vec v)) ∧ ∀ j, |v j - soft α (corr D y j)| ≤ τ := by
  obtain ⟨v, h1, h2⟩ := C68_lasso_fit hn D hD hX y α τ hτ hs ps hps ha ht he hpl hacc hN
  have hα := alpha_nonneg ha (LassoParams.checkRef_ok hps).2
  have hn' : (n : ℝ) ≠ 0 := by exact_mod_cast hn.ne'
  refine ⟨v, h1, fun j => ?_⟩
  have hL : lipschitz D .quadratic j = 1 := by
    show (∑ i, D.matrix i j ^ 2) / (n : ℝ) = 1
    rw [hX j, div_self hn']
  have hv : (Pen.l1 α).Valid := hα
  have hne : ∀ a, Pen.l1 α ≠ .l05 a := fun a h => by cases h
  have h3 : ApproxStationary D y .quadratic (frechetSubdiff (Pen.l1 α).fn) v τ := by
    intro i
    obtain ⟨g, d, h3, h4, h5⟩ := h2 i
    exact ⟨g, d, h3, by rw [frechet_convex (pen_weak (.l1 α) hv hne)]; exact h4, h5⟩
  have h4 := closed_of_stationary hn hO hv hne h3 j (by rw [hL]; exact one_pos)
  rw [hL] at h4
  have e : closedForm (.l1 α) 1 (corr D y j) = soft α (corr D y j) := div_one _
  have e2 : (1 : ℝ) - (Pen.l1 α).concavity = 1 := sub_zero _
  rwa [e, e2, div_one] at h4

/-- **Floating point**: with sufficient precision the run stops and returns the closed form solution of the exact problem up to
`(τ + ε) / L_j` (Lasso, elastic net). -/
theorem C75_float (hn : 0 < n) (hp : 0 < p) (D : Design n p) (hD : D.Canonical) (hO : OrthogonalColumns D) (y : Fin n → ℝ)
    (pen : Pen) (hv : pen.Valid) (hc : pen.Convex) (hα : 0 < pen.fn 1) (τ : ℝ) (hτ : 0 < τ) :
    ∃ N : ℕ, ∀ (E : ℕ) (ε : ℝ), 0 < ε → ∃ e₀ : ℝ, 0 < e₀ ∧ ∀ (F : Type) [Scalar F] [LawfulCmp F] (e : ℝ), FloatLaws .quadratic F e → e ≤ e₀ →
      ∀ (x : D.Entries F) (y' : Fin n → F) (pen' : PenOf F), D.StoredAs e x → (∀ i, Stores e (y' i) (y i)) → pen'.Stored e pen →
      ∀ srt : Argsort F, ArgsortSpec srt → ∀ cfg : Solver F, SettingsOK cfg p → Stores e cfg.tolerance τ →
      N ≤ cfg.maxIterations → cfg.maxEpochs ≤ E → 0 < cfg.maxEpochs → StopsPlain cfg →
      ∃ v m, RunsTo srt cfg D x y' .quadratic pen' v m ∧ ∀ j, 0 < lipschitz D .quadratic j →
        |v j - closedForm pen (lipschitz D .quadratic j) (corr D y j)| ≤ (τ + ε) / lipschitz D .quadratic j := by
  obtain ⟨N, h⟩ := C63_terminates hn hp D hD y .quadratic trivial pen hv hc hα τ hτ
  refine ⟨N, fun E ε hε => ?_⟩
  obtain ⟨e₀, he₀, h⟩ := h E ε hε
  refine ⟨e₀, he₀, fun F _ _ e hl hee x y' pen' hx hy' hpn srt hs cfg hcfg ht hN hE hE1 hpl => ?_⟩
  obtain ⟨v, m, h1, -, -, h2, -⟩ := h F e hl hee x y' pen' hx hy' hpn srt hs cfg hcfg ht hN hE hE1 hpl
  have hne : ∀ α, pen ≠ .l05 α := fun α h => by rw [h] at hc; exact hc
  have hz : pen.concavity = 0 := by
    cases pen with
    | l1 α => rfl
    | enet α ρ => rfl
    | mcp α γ => exact hc.elim
    | l05 α => exact hc.elim
  have hw := pen_weak pen hv hne
  refine ⟨v, m, h1, fun j hj => ?_⟩
  have h3 : ApproxStationary D y .quadratic (frechetSubdiff pen.fn) v (τ + ε) := by
    intro i
    obtain ⟨g, d, h3, h4, h5⟩ := h2 i
    rw [hz] at hw
    exact ⟨g, d, h3, by rw [frechet_convex hw]; exact h4, h5⟩
  have := closed_of_stationary hn hO hv hne h3 j (by rw [hz]; exact hj)
  rwa [hz, sub_zero] at this

/-! ## Examples -/

theorem idD_orth : OrthogonalColumns idD := by
  intro j k hjk
  rw [Fin.sum_univ_two]
  fin_cases j <;> fin_cases k <;> first | exact absurd rfl hjk | norm_num [idD, Design.matrix]

theorem idD_corr0 : corr idD ![4, 1 / 2] 0 = 2 := by
  unfold corr
  rw [Fin.sum_univ_two]
  norm_num [idD, Design.matrix]

theorem idD_corr1 : corr idD ![4, 1 / 2] 1 = 1 / 4 := by
  unfold corr
  rw [Fin.sum_univ_two]
  norm_num [idD, Design.matrix]

-- Lasso: close to 2, and exactly 0
example : ∃ (N : ℕ) (v : Fin 2 → ℝ), Stops argsortIns ⟨1, N, 50, XR.fin (1 / 100), 5, false, true⟩ idD ![4, 1 / 2] .quadratic (.l1 1) v ∧
    |v 0 - 2| ≤ 1 / 50 ∧ v 1 = 0 := by
  obtain ⟨N, v, h⟩ := idD_stops
  have hv : (Pen.l1 1).Valid := by norm_num [Pen.Valid]
  refine ⟨N, v, h, ?_, ?_⟩
  · have := C75_closed_form argsortIns_spec two_pos idD idD_orth _ (.l1 1) hv (fun a h => by cases h) _ (1 / 100) rfl v h 0
      (by rw [idD_lip]; norm_num [Pen.concavity])
    rw [idD_lip, idD_corr0] at this
    norm_num [closedForm, soft, Pen.concavity] at this
    linarith
  · exact C75_zero argsortIns_spec two_pos idD idD_orth _ (.l1 1) hv (fun a h => by cases h) _ (1 / 100) rfl v h 1
      (by rw [idD_lip]; norm_num [Pen.concavity]) (by rw [idD_corr1]; norm_num [Pen.slope])

-- MCP: the large coefficient is the least squares solution 4, not shrunk
example : ∃ (N : ℕ) (v : Fin 2 → ℝ), Stops argsortIns ⟨1, N, 50, XR.fin (1 / 100), 5, false, true⟩ idD ![4, 1 / 2] .quadratic (.mcp (1 / 2) 3) v ∧
    |v 0 - 4| ≤ 6 / 100 ∧ v 1 = 0 := by
  obtain ⟨N, v, h⟩ := idD_stops_mcp
  have hv : (Pen.mcp (1 / 2) 3).Valid := ⟨by norm_num, by norm_num⟩
  refine ⟨N, v, h, ?_, ?_⟩
  · have := C75_closed_form argsortIns_spec two_pos idD idD_orth _ _ hv (fun a h => by cases h) _ (1 / 100) rfl v h 0
      (by rw [idD_lip]; norm_num [Pen.concavity])
    rw [idD_lip, idD_corr0] at this
    norm_num [closedForm, firm, Pen.concavity] at this
    linarith
  · exact C75_zero argsortIns_spec two_pos idD idD_orth _ _ hv (fun a h => by cases h) _ (1 / 100) rfl v h 1
      (by rw [idD_lip]; norm_num [Pen.concavity]) (by rw [idD_corr1]; norm_num [Pen.slope])

-- two tasks
example : ∃ (N : ℕ) (V : Fin 2 → Euc 2), StopsMT argsortIns ⟨1, N, 50, XR.fin (1 / 100), 5, false, true⟩ idD ![![6, 0], ![8, 1]] (.l21 1) V ∧
    ‖V 0 - (1 / (1 / 2) : ℝ) • blockSoft 1 (corrMT idD ![![6, 0], ![8, 1]] 0)‖ ≤ 1 / 50 := by
  obtain ⟨N, h⟩ := stopsMT_exists two_pos idD trivial ![![6, 0], ![8, 1]] 1 one_pos (1 / 100) (by norm_num)
  obtain ⟨V, h⟩ := h 1 one_pos
  refine ⟨N, V, h, ?_⟩
  have := C75_closed_form_mt argsortIns_spec two_pos idD idD_orth _ 1 one_pos _ (1 / 100) rfl V h 0 (by rw [idD_lip]; norm_num)
  rw [idD_lip] at this
  exact this.trans (by norm_num)

-- `Lasso::fit` on `2 I`: correlations `y / 2`
example : ∃ v : Fin 4 → ℝ,
    fitLasso argsortIns ⟨XR.fin (1 / 10), 12000, 50, 10, XR.fin (1 / 10), 3, true, true⟩ (.dense fun i j => if i = j then 2 else 0)
      ![1, -2, 0, 3] = .ok (.ok (vec v)) ∧
    ∀ j, |v j - soft (1 / 10) (corr (.dense fun i j : Fin 4 => if i = j then 2 else 0) ![1, -2, 0, 3] j)| ≤ 1 / 10 := by
  refine C75_lasso_fit (by norm_num) (.dense fun i j : Fin 4 => if i = j then 2 else 0) trivial ?_ (fun j => ?_) ![1, -2, 0, 3] (1 / 10)
    (1 / 10) (by norm_num) argsortIns_spec ⟨XR.fin (1 / 10), 12000, 50, 10, XR.fin (1 / 10), 3, true, true⟩ ?_ rfl rfl (by norm_num) ?_
    (fun _ => ⟨by norm_num, by norm_num⟩) (by norm_num [Fin.sum_univ_succ])
  · intro j k hjk
    show ∑ i : Fin 4, (if i = j then (2 : ℝ) else 0) * (if i = k then (2 : ℝ) else 0) = 0
    refine Finset.sum_eq_zero fun i _ => ?_
    split_ifs with h1 h2
    · exact absurd (h1.symm.trans h2) hjk
    · exact mul_zero _
    · exact zero_mul _
    · exact zero_mul _
  · have h : (∑ i : Fin 4, (if i = j then (2 : ℝ) else 0) ^ 2) / ((4 : ℕ) : ℝ) = 1 := exIter_lip j
    rw [div_eq_one_iff_eq (by norm_num)] at h
    exact h
  · have e0 : (signBit (XR.fin (1 / 10)) : Bool) = false := by
      show decide ((1 / 10 : ℝ) < 0) = false
      simp
    unfold LassoParams.checkRef checkTail
    simp only [e0]
    rfl
  · intro e h1 h2
    refine Or.inr ?_
    have h1 : e < 50 := h1
    have h2 : e + 1 = 50 ∨ (0 < e ∧ e % 10 = 0) := h2
    show e % 4 ≠ 3
    omega

-- in a binary floating point format
example : ∃ (t N : ℕ) (v : Fin 2 → ℝ) (m : ℕ),
      RunsTo argsortIns (binCfg t N (1 / 200)) idD (fun i j => Fl.of t (idD.matrix i j)) (fun i => Fl.of t (![4, 1 / 2] i)) .quadratic
        (.l1 (Fl.of t 1)) v m ∧ |v 0 - 2| ≤ 2 / 100 := by
  obtain ⟨N, h⟩ := C75_float two_pos two_pos idD trivial idD_orth ![4, 1 / 2] (.l1 1) (by norm_num [Pen.Valid]) trivial
    (by norm_num [Pen.fn]) (1 / 200) (by norm_num)
  obtain ⟨e₀, he₀, h⟩ := h 10 (1 / 1000) (by norm_num)
  obtain ⟨t, ht⟩ := bin_exists he₀
  obtain ⟨v, m, h1, h2⟩ := h _ _ (bin_laws t .quadratic) ht (fun i j => Fl.of t (idD.matrix i j)) (fun i => Fl.of t (![4, 1 / 2] i))
    (.l1 (Fl.of t 1)) (fun i j => bin_stores t _) (fun i => bin_stores t _) (bin_stores t _) argsortIns (argsortFl t)
    (binCfg t N (1 / 200)) (binCfg_ok _ _ _) (bin_stores t _) le_rfl le_rfl (by norm_num [binCfg]) (binCfg_plain _ _ _)
  refine ⟨t, N, v, m, h1, ?_⟩
  have := h2 0 (by rw [idD_lip]; norm_num)
  rw [idD_lip, idD_corr0] at this
  norm_num [closedForm, soft] at this
  linarith

end Sglm
