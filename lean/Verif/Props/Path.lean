import Verif.Props.Predictions

/-!
# C71: fits with several strengths of the penalty

Larger strengths give smaller penalty terms and larger losses, and predictions depend continuously on the strength; all up to explicit
multiples of the tolerances.
-/

namespace Sglm
open Scalar Spec
variable {n p T : ℕ}

namespace Family

theorem fn_eq (f : Family) (α z : ℝ) : (f.pen α).fn z = α * f.size z := by
  cases f with
  | lasso => rfl
  | enet ρ =>
    show α * (ρ * ‖z‖ + (1 - ρ) * ‖z‖ ^ 2 / 2) = α * (ρ * |z| + (1 - ρ) * z ^ 2 / 2)
    rw [Real.norm_eq_abs, sq_abs]

theorem valid {f : Family} (hf : f.Valid) {α : ℝ} (hα : 0 < α) : (f.pen α).Valid := by
  cases f with
  | lasso => exact hα.le
  | enet ρ => exact ⟨hα.le, hf.1.le, hf.2⟩

theorem convex (f : Family) (α : ℝ) : (f.pen α).Convex := by cases f <;> trivial

theorem ratio_pos {f : Family} (hf : f.Valid) : 0 < f.ratio := by
  cases f with
  | lasso => exact one_pos
  | enet ρ => exact hf.1

theorem slope_le {f : Family} (hf : f.Valid) {α : ℝ} (hα : 0 < α) (z : ℝ) : α * f.ratio * |z| ≤ (f.pen α).fn z := by
  cases f with
  | lasso => show α * 1 * |z| ≤ α * |z|; rw [mul_one]
  | enet ρ => exact pen_slope_enet hα.le hf.2 z

theorem size_nonneg {f : Family} (hf : f.Valid) (z : ℝ) : 0 ≤ f.size z := by
  cases f with
  | lasso => exact abs_nonneg z
  | enet ρ =>
    exact add_nonneg (mul_nonneg hf.1.le (abs_nonneg _)) (div_nonneg (mul_nonneg (sub_nonneg.mpr hf.2) (sq_nonneg _)) two_pos.le)

theorem objective (f : Family) (D : Design n p) (y : Fin n → ℝ) (k : LossKind) (α : ℝ) (w : Fin p → ℝ) :
    objective1 D y k (f.pen α) w = k.loss y (fit D.matrix w) + α * ∑ j, f.size (w j) := by
  unfold objective1
  rw [Finset.mul_sum]
  congr 1
  exact Finset.sum_congr rfl fun j _ => fn_eq f α _

theorem objective_zero (f : Family) (D : Design n p) (y : Fin n → ℝ) (k : LossKind) (α : ℝ) :
    objective1 D y k (f.pen α) (fun _ => 0) = k.loss y (fun _ => 0) := by
  unfold objective1
  rw [Finset.sum_eq_zero fun j _ => pen_zero_of (convex f α), add_zero]
  congr 1
  funext i
  show ∑ j, _ * (0 : ℝ) = 0
  simp

end Family

/-- The gap of C69, for a family of penalties. -/
theorem family_gap {srt : Argsort XR} (hs : ArgsortSpec srt) (hn : 0 < n) {D : Design n p} (hD : D.Canonical) {y : Fin n → ℝ}
    {k : LossKind} (hy : k.LabelsOK y) {f : Family} (hf : f.Valid) {α : ℝ} (hα : 0 < α) {cfg : Solver XR} {τ : ℝ} (hτ : 0 ≤ τ)
    (ht : cfg.tolerance = XR.fin τ) {v : Fin p → ℝ} (h : Stops srt cfg D y k (f.pen α) v) (w : Fin p → ℝ) :
    k.loss y (fit D.matrix v) + α * ∑ j, f.size (v j) ≤
      k.loss y (fit D.matrix w) + α * ∑ j, f.size (w j) + 2 * τ * k.loss y (fun _ => 0) / (α * f.ratio) := by
  have := C69_objective hs hn D hD y k hy (f.pen α) (Family.valid hf hα) (Family.convex f α) (α * f.ratio)
    (mul_pos hα (Family.ratio_pos hf)) (Family.slope_le hf hα) cfg τ hτ ht v h w
  rw [Family.objective, Family.objective, Family.objective_zero] at this
  refine this.trans (le_of_eq ?_)
  ring

/-- **Larger strengths give smaller penalties**, up to the tolerances. -/
theorem C71_penalty {srt srt' : Argsort XR} (hs : ArgsortSpec srt) (hs' : ArgsortSpec srt') (hn : 0 < n) (D : Design n p)
    (hD : D.Canonical) (y : Fin n → ℝ) (k : LossKind) (hy : k.LabelsOK y) (f : Family) (hf : f.Valid) (α α' : ℝ) (hα : 0 < α) (hα' : 0 < α')
    (cfg cfg' : Solver XR) (τ τ' : ℝ) (hτ : 0 ≤ τ) (hτ' : 0 ≤ τ') (ht : cfg.tolerance = XR.fin τ) (ht' : cfg'.tolerance = XR.fin τ')
    (v v' : Fin p → ℝ) (h : Stops srt cfg D y k (f.pen α) v) (h' : Stops srt' cfg' D y k (f.pen α') v') :
    (α' - α) * (∑ j, f.size (v' j) - ∑ j, f.size (v j)) ≤ 2 * k.loss y (fun _ => 0) / f.ratio * (τ / α + τ' / α') := by
  have a := family_gap hs hn hD hy hf hα hτ ht h v'
  have b := family_gap hs' hn hD hy hf hα' hτ' ht' h' v
  have hr := Family.ratio_pos hf
  have e : 2 * k.loss y (fun _ => 0) / f.ratio * (τ / α + τ' / α') =
      2 * τ * k.loss y (fun _ => 0) / (α * f.ratio) + 2 * τ' * k.loss y (fun _ => 0) / (α' * f.ratio) := by
    field_simp
  rw [e]
  nlinarith

/-- **Larger strengths give larger losses**, up to the tolerances. -/
theorem C71_loss {srt srt' : Argsort XR} (hs : ArgsortSpec srt) (hs' : ArgsortSpec srt') (hn : 0 < n) (D : Design n p)
    (hD : D.Canonical) (y : Fin n → ℝ) (k : LossKind) (hy : k.LabelsOK y) (f : Family) (hf : f.Valid) (α α' : ℝ) (hα : 0 < α) (hα' : 0 < α')
    (cfg cfg' : Solver XR) (τ τ' : ℝ) (hτ : 0 ≤ τ) (hτ' : 0 ≤ τ') (ht : cfg.tolerance = XR.fin τ) (ht' : cfg'.tolerance = XR.fin τ')
    (v v' : Fin p → ℝ) (h : Stops srt cfg D y k (f.pen α) v) (h' : Stops srt' cfg' D y k (f.pen α') v') :
    (α' - α) * (k.loss y (fit D.matrix v) - k.loss y (fit D.matrix v')) ≤
      2 * k.loss y (fun _ => 0) / f.ratio * (τ * α' / α + τ' * α / α') := by
  have a := mul_le_mul_of_nonneg_left (family_gap hs hn hD hy hf hα hτ ht h v') hα'.le
  have b := mul_le_mul_of_nonneg_left (family_gap hs' hn hD hy hf hα' hτ' ht' h' v) hα.le
  have hr := Family.ratio_pos hf
  have e : 2 * k.loss y (fun _ => 0) / f.ratio * (τ * α' / α + τ' * α / α') =
      α' * (2 * τ * k.loss y (fun _ => 0) / (α * f.ratio)) + α * (2 * τ' * k.loss y (fun _ => 0) / (α' * f.ratio)) := by
    field_simp
  rw [e]
  nlinarith

/-- **Predictions depend continuously on the strength** (least squares). -/
theorem C71_predictions {srt srt' : Argsort XR} (hs : ArgsortSpec srt) (hs' : ArgsortSpec srt') (hn : 0 < n) (D : Design n p)
    (hD : D.Canonical) (y : Fin n → ℝ) (f : Family) (hf : f.Valid) (α α' : ℝ) (hα : 0 < α) (hα' : α ≤ α')
    (cfg cfg' : Solver XR) (τ τ' : ℝ) (hτ : 0 ≤ τ) (hτ' : 0 ≤ τ') (ht : cfg.tolerance = XR.fin τ) (ht' : cfg'.tolerance = XR.fin τ')
    (v v' : Fin p → ℝ) (h : Stops srt cfg D y .quadratic (f.pen α) v) (h' : Stops srt' cfg' D y .quadratic (f.pen α') v') :
    ∑ i, (fit D.matrix v i - fit D.matrix v' i) ^ 2 ≤ ((τ + τ') / f.ratio + (α' - α) / 2) * (∑ i, y i ^ 2) / α := by
  have hn' : (0 : ℝ) < n := by exact_mod_cast hn
  have hα'0 : 0 < α' := hα.trans_le hα'
  have hr := Family.ratio_pos hf
  have hv := Family.valid hf hα
  have hv' := Family.valid hf hα'0
  have hy0 : 0 ≤ ∑ i, y i ^ 2 := Finset.sum_nonneg fun _ _ => sq_nonneg _
  have line : ∀ α, (f.pen α).Valid → ∀ x z t : ℝ, 0 ≤ t → t ≤ 1 →
      (f.pen α).fn (x + t • (z - x)) ≤ (1 - t) * (f.pen α).fn x + t * (f.pen α).fn z - 0 / 2 * (t * (1 - t)) * ‖x - z‖ ^ 2 := by
    intro α hv x z t a b
    refine (pen_line (f.pen α) hv (Family.convex f α) x z t a b).trans ?_
    have h0 : 0 ≤ (f.pen α).modulus := by
      cases f with
      | lasso => exact le_rfl
      | enet ρ => exact mul_nonneg hv.1 (sub_nonneg.mpr hv.2.2)
    have : 0 ≤ (f.pen α).modulus / 2 * (t * (1 - t)) * ‖x - z‖ ^ 2 :=
      mul_nonneg (mul_nonneg (by linarith) (mul_nonneg a (by linarith))) (sq_nonneg _)
    linarith
  have e0 : ∀ α, objective1 D y .quadratic (f.pen α) (fun _ => 0) = (∑ i, y i ^ 2) / (2 * n) := fun α =>
    objective1_zero D y _ (pen_zero_of (Family.convex f α))
  have hst : ∀ α, (f.pen α).StepOK D .quadratic := fun α => by cases f <;> trivial
  have o := C28_result hs hn D hD y .quadratic trivial _ hv (hst α) cfg v h.1
  have o' := C28_result hs' hn D hD y .quadratic trivial _ hv' (hst α') cfg' v' h'.1
  rw [e0] at o o'
  have b := size_of_objective (mul_pos hα hr) (Family.slope_le hf hα) o
  have b' := size_of_objective (mul_pos hα'0 hr) (Family.slope_le hf hα'0) o'
  have c := lsq_gap (φ := (f.pen α).fn) (m := 0) hn D.matrix y le_rfl (line α hv) (τ := τ) (v := v) (fun u => by
    rw [lsq_real, lsq_real]; exact (stops_cert hs hn hv (Family.convex f α) ht h).2 u) v'
  have c' := lsq_gap (φ := (f.pen α').fn) (m := 0) hn D.matrix y le_rfl (line α' hv') (τ := τ') (v := v') (fun u => by
    rw [lsq_real, lsq_real]; exact (stops_cert hs' hn hv' (Family.convex f α') ht' h').2 u) v
  rw [sqFit_sub_comm D.matrix v' v] at c'
  have d := sum_norm_sub_le v v'
  simp only [Real.norm_eq_abs] at c c' d
  simp only [Family.fn_eq, ← Finset.mul_sum] at c c'
  have g : ∑ j, |v' j - v j| = ∑ j, |v j - v' j| := Finset.sum_congr rfl fun j _ => abs_sub_comm _ _
  rw [g] at c'
  rw [← sqFit_real]
  obtain ⟨Q, hQ⟩ : ∃ Q, Q = sqFit D.matrix (fun j => v j - v' j) := ⟨_, rfl⟩
  obtain ⟨S, hS⟩ : ∃ S, S = ∑ j, |v j - v' j| := ⟨_, rfl⟩
  obtain ⟨A, hA⟩ : ∃ A, A = ∑ j, f.size (v j) := ⟨_, rfl⟩
  obtain ⟨A', hA'⟩ : ∃ A', A' = ∑ j, f.size (v' j) := ⟨_, rfl⟩
  have hA0 : 0 ≤ A' := by rw [hA']; exact Finset.sum_nonneg fun j _ => Family.size_nonneg hf _
  rw [Family.objective] at o
  rw [← hQ, ← hS, ← hA, ← hA'] at c c'
  rw [← hS] at d
  rw [← hA] at o
  rw [← hQ]
  have o2 : α * A ≤ (∑ i, y i ^ 2) / (2 * n) := le_trans (by linarith [loss_nonneg y .quadratic (fit D.matrix v)]) o
  have key : Q / n ≤ (τ + τ') * S + (α' - α) * A := by
    have : Q / n = Q / (2 * n) + Q / (2 * n) := by field_simp; ring
    have h2 := mul_nonneg (sub_nonneg.mpr hα') hA0
    nlinarith
  have bb : (∑ i, y i ^ 2) / (2 * n) / (α' * f.ratio) ≤ (∑ i, y i ^ 2) / (2 * n) / (α * f.ratio) := by gcongr
  have s1 : (τ + τ') * S ≤ (τ + τ') * ((∑ i, y i ^ 2) / (n * (α * f.ratio))) := by
    refine mul_le_mul_of_nonneg_left ?_ (add_nonneg hτ hτ')
    have : (∑ i, y i ^ 2) / (n * (α * f.ratio)) = (∑ i, y i ^ 2) / (2 * n) / (α * f.ratio) + (∑ i, y i ^ 2) / (2 * n) / (α * f.ratio) := by
      field_simp; ring
    linarith
  have s2 : (α' - α) * A ≤ (α' - α) * ((∑ i, y i ^ 2) / (2 * n) / α) := by
    refine mul_le_mul_of_nonneg_left ?_ (sub_nonneg.mpr hα')
    rw [le_div_iff₀ hα]; linarith
  rw [div_le_iff₀ hn'] at key
  refine key.trans ((mul_le_mul_of_nonneg_right (add_le_add s1 s2) hn'.le).trans (le_of_eq ?_))
  field_simp

/-! ## Several tasks -/

/-- Multi-task Lasso: larger strengths give smaller penalties. -/
theorem C71_penalty_mt {srt srt' : Argsort XR} (hs : ArgsortSpec srt) (hs' : ArgsortSpec srt') (hn : 0 < n) (D : Design n p)
    (hD : D.Canonical) (Y : Fin n → Fin T → ℝ) (α α' : ℝ) (hα : 0 < α) (hα' : 0 < α')
    (cfg cfg' : Solver XR) (τ τ' : ℝ) (hτ : 0 ≤ τ) (hτ' : 0 ≤ τ') (ht : cfg.tolerance = XR.fin τ) (ht' : cfg'.tolerance = XR.fin τ')
    (V V' : Fin p → Euc T) (h : StopsMT srt cfg D Y (.l21 α) V) (h' : StopsMT srt' cfg' D Y (.l21 α') V') :
    (α' - α) * (∑ j, ‖V' j‖ - ∑ j, ‖V j‖) ≤ (∑ i, ∑ t, Y i t ^ 2) / n * (τ / α + τ' / α') := by
  have a := C69_objective_mt hs hn D hD Y α hα cfg τ hτ ht V h V'
  have b := C69_objective_mt hs' hn D hD Y α' hα' cfg' τ' hτ' ht' V' h' V
  have hn' : (0 : ℝ) < n := by exact_mod_cast hn
  have e1 : ∀ (α : ℝ) (V : Fin p → Euc T), objectiveMT D Y (.l21 α) V = mtLoss Y (fitMT D.matrix fun j => (V j).ofLp) + α * ∑ j, ‖V j‖ :=
    fun α V => by unfold objectiveMT; rw [Finset.mul_sum]; rfl
  rw [e1, e1] at a b
  have e : (∑ i, ∑ t, Y i t ^ 2) / n * (τ / α + τ' / α') = τ * (∑ i, ∑ t, Y i t ^ 2) / (n * α) + τ' * (∑ i, ∑ t, Y i t ^ 2) / (n * α') := by
    field_simp
  rw [e]
  nlinarith

/-- Multi-task Lasso: larger strengths give larger losses. -/
theorem C71_loss_mt {srt srt' : Argsort XR} (hs : ArgsortSpec srt) (hs' : ArgsortSpec srt') (hn : 0 < n) (D : Design n p)
    (hD : D.Canonical) (Y : Fin n → Fin T → ℝ) (α α' : ℝ) (hα : 0 < α) (hα' : 0 < α')
    (cfg cfg' : Solver XR) (τ τ' : ℝ) (hτ : 0 ≤ τ) (hτ' : 0 ≤ τ') (ht : cfg.tolerance = XR.fin τ) (ht' : cfg'.tolerance = XR.fin τ')
    (V V' : Fin p → Euc T) (h : StopsMT srt cfg D Y (.l21 α) V) (h' : StopsMT srt' cfg' D Y (.l21 α') V') :
    (α' - α) * (mtLoss Y (fitMT D.matrix fun j => (V j).ofLp) - mtLoss Y (fitMT D.matrix fun j => (V' j).ofLp)) ≤
      (∑ i, ∑ t, Y i t ^ 2) / n * (τ * α' / α + τ' * α / α') := by
  have a := mul_le_mul_of_nonneg_left (C69_objective_mt hs hn D hD Y α hα cfg τ hτ ht V h V') hα'.le
  have b := mul_le_mul_of_nonneg_left (C69_objective_mt hs' hn D hD Y α' hα' cfg' τ' hτ' ht' V' h' V) hα.le
  have hn' : (0 : ℝ) < n := by exact_mod_cast hn
  have e1 : ∀ (α : ℝ) (V : Fin p → Euc T), objectiveMT D Y (.l21 α) V = mtLoss Y (fitMT D.matrix fun j => (V j).ofLp) + α * ∑ j, ‖V j‖ :=
    fun α V => by unfold objectiveMT; rw [Finset.mul_sum]; rfl
  rw [e1, e1] at a b
  have e : (∑ i, ∑ t, Y i t ^ 2) / n * (τ * α' / α + τ' * α / α') =
      α' * (τ * (∑ i, ∑ t, Y i t ^ 2) / (n * α)) + α * (τ' * (∑ i, ∑ t, Y i t ^ 2) / (n * α')) := by
    field_simp
  rw [e]
  nlinarith

/-! ## Examples -/

-- the Lasso with two identical features and strengths 1/10 and 1/5
example : ∃ N N' : ℕ, ∃ v v' : Fin 2 → ℝ,
    Stops argsortIns ⟨1, N, 50, XR.fin (1 / 1000), 5, false, true⟩ dupD ![1, 2] .quadratic (.l1 (1 / 10)) v ∧
    Stops argsortIns ⟨1, N', 50, XR.fin (1 / 1000), 5, false, true⟩ dupD ![1, 2] .quadratic (.l1 (1 / 5)) v' ∧
    ∑ j, |v' j| ≤ ∑ j, |v j| + 1 ∧ ∑ i, (fit dupD.matrix v i - fit dupD.matrix v' i) ^ 2 ≤ 3 := by
  obtain ⟨N, h⟩ := stops_exists two_pos dupD trivial ![1, 2] .quadratic trivial (.l1 (1 / 10)) (by norm_num [Pen.Valid]) trivial
    (by norm_num [Pen.fn]) (1 / 1000) (by norm_num)
  obtain ⟨N', h'⟩ := stops_exists two_pos dupD trivial ![1, 2] .quadratic trivial (.l1 (1 / 5)) (by norm_num [Pen.Valid]) trivial
    (by norm_num [Pen.fn]) (1 / 1000) (by norm_num)
  obtain ⟨v, h⟩ := h 1 one_pos
  obtain ⟨v', h'⟩ := h' 1 one_pos
  refine ⟨N, N', v, v', h, h', ?_, ?_⟩
  · have := C71_penalty argsortIns_spec argsortIns_spec two_pos dupD trivial ![1, 2] .quadratic trivial .lasso trivial (1 / 10) (1 / 5)
      (by norm_num) (by norm_num) _ _ (1 / 1000) (1 / 1000) (by norm_num) (by norm_num) rfl rfl v v' h h'
    have e : LossKind.loss .quadratic (![1, 2] : Fin 2 → ℝ) (fun _ => 0) = 5 / 4 := by
      show quadLoss _ _ = _
      unfold quadLoss
      rw [Fin.sum_univ_two]
      norm_num
    have : (1 / 5 - 1 / 10) * (∑ j, |v' j| - ∑ j, |v j|) ≤ 2 * (5 / 4) / 1 * (1 / 1000 / (1 / 10) + 1 / 1000 / (1 / 5)) := by
      rw [← e]; exact this
    rw [Fin.sum_univ_two, Fin.sum_univ_two] at this ⊢
    norm_num at this
    linarith
  · refine (C71_predictions argsortIns_spec argsortIns_spec two_pos dupD trivial ![1, 2] .lasso trivial (1 / 10) (1 / 5)
      (by norm_num) (by norm_num) _ _ (1 / 1000) (1 / 1000) (by norm_num) (by norm_num) rfl rfl v v' h h').trans ?_
    rw [Fin.sum_univ_two]
    show ((1 / 1000 + 1 / 1000) / 1 + (1 / 5 - 1 / 10) / 2) * ((1 : ℝ) ^ 2 + 2 ^ 2) / (1 / 10) ≤ 3
    norm_num

-- logistic regression with an elastic net
example (cfg cfg' : Solver XR) (ht : cfg.tolerance = XR.fin 0) (ht' : cfg'.tolerance = XR.fin 0) (v v' : Fin 2 → ℝ)
    (h : Stops argsortIns cfg dupD ![1, -1] .logistic (.enet (1 / 10) (1 / 2)) v)
    (h' : Stops argsortIns cfg' dupD ![1, -1] .logistic (.enet (1 / 5) (1 / 2)) v') :
    LossKind.loss .logistic ![1, -1] (fit dupD.matrix v) ≤ LossKind.loss .logistic ![1, -1] (fit dupD.matrix v') := by
  have := C71_loss argsortIns_spec argsortIns_spec two_pos dupD trivial ![1, -1] .logistic (by
    intro i; fin_cases i <;> norm_num) (.enet (1 / 2)) ⟨by norm_num, by norm_num⟩ (1 / 10) (1 / 5)
      (by norm_num) (by norm_num) cfg cfg' 0 0 le_rfl le_rfl ht ht' v v' h h'
  norm_num at this
  linarith

-- two tasks
example : ∃ N N' : ℕ, ∃ V V' : Fin 2 → Euc 2,
    StopsMT argsortIns ⟨1, N, 50, XR.fin (1 / 1000), 5, false, true⟩ dupD ![![1, 2], ![0, -1]] (.l21 (1 / 10)) V ∧
    StopsMT argsortIns ⟨1, N', 50, XR.fin (1 / 1000), 5, false, true⟩ dupD ![![1, 2], ![0, -1]] (.l21 (1 / 5)) V' ∧
    ∑ j, ‖V' j‖ ≤ ∑ j, ‖V j‖ + 1 ∧
    mtLoss ![![1, 2], ![0, -1]] (fitMT dupD.matrix fun j => (V j).ofLp) ≤
      mtLoss ![![1, 2], ![0, -1]] (fitMT dupD.matrix fun j => (V' j).ofLp) + 1 := by
  obtain ⟨N, h⟩ := stopsMT_exists two_pos dupD trivial ![![1, 2], ![0, -1]] (1 / 10) (by norm_num) (1 / 1000) (by norm_num)
  obtain ⟨N', h'⟩ := stopsMT_exists two_pos dupD trivial ![![1, 2], ![0, -1]] (1 / 5) (by norm_num) (1 / 1000) (by norm_num)
  obtain ⟨V, h⟩ := h 1 one_pos
  obtain ⟨V', h'⟩ := h' 1 one_pos
  refine ⟨N, N', V, V', h, h', ?_, ?_⟩
  · have := C71_penalty_mt argsortIns_spec argsortIns_spec two_pos dupD trivial _ (1 / 10) (1 / 5)
      (by norm_num) (by norm_num) _ _ (1 / 1000) (1 / 1000) (by norm_num) (by norm_num) rfl rfl V V' h h'
    simp only [Fin.sum_univ_two] at this ⊢
    norm_num at this
    linarith
  · have := C71_loss_mt argsortIns_spec argsortIns_spec two_pos dupD trivial _ (1 / 10) (1 / 5)
      (by norm_num) (by norm_num) _ _ (1 / 1000) (1 / 1000) (by norm_num) (by norm_num) rfl rfl V V' h h'
    rw [Fin.sum_univ_two (f := fun i => ∑ t, _), Fin.sum_univ_two, Fin.sum_univ_two] at this
    norm_num at this
    linarith

end Sglm
