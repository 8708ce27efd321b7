import Verif.Props.Path

/-!
# C65, C71: several tasks

The multi-task Lasso: results do not depend on the settings (C65), and predictions depend continuously on the strength (C71).
-/

namespace Sglm
open Scalar Spec
variable {n p T : ℕ}

/-- **The settings do not matter**: two runs of the multi-task Lasso which stop before `max_iterations`, with whatever settings, ways to
break ties and storage formats, return almost the same coefficients. -/
theorem C65_settings_mt {srt srt' : Argsort XR} (hs : ArgsortSpec srt) (hs' : ArgsortSpec srt') (hn : 0 < n) (D D' : Design n p)
    (hD : D'.matrix = D.matrix) (Y : Fin n → Fin T → ℝ) (α : ℝ) (hα : 0 < α) (c : ℝ) (hcurv : Curvature D .quadratic c) (hμ : 0 < c)
    (cfg cfg' : Solver XR) (τ τ' : ℝ) (ht : cfg.tolerance = XR.fin τ) (ht' : cfg'.tolerance = XR.fin τ') (V V' : Fin p → Euc T)
    (h : StopsMT srt cfg D Y (.l21 α) V) (h' : StopsMT srt' cfg' D' Y (.l21 α) V') :
    ∑ j, ‖V j - V' j‖ ^ 2 ≤ p * ((τ + τ') / c) ^ 2 := by
  have c' := stopsMT_cert hs' hn hα ht' h'
  have e : objectiveMT D' Y (.l21 α) = objectiveMT D Y (.l21 α) := by funext u; unfold objectiveMT; rw [hD]
  rw [e] at c'
  exact (strongMT D Y hα.le hcurv).near hμ (stopsMT_cert hs hn hα ht h) c'

/-- **Predictions of the multi-task Lasso depend continuously on the strength.** -/
theorem C71_predictions_mt {srt srt' : Argsort XR} (hs : ArgsortSpec srt) (hs' : ArgsortSpec srt') (hn : 0 < n) (D : Design n p)
    (hD : D.Canonical) (Y : Fin n → Fin T → ℝ) (α α' : ℝ) (hα : 0 < α) (hα' : α ≤ α')
    (cfg cfg' : Solver XR) (τ τ' : ℝ) (hτ : 0 ≤ τ) (hτ' : 0 ≤ τ') (ht : cfg.tolerance = XR.fin τ) (ht' : cfg'.tolerance = XR.fin τ')
    (V V' : Fin p → Euc T) (h : StopsMT srt cfg D Y (.l21 α) V) (h' : StopsMT srt' cfg' D Y (.l21 α') V') :
    ∑ i, ∑ t, (fitMT D.matrix (fun j => (V j).ofLp) i t - fitMT D.matrix (fun j => (V' j).ofLp) i t) ^ 2 ≤
      (τ + τ' + (α' - α) / 2) * (∑ i, ∑ t, Y i t ^ 2) / α := by
  have hn' : (0 : ℝ) < n := by exact_mod_cast hn
  have hα'0 : 0 < α' := hα.trans_le hα'
  have hy0 : 0 ≤ ∑ i, ∑ t, Y i t ^ 2 := Finset.sum_nonneg fun _ _ => Finset.sum_nonneg fun _ _ => sq_nonneg _
  have line : ∀ α : ℝ, 0 ≤ α → ∀ (x z : Euc T) (t : ℝ), 0 ≤ t → t ≤ 1 →
      α * ‖x + t • (z - x)‖ ≤ (1 - t) * (α * ‖x‖) + t * (α * ‖z‖) - 0 / 2 * (t * (1 - t)) * ‖x - z‖ ^ 2 := by
    intro α hα x z t a b
    have := enet_line (ρ := 1) hα zero_le_one x z t a b
    simpa only [enet, sub_self, zero_mul, zero_div, add_zero, one_mul, mul_zero, sub_zero] using this
  have o := C28_result_mt hs hn D hD Y (.l21 α) hα trivial cfg V h.1
  have o' := C28_result_mt hs' hn D hD Y (.l21 α') hα'0 trivial cfg' V' h'.1
  rw [objectiveMT_zero] at o o'
  have b := sizeMT_of_objective hα o
  have b' := sizeMT_of_objective hα'0 o'
  have c := lsq_gap (φ := fun z : Euc T => α * ‖z‖) (m := 0) hn D.matrix (vecY Y) le_rfl (line α hα.le) (τ := τ) (v := V) (fun u => by
    rw [lsq_mt, lsq_mt]; exact stopsMT_cert hs hn hα ht h u) V'
  have c' := lsq_gap (φ := fun z : Euc T => α' * ‖z‖) (m := 0) hn D.matrix (vecY Y) le_rfl (line α' hα'0.le) (τ := τ') (v := V') (fun u => by
    rw [lsq_mt, lsq_mt]; exact stopsMT_cert hs' hn hα'0 ht' h' u) V
  rw [sqFit_sub_comm D.matrix V' V] at c'
  have d := sum_norm_sub_le V V'
  simp only [← Finset.mul_sum] at c c'
  have g : ∑ j, ‖V' j - V j‖ = ∑ j, ‖V j - V' j‖ := Finset.sum_congr rfl fun j _ => norm_sub_rev _ _
  rw [g] at c'
  rw [← sqFit_mt]
  obtain ⟨Q, hQ⟩ : ∃ Q, Q = sqFit D.matrix (fun j => V j - V' j) := ⟨_, rfl⟩
  obtain ⟨S, hS⟩ : ∃ S, S = ∑ j, ‖V j - V' j‖ := ⟨_, rfl⟩
  obtain ⟨A, hA⟩ : ∃ A, A = ∑ j, ‖V j‖ := ⟨_, rfl⟩
  obtain ⟨A', hA'⟩ : ∃ A', A' = ∑ j, ‖V' j‖ := ⟨_, rfl⟩
  have hA0 : 0 ≤ A' := by rw [hA']; exact Finset.sum_nonneg fun j _ => norm_nonneg _
  rw [← hQ, ← hS, ← hA, ← hA'] at c c'
  rw [← hS, ← hA, ← hA'] at d
  rw [← hA] at b
  rw [← hA'] at b'
  rw [← hQ]
  have key : Q / n ≤ (τ + τ') * S + (α' - α) * A := by
    have : Q / n = Q / (2 * n) + Q / (2 * n) := by field_simp; ring
    have h2 := mul_nonneg (sub_nonneg.mpr hα') hA0
    nlinarith
  have bb : (∑ i, ∑ t, Y i t ^ 2) / (2 * n) / α' ≤ (∑ i, ∑ t, Y i t ^ 2) / (2 * n) / α := by gcongr
  have s1 : (τ + τ') * S ≤ (τ + τ') * ((∑ i, ∑ t, Y i t ^ 2) / (n * α)) := by
    refine mul_le_mul_of_nonneg_left ?_ (add_nonneg hτ hτ')
    have : (∑ i, ∑ t, Y i t ^ 2) / (n * α) = (∑ i, ∑ t, Y i t ^ 2) / (2 * n) / α + (∑ i, ∑ t, Y i t ^ 2) / (2 * n) / α := by
      field_simp; ring
    linarith
  have s2 : (α' - α) * A ≤ (α' - α) * ((∑ i, ∑ t, Y i t ^ 2) / (2 * n) / α) :=
    mul_le_mul_of_nonneg_left b (sub_nonneg.mpr hα')
  rw [div_le_iff₀ hn'] at key
  refine key.trans ((mul_le_mul_of_nonneg_right (add_le_add s1 s2) hn'.le).trans (le_of_eq ?_))
  field_simp

/-! ## Examples -/

-- two identical features, strengths 1/10 and 1/5
example : ∃ N N' : ℕ, ∃ V V' : Fin 2 → Euc 2,
    StopsMT argsortIns ⟨1, N, 50, XR.fin (1 / 1000), 5, false, true⟩ dupD ![![1, 2], ![0, -1]] (.l21 (1 / 10)) V ∧
    StopsMT argsortIns ⟨1, N', 50, XR.fin (1 / 1000), 5, false, true⟩ dupD ![![1, 2], ![0, -1]] (.l21 (1 / 5)) V' ∧
    ∑ i, ∑ t, (fitMT dupD.matrix (fun j => (V j).ofLp) i t - fitMT dupD.matrix (fun j => (V' j).ofLp) i t) ^ 2 ≤ 4 := by
  obtain ⟨N, h⟩ := stopsMT_exists two_pos dupD trivial ![![1, 2], ![0, -1]] (1 / 10) (by norm_num) (1 / 1000) (by norm_num)
  obtain ⟨N', h'⟩ := stopsMT_exists two_pos dupD trivial ![![1, 2], ![0, -1]] (1 / 5) (by norm_num) (1 / 1000) (by norm_num)
  obtain ⟨V, h⟩ := h 1 one_pos
  obtain ⟨V', h'⟩ := h' 1 one_pos
  refine ⟨N, N', V, V', h, h', (C71_predictions_mt argsortIns_spec argsortIns_spec two_pos dupD trivial _ (1 / 10) (1 / 5) (by norm_num) (by norm_num)
    _ _ (1 / 1000) (1 / 1000) (by norm_num) (by norm_num) rfl rfl V V' h h').trans ?_⟩
  norm_num [Fin.sum_univ_two]

-- working sets of sizes 1 and 2
example : ∃ N : ℕ, ∃ V V' : Fin 2 → Euc 2,
    StopsMT argsortIns ⟨1, N, 50, XR.fin (1 / 1000), 5, false, true⟩ cvD ![![1, 2], ![0, -1]] (.l21 (1 / 10)) V ∧
    StopsMT argsortIns ⟨2, N, 50, XR.fin (1 / 1000), 5, false, true⟩ cvD ![![1, 2], ![0, -1]] (.l21 (1 / 10)) V' ∧
    ∑ j, ‖V j - V' j‖ ^ 2 ≤ 1 / 10000 := by
  obtain ⟨N, h⟩ := stopsMT_exists two_pos cvD trivial ![![1, 2], ![0, -1]] (1 / 10) (by norm_num) (1 / 1000) (by norm_num)
  obtain ⟨V, h1⟩ := h 1 one_pos
  obtain ⟨V', h2⟩ := h 2 two_pos
  refine ⟨N, V, V', h1, h2, (C65_settings_mt argsortIns_spec argsortIns_spec two_pos cvD cvD rfl _ (1 / 10) (by norm_num) (1 / 2) cvD_curvature
    (by norm_num) _ _ (1 / 1000) (1 / 1000) rfl rfl V V' h1 h2).trans ?_⟩
  norm_num

end Sglm
