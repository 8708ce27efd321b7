import Verif.Proofs.BSem

/-!
# Violation scores (C08 - C13)

`ScoresSpec` says what a correct `subdiff_distance` returns: for every feature of the working set the distance
from minus the gradient to the subdifferential of the penalty at the current weight, and the maximum of
these distances.
-/

namespace Sglm
open Spec

/-- The result `res` of `subdiff_distance` on weights `w`, gradient `g` and working set `ws` is correct for
a penalty with subdifferential `S`. -/
def ScoresSpec {E : Type*} [NormedAddCommGroup E] {k p : ℕ} (S : E → Set E) (w : Fin p → E) (g : Fin k → E)
    (ws : Fin k → Fin p) (res : M (List XR × XR)) : Prop :=
  ∃ (d : Fin k → ℝ) (m : XR), res = .ok (vec d, m) ∧
    (∀ i, IsDist (-(g i)) (S (w (ws i))) (d i)) ∧ IsMaxScore d m

/-! ## C08 -/

/-- **C08.** For every non-negative `alpha`, the scores of `L1` are the distances to the subdifferential of
`alpha |.|`. -/
theorem C08_l1_scores {k p : ℕ} (α : ℝ) (hα : 0 ≤ α) (w : Fin p → ℝ) (g : Fin k → ℝ)
    (ws : Fin k → Fin p) :
    ScoresSpec (subdiff (fun z : ℝ => α * ‖z‖)) w g ws
      (Penalty.subdiffDistance (L1.mk (XR.fin α)) (vec w) (vec g) (idx ws)) := by
  refine ⟨fun i => if w (ws i) = 0 then max 0 (|g i| - α)
      else |-(g i) - (if w (ws i) < 0 then -1 else 1) * α|, _,
    sepDistances_vec _ (fun a b => if a = 0 then max 0 (|b| - α)
      else |-b - (if a < 0 then -1 else 1) * α|) ?_ w g ws, ?_, maxDist_vec _⟩
  · intro a b
    unfold L1.dist
    simp only [XR.s_beq, XR.s_zero, decide_eq_true_eq, XR.s_abs, XR.s_sub, XR.s_fmax, XR.s_neg,
      XR.s_signum, XR.s_mul]
    split_ifs <;> rfl
  · intro i
    have e : (fun z : ℝ => α * ‖z‖) = fun z => α * ‖z‖ + 0 * ‖z‖ ^ 2 / 2 := by funext z; ring
    rw [e]
    simp only
    split_ifs with h h2
    · rw [h, subdiff_enet_zero hα le_rfl]; exact isDist_ball hα (g i)
    · rw [subdiff_enet_ne hα le_rfl h]
      have := isDist_singleton (g i) ((α / ‖w (ws i)‖ + 0) • w (ws i))
      convert this using 1
      rw [Real.norm_eq_abs, ← abs_neg, Real.norm_eq_abs, abs_of_neg h2, smul_eq_mul]
      congr 1; field_simp; ring
    · rw [subdiff_enet_ne hα le_rfl h]
      have h3 : 0 < w (ws i) := lt_of_le_of_ne (not_lt.mp h2) (Ne.symm h)
      have := isDist_singleton (g i) ((α / ‖w (ws i)‖ + 0) • w (ws i))
      convert this using 1
      rw [Real.norm_eq_abs, ← abs_neg, Real.norm_eq_abs, abs_of_pos h3, smul_eq_mul]
      congr 1; field_simp; ring

example : ScoresSpec (subdiff (fun z : ℝ => 1 * ‖z‖)) ![0, 2] ![3, -1] ![1, 0]
    (Penalty.subdiffDistance (L1.mk (XR.fin 1)) (vec ![0, 2]) (vec ![3, -1]) (idx ![(1 : Fin 2), 0])) :=
  C08_l1_scores 1 zero_le_one _ _ _

/-! ## C09 -/

/-- **C09.** The scores of `L1PlusL2` are the distances to the subdifferential of the elastic-net penalty. -/
theorem C09_enet_scores {k p : ℕ} (α ρ : ℝ) (hα : 0 ≤ α) (hρ0 : 0 ≤ ρ) (hρ1 : ρ ≤ 1)
    (w : Fin p → ℝ) (g : Fin k → ℝ) (ws : Fin k → Fin p) :
    ScoresSpec (subdiff (fun z : ℝ => enet α ρ z)) w g ws
      (Penalty.subdiffDistance (L1PlusL2.mk (XR.fin α) (XR.fin ρ)) (vec w) (vec g) (idx ws)) := by
  refine ⟨fun i => if w (ws i) = 0 then max 0 (|g i| - α * ρ)
      else |-(g i) - α * ((if w (ws i) < 0 then -1 else 1) * ρ + (1 - ρ) * w (ws i))|, _,
    sepDistances_vec _ (fun a b => if a = 0 then max 0 (|b| - α * ρ)
      else |-b - α * ((if a < 0 then -1 else 1) * ρ + (1 - ρ) * a)|) ?_ w g ws, ?_, maxDist_vec _⟩
  · intro a b
    unfold L1PlusL2.dist
    simp only [XR.s_beq, XR.s_zero, decide_eq_true_eq, XR.s_abs, XR.s_sub, XR.s_fmax, XR.s_neg,
      XR.s_signum, XR.s_mul, XR.s_add, XR.s_one]
    split_ifs <;> rfl
  · intro i
    have ha : 0 ≤ α * ρ := by positivity
    have hb : 0 ≤ α * (1 - ρ) := mul_nonneg hα (by linarith)
    have e : (fun z : ℝ => enet α ρ z) = fun z => (α * ρ) * ‖z‖ + (α * (1 - ρ)) * ‖z‖ ^ 2 / 2 := by
      funext z; unfold enet; ring
    rw [e]
    simp only
    split_ifs with h h2
    · rw [h, subdiff_enet_zero ha hb]; exact isDist_ball ha (g i)
    · rw [subdiff_enet_ne ha hb h]
      have := isDist_singleton (g i) ((α * ρ / ‖w (ws i)‖ + α * (1 - ρ)) • w (ws i))
      convert this using 1
      rw [Real.norm_eq_abs, ← abs_neg, Real.norm_eq_abs, abs_of_neg h2, smul_eq_mul]
      congr 1; field_simp; ring
    · rw [subdiff_enet_ne ha hb h]
      have h3 : 0 < w (ws i) := lt_of_le_of_ne (not_lt.mp h2) (Ne.symm h)
      have := isDist_singleton (g i) ((α * ρ / ‖w (ws i)‖ + α * (1 - ρ)) • w (ws i))
      convert this using 1
      rw [Real.norm_eq_abs, ← abs_neg, Real.norm_eq_abs, abs_of_pos h3, smul_eq_mul]
      congr 1; field_simp; ring

example : (0:ℝ) ≤ 2 ∧ (0:ℝ) ≤ 1 / 3 ∧ (1:ℝ) / 3 ≤ 1 := by norm_num

/-! ## C10 -/

/-- **C10.** The scores of `MCP` are the distances to the Fréchet subdifferential of the MCP. -/
theorem C10_mcp_scores {k p : ℕ} (α γ : ℝ) (hα : 0 ≤ α) (hγ : 0 < γ) (w : Fin p → ℝ) (g : Fin k → ℝ)
    (ws : Fin k → Fin p) :
    ScoresSpec (frechetSubdiff (fun z : ℝ => mcp α γ z)) w g ws
      (Penalty.subdiffDistance (MCP.mk (XR.fin α) (XR.fin γ)) (vec w) (vec g) (idx ws)) := by
  refine ⟨fun i => if w (ws i) = 0 then max 0 (|g i| - α)
      else if |w (ws i)| < α * γ then
        |g i + α * (if w (ws i) < 0 then -1 else 1) - w (ws i) / γ| else |g i|, _,
    sepDistances_vec _ (fun a b => if a = 0 then max 0 (|b| - α)
      else if |a| < α * γ then |b + α * (if a < 0 then -1 else 1) - a / γ| else |b|) ?_ w g ws, ?_,
    maxDist_vec _⟩
  · intro a b
    unfold MCP.dist
    simp only [XR.s_beq, XR.s_zero, decide_eq_true_eq, XR.s_abs, XR.s_sub, XR.s_fmax,
      XR.s_signum, XR.s_mul, XR.s_add, XR.s_lt, XR.s_div _ _ hγ.ne']
    split_ifs <;> rfl
  · intro i
    show IsDist _ (frechetSubdiff (mcp α γ : ℝ → ℝ) _) _
    simp only
    split_ifs with h h2 h3
    · rw [h, frechet_mcp_zero hα hγ]; exact isDist_ball hα (g i)
    · rw [frechet_mcp_mid h (by rw [Real.norm_eq_abs, mul_comm]; exact h2)]
      have e : |g i + α * -1 - w (ws i) / γ| = ‖g i + (α / ‖w (ws i)‖ - 1 / γ) • w (ws i)‖ := by
        rw [Real.norm_eq_abs, Real.norm_eq_abs, abs_of_neg h3, smul_eq_mul]
        congr 1; field_simp; ring
      rw [e]
      exact isDist_singleton (g i) _
    · rw [frechet_mcp_mid h (by rw [Real.norm_eq_abs, mul_comm]; exact h2)]
      have h4 : 0 < w (ws i) := lt_of_le_of_ne (not_lt.mp h3) (Ne.symm h)
      have e : |g i + α * 1 - w (ws i) / γ| = ‖g i + (α / ‖w (ws i)‖ - 1 / γ) • w (ws i)‖ := by
        rw [Real.norm_eq_abs, Real.norm_eq_abs, abs_of_pos h4, smul_eq_mul]
        congr 1; field_simp; ring
      rw [e]
      exact isDist_singleton (g i) _
    · rw [frechet_mcp_out hα hγ h (by rw [Real.norm_eq_abs, mul_comm]; exact not_lt.mp h2)]
      have := isDist_singleton (g i) (0:ℝ)
      rwa [add_zero] at this

example : (0:ℝ) ≤ 1 ∧ (0:ℝ) < 3 := by norm_num

/-! ## C11 -/

/-- **C11.** The scores of `L21` are the distances to the subdifferential of `alpha ‖.‖`. -/
theorem C11_l21_scores {k p T : ℕ} (α : ℝ) (hα : 0 ≤ α) (W : Fin p → Euc T) (g : Fin k → Euc T)
    (ws : Fin k → Fin p) :
    ScoresSpec (subdiff (fun z : Euc T => α * ‖z‖)) W g ws
      (MTPenalty.subdiffDistance (L21.mk (XR.fin α)) (emat W) (emat g) (idx ws)) := by
  classical
  refine ⟨fun i => if W (ws i) = 0 then max 0 (‖g i‖ - α) else ‖g i + (α / ‖W (ws i)‖) • W (ws i)‖, _,
    blockDistances_vec _ (fun a b => if a = 0 then max 0 (‖b‖ - α) else ‖b + (α / ‖a‖) • a‖) W g ws
      ?_, ?_, maxDist_vec _⟩
  · intro i
    unfold L21.dist
    by_cases h : W (ws i) = 0
    · have h1 : ¬ (anyNonzero (evec (W (ws i))) = true) := by
        rw [anyNonzero_evec]; exact not_not.mpr h
      rw [if_neg h1, if_pos h, norm2_evec, XR.s_zero, XR.s_sub, XR.s_fmax]
    · have h1 : anyNonzero (evec (W (ws i))) = true := (anyNonzero_evec _).mpr h
      have hN : ‖W (ws i)‖ ≠ 0 := norm_ne_zero_iff.mpr h
      rw [if_pos h1, if_neg h, norm2_evec]
      simp only
      rw [foldl_sq_evec (F := fun gw => Scalar.add gw.1
        (Scalar.div (Scalar.mul (XR.fin α) gw.2) (XR.fin ‖W (ws i)‖))) (c := α / ‖W (ws i)‖)]
      intro a b
      simp only [XR.s_mul, XR.s_div _ _ hN, XR.s_add]
      congr 1; ring
  · intro i
    have e : (fun z : Euc T => α * ‖z‖) = fun z => α * ‖z‖ + 0 * ‖z‖ ^ 2 / 2 := by funext z; ring
    rw [e]
    simp only
    split_ifs with h
    · rw [h, subdiff_enet_zero hα le_rfl]; exact isDist_ball hα (g i)
    · rw [subdiff_enet_ne hα le_rfl h, add_zero]
      exact isDist_singleton (g i) _

example : ScoresSpec (subdiff (fun z : Euc 2 => 1 * ‖z‖)) (fun _ : Fin 1 => 0)
    (fun _ : Fin 1 => EuclideanSpace.single 0 2) (fun _ => 0)
    (MTPenalty.subdiffDistance (L21.mk (XR.fin 1)) (emat (fun _ : Fin 1 => (0 : Euc 2)))
      (emat (fun _ : Fin 1 => (EuclideanSpace.single 0 2 : Euc 2))) (idx (fun _ : Fin 1 => (0 : Fin 1)))) :=
  C11_l21_scores 1 zero_le_one _ _ _

/-! ## C12 -/

/-- The full statement of C12. -/
def C12_full : Prop :=
  ∀ (k p T : ℕ) (α ρ : ℝ) (W : Fin p → Euc T) (g : Fin k → Euc T) (ws : Fin k → Fin p),
    0 ≤ α → 0 ≤ ρ → ρ ≤ 1 →
    ScoresSpec (subdiff (fun z : Euc T => enet α ρ z)) W g ws
      (MTPenalty.subdiffDistance (BlockL1PlusL2.mk (XR.fin α) (XR.fin ρ)) (emat W) (emat g) (idx ws))

theorem blockEnet_scores_eq {k p T : ℕ} (α ρ : ℝ) (W : Fin p → Euc T) (g : Fin k → Euc T)
    (ws : Fin k → Fin p) :
    MTPenalty.subdiffDistance (BlockL1PlusL2.mk (XR.fin α) (XR.fin ρ)) (emat W) (emat g) (idx ws) =
      .ok (vec (fun i => blockEnetScore α ρ (W (ws i)) (g i)),
        maxDist (vec (fun i => blockEnetScore α ρ (W (ws i)) (g i)))) :=
  blockDistances_vec _ _ W g ws fun i => blockEnet_dist_fin α ρ (W (ws i)) (g i)

/-- **C12 (partial).** The scores of `BlockL1PlusL2` are correct if every zero row in the working set has a
gradient `g` with `‖g‖ ≤ αρ` and `‖g‖² ≤ αρ`.  Missing with respect to `C12_full`: the other zero rows,
where the code compares `‖g‖²` instead of `‖g‖` with `αρ`. -/
theorem C12_block_enet_scores_partial {k p T : ℕ} (α ρ : ℝ) (hα : 0 ≤ α) (hρ0 : 0 ≤ ρ) (hρ1 : ρ ≤ 1)
    (W : Fin p → Euc T) (g : Fin k → Euc T) (ws : Fin k → Fin p)
    (h0 : ∀ i, W (ws i) = 0 → ‖g i‖ ≤ α * ρ ∧ ‖g i‖ ^ 2 ≤ α * ρ) :
    ScoresSpec (subdiff (fun z : Euc T => enet α ρ z)) W g ws
      (MTPenalty.subdiffDistance (BlockL1PlusL2.mk (XR.fin α) (XR.fin ρ)) (emat W) (emat g) (idx ws)) := by
  refine ⟨_, _, blockEnet_scores_eq α ρ W g ws, ?_, maxDist_vec _⟩
  intro i
  have ha : 0 ≤ α * ρ := by positivity
  have hb : 0 ≤ α * (1 - ρ) := mul_nonneg hα (by linarith)
  have e : (fun z : Euc T => enet α ρ z) = fun z => (α * ρ) * ‖z‖ + (α * (1 - ρ)) * ‖z‖ ^ 2 / 2 := by
    funext z; unfold enet; ring
  rw [e]
  unfold blockEnetScore
  split_ifs with h
  · obtain ⟨h1, h2⟩ := h0 i h
    rw [h, subdiff_enet_zero ha hb, max_eq_left (by linarith)]
    have := isDist_ball ha (g i)
    rwa [max_eq_left (by linarith)] at this
  · rw [subdiff_enet_ne ha hb h]
    exact isDist_singleton (g i) _

example : ∃ (W g : Fin 2 → Euc 1), W 0 ≠ 0 ∧ W 1 = 0 ∧
    ∀ i, W i = 0 → ‖g i‖ ≤ (1:ℝ) * (1/2) ∧ ‖g i‖ ^ 2 ≤ (1:ℝ) * (1/2) := by
  refine ⟨![EuclideanSpace.single 0 1, 0], ![0, EuclideanSpace.single 0 (1/4)], by simp, by simp, ?_⟩
  intro i hi
  fin_cases i
  · simp at hi
  · simp only [Fin.mk_one, Matrix.cons_val_one, Matrix.cons_val_fin_one, PiLp.norm_single]
    norm_num

/-- **C12 is false of the code**: at a zero row with `‖g‖ = 1/2` and `αρ = 3/10` the reported violation is
0 although the distance is 1/5. -/
theorem C12_false : ¬ C12_full := by
  intro h
  obtain ⟨d, m, hd, hdist, _⟩ := h 1 1 1 (3/10) 1 (fun _ => 0) (fun _ => EuclideanSpace.single 0 (1/2))
    (fun _ => 0) (by norm_num) (by norm_num) le_rfl
  rw [blockEnet_scores_eq] at hd
  injection hd with hd
  have h1 := congrFun (vec_inj.mp (congrArg Prod.fst hd)) 0
  have h2 := hdist 0
  rw [← h1] at h2
  have e : (fun z : Euc 1 => enet (3/10) 1 z) = fun z => (3/10) * ‖z‖ + 0 * ‖z‖ ^ 2 / 2 := by
    funext z; unfold enet; ring
  rw [e, subdiff_enet_zero (by norm_num) le_rfl] at h2
  have h3 := (isDist_ball (E := Euc 1) (a := 3/10) (by norm_num) (EuclideanSpace.single 0 (1/2))).2
  have h4 := h2.2
  rw [← h3] at h4
  unfold blockEnetScore at h4
  rw [if_pos rfl, PiLp.norm_single] at h4
  norm_num at h4

/-- Row by row, exactly when the score is right: at nonzero rows, and at zero rows if by chance both formulas agree. -/
theorem C12_rows_partial {k p T : ℕ} (α ρ : ℝ) (hα : 0 ≤ α) (hρ0 : 0 ≤ ρ) (hρ1 : ρ ≤ 1)
    (W : Fin p → Euc T) (g : Fin k → Euc T) (ws : Fin k → Fin p) :
    ∃ (d : Fin k → ℝ) (m : XR),
      MTPenalty.subdiffDistance (BlockL1PlusL2.mk (XR.fin α) (XR.fin ρ)) (emat W) (emat g) (idx ws) = .ok (vec d, m) ∧
      ∀ i, IsDist (-g i) (subdiff (fun z : Euc T => enet α ρ z) (W (ws i))) (d i) ↔
        W (ws i) ≠ 0 ∨ max 0 (‖g i‖ ^ 2 - α * ρ) = max 0 (‖g i‖ - α * ρ) := by
  refine ⟨_, _, blockEnet_scores_eq α ρ W g ws, fun i => ?_⟩
  have ha : 0 ≤ α * ρ := by positivity
  have hb : 0 ≤ α * (1 - ρ) := mul_nonneg hα (by linarith)
  have e : (fun z : Euc T => enet α ρ z) = fun z => (α * ρ) * ‖z‖ + (α * (1 - ρ)) * ‖z‖ ^ 2 / 2 := by
    funext z; unfold enet; ring
  rw [e]
  unfold blockEnetScore
  by_cases h : W (ws i) = 0
  · rw [if_pos h, h, subdiff_enet_zero ha hb]
    have h1 := isDist_ball ha (g i)
    constructor
    · intro h2
      exact .inr (h2.2.trans h1.2.symm)
    · rintro (h2 | h2)
      · exact absurd rfl h2
      · rw [h2]; exact h1
  · rw [if_neg h, subdiff_enet_ne ha hb h]
    exact ⟨fun _ => .inl h, fun _ => isDist_singleton (g i) _⟩

/-- Both cases of the equivalence occur: a nonzero row, and a zero row with a gradient of norm 2 where the two formulas differ. -/
example : (EuclideanSpace.single (0 : Fin 1) (1:ℝ)) ≠ 0 ∧ max 0 ((2:ℝ) ^ 2 - 1) ≠ max 0 (2 - 1) := by
  refine ⟨by simp, ?_⟩
  rw [max_eq_right (by norm_num), max_eq_right (by norm_num)]; norm_num

/-! ## C13 -/

/-- The full statement of C13. -/
def C13_full : Prop :=
  ∀ (k p T : ℕ) (α γ : ℝ) (W : Fin p → Euc T) (g : Fin k → Euc T) (ws : Fin k → Fin p),
    0 ≤ α → 0 < γ →
    ScoresSpec (frechetSubdiff (fun z : Euc T => mcp α γ z)) W g ws
      (MTPenalty.subdiffDistance (BlockMCP.mk (XR.fin α) (XR.fin γ)) (emat W) (emat g) (idx ws))

theorem blockMcp_scores_eq {k p T : ℕ} (α γ : ℝ) (hγ : 0 < γ) (W : Fin p → Euc T) (g : Fin k → Euc T)
    (ws : Fin k → Fin p) :
    MTPenalty.subdiffDistance (BlockMCP.mk (XR.fin α) (XR.fin γ)) (emat W) (emat g) (idx ws) =
      .ok (vec (fun i => blockMcpScore α γ (W (ws i)) (g i)),
        maxDist (vec (fun i => blockMcpScore α γ (W (ws i)) (g i)))) :=
  blockDistances_vec _ _ W g ws fun i => blockMcp_dist_fin α γ hγ (W (ws i)) (g i)

/-- **C13 (partial).** The scores of `BlockMCP` are correct if no row of the working set satisfies
`0 < ‖W_j‖ < αγ`.  Missing with respect to `C13_full`: such rows, for which the code ignores the
gradient. -/
theorem C13_block_mcp_scores_partial {k p T : ℕ} (α γ : ℝ) (hα : 0 ≤ α) (hγ : 0 < γ)
    (W : Fin p → Euc T) (g : Fin k → Euc T) (ws : Fin k → Fin p)
    (hW : ∀ i, W (ws i) = 0 ∨ α * γ ≤ ‖W (ws i)‖) :
    ScoresSpec (frechetSubdiff (fun z : Euc T => mcp α γ z)) W g ws
      (MTPenalty.subdiffDistance (BlockMCP.mk (XR.fin α) (XR.fin γ)) (emat W) (emat g) (idx ws)) := by
  refine ⟨_, _, blockMcp_scores_eq α γ hγ W g ws, ?_, maxDist_vec _⟩
  intro i
  show IsDist _ (frechetSubdiff (mcp α γ : Euc T → ℝ) _) _
  unfold blockMcpScore
  rcases hW i with h | h
  · rw [if_pos h, h, frechet_mcp_zero hα hγ]
    exact isDist_ball hα (g i)
  · by_cases h0 : W (ws i) = 0
    · rw [if_pos h0, h0, frechet_mcp_zero hα hγ]
      exact isDist_ball hα (g i)
    · rw [if_neg h0, if_neg (not_lt.mpr h), frechet_mcp_out hα hγ h0 (by rw [mul_comm]; exact h)]
      have := isDist_singleton (g i) (0 : Euc T)
      rwa [add_zero] at this

example : ∃ W : Fin 2 → Euc 1, W 1 ≠ 0 ∧ ∀ i, W i = 0 ∨ (1:ℝ) * 3 ≤ ‖W i‖ := by
  refine ⟨![0, EuclideanSpace.single 0 4], by simp, ?_⟩
  intro i
  fin_cases i
  · left; simp
  · right
    simp only [Fin.mk_one, Matrix.cons_val_one, Matrix.cons_val_fin_one, PiLp.norm_single]
    norm_num

/-- **C13 is false of the code**: with `α = 1`, `γ = 3`, weight 1 and gradient `-2/3` the row is stationary
but the reported violation is `2/3`. -/
theorem C13_false : ¬ C13_full := by
  intro h
  obtain ⟨d, m, hd, hdist, _⟩ := h 1 1 1 1 3 (fun _ => EuclideanSpace.single 0 1)
    (fun _ => EuclideanSpace.single 0 (-(2/3))) (fun _ => 0) (by norm_num) (by norm_num)
  rw [blockMcp_scores_eq _ _ (by norm_num)] at hd
  injection hd with hd
  have h1 := congrFun (vec_inj.mp (congrArg Prod.fst hd)) 0
  have h2 := hdist 0
  rw [← h1] at h2
  have hne : (EuclideanSpace.single (0 : Fin 1) (1:ℝ) : Euc 1) ≠ 0 := by simp
  have hn1 : ‖(EuclideanSpace.single (0 : Fin 1) (1:ℝ) : Euc 1)‖ = 1 := by simp
  have e : (fun z : Euc 1 => mcp 1 3 z) = mcp 1 3 := rfl
  rw [e, frechet_mcp_mid hne (by rw [hn1]; norm_num), hn1] at h2
  have h4 := h2.2
  rw [← (isDist_singleton _ _).2] at h4
  unfold blockMcpScore at h4
  rw [if_neg hne, hn1, if_pos (by norm_num)] at h4
  rw [norm_smul, hn1] at h4
  have h5 : (EuclideanSpace.single (0 : Fin 1) (-(2/3):ℝ) : Euc 1) +
      ((1:ℝ) / 1 - 1 / 3) • (EuclideanSpace.single (0 : Fin 1) (1:ℝ) : Euc 1) = 0 := by
    ext i; fin_cases i; simp; norm_num
  rw [h5, norm_zero] at h4
  norm_num at h4

/-- Row by row: the score is right at zero rows and at rows of norm at least `αγ`; at the others it is right only if the gradient is such
that adding it to the derivative of the penalty does not change the norm. -/
theorem C13_rows_partial {k p T : ℕ} (α γ : ℝ) (hα : 0 ≤ α) (hγ : 0 < γ)
    (W : Fin p → Euc T) (g : Fin k → Euc T) (ws : Fin k → Fin p) :
    ∃ (d : Fin k → ℝ) (m : XR),
      MTPenalty.subdiffDistance (BlockMCP.mk (XR.fin α) (XR.fin γ)) (emat W) (emat g) (idx ws) = .ok (vec d, m) ∧
      ∀ i, IsDist (-g i) (frechetSubdiff (fun z : Euc T => mcp α γ z) (W (ws i))) (d i) ↔
        W (ws i) = 0 ∨ α * γ ≤ ‖W (ws i)‖ ∨
          ‖(α / ‖W (ws i)‖ - 1 / γ) • W (ws i)‖ = ‖g i + (α / ‖W (ws i)‖ - 1 / γ) • W (ws i)‖ := by
  refine ⟨_, _, blockMcp_scores_eq α γ hγ W g ws, fun i => ?_⟩
  show IsDist _ (frechetSubdiff (mcp α γ : Euc T → ℝ) _) _ ↔ _
  unfold blockMcpScore
  by_cases h0 : W (ws i) = 0
  · rw [if_pos h0, h0, frechet_mcp_zero hα hγ]
    exact ⟨fun _ => .inl rfl, fun _ => isDist_ball hα (g i)⟩
  rw [if_neg h0]
  by_cases h : ‖W (ws i)‖ < α * γ
  · rw [if_pos h, frechet_mcp_mid h0 (by rw [mul_comm]; exact h)]
    have h1 := isDist_singleton (g i) ((α / ‖W (ws i)‖ - 1 / γ) • W (ws i))
    constructor
    · intro h2
      exact .inr (.inr (h2.2.trans h1.2.symm))
    · rintro (h2 | h2 | h2)
      · exact absurd h2 h0
      · exact absurd h (not_lt.mpr h2)
      · rw [h2]; exact h1
  · rw [if_neg h, frechet_mcp_out hα hγ h0 (by rw [mul_comm]; exact not_lt.mp h)]
    refine ⟨fun _ => .inr (.inl (not_lt.mp h)), fun _ => ?_⟩
    have := isDist_singleton (g i) (0 : Euc T)
    rwa [add_zero] at this

/-- A row strictly between zero and `αγ` with zero gradient, where the score is right, as the last case says. -/
example (W : Euc 1) : ‖(1 / ‖W‖ - 1 / 3 : ℝ) • W‖ = ‖(0 : Euc 1) + (1 / ‖W‖ - 1 / 3 : ℝ) • W‖ := by rw [zero_add]

end Sglm
