import Verif.Proofs.SmallRun
import Verif.Props.Concave
import Verif.Props.Misc

/-!
# C95: which minima fits with the MCP penalty find
-/

namespace Sglm
open Scalar Spec
variable {n p T : ℕ}

/-- The property, known from convex penalties (C30): a fit which stops is a global minimum, up to the tolerance. -/
def C95_full : Prop := ∀ (n p : ℕ) (D : Design n p) (y : Fin n → ℝ) (α γ τ : ℝ), 0 < n → 0 < α → 1 ≤ γ →
  (∀ j, 1 < γ * lipschitz D .quadratic j) → 0 ≤ τ → ∀ (srt : Argsort XR), ArgsortSpec srt → ∀ (cfg : Solver XR),
  cfg.tolerance = XR.fin τ → ∀ v : Fin p → ℝ, Stops srt cfg D y .quadratic (.mcp α γ) v → ∀ u : Fin p → ℝ,
  objective1 D y .quadratic (.mcp α γ) v - objective1 D y .quadratic (.mcp α γ) u ≤ τ * ∑ j, |v j - u j|

/-- What is true: the coefficients are better than all others which differ from them in directions in which the loss is curved
enough, by at least `1/γ`. -/
theorem C95_directions_partial {srt : Argsort XR} (hs : ArgsortSpec srt) (hn : 0 < n) (D : Design n p) (y : Fin n → ℝ) (α γ : ℝ)
    (hα : 0 ≤ α) (hγ : 0 < γ) (cfg : Solver XR) (τ : ℝ) (ht : cfg.tolerance = XR.fin τ) (v : Fin p → ℝ)
    (h : Stops srt cfg D y .quadratic (.mcp α γ) v) (u : Fin p → ℝ)
    (hu : (∑ j, (v j - u j) ^ 2) / γ ≤ (∑ i, fit D.matrix (fun j => v j - u j) i ^ 2) / n) :
    objective1 D y .quadratic (.mcp α γ) v - objective1 D y .quadratic (.mcp α γ) u ≤ τ * ∑ j, |v j - u j| := by
  have h1 := lsq_weak_gap hn D.matrix y (m := 1 / γ) (by positivity) (mcp_weak hα hγ) (v := v) (τ := τ) (fun j => by
    rw [grd_real, neg_neg]; exact stationary_corr hn (stops_stationary hs hn hα hγ ht h) j) u
  rw [lsq_real, lsq_real, sum_norm_sq, sqFit_real] at h1
  have e : (∑ i, fit D.matrix (fun j => v j - u j) i ^ 2) / (2 * n) = (∑ i, fit D.matrix (fun j => v j - u j) i ^ 2) / n / 2 := by
    rw [div_div, mul_comm (n : ℝ) 2]
  have e2 : 1 / γ / 2 * ∑ j, (v j - u j) ^ 2 = (∑ j, (v j - u j) ^ 2) / γ / 2 := by ring
  simp only [← fit_sub] at h1
  rw [e, e2] at h1
  have h3 : quadLoss y (fit D.matrix v) + ∑ j, mcp α γ (v j) - (quadLoss y (fit D.matrix u) + ∑ j, mcp α γ (u j)) ≤
      τ * ∑ j, ‖v j - u j‖ := by linarith
  exact h3

/-- In particular no single coefficient can be improved by more than the tolerance times its change. -/
theorem C95_coordinates {srt : Argsort XR} (hs : ArgsortSpec srt) (hn : 0 < n) (D : Design n p) (y : Fin n → ℝ)
    (α γ : ℝ) (hα : 0 ≤ α) (hγ : 0 < γ) (cfg : Solver XR) (τ : ℝ) (hτ : 0 ≤ τ) (ht : cfg.tolerance = XR.fin τ) (v : Fin p → ℝ)
    (h : Stops srt cfg D y .quadratic (.mcp α γ) v) (j : Fin p)
    (hj : lipschitz D .quadratic j ≠ 0 → 1 ≤ γ * lipschitz D .quadratic j) (z : ℝ) :
    objective1 D y .quadratic (.mcp α γ) v ≤ objective1 D y .quadratic (.mcp α γ) (Function.update v j z) + τ * |v j - z| := by
  have hs1 : ∑ k, |v k - Function.update v j z k| = |v j - z| := by
    rw [Finset.sum_eq_single j]
    · rw [Function.update_self]
    · intro k _ hk; rw [Function.update_of_ne hk, sub_self, abs_zero]
    · intro h; exact absurd (Finset.mem_univ _) h
  have hs2 : ∑ k, (v k - Function.update v j z k) ^ 2 = (v j - z) ^ 2 := by
    rw [Finset.sum_eq_single j]
    · rw [Function.update_self]
    · intro k _ hk; rw [Function.update_of_ne hk, sub_self]; ring
    · intro h; exact absurd (Finset.mem_univ _) h
  have hf : ∀ i, fit D.matrix (fun k => v k - Function.update v j z k) i = D.matrix i j * (v j - z) := by
    intro i
    show ∑ k, D.matrix i k * (v k - Function.update v j z k) = _
    rw [Finset.sum_eq_single j]
    · rw [Function.update_self]
    · intro k _ hk; rw [Function.update_of_ne hk, sub_self, mul_zero]
    · intro h; exact absurd (Finset.mem_univ _) h
  have hL : lipschitz D .quadratic j = (∑ i, D.matrix i j ^ 2) / n := rfl
  by_cases h0 : lipschitz D .quadratic j = 0
  · have hn' : (0 : ℝ) < n := by exact_mod_cast hn
    have hcol : ∀ i, D.matrix i j = 0 := by
      rw [hL, div_eq_zero_iff] at h0
      rcases h0 with h0 | h0
      · rw [Finset.sum_eq_zero_iff_of_nonneg fun i _ => sq_nonneg _] at h0
        exact fun i => pow_eq_zero_iff two_ne_zero |>.mp (h0 i (Finset.mem_univ i))
      · exact absurd h0 hn'.ne'
    have hvj : v j = 0 := C44_zero_column hs hn D y .quadratic (.mcp α γ) ⟨hα, hγ⟩ cfg j hcol v h.1
    have hfit : fit D.matrix (Function.update v j z) = fit D.matrix v := by
      funext i
      have := hf i
      rw [hcol i, zero_mul, fit_sub] at this
      linarith
    have hp : ∑ k, mcp α γ (v k) ≤ ∑ k, mcp α γ (Function.update v j z k) := by
      refine Finset.sum_le_sum fun k _ => ?_
      by_cases hk : k = j
      · subst hk
        rw [hvj, Function.update_self]
        have e0 : mcp α γ (0 : ℝ) = 0 := by
          unfold mcp
          rw [norm_zero, if_pos (by positivity)]
          simp
        rw [e0]
        exact mcp_nonneg hγ _
      · rw [Function.update_of_ne hk]
    have : objective1 D y .quadratic (.mcp α γ) v ≤ objective1 D y .quadratic (.mcp α γ) (Function.update v j z) := by
      show quadLoss y (fit D.matrix v) + ∑ k, mcp α γ (v k) ≤ quadLoss y (fit D.matrix _) + ∑ k, mcp α γ (Function.update v j z k)
      rw [hfit]
      linarith
    have := mul_nonneg hτ (abs_nonneg (v j - z))
    linarith
  · have h1 := C95_directions_partial hs hn D y α γ hα hγ cfg τ ht v h (Function.update v j z) (by
      simp only [hs2, hf, mul_pow]
      rw [← Finset.sum_mul, mul_div_right_comm, ← hL, div_le_iff₀ hγ]
      nlinarith [hj h0, sq_nonneg (v j - z)])
    rw [hs1] at h1
    linarith

/-! ## A trap

Two orthogonal features and their sum.  The sum is selected first and explains the targets so well that neither of the two
features is added to it, but both together, without the sum, would be better. -/

/-- Features `e1`, `e2` and `e1 + e2`. -/
def trapD : Design 2 3 := .dense ![![1, 0, 1], ![0, 1, 1]]

/-- Targets. -/
noncomputable def trapY : Fin 2 → ℝ := ![79 / 10, 41 / 10]

theorem trap_grad (w : Fin 3 → ℝ) : (prob1 trapD trapY .quadratic (.mcp 1 3)).G w =
    ![(w 0 + w 2 - 79 / 10) / 2, (w 1 + w 2 - 41 / 10) / 2, (w 0 + w 1 + 2 * w 2 - 12) / 2] := by
  funext j
  show (∑ i : Fin 2, trapD.matrix i j * (∑ k : Fin 3, trapD.matrix i k * w k) - ∑ i : Fin 2, trapD.matrix i j * trapY i) /
    ((2 : ℕ) : ℝ) = _
  fin_cases j <;> (simp [trapD, trapY, Design.matrix, Fin.sum_univ_two, Fin.sum_univ_three]; try ring)

theorem trap_L : (prob1 trapD trapY .quadratic (.mcp 1 3)).L = ![1 / 2, 1 / 2, 1] := by
  funext j
  show (∑ i : Fin 2, trapD.matrix i j * trapD.matrix i j) / ((2 : ℕ) : ℝ) = _
  fin_cases j <;> norm_num [trapD, Design.matrix, Fin.sum_univ_two]

/-- The solver, with whatever working sets, numbers of epochs and ways to break ties, stops after one iteration... -/
theorem C95_trapped {srt : Argsort XR} (hs : ArgsortSpec srt) (cfg : Solver XR) (hu : cfg.useAcceleration = false)
    (he : 0 < cfg.maxEpochs) (hw : 0 < cfg.wsStartSize) (hit : 1 < cfg.maxIterations) (τ : ℝ) (h0 : 0 ≤ τ) (h5 : τ < 5)
    (ht : cfg.tolerance = XR.fin τ) : Stops srt cfg trapD trapY .quadratic (.mcp 1 3) ![0, 0, 6] := by
  have hv : (Pen.mcp 1 3).Valid := ⟨zero_le_one, three_pos⟩
  have hsc : ∀ j, (prob1 trapD trapY .quadratic (.mcp 1 3)).sc 0 ((prob1 trapD trapY .quadratic (.mcp 1 3)).G (fun _ => 0) j) =
      (![59 / 20, 21 / 20, 5] : Fin 3 → ℝ) j := by
    intro j
    rw [trap_grad]
    show mcpScore 1 3 0 _ = _
    unfold mcpScore
    rw [if_pos rfl]
    fin_cases j <;> norm_num [abs_of_nonpos]
  have hrun : ∀ c : Solver XR, c.useAcceleration = false → 0 < c.maxEpochs → 0 < c.wsStartSize → 0 < c.maxIterations →
      c.tolerance = XR.fin τ → (prob1 trapD trapY .quadratic (.mcp 1 3)).run srt c = .ok (![0, 0, 6], 1) := by
    intro c a1 a2 a3 a4 a5
    refine RProb.run_first hs c a1 a2 a3 a4 2 (fun j hj => ?_) ?_ (fun j => ?_) ?_ ?_
    · rw [hsc, hsc]
      fin_cases j
      · show (59 / 20 : ℝ) < 5
        norm_num
      · show (21 / 20 : ℝ) < 5
        norm_num
      · exact absurd rfl hj
    · unfold RProb.step
      rw [trap_L, trap_grad, if_neg (by simp)]
      have e : (prob1 trapD trapY .quadratic (.mcp 1 3)).px 6 1 = 6 := by
        show mcpProxR 1 3 6 1 = 6
        unfold mcpProxR
        rw [if_neg (by norm_num), if_pos (by norm_num)]
      funext j
      fin_cases j
      · simp
      · simp
      · simp
        norm_num
        exact e
    · unfold RProb.step
      rw [trap_L, trap_grad]
      have e6 : (prob1 trapD trapY .quadratic (.mcp 1 3)).px 6 1 = 6 := by
        show mcpProxR 1 3 6 1 = 6
        unfold mcpProxR
        rw [if_neg (by norm_num), if_pos (by norm_num)]
      have e1 : (prob1 trapD trapY .quadratic (.mcp 1 3)).px (19 / 10) 2 = 0 := by
        show mcpProxR 1 3 _ _ = 0
        unfold mcpProxR
        rw [if_pos (by norm_num)]
      have e2 : (prob1 trapD trapY .quadratic (.mcp 1 3)).px (-(19 / 10)) 2 = 0 := by
        show mcpProxR 1 3 _ _ = 0
        unfold mcpProxR
        rw [if_pos (by norm_num)]
      fin_cases j
      · rw [if_neg (by simp)]
        refine (Function.update_eq_self_iff ..).mpr ?_
        simp
        norm_num
        exact e1
      · rw [if_neg (by simp)]
        refine (Function.update_eq_self_iff ..).mpr ?_
        simp
        norm_num
        exact e2
      · rw [if_neg (by simp)]
        refine (Function.update_eq_self_iff ..).mpr ?_
        simp
        norm_num
        exact e6
    · rw [a5]
      refine RProb.viol_gt _ 2 ?_
      rw [hsc]
      exact h5
    · rw [a5]
      refine RProb.viol_le_of _ (Or.inl rfl) fun j => ?_
      rw [trap_grad]
      show mcpScore 1 3 _ _ ≤ _
      refine le_trans (le_of_eq ?_) h0
      unfold mcpScore
      fin_cases j
      · simp; norm_num [abs_of_nonpos]
      · simp; norm_num [abs_of_nonneg]
      · simp; norm_num
  refine ⟨by rw [solve1_eq hs two_pos trapD trapY .quadratic (.mcp 1 3) hv, hrun cfg hu he hw (by omega) ht]; rfl, ?_⟩
  have hr := hrun (cfg.setVerbose true) hu he hw (Nat.lt_of_lt_of_le one_pos hit.le) ht
  have h2 := trace1_solve srt trapD trapY .quadratic (.mcp 1 3) (cfg.setVerbose true)
  rw [solve1_eq hs two_pos _ _ _ _ hv, hr] at h2
  cases h3 : trace1 srt (cfg.setVerbose true) trapD trapY .quadratic (.mcp 1 3) with
  | error e => rw [h3] at h2; cases h2
  | ok r =>
    obtain ⟨V, m, h4, -, h5⟩ := trace1_run hs two_pos trapD _ _ _ hv _ r.1 r.2 h3
    rw [hr] at h4
    injection h4 with h4
    injection h4 with _ h4
    exact ⟨r.1, r.2, rfl, by rw [h5 rfl, ← h4]; exact hit⟩

theorem trap_objective (w : Fin 3 → ℝ) : objective1 trapD trapY .quadratic (.mcp 1 3) w =
    ((79 / 10 - (w 0 + w 2)) ^ 2 + (41 / 10 - (w 1 + w 2)) ^ 2) / 4 + (mcp 1 3 (w 0) + mcp 1 3 (w 1) + mcp 1 3 (w 2)) := by
  show (∑ i : Fin 2, (trapY i - ∑ k : Fin 3, trapD.matrix i k * w k) ^ 2) / (2 * ((2 : ℕ) : ℝ)) + ∑ k : Fin 3, mcp 1 3 (w k) = _
  simp [trapD, trapY, Design.matrix, Fin.sum_univ_two, Fin.sum_univ_three]
  ring

theorem trap_mcp_large {x : ℝ} (h : 3 < |x|) : mcp 1 3 x = 3 / 2 := by
  unfold mcp
  rw [Real.norm_eq_abs, if_neg (by linarith)]
  norm_num

theorem trap_mcp_zero : mcp 1 3 (0 : ℝ) = 0 := by
  unfold mcp
  rw [norm_zero, if_pos (by norm_num)]
  norm_num

/-- ... at coefficients with a larger objective than those of the other two features. -/
theorem C95_worse : objective1 trapD trapY .quadratic (.mcp 1 3) ![0, 0, 6] = 3305 / 1000 ∧
    objective1 trapD trapY .quadratic (.mcp 1 3) ![79 / 10, 41 / 10, 0] = 3 := by
  constructor
  · rw [trap_objective]
    show ((79 / 10 - (0 + 6)) ^ 2 + (41 / 10 - (0 + 6)) ^ 2) / 4 + (mcp 1 3 (0 : ℝ) + mcp 1 3 (0 : ℝ) + mcp 1 3 (6 : ℝ)) = _
    rw [trap_mcp_zero, trap_mcp_large (by norm_num)]
    norm_num
  · rw [trap_objective]
    show ((79 / 10 - (79 / 10 + 0)) ^ 2 + (41 / 10 - (41 / 10 + 0)) ^ 2) / 4 +
      (mcp 1 3 (79 / 10 : ℝ) + mcp 1 3 (41 / 10 : ℝ) + mcp 1 3 (0 : ℝ)) = _
    rw [trap_mcp_zero, trap_mcp_large (by norm_num), trap_mcp_large (by norm_num)]
    norm_num

theorem trap_lip : lipschitz trapD .quadratic = ![1 / 2, 1 / 2, 1] := by
  funext j
  show (∑ i : Fin 2, trapD.matrix i j ^ 2) / ((2 : ℕ) : ℝ) = _
  fin_cases j <;> norm_num [trapD, Design.matrix, Fin.sum_univ_two]

/-- The same through the estimator: `MCPEstimator` with `gamma = 3` and `alpha = 1` returns these coefficients. -/
theorem C95_estimator {srt : Argsort XR} (hs : ArgsortSpec srt) (ps q : MCParams XR) (hc : ps.checkRef = .ok q)
    (ha : ps.alpha = XR.fin 1) (hg : ps.gamma = XR.fin 3) (hu : ps.useAcceleration = false) (he : 0 < ps.maxEpochs)
    (hw : 0 < ps.wsStartSize) (hit : 1 < ps.maxIterations) (τ : ℝ) (h0 : 0 ≤ τ) (h5 : τ < 5) (ht : ps.tolerance = XR.fin τ) :
    fitMCP srt ps trapD trapY = .ok (.ok (vec ![0, 0, 6])) := by
  rw [fitMCP_eq srt ps 1 3 ha hg, hc, (C95_trapped hs ps.solver hu he hw hit τ h0 h5 ht).1]
  rfl

example : fitMCP argsortIns ⟨XR.fin 1, XR.fin 3, 50, 1000, 10, XR.fin 0, 5, false, true⟩ trapD trapY =
    .ok (.ok (vec ![0, 0, 6])) := by
  refine C95_estimator argsortIns_spec _ ⟨XR.fin 1, XR.fin 3, 50, 1000, 10, XR.fin 0, 5, false, true⟩ ?_ rfl rfl rfl (by norm_num)
    (by norm_num) (by norm_num) 0 le_rfl (by norm_num) rfl
  norm_num [MCParams.checkRef, checkTail, signBit, Scalar.lt, Scalar.one, XR.lt, XR.signBit]

/-- The property is false. -/
theorem C95_false : ¬ C95_full := by
  intro h
  have h1 := h 2 3 trapD trapY 1 3 0 two_pos one_pos (by norm_num) (fun j => by rw [trap_lip]; fin_cases j <;> norm_num) le_rfl
    argsortIns argsortIns_spec ⟨1, 50, 1000, XR.fin 0, 5, false, false⟩ rfl ![0, 0, 6]
    (C95_trapped argsortIns_spec _ rfl (by norm_num) (by norm_num) (by norm_num) 0 le_rfl (by norm_num) rfl) ![79 / 10, 41 / 10, 0]
  rw [C95_worse.1, C95_worse.2, zero_mul] at h1
  norm_num at h1

-- no single coefficient of the trapped fit can be improved
example (j : Fin 3) (z : ℝ) : objective1 trapD trapY .quadratic (.mcp 1 3) ![0, 0, 6] ≤
    objective1 trapD trapY .quadratic (.mcp 1 3) (Function.update ![0, 0, 6] j z) := by
  have h := C95_coordinates argsortIns_spec two_pos trapD trapY 1 3 zero_le_one three_pos ⟨1, 50, 1000, XR.fin 0, 5, false, false⟩ 0
    le_rfl rfl _ (C95_trapped argsortIns_spec _ rfl (by norm_num) (by norm_num) (by norm_num) 0 le_rfl (by norm_num) rfl) j
    (fun _ => by rw [trap_lip]; fin_cases j <;> norm_num) z
  rwa [zero_mul, add_zero] at h

-- nor can the first two together
example (a b : ℝ) : objective1 trapD trapY .quadratic (.mcp 1 3) ![0, 0, 6] ≤
    objective1 trapD trapY .quadratic (.mcp 1 3) ![a, b, 6] := by
  have h := C95_directions_partial argsortIns_spec two_pos trapD trapY 1 3 zero_le_one three_pos
    ⟨1, 50, 1000, XR.fin 0, 5, false, false⟩ 0 rfl _
    (C95_trapped argsortIns_spec _ rfl (by norm_num) (by norm_num) (by norm_num) 0 le_rfl (by norm_num) rfl) ![a, b, 6] (by
      simp [fit, trapD, Design.matrix, Fin.sum_univ_two, Fin.sum_univ_three]
      nlinarith [sq_nonneg a, sq_nonneg b])
  rw [zero_mul] at h
  linarith

end Sglm
