import Verif.Proofs.SingleRun
import Verif.Proofs.Problem

/-!
# Designs with a single nonzero entry
-/

namespace Sglm
open Scalar Spec Classical
variable {n p : ℕ}

/-- The design whose entry at `(i0, j0)` is `s`. -/
noncomputable def soloX (s : ℝ) (i0 : Fin n) (j0 : Fin p) (i : Fin n) (j : Fin p) : ℝ := if i = i0 ∧ j = j0 then s else 0

/-- The targets whose entry at `i0` is `c`. -/
noncomputable def soloY (c : ℝ) (i0 : Fin n) (i : Fin n) : ℝ := if i = i0 then c else 0

theorem soloX_sum (s : ℝ) (i0 : Fin n) (j0 j : Fin p) (f : Fin n → ℝ) :
    ∑ i, soloX s i0 j0 i j * f i = if j = j0 then s * f i0 else 0 := by
  unfold soloX
  by_cases hj : j = j0
  · simp [hj]
  · simp [hj]

theorem soloX_fit (s : ℝ) (i0 : Fin n) (j0 : Fin p) (w : Fin p → ℝ) : fit (soloX s i0 j0) w = soloY (s * w j0) i0 := by
  funext i
  unfold fit soloX soloY
  by_cases hi : i = i0
  · simp [hi]
  · simp [hi]

theorem solo_steps (s : ℝ) (i0 : Fin n) (j0 j : Fin p) :
    stepsOf (.dense (soloX s i0 j0)) .quadratic j = if j = j0 then s ^ 2 / n else 0 := by
  show (∑ i, soloX s i0 j0 i j * soloX s i0 j0 i j) / (n : ℝ) = _
  rw [soloX_sum s i0 j0 j]
  split
  · next h => rw [h]; unfold soloX; rw [if_pos ⟨rfl, rfl⟩, pow_two]
  · rw [zero_div]

theorem solo_logSteps (s : ℝ) (i0 : Fin n) (j0 j : Fin p) :
    stepsOf (.dense (soloX s i0 j0)) .logistic j = if j = j0 then s ^ 2 / (4 * n) else 0 := by
  show (∑ i, soloX s i0 j0 i j * soloX s i0 j0 i j) / (4 * (n : ℝ)) = _
  rw [soloX_sum s i0 j0 j]
  split
  · next h => rw [h]; unfold soloX; rw [if_pos ⟨rfl, rfl⟩, pow_two]
  · rw [zero_div]

theorem solo_grad (s c : ℝ) (i0 : Fin n) (j0 j : Fin p) (pen : Pen) (w : Fin p → ℝ) :
    (prob1 (.dense (soloX s i0 j0)) (soloY c i0) .quadratic pen).G w j = if j = j0 then (s * (s * w j0) - s * c) / n else 0 := by
  show (∑ i, soloX s i0 j0 i j * fit (soloX s i0 j0) w i - ∑ i, soloX s i0 j0 i j * soloY c i0 i) / (n : ℝ) = _
  rw [soloX_sum, soloX_sum, soloX_fit]
  unfold soloY
  split <;> simp

theorem solo_logGrad (s c : ℝ) (i0 : Fin n) (j0 j : Fin p) (pen : Pen) (w : Fin p → ℝ) :
    (prob1 (.dense (soloX s i0 j0)) (soloY c i0) .logistic pen).G w j =
      if j = j0 then -(s * (c * sigm (-c * (s * w j0)))) / n else 0 := by
  show -(∑ i, soloX s i0 j0 i j * (soloY c i0 i * sigm (-soloY c i0 i * fit (soloX s i0 j0) w i))) / (n : ℝ) = _
  rw [soloX_sum, soloX_fit]
  unfold soloY
  split <;> simp

theorem solo_quadLoss (s c : ℝ) (i0 : Fin n) (j0 : Fin p) (w : Fin p → ℝ) :
    quadLoss (soloY c i0) (fit (soloX s i0 j0) w) = (s * w j0 - c) ^ 2 / (2 * n) := by
  rw [soloX_fit]
  unfold quadLoss soloY
  rw [Finset.sum_eq_single i0]
  · simp only [if_true]
    ring
  · intro i _ hi
    simp [hi]
  · simp

/-- The Lasso with one nonzero entry: zero if the score at zero is below the tolerance, otherwise the minimiser. -/
theorem solo_lasso {srt : Argsort XR} (hs : ArgsortSpec srt) (hn : 0 < n) {s c α τ : ℝ} (i0 : Fin n) (j0 : Fin p) (hs0 : 0 < s) (hα : 0 ≤ α)
    (hc : α < s * c / n) (cfg : Solver XR) (ht : cfg.tolerance = XR.fin τ) (hτ : 0 ≤ τ) (he : 0 < cfg.maxEpochs) (hw : 0 < cfg.wsStartSize)
    (hit : 0 < cfg.maxIterations) (hK : 0 < cfg.K) (hKw : cfg.K ≤ cfg.wsStartSize) (hKp : cfg.K ≤ p) :
    (s * c / n - α ≤ τ → solve1 srt cfg (.dense (soloX s i0 j0)) (soloY c i0) .quadratic (.l1 α) = .ok (vec fun _ : Fin p => (0 : ℝ))) ∧
    (τ < s * c / n - α → solve1 srt cfg (.dense (soloX s i0 j0)) (soloY c i0) .quadratic (.l1 α) =
      .ok (vec (Function.update (fun _ => 0) j0 ((s * c - n * α) / s ^ 2)))) := by
  have hn' : (0:ℝ) < n := by exact_mod_cast hn
  have hv : (Pen.l1 α).Valid := hα
  rw [solve1_eq hs hn _ _ _ _ hv]
  obtain ⟨R, hR⟩ : ∃ R, R = prob1 (.dense (soloX s i0 j0)) (soloY c i0) .quadratic (.l1 α) := ⟨_, rfl⟩
  rw [← hR]
  have hG : ∀ w j, R.G w j = if j = j0 then (s * (s * w j0) - s * c) / n else 0 := fun w j => by rw [hR, solo_grad]
  have hL : ∀ j, R.L j = if j = j0 then s ^ 2 / n else 0 := fun j => by rw [hR]; exact solo_steps s i0 j0 j
  have hsc : ∀ a g, R.sc a g = l1Score α a g := fun a g => by rw [hR]; rfl
  have hpx : ∀ a t, R.px a t = softR a (α * t) := fun a t => by rw [hR]; rfl
  have hF : ∀ w, R.F w = (s * w j0 - c) ^ 2 / (2 * n) + ∑ j, α * |w j| := fun w => by
    rw [hR, ← solo_quadLoss s c i0 j0 w]; rfl
  have hsc0 : R.sc 0 (R.G (fun _ => 0) j0) = s * c / n - α := by
    rw [hsc, hG, if_pos rfl]
    unfold l1Score
    rw [if_pos rfl, mul_zero, mul_zero, zero_sub, neg_div, abs_neg, abs_of_nonneg (by linarith), max_eq_right (by linarith)]
  have hscj : ∀ j, j ≠ j0 → R.sc 0 (R.G (fun _ => 0) j) = 0 := fun j hj => by
    rw [hsc, hG, if_neg hj]
    unfold l1Score
    rw [if_pos rfl, abs_zero, zero_sub, max_eq_left (by linarith)]
  constructor
  · intro hle
    have h4 := R.viol_le_of (w := fun _ => 0) (τ := τ) (Or.inl (by rw [hR]; rfl)) (fun j => by
      by_cases hj : j = j0
      · subst hj; rw [hsc0]; exact hle
      · rw [hscj j hj]; exact hτ)
    have h5 : R.run srt cfg = .ok (fun _ => 0, 0) :=
      Skel.outer_done _ _ _ (R.viol (fun _ => 0) (List.finRange p)).1 (R.viol (fun _ => 0) (List.finRange p)).2 rfl (by
        show (_ <=. cfg.tolerance) = true
        rw [ht]; exact h4)
    rw [h5]
    rfl
  · intro hlt
    have hLj : R.L j0 = s ^ 2 / n := by rw [hL, if_pos rfl]
    have hL0 : R.L j0 ≠ 0 := by rw [hLj]; positivity
    have hx : 0 < s * c - n * α := by
      have := (lt_div_iff₀ hn').mp hc
      linarith
    have hstep : ∀ w : Fin p → ℝ, (∀ j, j ≠ j0 → w j = 0) → R.step w j0 = Function.update (fun _ => 0) j0 ((s * c - n * α) / s ^ 2) := by
      intro w hw0
      unfold RProb.step
      rw [if_neg hL0, hpx, hG, if_pos rfl, hLj]
      have e1 : w j0 - (1 / (s ^ 2 / n)) • ((s * (s * w j0) - s * c) / n) = c / s := by
        rw [smul_eq_mul]; field_simp; ring
      have e2 : α * (1 / (s ^ 2 / n)) = n * α / s ^ 2 := by field_simp
      rw [e1, e2]
      have h3 : n * α / s ^ 2 < c / s := by
        rw [div_lt_div_iff₀ (by positivity) hs0]
        nlinarith
      have h4 : softR (c / s) (n * α / s ^ 2) = (s * c - n * α) / s ^ 2 := by
        unfold softR
        rw [if_pos h3]
        field_simp
      rw [h4]
      funext j
      by_cases hj : j = j0
      · subst hj; rw [Function.update_self, Function.update_self]
      · rw [Function.update_of_ne hj, Function.update_of_ne hj, hw0 j hj]
    obtain ⟨m, hm⟩ := RProb.run_min (R := R) hs cfg he hw hit hK (by show _ ≤ _ * 1; omega) (by show _ ≤ _ * 1; omega) j0
      (fun j hj => by rw [hL, if_neg hj])
      (fun j hj => by rw [hsc0, hscj j hj]; linarith)
      (hstep _ fun _ _ => rfl)
      (hstep _ fun j hj => by rw [Function.update_of_ne hj])
      (fun w => by
        rw [hF, hF]
        have e0 : ∑ j, α * |Function.update (fun _ => (0:ℝ)) j0 ((s * c - n * α) / s ^ 2) j| = α * ((s * c - n * α) / s ^ 2) := by
          rw [Finset.sum_eq_single j0]
          · rw [Function.update_self, abs_of_pos (by positivity)]
          · intro j _ hj; rw [Function.update_of_ne hj, abs_zero, mul_zero]
          · simp
        have e3 : α * w j0 ≤ ∑ j, α * |w j| :=
          (mul_le_mul_of_nonneg_left (le_abs_self _) hα).trans
            (Finset.single_le_sum (f := fun j => α * |w j|) (fun j _ => by positivity) (Finset.mem_univ j0))
        rw [e0, Function.update_self]
        refine le_trans ?_ (add_le_add_right e3 _)
        obtain ⟨x, hxe⟩ : ∃ x, x = (s * c - n * α) / s ^ 2 := ⟨_, rfl⟩
        rw [← hxe]
        have h6 : s ^ 2 * x = s * c - n * α := by rw [hxe]; field_simp
        have h7 : (s * w j0 - c) ^ 2 / (2 * n) + α * w j0 - ((s * x - c) ^ 2 / (2 * n) + α * x) = s ^ 2 * (w j0 - x) ^ 2 / (2 * n) := by
          field_simp
          linear_combination 2 * (w j0 - x) * h6
        have h8 : 0 ≤ s ^ 2 * (w j0 - x) ^ 2 / (2 * n) := by positivity
        linarith)
      (by rw [ht]; exact R.viol_gt j0 (by rw [hsc0]; exact hlt))
    rw [hm]
    rfl

/-- Logistic regression on one sample `3` with label `12` among thirty, with the MCP penalty: the first update is to `8`, and
the coefficient never comes back. -/
theorem solo_logistic {srt : Argsort XR} (hs : ArgsortSpec srt) (hn : (n : ℝ) = 30) (i0 : Fin n) (j0 : Fin p) (cfg : Solver XR) {τ : ℝ}
    (ht : cfg.tolerance = XR.fin τ) (hτ : τ < 1 / 10) (he : 0 < cfg.maxEpochs) (hw : 0 < cfg.wsStartSize)
    (hit : 0 < cfg.maxIterations) (hK : 1 < cfg.K) (hKw : cfg.K ≤ cfg.wsStartSize) (hKp : cfg.K ≤ p) :
    ∃ v : Fin p → ℝ, solve1 srt cfg (.dense (soloX 3 i0 j0)) (soloY 12 i0) .logistic (.mcp (1 / 2) 3) = .ok (vec v) ∧
      (∀ j, j ≠ j0 → v j = 0) ∧ 8 ≤ v j0 := by
  have hv : (Pen.mcp (1 / 2) 3).Valid := ⟨by norm_num, by norm_num⟩
  have hn0 : 0 < n := by
    rcases Nat.eq_zero_or_pos n with h | h
    · subst h; norm_num at hn
    · exact h
  rw [solve1_eq hs hn0 _ _ _ _ hv]
  obtain ⟨R, hR⟩ : ∃ R, R = prob1 (.dense (soloX 3 i0 j0)) (soloY 12 i0) .logistic (.mcp (1 / 2) 3) := ⟨_, rfl⟩
  rw [← hR]
  have hG : ∀ w j, R.G w j = if j = j0 then -(6 / 5) * sigm (-12 * (3 * w j0)) else 0 := fun w j => by
    rw [hR, solo_logGrad, hn]
    split
    · ring
    · rfl
  have hL : ∀ j, R.L j = if j = j0 then 3 / 40 else 0 := fun j => by
    rw [hR]
    refine (solo_logSteps 3 i0 j0 j).trans ?_
    rw [hn]
    norm_num
  have hsc : ∀ a g, R.sc a g = mcpScore (1 / 2) 3 a g := fun a g => by rw [hR]; rfl
  have hpx : ∀ a t, R.px a t = mcpProxR (1 / 2) 3 a t := fun a t => by rw [hR]; rfl
  have hsig0 : sigm 0 = 1 / 2 := by unfold sigm; norm_num
  have hsc0 : R.sc 0 (R.G (fun _ => 0) j0) = 1 / 10 := by
    rw [hsc, hG, if_pos rfl, mul_zero, mul_zero, hsig0]
    unfold mcpScore
    norm_num
  have hscj : ∀ j, j ≠ j0 → R.sc 0 (R.G (fun _ => 0) j) = 0 := fun j hj => by
    rw [hsc, hG, if_neg hj]
    unfold mcpScore
    norm_num
  have hL0 : R.L j0 ≠ 0 := by rw [hL, if_pos rfl]; norm_num
  have hprox : ∀ v : ℝ, 8 ≤ v → mcpProxR (1 / 2) 3 v (1 / (3 / 40)) = v := by
    intro v hv
    have h1 : |v| = v := abs_of_pos (by linarith)
    unfold mcpProxR
    rw [if_neg (by rw [h1]; linarith), if_pos (by rw [h1]; linarith)]
  have hstep : ∀ w : Fin p → ℝ, (∀ j, j ≠ j0 → w j = 0) → 8 ≤ w j0 + 16 * sigm (-12 * (3 * w j0)) →
      R.step w j0 = Function.update (fun _ => 0) j0 (w j0 + 16 * sigm (-12 * (3 * w j0))) := by
    intro w hw0 h8
    unfold RProb.step
    rw [if_neg hL0, hpx, hG, if_pos rfl, hL, if_pos rfl]
    have e1 : w j0 - (1 / (3 / 40 : ℝ)) • (-(6 / 5) * sigm (-12 * (3 * w j0))) = w j0 + 16 * sigm (-12 * (3 * w j0)) := by
      rw [smul_eq_mul]; ring
    rw [e1, hprox _ h8]
    funext j
    by_cases hj : j = j0
    · subst hj; rw [Function.update_self, Function.update_self]
    · rw [Function.update_of_ne hj, Function.update_of_ne hj, hw0 j hj]
  obtain ⟨q, hq, hI⟩ := RProb.run_solo (R := R) hs cfg he hw hit j0 (fun j hj => by rw [hL, if_neg hj])
    (fun j hj => by rw [hsc0, hscj j hj]; norm_num) (fun w => (∀ j, j ≠ j0 → w j = 0) ∧ 8 ≤ w j0)
    (by
      rw [hstep _ (fun _ _ => rfl) (by rw [mul_zero, mul_zero, hsig0]; norm_num)]
      refine ⟨fun j hj => Function.update_of_ne hj _ _, ?_⟩
      rw [Function.update_self, mul_zero, mul_zero, hsig0]
      norm_num)
    (fun w hw => by
      have h9 : 0 ≤ sigm (-12 * (3 * w j0)) := by unfold sigm; positivity
      rw [hstep w hw.1 (by linarith [hw.2])]
      refine ⟨fun j hj => Function.update_of_ne hj _ _, ?_⟩
      rw [Function.update_self]
      linarith [hw.2])
    (fun l b => ∀ k q, l[q]? ≠ some j0 → b k q = 0) (fun _ _ _ _ => rfl)
    (fun l e b w hn hl hI hb => by
      refine Tri.mono (RProb.accel_idle cfg l e b w hK ?_ hn j0 hI.1 hb) fun q h => ⟨h.1, h.2 ▸ hI⟩
      refine le_trans ?_ hl
      unfold ws0CD
      exact le_min hKw hKp)
    (by rw [ht]; exact R.viol_gt j0 (by rw [hsc0]; exact hτ))
  exact ⟨q.1, by rw [hq]; rfl, hI⟩

/-- Such coefficients are worse than zero. -/
theorem solo_logistic_worse (hn : (n : ℝ) = 30) (i0 : Fin n) (j0 : Fin p) {v : Fin p → ℝ} (h0 : ∀ j, j ≠ j0 → v j = 0) (h8 : 8 ≤ v j0) :
    objective1 (.dense (soloX 3 i0 j0)) (soloY 12 i0) .logistic (.mcp (1 / 2) 3) (fun _ => 0) <
      objective1 (.dense (soloX 3 i0 j0)) (soloY 12 i0) .logistic (.mcp (1 / 2) 3) v := by
  have hl : ∀ w : Fin p → ℝ, logLoss (soloY 12 i0) (fit (soloX 3 i0 j0) w) =
      (Real.log (1 + Real.exp (-(12 * (3 * w j0)))) + 29 * Real.log 2) / 30 := by
    intro w
    rw [soloX_fit]
    unfold logLoss
    rw [hn, ← Finset.add_sum_erase _ _ (Finset.mem_univ i0)]
    have h1 : ∀ i ∈ Finset.univ.erase i0, Real.log (1 + Real.exp (-(soloY 12 i0 i * soloY (3 * w j0) i0 i))) = Real.log 2 := by
      intro i hi
      have : soloY 12 i0 i = 0 := if_neg (Finset.ne_of_mem_erase hi)
      rw [this, zero_mul, neg_zero, Real.exp_zero]
      norm_num
    rw [Finset.sum_congr rfl h1, Finset.sum_const, Finset.card_erase_of_mem (Finset.mem_univ i0), Finset.card_univ, Fintype.card_fin,
      nsmul_eq_mul, Nat.cast_sub (by have := i0.2; omega), hn]
    unfold soloY
    rw [if_pos rfl, if_pos rfl]
    norm_num
  have hp : ∑ j, (Pen.mcp (1 / 2) 3).fn (v j) = 3 / 8 := by
    rw [Finset.sum_eq_single j0]
    · show (if ‖v j0‖ ≤ 3 * (1 / 2) then _ else _) = _
      rw [Real.norm_eq_abs, abs_of_pos (by linarith), if_neg (by linarith)]
      norm_num
    · intro j _ hj
      rw [h0 j hj]
      show (if ‖(0:ℝ)‖ ≤ 3 * (1 / 2) then 1 / 2 * ‖(0:ℝ)‖ - ‖(0:ℝ)‖ ^ 2 / (2 * 3) else _) = _
      rw [norm_zero]
      norm_num
    · simp
  have hp0 : ∑ _j : Fin p, (Pen.mcp (1 / 2) 3).fn 0 = 0 := by
    apply Finset.sum_eq_zero
    intro j _
    show (if ‖(0:ℝ)‖ ≤ 3 * (1 / 2) then 1 / 2 * ‖(0:ℝ)‖ - ‖(0:ℝ)‖ ^ 2 / (2 * 3) else _) = _
    rw [norm_zero]
    norm_num
  unfold objective1
  rw [hp, hp0]
  show logLoss (soloY 12 i0) (fit (soloX 3 i0 j0) _) + 0 < logLoss (soloY 12 i0) (fit (soloX 3 i0 j0) _) + 3 / 8
  rw [hl, hl, mul_zero, mul_zero, neg_zero, Real.exp_zero]
  have h2 : 0 ≤ Real.log (1 + Real.exp (-(12 * (3 * v j0)))) := Real.log_nonneg (by linarith [Real.exp_pos (-(12 * (3 * v j0)))])
  have h3 : Real.log (1 + 1) ≤ 1 := (Real.log_le_sub_one_of_pos (by norm_num)).trans (by norm_num)
  generalize Real.log (1 + 1) = A at h3 ⊢
  generalize Real.log 2 = B
  generalize Real.log (1 + Real.exp (-(12 * (3 * v j0)))) = C at h2 ⊢
  linarith

end Sglm
