import Verif.Proofs.Linear
import Verif.Props.Iterates

/-!
# The first iteration
-/

namespace Sglm.RProb
open Scalar Spec
variable {E : Type} [NormedAddCommGroup E] [InnerProductSpace ℝ E] [Coord E] {p : ℕ} {R : RProb E p}

/-- Either the run stops at once because all scores at zero are small, or the objective decreases by a multiple of the squared distance
of every feature at zero. -/
theorem run_null {d : E → E → ℝ} {f : (Fin p → E) → ℝ} {φ : E → ℝ} {m b : ℝ} (H : (R.withScore d).Weak f φ m b)
    (hm0 : R.m0 = XR.ninf ∨ R.m0 = XR.fin 0) {μ Λ τ : ℝ} (hμ0 : 0 < μ) (hμ : ∀ j, R.L j ≠ 0 → μ + m ≤ R.L j) (hΛ0 : 0 < Λ)
    (hΛ : ∀ j, R.L j ≤ Λ) (hτ : 0 ≤ τ) {srt : Argsort XR} (hs : ArgsortSpec srt) (cfg : Solver XR) (ht : cfg.tolerance = XR.fin τ)
    (hw : 0 < cfg.wsStartSize) (hc : (∀ g g', R.sc 0 g ≤ R.sc 0 g' → d 0 g ≤ d 0 g') ∨ p ≤ cfg.wsStartSize)
    (hme : 0 < cfg.maxEpochs) (hmi : 0 < cfg.maxIterations) (v : Fin p → E) (k : ℕ) (hrun : R.run srt cfg = .ok (v, k)) :
    ((∀ j, R.sc 0 (R.G (fun _ => 0) j) ≤ τ) → v = fun _ => 0) ∧
    ((∃ j, τ < R.sc 0 (R.G (fun _ => 0) j)) →
      ∀ j, μ * d 0 (R.G (fun _ => 0) j) ^ 2 ≤ 2 * p * (2 * Λ + b) ^ 2 * (R.F (fun _ => 0) - R.F v)) := by
  have hb := H.hb
  have hrun : (R.skel srt cfg (ws0CD cfg p)).outer cfg.maxIterations (fun _ => 0) = .ok (v, k) := hrun
  refine ⟨fun hall => ?_, fun ⟨j₀, hj₀⟩ j => ?_⟩
  · have h4 := R.viol_le_of (w := fun _ => 0) (hm0.imp_right fun h => ⟨h, hτ⟩) (τ := τ) hall
    have h5 : (R.skel srt cfg (ws0CD cfg p)).outer cfg.maxIterations (fun _ => 0) = .ok (fun _ => 0, 0) :=
      Skel.outer_done _ _ _ (R.viol (fun _ => 0) (List.finRange p)).1 (R.viol (fun _ => 0) (List.finRange p)).2 rfl (by
        show (_ <=. cfg.tolerance) = true
        rw [ht]; exact h4)
    rw [h5] at hrun
    injection hrun with hrun
    injection hrun with hrun _
    exact hrun.symm
  · have hk : 0 < k := by
      rcases Nat.eq_zero_or_pos k with rfl | hk
      · exfalso
        have h1 := R.run_exit cfg (v := v) (k := 0) hrun hmi
        rw [Skel.outer_zero _ hrun, ht, R.viol_gt j₀ hj₀] at h1
        cases h1
      · exact hk
    have hp : (0 : ℝ) < p := by exact_mod_cast (lt_of_le_of_lt (Nat.zero_le _) j.2)
    obtain ⟨B, hBe⟩ : ∃ B, B = 2 * p * (2 * Λ + b) ^ 2 / μ := ⟨_, rfl⟩
    have hB0 : 0 < B := by rw [hBe]; positivity
    have dnn : ∀ x g, 0 ≤ d x g := fun x g => by
      have : d x g = _ := (H.score x g).2
      rw [this]; exact Metric.infDist_nonneg
    have dec : ∀ l : List (Fin p), l.Nodup → ∀ w : Fin p → E,
        R.F (l.foldl R.step w) ≤ R.F w - μ / 2 * ∑ j, ‖l.foldl R.step w j - w j‖ ^ 2 := fun l hl w => H.epoch_dec hμ l hl w
    have hE : ∀ l : List (Fin p), l.Nodup → ∀ w : Fin p → E, R.F (l.foldl R.step w) ≤ R.F w := fun l hl w => by
      have := dec l hl w
      have : 0 ≤ μ / 2 * ∑ j, ‖l.foldl R.step w j - w j‖ ^ 2 :=
        mul_nonneg (by positivity) (Finset.sum_nonneg fun i _ => by positivity)
      linarith
    have hiter : ∀ s t, Cvx.ZeroOK R s → (R.skel srt cfg (ws0CD cfg p)).Iter s t → Cvx.ZeroOK R t ∧ R.F t ≤ R.F s ∧
        (s = (fun _ => 0) → d 0 (R.G (fun _ => 0) j) ^ 2 ≤ B * (R.F s - R.F t)) := by
      intro s t hz hit
      obtain ⟨l, hl, h1, h2, h3, h4, h5, h6, -, h8⟩ := iter_spec_len hE hs cfg hw hme hz hit
      refine ⟨h3, h6, fun h0 => ?_⟩
      subst h0
      obtain ⟨i, hi, hi2⟩ : ∃ i ∈ l, d 0 (R.G (fun _ => 0) j) ≤ d 0 (R.G (fun _ => 0) i) := by
        by_cases hjl : j ∈ l
        · exact ⟨j, hjl, le_rfl⟩
        · obtain ⟨i, a1, a2, a3⟩ := h2 j hjl
          rcases hc with hc | hc
          · exact ⟨i, a1, hc _ _ a3⟩
          · exact absurd (h8 hc j) hjl
      have a3 : d 0 (R.G (fun _ => 0) i) ≤ (2 * Λ + b) * ∑ i, ‖l.foldl R.step (fun _ => 0) i - (fun _ => 0 : Fin p → E) i‖ :=
        H.score_before hΛ l hl (fun _ => 0) hi rfl
      have a4 := pow_le_pow_left₀ (dnn _ _) (hi2.trans a3) 2
      refine a4.trans ?_
      have b1 := dec l hl (fun _ => 0)
      have b2 := sum_sq_le (fun i => ‖l.foldl R.step (fun _ => 0) i - (fun _ => 0 : Fin p → E) i‖)
      obtain ⟨S, hSe⟩ : ∃ S, S = ∑ i, ‖l.foldl R.step (fun _ => 0) i - (fun _ => 0 : Fin p → E) i‖ := ⟨_, rfl⟩
      obtain ⟨Q, hQe⟩ : ∃ Q, Q = ∑ i, ‖l.foldl R.step (fun _ => 0) i - (fun _ => 0 : Fin p → E) i‖ ^ 2 := ⟨_, rfl⟩
      rw [← hSe] at b2 ⊢
      rw [← hQe] at b1 b2
      rw [hBe, div_mul_eq_mul_div, le_div_iff₀ hμ0]
      have b3 := mul_le_mul_of_nonneg_left b2 (by positivity : 0 ≤ μ * (2 * Λ + b) ^ 2)
      have b4 := mul_le_mul_of_nonneg_left (show μ / 2 * Q ≤ R.F (fun _ => 0) - R.F t by linarith)
        (by positivity : 0 ≤ 2 * p * (2 * Λ + b) ^ 2)
      nlinarith
    have : DecidablePred fun s : Fin p → E => s = fun _ => 0 := Classical.decPred _
    obtain ⟨-, -, c3⟩ := Skel.count_bad (R.skel srt cfg (ws0CD cfg p)) (Cvx.ZeroOK R) (fun s => s = fun _ => 0) R.F
      (d 0 (R.G (fun _ => 0) j) ^ 2 / B) (fun s t hz h => by
        obtain ⟨a1, a2, a3⟩ := hiter s t hz h
        refine ⟨a1, ?_⟩
        by_cases h0 : s = fun _ => 0
        · rw [if_pos h0]
          have := a3 h0
          rw [mul_comm, ← div_le_iff₀ hB0] at this
          linarith
        · rw [if_neg h0, sub_zero]; exact a2) (s := fun _ => 0) (fun _ _ => rfl) k v (Skel.outer_cut _ hrun)
    have hcard : (1 : ℝ) ≤ ((Finset.range k).filter fun m => (R.skel srt cfg (ws0CD cfg p)).point (fun _ => 0) m = fun _ => 0).card := by
      have : 0 < ((Finset.range k).filter fun m => (R.skel srt cfg (ws0CD cfg p)).point (fun _ => 0) m = fun _ => 0).card :=
        Finset.card_pos.mpr ⟨0, Finset.mem_filter.mpr ⟨Finset.mem_range.mpr hk, rfl⟩⟩
      exact_mod_cast this
    have c4 : d 0 (R.G (fun _ => 0) j) ^ 2 / B ≤ R.F (fun _ => 0) - R.F v := by
      have := mul_le_mul_of_nonneg_left hcard (by positivity : 0 ≤ d 0 (R.G (fun _ => 0) j) ^ 2 / B)
      linarith
    rw [div_le_iff₀ hB0, hBe, ← mul_div_assoc, le_div_iff₀ hμ0] at c4
    linarith

end Sglm.RProb
