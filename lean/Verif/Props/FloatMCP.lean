import Verif.Proofs.FloatMCPRun
import Verif.Props.Rounding

/-!
# C92: fits with the MCP penalty in floating point
-/

set_option linter.unusedSectionVars false

namespace Sglm
open Scalar Spec
variable {n p : ℕ}

/-- Runs with the MCP penalty, without extrapolation, in any floating point arithmetic of sufficient precision: the call returns
finite coefficients whose objective is at most the one of zero coefficients, up to `ε`; if it returns before the iteration limit, the
coefficients are stationary up to the tolerance plus `ε`. -/
theorem C92_run (hn : 0 < n) (D : Design n p) (hD : D.Canonical) (y : Fin n → ℝ) (k : LossKind) (hy : k.LabelsOK y) (α γ : ℝ)
    (hα : 0 < α) (hγ : 0 < γ) (hgap : ∀ j, lipschitz D k j ≠ 0 → 1 < γ * lipschitz D k j) (N E : ℕ) (τ ε : ℝ) (hε : 0 < ε) :
    ∃ e₀ : ℝ, 0 < e₀ ∧ ∀ (F : Type) [Scalar F] [LawfulCmp F] (e : ℝ), FloatLaws k F e → e ≤ e₀ →
      ∀ (x : D.Entries F) (y' : Fin n → F) (a g : F), D.StoredAs e x → (∀ i, Stores e (y' i) (y i)) → Stores e a α → Stores e g γ →
      ∀ srt : Argsort F, ArgsortSpec srt → ∀ cfg : Solver F, cfg.useAcceleration = false → Stores e cfg.tolerance τ →
      cfg.maxIterations ≤ N → cfg.maxEpochs ≤ E →
      ∃ v m, RunsToMCP srt cfg D x y' k a g v m ∧ m ≤ cfg.maxIterations ∧
        objective1 D y k (.mcp α γ) v ≤ objective1 D y k (.mcp α γ) 0 + ε ∧
        (m < cfg.maxIterations → ApproxStationary D y k (frechetSubdiff (mcp α γ : ℝ → ℝ)) v (τ + ε)) := by
  obtain ⟨e₀, he₀, h⟩ := mcp_runs hn D hD y k hy α γ hα hγ hgap (2 * E * N) τ ε hε
  refine ⟨e₀, he₀, fun F _ _ e hl hee x y' a g hx hy' ha hg srt hs cfg hacc ht hN hE => ?_⟩
  obtain ⟨v, m, h1, h2, h3, h4⟩ := h F e hl hee x y' a g hx hy' ha hg srt hs cfg hacc ht
    (Nat.mul_le_mul (Nat.mul_le_mul_left 2 hE) hN)
  exact ⟨v, m, h1, h2, h3, fun hm j => ⟨_, _, loss_partial hn D.matrix y k v j, mcpScore_dist hα.le hγ _ _, h4 hm j⟩⟩

/-- **Runs with the MCP penalty in floating point stop**: for every tolerance `τ > 0` there is a bound on the number of iterations,
which does not depend on the format; with sufficient precision it is kept, and the result is `(τ + ε)`-stationary. -/
theorem C92_terminates (hn : 0 < n) (hp : 0 < p) (D : Design n p) (hD : D.Canonical) (y : Fin n → ℝ) (k : LossKind) (hy : k.LabelsOK y)
    (α γ : ℝ) (hα : 0 < α) (hγ : 0 < γ) (hgap : ∀ j, lipschitz D k j ≠ 0 → 1 < γ * lipschitz D k j) (τ : ℝ) (hτ : 0 < τ) :
    ∃ N : ℕ, ∀ (E : ℕ) (ε : ℝ), 0 < ε → ∃ e₀ : ℝ, 0 < e₀ ∧ ∀ (F : Type) [Scalar F] [LawfulCmp F] (e : ℝ), FloatLaws k F e → e ≤ e₀ →
      ∀ (x : D.Entries F) (y' : Fin n → F) (a g : F), D.StoredAs e x → (∀ i, Stores e (y' i) (y i)) → Stores e a α → Stores e g γ →
      ∀ srt : Argsort F, ArgsortSpec srt → ∀ cfg : Solver F, cfg.useAcceleration = false → Stores e cfg.tolerance τ →
      0 < cfg.wsStartSize → N ≤ cfg.maxIterations → 0 < cfg.maxEpochs → cfg.maxEpochs ≤ E →
      ∃ v m, RunsToMCP srt cfg D x y' k a g v m ∧ m ≤ N ∧
        objective1 D y k (.mcp α γ) v ≤ objective1 D y k (.mcp α γ) 0 + ε ∧
        ApproxStationary D y k (frechetSubdiff (mcp α γ : ℝ → ℝ)) v (τ + ε) := by
  obtain ⟨N, h⟩ := mcp_stops hn hp D hD y k hy α γ hα hγ hgap τ hτ
  refine ⟨N, fun E ε hε => ?_⟩
  obtain ⟨e₀, he₀, h⟩ := h E ε hε
  refine ⟨e₀, he₀, fun F _ _ e hl hee x y' a g hx hy' ha hg srt hs cfg hacc ht hw hN hE hE2 => ?_⟩
  obtain ⟨v, m, h1, h2, h3, h4⟩ := h F e hl hee x y' a g hx hy' ha hg srt hs cfg hacc ht hw hN hE hE2
  exact ⟨v, m, h1, h2, h3, fun j => ⟨_, _, loss_partial hn D.matrix y k v j, mcpScore_dist hα.le hγ _ _, h4 j⟩⟩

theorem RunsToMCP.fit {F : Type} [Scalar F] [LawfulCmp F] {srt : Argsort F} {ps : MCParams F} {D : Design n p} {x : D.Entries F}
    {y : Fin n → F} {v : Fin p → ℝ} {m : ℕ} (hok : ps.checkRef = .ok ps) (h : RunsToMCP srt ps.solver D x y .quadratic ps.alpha ps.gamma v m) :
    ∃ w : Fin p → F, (∀ j, Den (w j) (v j)) ∧ fitMCPOf srt ps D x y = .ok (.ok (List.ofFn w)) := by
  obtain ⟨w, h1, h2, -⟩ := h
  refine ⟨w, h1, ?_⟩
  cases D <;>
  · unfold fitMCPOf MCPEstimator.fit guardedFit
    simp only [hok]
    unfold MCPEstimator.fitValid
    rw [fitCD_eq]
    exact congrArg (fun z => Except.ok <$> z) h2

/-- `MCParams::fit` in floating point, without extrapolation, for settings which pass the validation. -/
theorem C92_fit (hn : 0 < n) (D : Design n p) (hD : D.Canonical) (y : Fin n → ℝ) (α γ : ℝ)
    (hα : 0 < α) (hγ : 0 < γ) (hgap : ∀ j, lipschitz D .quadratic j ≠ 0 → 1 < γ * lipschitz D .quadratic j) (N E : ℕ) (τ ε : ℝ) (hε : 0 < ε) :
    ∃ e₀ : ℝ, 0 < e₀ ∧ ∀ (F : Type) [Scalar F] [LawfulCmp F] (e : ℝ), FloatLaws .quadratic F e → e ≤ e₀ →
      ∀ (x : D.Entries F) (y' : Fin n → F), D.StoredAs e x → (∀ i, Stores e (y' i) (y i)) →
      ∀ srt : Argsort F, ArgsortSpec srt → ∀ ps : MCParams F, ps.checkRef = .ok ps → Stores e ps.alpha α → Stores e ps.gamma γ →
      ps.useAcceleration = false → Stores e ps.tolerance τ → ps.maxIterations ≤ N → ps.maxEpochs ≤ E →
      ∃ (w : Fin p → F) (v : Fin p → ℝ), (∀ j, Den (w j) (v j)) ∧ fitMCPOf srt ps D x y' = .ok (.ok (List.ofFn w)) ∧
        objective1 D y .quadratic (.mcp α γ) v ≤ objective1 D y .quadratic (.mcp α γ) 0 + ε := by
  obtain ⟨e₀, he₀, h⟩ := C92_run hn D hD y .quadratic trivial α γ hα hγ hgap N E τ ε hε
  refine ⟨e₀, he₀, fun F _ _ e hl hee x y' hx hy' srt hs ps hok ha hg hacc ht hN hE => ?_⟩
  obtain ⟨v, m, h1, -, h3, -⟩ := h F e hl hee x y' ps.alpha ps.gamma hx hy' ha hg srt hs ps.solver hacc ht hN hE
  obtain ⟨w, h5, h6⟩ := RunsToMCP.fit hok h1
  exact ⟨w, v, h5, h6, h3⟩

/-! ## Examples -/

theorem cvD_lip_quad (j : Fin 2) : lipschitz cvD .quadratic j = ![5, 5 / 2] j := by
  fin_cases j <;> norm_num [lipschitz, cvD, Design.matrix, Fin.sum_univ_two]

-- logistic regression, at most 50 iterations of 10 epochs
example : ∃ t : ℕ, ∃ v m, RunsToMCP argsortIns ⟨10, 50, 10, Fl.of t (1 / 100), 5, false, false⟩ cvD (cvX t)
      (fun i => Fl.of t (![1, -1] i)) .logistic (Fl.of t (1 / 10)) (Fl.of t 9) v m ∧
    objective1 cvD ![1, -1] .logistic (.mcp (1 / 10) 9) v ≤ objective1 cvD ![1, -1] .logistic (.mcp (1 / 10) 9) 0 + 1 / 1000 ∧
    (m < 50 → ApproxStationary cvD ![1, -1] .logistic (frechetSubdiff (mcp (1 / 10) 9 : ℝ → ℝ)) v (1 / 100 + 1 / 1000)) := by
  obtain ⟨e₀, he₀, h⟩ := C92_run two_pos cvD trivial ![1, -1] .logistic (by intro i; fin_cases i <;> simp) (1 / 10) 9
    (by norm_num) (by norm_num) (fun j _ => by
      have : lipschitz cvD .logistic j = ![5 / 4, 5 / 8] j := by
        fin_cases j <;> norm_num [lipschitz, cvD, Design.matrix, Fin.sum_univ_two]
      rw [this]; fin_cases j <;> norm_num) 50 10 (1 / 100) (1 / 1000) (by norm_num)
  obtain ⟨t, ht⟩ := bin_exists he₀
  obtain ⟨v, m, h1, -, h2, h3⟩ := h _ _ (bin_laws t .logistic) ht (cvX t) (fun i => Fl.of t (![1, -1] i)) (Fl.of t (1 / 10)) (Fl.of t 9)
    (cvX_stored t) (fun i => bin_stores t _) (bin_stores t _) (bin_stores t _) argsortIns (argsortFl t)
    ⟨10, 50, 10, Fl.of t (1 / 100), 5, false, false⟩ rfl (bin_stores t _) le_rfl le_rfl
  exact ⟨t, v, m, h1, h2, h3⟩

-- least squares, to the tolerance `1 / 100`
example : ∃ N t : ℕ, ∃ v m, RunsToMCP argsortIns ⟨10, N, 10, Fl.of t (1 / 100), 5, false, false⟩ cvD (cvX t)
      (fun i => Fl.of t (![1, -2] i)) .quadratic (Fl.of t (1 / 10)) (Fl.of t 3) v m ∧
    ApproxStationary cvD ![1, -2] .quadratic (frechetSubdiff (mcp (1 / 10) 3 : ℝ → ℝ)) v (1 / 100 + 1 / 1000) := by
  obtain ⟨N, h⟩ := C92_terminates two_pos two_pos cvD trivial ![1, -2] .quadratic trivial (1 / 10) 3
    (by norm_num) (by norm_num) (fun j _ => by rw [cvD_lip_quad]; fin_cases j <;> norm_num) (1 / 100) (by norm_num)
  obtain ⟨e₀, he₀, h⟩ := h 10 (1 / 1000) (by norm_num)
  obtain ⟨t, ht⟩ := bin_exists he₀
  obtain ⟨v, m, h1, -, -, h3⟩ := h _ _ (bin_laws t .quadratic) ht (cvX t) (fun i => Fl.of t (![1, -2] i)) (Fl.of t (1 / 10)) (Fl.of t 3)
    (cvX_stored t) (fun i => bin_stores t _) (bin_stores t _) (bin_stores t _) argsortIns (argsortFl t)
    ⟨10, N, 10, Fl.of t (1 / 100), 5, false, false⟩ rfl (bin_stores t _) (by norm_num) le_rfl (by norm_num) le_rfl
  exact ⟨N, t, v, m, h1, h3⟩

-- the estimator
example : ∃ (t : ℕ) (w : Fin 2 → Fl (bin t)) (v : Fin 2 → ℝ), (∀ j, Den (w j) (v j)) ∧
    fitMCPOf argsortIns ⟨Fl.of t (1 / 10), Fl.of t 3, 50, 100, 10, Fl.of t (1 / 100), 5, false, true⟩ cvD (cvX t) (fun i => Fl.of t (![1, -2] i)) =
      .ok (.ok (List.ofFn w)) ∧
    objective1 cvD ![1, -2] .quadratic (.mcp (1 / 10) 3) v ≤ objective1 cvD ![1, -2] .quadratic (.mcp (1 / 10) 3) 0 + 1 / 1000 := by
  obtain ⟨e₀, he₀, h⟩ := C92_fit two_pos cvD trivial ![1, -2] (1 / 10) 3 (by norm_num) (by norm_num)
    (fun j _ => by rw [cvD_lip_quad]; fin_cases j <;> norm_num) 50 100 (1 / 100) (1 / 1000) (by norm_num)
  obtain ⟨t, ht'⟩ := bin_exists (lt_min he₀ (by norm_num : (0 : ℝ) < 1 / 4))
  have ht := ht'.trans (min_le_left _ _)
  have ht4 := ht'.trans (min_le_right _ _)
  have hg : (Fl.of t 3 <. one) = false := by
    obtain ⟨r, h1, h2⟩ := (bin_stores t 3).near
    rw [Bool.eq_false_iff]
    intro hc
    have h3 := (den_lt h1 (bin_laws t .quadratic).precise.one).mp hc
    have h4 := abs_le.mp h2
    norm_num at h4
    norm_num at ht4
    linarith
  obtain ⟨w, v, h1, h2, h3⟩ := h _ _ (bin_laws t .quadratic) ht (cvX t) (fun i => Fl.of t (![1, -2] i)) (cvX_stored t)
    (fun i => bin_stores t _) argsortIns (argsortFl t) ⟨Fl.of t (1 / 10), Fl.of t 3, 50, 100, 10, Fl.of t (1 / 100), 5, false, true⟩ (by
      unfold MCParams.checkRef checkTail
      dsimp only
      rw [signBit_of (by norm_num), signBit_of (by norm_num), hg]
      rfl)
    (bin_stores t _) (bin_stores t _) rfl (bin_stores t _) le_rfl le_rfl
  exact ⟨t, w, v, h1, h2, h3⟩

end Sglm
