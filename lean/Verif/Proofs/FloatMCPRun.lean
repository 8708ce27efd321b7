import Verif.Proofs.FloatMCPPen
import Verif.Proofs.FloatWeak
import Verif.Proofs.FloatLogCall
import Verif.Proofs.PertWeak
import Verif.Spec.FloatMCP

/-!
# Runs with the MCP penalty in floating point
-/

set_option linter.unusedSectionVars false

namespace Sglm
open Scalar Spec
variable {n p : ℕ}

/-! ## The penalty -/

/-- The penalty object in floating point, for given magnitudes. -/
theorem mcp_exists {α γ : ℝ} (hα : 0 < α) (hγ : 0 < γ) (L : Fin p → ℝ) (hL : ∀ j, 0 ≤ L j) (hgap : ∀ j, L j ≠ 0 → 1 < γ * L j)
    (B : ℝ) (hB : 1 ≤ B) : ∃ C : ℝ, 1 ≤ C ∧ ∀ {F : Type} [Scalar F] [LawfulCmp F] {e : ℝ}, Precise F e → C * e ≤ 1 →
      ∀ a g : F, Stores e a α → Stores e g γ →
      (∀ (v s : F) (V : ℝ) (j : Fin p) (c : ℝ), L j ≠ 0 → 1 ≤ c → C * c * e ≤ 1 → |V| ≤ B → Apx e v V c → Apx e s (1 / L j) c →
        Ok (Penalty.prox (MCP.mk a g) v s) (fun x => ∃ t, Den x t ∧ |t - mcpProxR α γ V (1 / L j)| ≤ C * c * e ∧
          ∃ s ∈ frechetSubdiff (mcp α γ : ℝ → ℝ) t, |L j * (V - t) - s| ≤ C * c * e)) ∧
      ∀ (w gr : F) (t G c : ℝ), 1 ≤ c → C * c * e ≤ 1 → |t| ≤ B → |G| ≤ B → Den w t → Apx e gr G c →
        Apx e ((MCP.mk a g).dist w gr) (mcpScore α γ t G) (C * c) := by
  classical
  obtain ⟨f, hf⟩ : ∃ f : Fin p → ℝ, f = fun j => if L j = 0 then 0 else L j + 1 / L j + 1 / (1 - 1 / (γ * L j)) := ⟨_, rfl⟩
  have hpos : ∀ j, L j ≠ 0 → 0 < L j ∧ 0 < 1 - 1 / (γ * L j) := fun j hj => by
    have h1 := lt_of_le_of_ne (hL j) (Ne.symm hj)
    have h2 := hgap j hj
    exact ⟨h1, by rw [sub_pos, div_lt_one (by linarith)]; exact h2⟩
  have hf0 : ∀ j, 0 ≤ f j := fun j => by
    rw [hf]
    dsimp only
    split_ifs with h
    · exact le_rfl
    · obtain ⟨h1, h2⟩ := hpos j h
      positivity
  obtain ⟨s, hs⟩ : ∃ s, s = ∑ j, f j := ⟨_, rfl⟩
  have hs0 : 0 ≤ s := hs ▸ Finset.sum_nonneg fun j _ => hf0 j
  have hfs : ∀ j, f j ≤ s := fun j => by
    rw [hs]; exact Finset.single_le_sum (fun j _ => hf0 j) (Finset.mem_univ j)
  have i1 : 0 < 1 / α := by positivity
  have i2 : 0 < 1 / γ := by positivity
  obtain ⟨Bp, hBp⟩ : ∃ Bp, Bp = B + α + 1 / α + γ + 1 / γ + s := ⟨_, rfl⟩
  have inv : ∀ {z : ℝ}, 0 < z → 1 / z ≤ Bp → 1 / Bp ≤ z := fun {z} hz h => by
    have hB0 : 0 < Bp := by linarith
    rw [div_le_iff₀ hB0]
    rw [div_le_iff₀ hz] at h
    linarith
  obtain ⟨B', K, c1, C, hC, h⟩ := pmags_exists Bp (by linarith)
  obtain ⟨W, hW⟩ : ∃ W, W = 1 + 2 * s + 1 / γ := ⟨_, rfl⟩
  have hW1 : 1 ≤ W := by linarith
  have hWC : C ≤ W * C := le_mul_of_one_le_left (by linarith) hW1
  refine ⟨W * C, by linarith, fun {F} _ _ {e} Pr hCe' a g ha hg => ?_⟩
  have he := Pr.pos
  have hCe : C * e ≤ 1 := (mul_le_mul_of_nonneg_right hWC he.le).trans hCe'
  have hmon : ∀ {c : ℝ}, 1 ≤ c → C * c * e ≤ W * C * c * e := fun {c} hc =>
    mul_le_mul_of_nonneg_right (mul_le_mul_of_nonneg_right hWC (by linarith)) he.le
  refine ⟨?_, ?_⟩
  · intro v s' V j c h0 hc hs' hV av as
    obtain ⟨l1, l2⟩ := hpos j h0
    have hj := hfs j
    rw [hf] at hj
    dsimp only at hj
    rw [if_neg h0] at hj
    have k1 : 0 < 1 / L j := by positivity
    have k2 : 0 < 1 / (1 - 1 / (γ * L j)) := by positivity
    obtain ⟨t, n1, n2, n3⟩ := mcp_prox_apx (inv hα (by linarith)) (by linarith) (inv hγ (by linarith)) (by linarith) (h _ Pr.pos hCe) Pr ha hg
      v s' V (L j) c hc ((hmon hc).trans hs') (by linarith) (inv l1 (by linarith)) (by linarith) (inv l2 (by linarith)) av as
    obtain ⟨sg, n4, n5⟩ := mcp_near_sub hα hγ l1 (hgap j h0) n2 n3
    refine ⟨t, n1, n2.trans (hmon hc), sg, n4, n5.trans ?_⟩
    have n6 : 0 ≤ C * c * e := (abs_nonneg _).trans n2
    have n7 : (2 * L j + 1 / γ) * (C * c * e) ≤ W * (C * c * e) := mul_le_mul_of_nonneg_right (by linarith) n6
    refine n7.trans (le_of_eq ?_)
    ring
  · intro w gr t G c hc hs' ht hG dw ag
    exact (mcp_dist_apx (inv hα (by linarith)) (by linarith) (inv hγ (by linarith)) (by linarith) (h _ Pr.pos hCe) Pr ha hg w gr t G c hc
      ((hmon hc).trans hs') (by linarith) (by linarith) dw ag).mono he.le (mul_le_mul_of_nonneg_right hWC (by linarith))

/-- The penalty is Lipschitz continuous. -/
theorem mcp_lip {α γ : ℝ} (hα : 0 ≤ α) (hγ : 0 < γ) (s t : ℝ) : mcp α γ t ≤ mcp α γ s + α * |t - s| := by
  have key : ∀ z : ℝ, mcp α γ z = α * min |z| (γ * α) - min |z| (γ * α) ^ 2 / (2 * γ) := fun z => by
    rw [← mcp_value_eq α γ hγ]
    split_ifs with h
    · rw [min_eq_left h.le, sq_abs]
    · rw [min_eq_right (not_lt.mp h)]; field_simp; ring
  rw [key, key]
  obtain ⟨a, ha⟩ : ∃ a, a = min |t| (γ * α) := ⟨_, rfl⟩
  obtain ⟨b, hb⟩ : ∃ b, b = min |s| (γ * α) := ⟨_, rfl⟩
  rw [← ha, ← hb]
  have hab : |a - b| ≤ |t - s| := by
    rw [ha, hb]
    refine (abs_min_sub_min_le_max _ _ _ _).trans ?_
    rw [sub_self, abs_zero, max_eq_left (abs_nonneg _)]
    exact abs_abs_sub_abs_le _ _
  have hga : 0 ≤ γ * α := by positivity
  have a0 : 0 ≤ a := ha ▸ le_min (abs_nonneg _) hga
  have b0 : 0 ≤ b := hb ▸ le_min (abs_nonneg _) hga
  have a1 : a ≤ γ * α := ha ▸ min_le_right _ _
  have b1 : b ≤ γ * α := hb ▸ min_le_right _ _
  have e : α * a - a ^ 2 / (2 * γ) - (α * b - b ^ 2 / (2 * γ)) = (a - b) * (α - (a + b) / (2 * γ)) := by field_simp; ring
  have c1 : 0 ≤ α - (a + b) / (2 * γ) := by
    rw [sub_nonneg, div_le_iff₀ (by positivity)]; nlinarith
  have c2 : α - (a + b) / (2 * γ) ≤ α := by
    have : 0 ≤ (a + b) / (2 * γ) := by positivity
    linarith
  have h1 : (a - b) * (α - (a + b) / (2 * γ)) ≤ |a - b| * (α - (a + b) / (2 * γ)) := mul_le_mul_of_nonneg_right (le_abs_self _) c1
  have h2 : |a - b| * (α - (a + b) / (2 * γ)) ≤ |t - s| * α := mul_le_mul hab c2 c1 (abs_nonneg _)
  linarith

theorem mcpProxR_abs {α γ V s : ℝ} (hα : 0 ≤ α) (hs : 0 < s) (hγ : s < γ) : |mcpProxR α γ V s| ≤ |V| := by
  rw [mcpProxR_eq hα hs hγ, abs_mul, abs_sign_le, one_mul, abs_of_nonneg firmR_nonneg]
  exact firmR_le (abs_nonneg V)

/-- Inexact proximal steps almost decrease the objective. -/
theorem RProb.MM.near {R : RProb ℝ p} {f : (Fin p → ℝ) → ℝ} {φ : ℝ → ℝ} (H : R.MM f φ) {a B0 ρ : ℝ}
    (hlip : ∀ s t, φ t ≤ φ s + a * |t - s|) (ha : 0 ≤ a) (hρ : ρ ≤ 1) {v : Fin p → ℝ} {j : Fin p} (hB0 : 1 ≤ B0) (hL : R.L j ≠ 0)
    (hLB : R.L j ≤ B0) (hLi : 1 / B0 ≤ R.L j) (hv : |v j| ≤ B0) (hG : |R.G v j| ≤ B0)
    (hpx : |R.px (v j - R.G v j / R.L j) (1 / R.L j)| ≤ |v j - R.G v j / R.L j|) {t : ℝ}
    (ht : |t - R.px (v j - R.G v j / R.L j) (1 / R.L j)| ≤ ρ) :
    |t| ≤ |v j| + |R.G v j| * B0 + 1 ∧
    R.F (Function.update v j t) ≤ R.F v + ρ * (B0 + B0 * (B0 + B0 + B0 * B0 + 1) + a) := by
  have hL0 : 0 < R.L j := lt_of_le_of_ne (H.nonneg j) (Ne.symm hL)
  obtain ⟨s, hs⟩ : ∃ s, s = R.px (v j - R.G v j / R.L j) (1 / R.L j) := ⟨_, rfl⟩
  have hpr := H.prox j (v j - R.G v j / R.L j) hL (v j)
  rw [← hs] at ht hpx hpr
  have hLi' : 1 / R.L j ≤ B0 := by
    rw [div_le_iff₀ hL0]
    rw [div_le_iff₀ (by linarith)] at hLi
    linarith
  have hρ0 : 0 ≤ ρ := (abs_nonneg _).trans ht
  have hGL : |R.G v j / R.L j| ≤ |R.G v j| * B0 := by
    rw [abs_div, abs_of_pos hL0, div_eq_mul_one_div]
    exact mul_le_mul_of_nonneg_left hLi' (abs_nonneg _)
  have hsB : |s| ≤ |v j| + |R.G v j| * B0 := hpx.trans ((abs_sub _ _).trans (by linarith))
  have htB : |t| ≤ |s| + ρ := by
    have := abs_sub_abs_le_abs_sub t s
    linarith
  refine ⟨by linarith, ?_⟩
  have hmaj := H.major v j t
  rw [H.obj, H.obj, sum_update]
  have hq : R.G v j * (s - v j) + R.L j * (s - v j) ^ 2 / 2 + φ s ≤ φ (v j) := by
    dsimp only at hpr
    simp only [Real.norm_eq_abs, sq_abs] at hpr
    have h1 := mul_le_mul_of_nonneg_left hpr hL0.le
    have e1 : R.L j * ((s - (v j - R.G v j / R.L j)) ^ 2 / 2 + 1 / R.L j * φ s) =
        R.L j * (s - v j) ^ 2 / 2 + R.G v j * (s - v j) + R.G v j ^ 2 / (2 * R.L j) + φ s := by field_simp; ring
    have e2 : R.L j * ((v j - (v j - R.G v j / R.L j)) ^ 2 / 2 + 1 / R.L j * φ (v j)) = R.G v j ^ 2 / (2 * R.L j) + φ (v j) := by
      field_simp; ring
    rw [e1, e2] at h1
    linarith
  have e3 : inner ℝ (R.G v j) (t - v j) = R.G v j * (t - v j) := by
    simp [mul_comm]
  rw [e3, Real.norm_eq_abs, sq_abs] at hmaj
  have hφ := hlip s t
  have d1 : R.G v j * (t - v j) - R.G v j * (s - v j) ≤ B0 * ρ := by
    have : R.G v j * (t - v j) - R.G v j * (s - v j) = R.G v j * (t - s) := by ring
    rw [this]
    refine (le_abs_self _).trans ?_
    rw [abs_mul]
    exact mul_le_mul hG ht (abs_nonneg _) (by linarith)
  have hGB : |R.G v j| * B0 ≤ B0 * B0 := mul_le_mul_of_nonneg_right hG (by linarith)
  have d2 : R.L j * (t - v j) ^ 2 / 2 - R.L j * (s - v j) ^ 2 / 2 ≤ B0 * (B0 + B0 + B0 * B0 + 1) * ρ := by
    have : R.L j * (t - v j) ^ 2 / 2 - R.L j * (s - v j) ^ 2 / 2 = R.L j * (((t + s) / 2 - v j) * (t - s)) := by ring
    rw [this]
    have h2 : |((t + s) / 2 - v j)| ≤ B0 + B0 + B0 * B0 + 1 := by
      have b1 := abs_le.mp htB
      have b2 := abs_le.mp (le_refl |s|)
      have b3 := abs_le.mp (le_refl |v j|)
      rw [abs_le]
      constructor <;> linarith
    have h3 : ((t + s) / 2 - v j) * (t - s) ≤ (B0 + B0 + B0 * B0 + 1) * ρ := by
      refine (le_abs_self _).trans ?_
      rw [abs_mul]
      exact mul_le_mul h2 ht (abs_nonneg _) (by positivity)
    calc R.L j * (((t + s) / 2 - v j) * (t - s)) ≤ R.L j * ((B0 + B0 + B0 * B0 + 1) * ρ) := mul_le_mul_of_nonneg_left h3 hL0.le
      _ ≤ B0 * ((B0 + B0 + B0 * B0 + 1) * ρ) := mul_le_mul_of_nonneg_right hLB (by positivity)
      _ = _ := by ring
  have d3 : a * |t - s| ≤ a * ρ := mul_le_mul_of_nonneg_left ht ha
  linarith

/-! ## Magnitudes without extrapolation -/

/-- Bounds of the points reached after `k` updates. -/
noncomputable def magSeq (g0 Λ B : ℝ) : ℕ → ℝ
  | 0 => 0
  | k + 1 => magSeq g0 Λ B k + (g0 + Λ * magSeq g0 Λ B k) * B + 1

theorem magSeq_nonneg {g0 Λ B : ℝ} (h1 : 0 ≤ g0) (h2 : 0 ≤ Λ) (h3 : 0 ≤ B) : ∀ k, 0 ≤ magSeq g0 Λ B k
  | 0 => le_rfl
  | k + 1 => by
    have := magSeq_nonneg h1 h2 h3 k
    unfold magSeq
    positivity

theorem magSeq_step {g0 Λ B : ℝ} (h1 : 0 ≤ g0) (h2 : 0 ≤ Λ) (h3 : 0 ≤ B) (k : ℕ) : magSeq g0 Λ B k ≤ magSeq g0 Λ B (k + 1) := by
  have := magSeq_nonneg h1 h2 h3 k
  have h4 : 0 ≤ (g0 + Λ * magSeq g0 Λ B k) * B := by positivity
  show magSeq g0 Λ B k ≤ magSeq g0 Λ B k + (g0 + Λ * magSeq g0 Λ B k) * B + 1
  linarith

theorem magSeq_mono {g0 Λ B : ℝ} (h1 : 0 ≤ g0) (h2 : 0 ≤ Λ) (h3 : 0 ≤ B) {k m : ℕ} (h : k ≤ m) : magSeq g0 Λ B k ≤ magSeq g0 Λ B m := by
  induction h with
  | refl => exact le_rfl
  | step _ ih => exact ih.trans (magSeq_step h1 h2 h3 _)

/-- Gradients of bounded points. -/
theorem RProb.Smooth.grad_bound {R : RProb ℝ p} {f : (Fin p → ℝ) → ℝ} (H : R.Smooth f) :
    ∃ g0 Λ : ℝ, 0 ≤ g0 ∧ 0 ≤ Λ ∧ ∀ (v : Fin p → ℝ) (b : ℝ), (∀ j, |v j| ≤ b) → ∀ j, |R.G v j| ≤ g0 + Λ * b := by
  refine ⟨∑ j, |R.G 0 j|, (∑ i, R.L i) * p, Finset.sum_nonneg fun j _ => abs_nonneg _,
    mul_nonneg (Finset.sum_nonneg fun i _ => H.nonneg i) (Nat.cast_nonneg p), fun v b hb j => ?_⟩
  have hΛ : ∀ j, R.L j ≤ ∑ i, R.L i := fun j => Finset.single_le_sum (fun i _ => H.nonneg i) (Finset.mem_univ j)
  have h2 := H.grad_lips hΛ v 0 j
  have h3 : ∑ i, ‖v i - (0 : Fin p → ℝ) i‖ ≤ p * b := by
    refine (Finset.sum_le_sum fun i _ => (show ‖v i - (0 : Fin p → ℝ) i‖ ≤ b by
      rw [Pi.zero_apply, sub_zero]; exact hb i)).trans ?_
    rw [Finset.sum_const, Finset.card_univ, Fintype.card_fin, nsmul_eq_mul]
  have h4 := mul_le_mul_of_nonneg_left h3 (Finset.sum_nonneg fun i _ => H.nonneg i : 0 ≤ ∑ i, R.L i)
  have h5 : |R.G 0 j| ≤ ∑ j, |R.G 0 j| := sum_abs_ge _ j
  have h6 := abs_sub_abs_le_abs_sub (R.G v j) (R.G 0 j)
  rw [Real.norm_eq_abs] at h2
  linarith [mul_assoc (∑ i, R.L i) (p : ℝ) b]

/-- Fits of bounded points. -/
theorem fit_bound (A : Fin n → Fin p → ℝ) : ∃ a0 : ℝ, 0 ≤ a0 ∧ ∀ (v : Fin p → ℝ) (b : ℝ), 0 ≤ b → (∀ j, |v j| ≤ b) → ∀ i, |fit A v i| ≤ a0 * b := by
  refine ⟨∑ i, ∑ j, |A i j|, Finset.sum_nonneg fun i _ => Finset.sum_nonneg fun j _ => abs_nonneg _, fun v b hb0 hb i => ?_⟩
  have h3 : |fit A v i| ≤ ∑ j, |A i j| * b := by
    refine (Finset.abs_sum_le_sum_abs _ _).trans (Finset.sum_le_sum fun j _ => ?_)
    rw [abs_mul]
    exact mul_le_mul_of_nonneg_left (hb j) (abs_nonneg _)
  rw [← Finset.sum_mul] at h3
  have h4 : ∑ j, |A i j| ≤ ∑ i, ∑ j, |A i j| :=
    Finset.single_le_sum (f := fun i => ∑ j, |A i j|) (fun i _ => Finset.sum_nonneg fun j _ => abs_nonneg _) (Finset.mem_univ i)
  exact h3.trans (mul_le_mul_of_nonneg_right h4 hb0)

/-! ## Calls -/

/-- What is known about the dataset and the datafit given to the solver. -/
structure DataApx {F DM DF : Type} [Scalar F] [LawfulCmp F] [DesignMatrix F DM] [Datafit F DM DF] (e B C : ℝ)
    (ds : Dataset DM F) (df0 df : DF) (D : Design n p) (y : Fin n → ℝ) (k : LossKind) : Prop where
  samples : ds.targets.nSamples = n
  features : DesignMatrix.nFeatures (F := F) ds.designMatrix = .ok p
  init : Datafit.init df0 ds = .ok df
  fitA : FitApx e B C ds df D.matrix (gradOf D.matrix y k) (stepsOf D k)

theorem callData_elim (hn : 0 < n) (D : Design n p) (y : Fin n → ℝ) (k : LossKind) (B : ℝ) (hB : 1 ≤ B) :
    ∃ C : ℝ, 1 ≤ C ∧ ∀ {F : Type} [Scalar F] [LawfulCmp F] {e : ℝ}, FloatLaws k F e → C * e ≤ 1 →
      ∀ (x : D.Entries F) (y' : Fin n → F), D.StoredAs e x → (∀ i, Stores e (y' i) (y i)) →
      ∀ {α : Type} (run : ∀ {DM DF : Type} [DesignMatrix F DM] [Datafit F DM DF], Dataset DM F → DF → α) (Q : α → Prop),
        (∀ {DM DF : Type} [DesignMatrix F DM] [Datafit F DM DF] (ds : Dataset DM F) (df0 df : DF),
          DataApx e B C ds df0 df D y k → Q (run ds df0)) →
        Q (callData D x y' k run) := by
  cases k with
  | quadratic =>
    obtain ⟨C1, h1, H1⟩ := quad_exists hn D y B hB
    refine ⟨C1, h1, fun Lw hCe x y' hx hy α run Q hQ => ?_⟩
    have P1 := H1 Lw.precise hCe y' hy
    cases D with
    | dense X =>
      obtain ⟨df, k1, k2⟩ := P1 x hx Quadratic.new
      exact hQ _ _ df ⟨one_nSamplesOf y', rfl, k1, k2⟩
    | csc A =>
      obtain ⟨df, k1, k2⟩ := P1 x hx Quadratic.new
      exact hQ _ _ df ⟨one_nSamplesOf y', nFeatures_toCSCOf A x, k1, k2⟩
  | logistic =>
    obtain ⟨C1, h1, H1⟩ := log_exists hn D y B hB
    refine ⟨C1, h1, fun Lw hCe x y' hx hy α run Q hQ => ?_⟩
    have P1 := H1 Lw.precise (Lw.explog rfl) hCe y' hy
    cases D with
    | dense X =>
      obtain ⟨df, k1, k2⟩ := P1 x hx Logistic.new
      exact hQ _ _ df ⟨one_nSamplesOf y', rfl, k1, k2⟩
    | csc A =>
      obtain ⟨df, k1, k2⟩ := P1 x hx Logistic.new
      exact hQ _ _ df ⟨one_nSamplesOf y', nFeatures_toCSCOf A x, k1, k2⟩

/-- Two functions of the same call. -/
theorem callData_pair {F : Type} [Scalar F] (D : Design n p) (x : D.Entries F) (y : Fin n → F) (k : LossKind) {α β : Type}
    (r1 : ∀ {DM DF : Type} [DesignMatrix F DM] [Datafit F DM DF], Dataset DM F → DF → α)
    (r2 : ∀ {DM DF : Type} [DesignMatrix F DM] [Datafit F DM DF], Dataset DM F → DF → β) :
    callData D x y k (fun ds df => (r1 ds df, r2 ds df)) = (callData D x y k r1, callData D x y k r2) := by
  unfold callData
  cases D <;> cases k <;> rfl

/-- The two entry points, from the runs on the skeleton. -/
theorem runsToMCP_of {F : Type} [Scalar F] [LawfulCmp F] (srt : Argsort F) (cfg : Solver F) (D : Design n p) (x : D.Entries F) (y : Fin n → F)
    (k : LossKind) (a g : F) (Q : (Fin p → ℝ) → ℕ → Prop) (PC : ∀ {DM DF : Type} [DesignMatrix F DM] [Datafit F DM DF],
      Dataset DM F → DF → DF → Prop)
    (h : ∀ {α : Type} (run : ∀ {DM DF : Type} [DesignMatrix F DM] [Datafit F DM DF], Dataset DM F → DF → α)
        (Q : α → Prop),
        (∀ {DM DF : Type} [DesignMatrix F DM] [Datafit F DM DF] (ds : Dataset DM F) (df0 df : DF), PC ds df0 df → Q (run ds df0)) →
        Q (callData D x y k run))
    (h' : ∀ {DM DF : Type} [DesignMatrix F DM] [Datafit F DM DF] (ds : Dataset DM F) (df0 df : DF),
      PC ds df0 df → Ok (runCD srt ds df0 (MCP.mk a g) cfg) (fun q => ∃ (w : Fin p → F) (v : Fin p → ℝ), q.1.w = List.ofFn w ∧
        (∀ j, Den (w j) (v j)) ∧ Q v q.2)) :
    ∃ v m, RunsToMCP srt cfg D x y k a g v m ∧ Q v m := by
  have key := h (fun ds df => (cfg.solve srt ds df (MCP.mk a g), (do
        let (st, _, log) ← coordinateDescent srt ds df (MCP.mk a g) (cfg.setVerbose true)
        pure (st, log) : M (CDState F × List (Event F)))))
    (fun r => ∃ v m, (∃ w : Fin p → F, (∀ j, Den (w j) (v j)) ∧ r.1 = .ok (List.ofFn w) ∧
      ∃ st log, r.2 = .ok (st, log) ∧ st.w = List.ofFn w ∧ iterationsPrinted log = m) ∧ Q v m) (by
    intro DM DF _ _ ds df0 df hp
    obtain ⟨q, ⟨w, v, h1, h2, h3⟩, h4, log, h5, h6⟩ := runs_to srt cfg ds df0 (MCP.mk a g) (h' ds df0 df hp)
    exact ⟨v, q.2, ⟨w, h2, by rw [h4, h1], q.1, log, h5, h1, h6⟩, h3⟩)
  rw [callData_pair] at key
  exact key

/-- Size of an inexact proximal step. -/
theorem near_abs {v G L iL s t ρ : ℝ} (hL : 0 < L) (hiL : 1 / L ≤ iL) (hpx : |s| ≤ |v - G / L|) (ht : |t - s| ≤ ρ) (hρ : ρ ≤ 1) :
    |t| ≤ |v| + |G| * iL + 1 := by
  have hGL : |G / L| ≤ |G| * iL := by
    rw [abs_div, abs_of_pos hL, div_eq_mul_one_div]
    exact mul_le_mul_of_nonneg_left hiL (abs_nonneg _)
  have h1 := abs_sub v (G / L)
  have h2 := abs_sub_abs_le_abs_sub t s
  linarith

set_option maxHeartbeats 1000000 in
/-- The parts of a run with the MCP penalty and without extrapolation, in floating point of sufficient precision. -/
theorem mcp_system (hn : 0 < n) (D : Design n p) (hD : D.Canonical) (y : Fin n → ℝ) (k : LossKind) (hy : k.LabelsOK y) (α γ : ℝ)
    (hα : 0 < α) (hγ : 0 < γ) (hgap : ∀ j, lipschitz D k j ≠ 0 → 1 < γ * lipschitz D k j) (T : ℕ) (τ ε : ℝ) (hε : 0 < ε) :
    ∃ B C ρ e₀ : ℝ, 0 < ρ ∧ ρ ≤ ε ∧ 0 < e₀ ∧ ∀ (F : Type) [Scalar F] [LawfulCmp F] (e : ℝ), FloatLaws k F e → e ≤ e₀ →
      (∀ (x : D.Entries F) (y' : Fin n → F), D.StoredAs e x → (∀ i, Stores e (y' i) (y i)) →
        ∀ {α : Type} (run : ∀ {DM DF : Type} [DesignMatrix F DM] [Datafit F DM DF], Dataset DM F → DF → α) (Q : α → Prop),
          (∀ {DM DF : Type} [DesignMatrix F DM] [Datafit F DM DF] (ds : Dataset DM F) (df0 df : DF),
            DataApx e B C ds df0 df D y k → Q (run ds df0)) → Q (callData D x y' k run)) ∧
      ∀ a g : F, Stores e a α → Stores e g γ →
      ∀ srt : Argsort F, ArgsortSpec srt → ∀ cfg : Solver F, cfg.useAcceleration = false → Stores e cfg.tolerance τ →
      ∀ {DM DF : Type} [DesignMatrix F DM] [Datafit F DM DF] (ds : Dataset DM F) (df0 df : DF), DataApx e B C ds df0 df D y k →
      ∃ Inv : ℕ → CDState F → Prop,
        Keep (skelCD srt ds df (MCP.mk a g) cfg p (ws0CD cfg p)) (prob1 D y k (.mcp α γ)) ρ τ T (ws0CD cfg p) (absOf p) Inv (fun _ _ => True) ∧
        (0 < cfg.wsStartSize → 0 < p → Pert (skelCD srt ds df (MCP.mk a g) cfg p (ws0CD cfg p)) (prob1 D y k (.mcp α γ))
          (frechetSubdiff (mcp α γ)) ρ τ ((prob1 D y k (.mcp α γ)).F 0 + 1) T (ws0CD cfg p) (fun _ => True) (absOf p) Inv
          (fun _ => True) (fun _ _ => True)) ∧
        Inv 0 (initCD n p) ∧
        ∀ k' s, k' ≤ T → Inv k' s → (∃ w : Fin p → F, s.w = List.ofFn w ∧ ∀ j, Den (w j) (absOf p s j)) ∧
          (prob1 D y k (.mcp α γ)).F (absOf p s) ≤ (prob1 D y k (.mcp α γ)).F 0 + ε := by
  classical
  have hgap' : ∀ j, stepsOf D k j ≠ 0 → 1 < γ * stepsOf D k j := fun j hj => by
    rw [stepsOf_lipschitz D hD k j] at hj ⊢; exact hgap j hj
  obtain ⟨R, hR⟩ : ∃ R, R = prob1 D y k (.mcp α γ) := ⟨_, rfl⟩
  have hM : R.MM (fun w => k.loss y (fit D.matrix w)) (mcp α γ) :=
    hR ▸ prob1_mm hn D hD y k hy (.mcp α γ) ⟨hα.le, hγ⟩ (fun j hj => (hgap j hj).le)
  have hS : R.Smooth (fun w => k.loss y (fit D.matrix w)) := hR ▸ prob1_smooth hn D hD y k hy (.mcp α γ)
  have hRL : ∀ j, R.L j = stepsOf D k j := fun j => by rw [hR]; rfl
  have hRpx : R.px = mcpProxR α γ := by rw [hR]; rfl
  have hLpos : ∀ j, R.L j ≠ 0 → 0 < R.L j := fun j hj => lt_of_le_of_ne (hS.nonneg j) (Ne.symm hj)
  obtain ⟨g0, Λ, hg0, hΛ, hgr⟩ := hS.grad_bound
  obtain ⟨a0, ha0, hft⟩ := fit_bound D.matrix
  obtain ⟨iL, hiL⟩ : ∃ iL, iL = ∑ j, 1 / R.L j := ⟨_, rfl⟩
  obtain ⟨sL, hsL⟩ : ∃ sL, sL = ∑ j, R.L j := ⟨_, rfl⟩
  have hi0 : ∀ j, 0 ≤ 1 / R.L j := fun j => one_div_nonneg.mpr (hS.nonneg j)
  have hiL0 : 0 ≤ iL := hiL ▸ Finset.sum_nonneg fun j _ => hi0 j
  have hsL0 : 0 ≤ sL := hsL ▸ Finset.sum_nonneg fun j _ => hS.nonneg j
  have hiLj : ∀ j, 1 / R.L j ≤ iL := fun j => by
    rw [hiL]; exact Finset.single_le_sum (fun j _ => hi0 j) (Finset.mem_univ j)
  have hsLj : ∀ j, R.L j ≤ sL := fun j => by
    rw [hsL]; exact Finset.single_le_sum (fun j _ => hS.nonneg j) (Finset.mem_univ j)
  obtain ⟨b, hb⟩ : ∃ b, b = magSeq g0 Λ iL (T * p) := ⟨_, rfl⟩
  have hb0 : 0 ≤ b := hb ▸ magSeq_nonneg hg0 hΛ hiL0 _
  obtain ⟨B0, hB0⟩ : ∃ B0, B0 = 1 + b + a0 * b + g0 + Λ * b + sL + iL := ⟨_, rfl⟩
  have q1 : 0 ≤ a0 * b := by positivity
  have q2 : 0 ≤ Λ * b := by positivity
  have hB01 : 1 ≤ B0 := by linarith
  obtain ⟨B, hB⟩ : ∃ B, B = 4 * B0 ^ 2 := ⟨_, rfl⟩
  have hBB : B0 ≤ B := by rw [hB]; nlinarith
  obtain ⟨K, hK⟩ : ∃ K : ℝ, K = 10 * ((0 : ℕ) + 1) ^ 2 * (B + 1) ^ 3 := ⟨_, rfl⟩
  have hK1 : 1 ≤ K := one_le_K (hB01.trans hBB) hK
  obtain ⟨C1, hC1, hcall⟩ := callData_elim hn D y k B (hB01.trans hBB)
  obtain ⟨C2, hC2, hpen⟩ := mcp_exists hα hγ (stepsOf D k) (fun j => hRL j ▸ hS.nonneg j) hgap' B (hB01.trans hBB)
  obtain ⟨C, hC⟩ : ∃ C, C = C1 + C2 := ⟨_, rfl⟩
  have hCone : 1 ≤ C := by linarith
  have hCK : 0 ≤ C * K := by positivity
  obtain ⟨Dm, hDm⟩ : ∃ Dm : ℝ, Dm = C + T * (p * (C * K)) := ⟨_, rfl⟩
  have hCD : C ≤ Dm := by
    have : 0 ≤ (T : ℝ) * (p * (C * K)) := by positivity
    linarith
  obtain ⟨Z, hZ⟩ : ∃ Z, Z = B0 + B0 * (B0 + B0 + B0 * B0 + 1) + α := ⟨_, rfl⟩
  have hZ0 : 0 ≤ Z := by rw [hZ]; positivity
  obtain ⟨δ, hδ⟩ : ∃ δ, δ = min 1 ε := ⟨_, rfl⟩
  have hδ0 : 0 < δ := hδ ▸ lt_min one_pos hε
  have hδ1 : δ ≤ 1 := hδ ▸ min_le_left _ _
  have hδ2 : δ ≤ ε := hδ ▸ min_le_right _ _
  have hden : 0 < 1 + Z + T * (p * Z) := by positivity
  obtain ⟨ρ, hρ⟩ : ∃ ρ, ρ = δ / (1 + Z + T * (p * Z)) := ⟨_, rfl⟩
  have hρ0 : 0 < ρ := by rw [hρ]; positivity
  have hρe : ρ + ρ * Z + T * (p * (ρ * Z)) = δ := by
    have : ρ * (1 + Z + T * (p * Z)) = δ := by rw [hρ, div_mul_cancel₀ _ hden.ne']
    linarith
  have r1 : 0 ≤ ρ * Z := by positivity
  have r2 : 0 ≤ T * (p * (ρ * Z)) := by positivity
  obtain ⟨e₀, he₀, hprec⟩ := prec_exists (τ := τ) hCone hK1 (hCone.trans hCD) le_rfl hρ0 (by linarith : ρ ≤ 1)
  refine ⟨B, C1, ρ, e₀, hρ0, by linarith, he₀, fun F _ _ e hlaw hee => ?_⟩
  have he := hlaw.precise.pos
  obtain ⟨s1, s2, s3, s4, s5⟩ := hprec e he hee
  have m1 : ∀ {c : ℝ}, 0 ≤ c → C * c * e ≤ 1 → C2 * c * e ≤ 1 := fun {c} hc h =>
    le_trans (mul_le_mul_of_nonneg_right (mul_le_mul_of_nonneg_right (by linarith) hc) he.le) h
  have sC1 : C1 * e ≤ 1 := le_trans (mul_le_mul_of_nonneg_right (by linarith) he.le) s1
  have sC2 : C2 * e ≤ 1 := le_trans (mul_le_mul_of_nonneg_right (by linarith) he.le) s1
  refine ⟨fun x y' hx hy' _ run Q hQ => hcall hlaw sC1 x y' hx hy' run Q hQ, fun a g ha hg srt hs cfg hcfg htol {DM DF} _ _ ds df0 df hA => ?_⟩
  obtain ⟨hpx, hds⟩ := hpen hlaw.precise sC2 a g ha hg
  rw [← hR]
  have mono : ∀ {k : ℕ}, k ≤ T * p → magSeq g0 Λ iL k ≤ b := fun {k} hk => hb ▸ magSeq_mono hg0 hΛ hiL0 hk
  have bnd : ∀ (k : ℕ) (w : Fin p → ℝ), k ≤ T * p → (∀ j, |w j| ≤ magSeq g0 Λ iL k) →
      (∀ j, |w j| ≤ B0) ∧ (∀ i, |fit D.matrix w i| ≤ B0) ∧ ∀ j, |R.G w j| ≤ B0 := fun k w hk hw => by
    have hw' : ∀ j, |w j| ≤ b := fun j => (hw j).trans (mono hk)
    refine ⟨fun j => (hw' j).trans (by linarith), fun i => (hft w b hb0 hw' i).trans (by linarith), fun j => (hgr w b hw' j).trans (by linarith)⟩
  have Lge : ∀ j, R.L j ≠ 0 → 1 / B0 ≤ R.L j := fun j hj => by
    have h1 := hiLj j
    have h2 := hLpos j hj
    rw [div_le_iff₀ h2] at h1
    rw [div_le_iff₀ (by linarith)]
    nlinarith
  have Sy : FWk e B0 B K C Dm ρ (ρ * Z) (R.F 0 + 1) 0 (T * p) ds df (MCP.mk a g) D.matrix (gradOf D.matrix y k) R
      (fun L V => mcpProxR α γ V (1 / L)) (frechetSubdiff (mcp α γ)) (fun k v => ∀ j, |v j| ≤ magSeq g0 Λ iL k) :=
    { prec := hlaw.precise
      kk := Consts.mk' he (hB01.trans hBB) hK
      C1 := hCone
      fitA := by
        have h := hA.fitA.mono (C' := C) he.le (by linarith)
        rw [show R.L = stepsOf D k from funext hRL]
        exact h
      safe := safe_MCP _
      prox := fun v s V j c h0 hc hs' hV av as => by
        rw [hRL] at h0 as ⊢
        have hCC : C2 * c * e ≤ C * c * e := mul_le_mul_of_nonneg_right (mul_le_mul_of_nonneg_right (by linarith) (by linarith)) he.le
        exact Tri.mono (hpx v s V j c h0 hc (m1 (by linarith) hs') hV av as) fun z ⟨t, z1, z2, sg, z3, z4⟩ =>
          ⟨t, z1, z2.trans hCC, sg, z3, z4.trans hCC⟩
      dist := by
        refine ⟨(MCP.mk a g).dist, rfl, fun w gr t G c hc hs' ht hG dw ag => ?_⟩
        rw [show R.sc = mcpScore α γ by rw [hR]; rfl]
        exact (hds w gr t G c hc (m1 (by linarith) hs') ht hG dw ag).mono he.le (mul_le_mul_of_nonneg_right (by linarith) (by linarith))
      grad := fun w j => by rw [hR]; rfl
      dec := fun k v j t hk hv _ h0 ht => by
        have hL := hLpos j h0
        obtain ⟨b1, -, b3⟩ := bnd k v hk.le hv
        have hab : |R.px (v j - R.G v j / R.L j) (1 / R.L j)| ≤ |v j - R.G v j / R.L j| := by
          rw [hRpx]
          refine mcpProxR_abs hα.le (by positivity) ?_
          rw [div_lt_iff₀ hL, hRL]
          exact hgap' j (hRL j ▸ h0)
        have ht' : |t - R.px (v j - R.G v j / R.L j) (1 / R.L j)| ≤ ρ := by rw [hRpx]; exact ht
        have hn1 := near_abs hL (hiLj j) hab ht' (by linarith)
        refine ⟨fun i => ?_, ?_⟩
        · by_cases hi : i = j
          · subst hi
            rw [Function.update_self]
            have h1 := hgr v _ hv i
            have h2 := mul_le_mul_of_nonneg_right h1 hiL0
            show |t| ≤ magSeq g0 Λ iL k + (g0 + Λ * magSeq g0 Λ iL k) * iL + 1
            have := hv i
            linarith
          · rw [Function.update_of_ne hi]
            exact (hv i).trans (magSeq_step hg0 hΛ hiL0 k)
        · rw [hZ]
          exact (hM.near (mcp_lip hα.le hγ) hα.le (by linarith) hB01 h0 ((hsLj j).trans (by linarith)) (Lge j h0) (b1 j) (b3 j) hab ht').2
      mag := fun k v h j => (h j).trans (magSeq_step hg0 hΛ hiL0 k)
      η0 := r1
      η1 := by linarith
      B01 := hB01
      hB := hB.ge
      Lle := fun j => (hsLj j).trans (by linarith)
      Lge := Lge
      bnd := fun k w hk hw _ => bnd k w hk hw
      small := s2
      small2 := s3
      ρ1 := by linarith }
  have htol' : ∃ τ', Den cfg.tolerance τ' ∧ |τ' - τ| ≤ ρ / 2 := by
    obtain ⟨t, h1, h2⟩ := htol.near
    exact ⟨t, h1, h2.trans s5⟩
  have hν : 0 ≤ (p : ℝ) * (ρ * Z) := by positivity
  refine ⟨FWk.Inv D.matrix e C K R (fun k v => ∀ j, |v j| ≤ magSeq g0 Λ iL k) C (p * (ρ * Z)), ?_, fun hw0 hp => ?_, ?_, ?_⟩
  · exact Sy.keep hs cfg (T := T) (d0 := C) (ν := p * (ρ * Z)) (BInv := fun _ _ => True) htol' hCone hDm.ge le_rfl le_rfl (by linarith) rfl
      (fun _ => trivial) (fun k s l ep bf _ _ hI _ _ _ hoff => by
        unfold accelCD
        rw [if_neg (by rw [hcfg]; exact Bool.false_ne_true)]
        exact ⟨trivial, FWk.Inv.mono Sy hI hν (Nat.le_succ k), hoff⟩)
  · exact Sy.pert hs cfg hw0 hp (T := T) (d0 := C) (ν := p * (ρ * Z)) (BInv := fun _ _ => True) htol' hCone hDm.ge le_rfl le_rfl (by linarith) rfl
      (fun _ => trivial) (fun k s l ep bf _ _ hI _ _ _ hoff => by
        unfold accelCD
        rw [if_neg (by rw [hcfg]; exact Bool.false_ne_true)]
        exact ⟨trivial, FWk.Inv.mono Sy hI hν (Nat.le_succ k), by linarith, hoff, fun _ => rfl⟩)
  · refine ⟨0, ⟨fun _ => zero, fun _ => zero, by simp [initCD], fun j => den_zero, fun i => ?_⟩, by simp, fun j => ?_, fun _ _ => rfl⟩
    · refine ⟨0, den_zero, ?_⟩
      have e1 : fit D.matrix 0 i = 0 := by simp [fit]
      rw [e1, sub_zero, abs_zero]
      positivity
    · rw [Pi.zero_apply, abs_zero]
      exact magSeq_nonneg hg0 hΛ hiL0 _
  · rintro k' s hk' ⟨v, h1, h2, -, -⟩
    have h5 := h1.abs
    obtain ⟨w, u, e1, h6, -⟩ := h1
    rw [h5]
    refine ⟨⟨w, by rw [e1], h6⟩, ?_⟩
    have h7 : (k' : ℝ) ≤ T := by exact_mod_cast hk'
    have h8 := mul_le_mul_of_nonneg_right h7 hν
    linarith

theorem runCD_data {F DM DF : Type} [Scalar F] [LawfulCmp F] [DesignMatrix F DM] [Datafit F DM DF] {e B C : ℝ}
    {ds : Dataset DM F} {df0 df : DF} {D : Design n p} {y : Fin n → ℝ} {k : LossKind} (hA : DataApx e B C ds df0 df D y k)
    (srt : Argsort F) (a g : F) (cfg : Solver F) :
    runCD srt ds df0 (MCP.mk a g) cfg = (skelCD srt ds df (MCP.mk a g) cfg p (ws0CD cfg p)).outer cfg.maxIterations (initCD n p) := by
  unfold runCD
  rw [hA.features, hA.init, hA.samples]
  rfl

/-- Every run with the MCP penalty and without extrapolation, in floating point of sufficient precision. -/
theorem mcp_runs (hn : 0 < n) (D : Design n p) (hD : D.Canonical) (y : Fin n → ℝ) (k : LossKind) (hy : k.LabelsOK y) (α γ : ℝ)
    (hα : 0 < α) (hγ : 0 < γ) (hgap : ∀ j, lipschitz D k j ≠ 0 → 1 < γ * lipschitz D k j) (T : ℕ) (τ ε : ℝ) (hε : 0 < ε) :
    ∃ e₀ : ℝ, 0 < e₀ ∧ ∀ (F : Type) [Scalar F] [LawfulCmp F] (e : ℝ), FloatLaws k F e → e ≤ e₀ →
      ∀ (x : D.Entries F) (y' : Fin n → F) (a g : F), D.StoredAs e x → (∀ i, Stores e (y' i) (y i)) → Stores e a α → Stores e g γ →
      ∀ srt : Argsort F, ArgsortSpec srt → ∀ cfg : Solver F, cfg.useAcceleration = false → Stores e cfg.tolerance τ →
      2 * cfg.maxEpochs * cfg.maxIterations ≤ T →
      ∃ v m, RunsToMCP srt cfg D x y' k a g v m ∧ m ≤ cfg.maxIterations ∧
        objective1 D y k (.mcp α γ) v ≤ objective1 D y k (.mcp α γ) 0 + ε ∧
        (m < cfg.maxIterations → ∀ j, mcpScore α γ (v j) (gradOf D.matrix y k (fit D.matrix v) j) ≤ τ + ε) := by
  obtain ⟨B, C, ρ, e₀, hρ, hρε, he₀, h⟩ := mcp_system hn D hD y k hy α γ hα hγ hgap T τ ε hε
  refine ⟨e₀, he₀, fun F _ _ e hlaw hee x y' a g hx hy' ha hg srt hs cfg hcfg htol hT => ?_⟩
  obtain ⟨hcall, hsys⟩ := h F e hlaw hee
  refine runsToMCP_of srt cfg D x y' k a g (fun v m => m ≤ cfg.maxIterations ∧
      objective1 D y k (.mcp α γ) v ≤ objective1 D y k (.mcp α γ) 0 + ε ∧
      (m < cfg.maxIterations → ∀ j, mcpScore α γ (v j) (gradOf D.matrix y k (fit D.matrix v) j) ≤ τ + ε))
    (fun ds df0 df => DataApx e B C ds df0 df D y k) (fun run Q hQ => hcall x y' hx hy' run Q hQ) ?_
  intro DM DF _ _ ds df0 df hA
  obtain ⟨Inv, Kp, -, h0, hI⟩ := hsys a g ha hg srt hs cfg hcfg htol ds df0 df hA
  rw [runCD_data hA]
  have hT' : 0 + 2 * (skelCD srt ds df (MCP.mk a g) cfg p (ws0CD cfg p)).maxEpochs * cfg.maxIterations ≤ T := by
    show 0 + 2 * cfg.maxEpochs * cfg.maxIterations ≤ T
    omega
  refine Tri.mono (Kp.outer_ok cfg.maxIterations 0 (initCD n p) hT' h0) ?_
  rintro q ⟨⟨k', hk', h1⟩, h3, h4⟩
  obtain ⟨⟨w, e1, e2⟩, e3⟩ := hI k' q.1 (hk'.trans hT') h1
  exact ⟨w, absOf p q.1, e1, e2, h3, e3, fun hm j => (h4 hm j).trans (by linarith)⟩

/-- A gap between the step constants and the concavity of the penalty. -/
theorem gap_exists {γ : ℝ} (hγ : 0 < γ) (L : Fin p → ℝ) (hgap : ∀ j, L j ≠ 0 → 1 < γ * L j) :
    ∃ μ, 0 < μ ∧ ∀ j, L j ≠ 0 → μ + 1 / γ ≤ L j := by
  by_cases hne : (Finset.univ.filter fun j => L j ≠ 0).Nonempty
  · obtain ⟨k, hk, hk2⟩ := Finset.exists_min_image _ L hne
    refine ⟨L k - 1 / γ, ?_, fun j hj => ?_⟩
    · rw [sub_pos, div_lt_iff₀ hγ, mul_comm]
      exact hgap k (Finset.mem_filter.mp hk).2
    · have := hk2 j (Finset.mem_filter.mpr ⟨Finset.mem_univ j, hj⟩)
      linarith
  · exact ⟨1, one_pos, fun j hj => absurd ⟨j, Finset.mem_filter.mpr ⟨Finset.mem_univ j, hj⟩⟩ hne⟩

/-- Runs with the MCP penalty and without extrapolation stop, in floating point of sufficient precision. -/
theorem mcp_stops (hn : 0 < n) (hp : 0 < p) (D : Design n p) (hD : D.Canonical) (y : Fin n → ℝ) (k : LossKind) (hy : k.LabelsOK y) (α γ : ℝ)
    (hα : 0 < α) (hγ : 0 < γ) (hgap : ∀ j, lipschitz D k j ≠ 0 → 1 < γ * lipschitz D k j) (τ : ℝ) (hτ : 0 < τ) :
    ∃ N : ℕ, ∀ (E : ℕ) (ε : ℝ), 0 < ε → ∃ e₀ : ℝ, 0 < e₀ ∧ ∀ (F : Type) [Scalar F] [LawfulCmp F] (e : ℝ), FloatLaws k F e → e ≤ e₀ →
      ∀ (x : D.Entries F) (y' : Fin n → F) (a g : F), D.StoredAs e x → (∀ i, Stores e (y' i) (y i)) → Stores e a α → Stores e g γ →
      ∀ srt : Argsort F, ArgsortSpec srt → ∀ cfg : Solver F, cfg.useAcceleration = false → Stores e cfg.tolerance τ →
      0 < cfg.wsStartSize → N ≤ cfg.maxIterations → 0 < cfg.maxEpochs → cfg.maxEpochs ≤ E →
      ∃ v m, RunsToMCP srt cfg D x y' k a g v m ∧ m ≤ N ∧
        objective1 D y k (.mcp α γ) v ≤ objective1 D y k (.mcp α γ) 0 + ε ∧
        ∀ j, mcpScore α γ (v j) (gradOf D.matrix y k (fit D.matrix v) j) ≤ τ + ε := by
  have H := prob1_weak hn D hD y k hy (.mcp α γ) ⟨hα.le, hγ⟩ (fun j hj => (hgap j hj).le) (by intro; simp)
  have hgap' : ∀ j, (prob1 D y k (.mcp α γ)).L j ≠ 0 → 1 < γ * (prob1 D y k (.mcp α γ)).L j := fun j hj => by
    have e1 : (prob1 D y k (.mcp α γ)).L j = lipschitz D k j := stepsOf_lipschitz D hD k j
    rw [e1] at hj ⊢
    exact hgap j hj
  obtain ⟨μ, hμ, hμ2⟩ := gap_exists hγ _ hgap'
  have hm : 0 ≤ 1 / γ := by positivity
  obtain ⟨N, ρ₀, ν₀, hρ₀, hν₀, hterm⟩ := Pert.terminates_weak (c := (prob1 D y k (.mcp α γ)).F 0 + 1) H hm hμ hμ2 hτ
  obtain ⟨q, hq, hgrow⟩ := H.grow_exists hm hμ hμ2
  refine ⟨N, fun E ε hε => ?_⟩
  obtain ⟨ε', hε'⟩ : ∃ ε', ε' = min ε (min 1 (min ρ₀ (ν₀ / (E * (q + 1) + 1)))) := ⟨_, rfl⟩
  have hε0 : 0 < ε' := by rw [hε']; positivity
  have r1 : ε' ≤ ε := hε' ▸ min_le_left _ _
  have r2 : ε' ≤ 1 := hε' ▸ (min_le_right _ _).trans (min_le_left _ _)
  have r3 : ε' ≤ ρ₀ := hε' ▸ (min_le_right _ _).trans ((min_le_right _ _).trans (min_le_left _ _))
  have r4 : ε' ≤ ν₀ / (E * (q + 1) + 1) := hε' ▸ (min_le_right _ _).trans ((min_le_right _ _).trans (min_le_right _ _))
  rw [le_div_iff₀ (by positivity)] at r4
  obtain ⟨B, C, ρ, e₀, hρ, hρε, he₀, h⟩ := mcp_system hn D hD y k hy α γ hα hγ hgap (2 * E * N) τ ε' hε0
  refine ⟨e₀, he₀, fun F _ _ e hlaw hee x y' a g hx hy' ha hg srt hs cfg hcfg htol hw0 hN hE0 hE => ?_⟩
  obtain ⟨hcall, hsys⟩ := h F e hlaw hee
  refine runsToMCP_of srt cfg D x y' k a g (fun v m => m ≤ N ∧
      objective1 D y k (.mcp α γ) v ≤ objective1 D y k (.mcp α γ) 0 + ε ∧
      ∀ j, mcpScore α γ (v j) (gradOf D.matrix y k (fit D.matrix v) j) ≤ τ + ε)
    (fun ds df0 df => DataApx e B C ds df0 df D y k) (fun run Q hQ => hcall x y' hx hy' run Q hQ) ?_
  intro DM DF _ _ ds df0 df hA
  obtain ⟨Inv, Kp, hP, h0, hI⟩ := hsys a g ha hg srt hs cfg hcfg htol ds df0 df hA
  rw [runCD_data hA]
  have hT' : 0 + 2 * (skelCD srt ds df (MCP.mk a g) cfg p (ws0CD cfg p)).maxEpochs * N ≤ 2 * E * N := by
    rw [Nat.zero_add]
    exact Nat.mul_le_mul_right _ (Nat.mul_le_mul_left 2 hE)
  have hE' : ((skelCD srt ds df (MCP.mk a g) cfg p (ws0CD cfg p)).maxEpochs : ℝ) * (q * ρ ^ 2 + ρ) ≤ ν₀ := by
    have n1 : ((skelCD srt ds df (MCP.mk a g) cfg p (ws0CD cfg p)).maxEpochs : ℝ) ≤ E := by exact_mod_cast hE
    have n2 : q * ρ ^ 2 + ρ ≤ (q + 1) * ρ := by nlinarith [mul_nonneg hq hρ.le]
    have n3 : (q + 1) * ρ ≤ (q + 1) * ε' := mul_le_mul_of_nonneg_left hρε (by linarith)
    have n4 := mul_le_mul n1 (n2.trans n3) (by positivity) (by positivity : (0 : ℝ) ≤ E)
    nlinarith
  obtain ⟨Q, hQ, ⟨⟨k', hk', h1⟩, kkt, km, h2, h3⟩, -, h4, -⟩ := Tri.exists_ok (Tri.and
    (hterm (hP hw0 hp) hρ.le (hρε.trans r3) (hgrow ρ hρ.le) hE' hE0 (fun _ _ _ _ => trivial) 0 (initCD n p) hT' h0 trivial)
    (Kp.outer_ok N 0 (initCD n p) hT' h0))
  obtain ⟨m, hm'⟩ := Nat.exists_eq_add_of_le hN
  rw [hm', Skel.outer_add, hQ]
  dsimp only [bind, Except.bind]
  rw [Skel.outer_done _ m Q.1 kkt km h2 h3]
  obtain ⟨⟨w, e1, e2⟩, e3⟩ := hI k' Q.1 (hk'.trans hT') h1
  have h8 := (Tri.elim_ok (Kp.viol k' Q.1 (hk'.trans hT') h1) h2) h3
  refine ⟨w, absOf p Q.1, e1, e2, h4, ?_, fun j => (h8 j).trans (by linarith)⟩
  have : (prob1 D y k (.mcp α γ)).F (absOf p Q.1) ≤ (prob1 D y k (.mcp α γ)).F 0 + ε := by linarith
  exact this

end Sglm
