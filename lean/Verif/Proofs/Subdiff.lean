import Verif.Proofs.BlockProx
import Mathlib.Analysis.InnerProductSpace.Calculus
import Mathlib.Analysis.SpecialFunctions.Sqrt
import Mathlib.Analysis.Calculus.Gradient.Basic

/-!
# Subdifferentials of the penalties
-/

namespace Sglm
open Spec

section General
variable {E : Type*} [NormedAddCommGroup E] [InnerProductSpace ℝ E]

theorem subdiff_subset_frechet (f : E → ℝ) (x : E) : subdiff f x ⊆ frechetSubdiff f x := by
  intro g hg ε hε
  refine ⟨1, one_pos, fun z _ => ?_⟩
  have := hg z
  nlinarith [mul_nonneg hε.le (norm_nonneg (z - x))]

theorem frechetSubdiff_of_deriv {f : E → ℝ} {x g : E}
    (h : HasFDerivAt f (innerSL ℝ g) x) : frechetSubdiff f x = {g} := by
  have hd : ∀ ε > 0, ∃ δ > 0, ∀ z, ‖z - x‖ < δ → |f z - f x - inner ℝ g (z - x)| ≤ ε * ‖z - x‖ := by
    intro ε hε
    have h1 := h.isLittleO.def hε
    rw [Metric.eventually_nhds_iff] at h1
    obtain ⟨δ, hδ, h2⟩ := h1
    refine ⟨δ, hδ, fun z hz => ?_⟩
    have := h2 (by rwa [dist_eq_norm] : dist z x < δ)
    simpa using this
  apply Set.eq_singleton_iff_unique_mem.mpr
  constructor
  · intro ε hε
    obtain ⟨δ, hδ, h2⟩ := hd ε hε
    refine ⟨δ, hδ, fun z hz => ?_⟩
    have := (abs_le.mp (h2 z hz)).1
    linarith
  · intro g' hg'
    by_contra hne
    have hpos : 0 < ‖g' - g‖ := norm_pos_iff.mpr (sub_ne_zero.mpr hne)
    set D := ‖g' - g‖ with hD
    obtain ⟨δ1, hδ1, h1⟩ := hg' (D / 4) (by linarith)
    obtain ⟨δ2, hδ2, h2⟩ := hd (D / 4) (by linarith)
    set t := min δ1 δ2 / (2 * D) with ht
    have hmin : 0 < min δ1 δ2 := lt_min hδ1 hδ2
    have ht0 : 0 < t := by positivity
    have hz : ‖(x + t • (g' - g)) - x‖ = min δ1 δ2 / 2 := by
      rw [add_sub_cancel_left, norm_smul, Real.norm_of_nonneg ht0.le, ← hD, ht]; field_simp
    have a1 := h1 (x + t • (g' - g)) (by rw [hz]; linarith [min_le_left δ1 δ2])
    have a2 := (abs_le.mp (h2 (x + t • (g' - g)) (by rw [hz]; linarith [min_le_right δ1 δ2]))).2
    rw [hz] at a1 a2
    rw [add_sub_cancel_left] at a1 a2
    have e1 : inner ℝ g' (t • (g' - g)) - inner ℝ g (t • (g' - g)) = t * D ^ 2 := by
      rw [← inner_sub_left, inner_smul_right, real_inner_self_eq_norm_sq]
    have e2 : t * D ^ 2 = D * (min δ1 δ2 / 2) := by rw [ht]; field_simp
    nlinarith

theorem subdiff_of_deriv {f : E → ℝ} {x g : E} (h : HasFDerivAt f (innerSL ℝ g) x)
    (hg : g ∈ subdiff f x) : subdiff f x = {g} := by
  apply Set.eq_singleton_iff_unique_mem.mpr
  refine ⟨hg, fun g' hg' => ?_⟩
  have := subdiff_subset_frechet f x hg'
  rw [frechetSubdiff_of_deriv h] at this
  exact this

theorem hasFDerivAt_norm_of_ne {x : E} (hx : x ≠ 0) :
    HasFDerivAt (fun z : E => ‖z‖) (innerSL ℝ ((1 / ‖x‖) • x)) x := by
  have h1 : HasFDerivAt (fun z : E => ‖z‖ ^ 2) (2 • innerSL ℝ x) x :=
    (hasStrictFDerivAt_norm_sq x).hasFDerivAt
  have hpos : 0 < ‖x‖ := norm_pos_iff.mpr hx
  have h2 := h1.sqrt (by positivity : ‖x‖ ^ 2 ≠ 0)
  have e : (fun z : E => Real.sqrt (‖z‖ ^ 2)) = fun z => ‖z‖ := by
    funext z; exact Real.sqrt_sq (norm_nonneg z)
  rw [e] at h2
  convert h2 using 1
  ext z
  simp [Real.sqrt_sq hpos.le]
  field_simp

/-- Derivative of `a‖·‖ + b‖·‖²/2` away from the origin. -/
theorem hasFDerivAt_enet {a b : ℝ} {x : E} (hx : x ≠ 0) :
    HasFDerivAt (fun z : E => a * ‖z‖ + b * ‖z‖ ^ 2 / 2) (innerSL ℝ ((a / ‖x‖ + b) • x)) x := by
  have h1 := (hasFDerivAt_norm_of_ne hx).const_mul a
  have h2 : HasFDerivAt (fun z : E => ‖z‖ ^ 2) (2 • innerSL ℝ x) x :=
    (hasStrictFDerivAt_norm_sq x).hasFDerivAt
  have h3 := h1.add (h2.const_mul (b / 2))
  have e : ((fun z : E => a * ‖z‖) + fun z : E => b / 2 * ‖z‖ ^ 2) =
      fun z : E => a * ‖z‖ + b * ‖z‖ ^ 2 / 2 := by
    funext z; simp only [Pi.add_apply]; ring
  rw [e] at h3
  refine h3.congr_fderiv ?_
  ext z
  simp
  ring

theorem subdiff_enet_ne {a b : ℝ} (ha : 0 ≤ a) (hb : 0 ≤ b) {x : E} (hx : x ≠ 0) :
    subdiff (fun z : E => a * ‖z‖ + b * ‖z‖ ^ 2 / 2) x = {(a / ‖x‖ + b) • x} := by
  apply subdiff_of_deriv (hasFDerivAt_enet hx)
  intro z
  have hN : 0 < ‖x‖ := norm_pos_iff.mpr hx
  simp only
  rw [inner_smul_left]
  simp only [conj_trivial]
  have h2 : inner ℝ x (z - x) ≤ ‖x‖ * ‖z‖ - ‖x‖ ^ 2 := by
    rw [inner_sub_right, real_inner_self_eq_norm_sq]
    have := real_inner_le_norm x z
    linarith
  have h4 : a / ‖x‖ * inner ℝ x (z - x) ≤ a * ‖z‖ - a * ‖x‖ := by
    have : a / ‖x‖ * (‖x‖ * ‖z‖ - ‖x‖ ^ 2) = a * ‖z‖ - a * ‖x‖ := by field_simp
    rw [← this]
    exact mul_le_mul_of_nonneg_left h2 (by positivity)
  have h5 : 2 * inner ℝ x (z - x) ≤ ‖z‖ ^ 2 - ‖x‖ ^ 2 := by
    have e : z = x + (z - x) := by abel
    have := norm_add_sq_real x (z - x)
    rw [← e] at this
    nlinarith [sq_nonneg ‖z - x‖]
  nlinarith [mul_le_mul_of_nonneg_left h5 hb]

theorem frechet_zero_of_bounds {a c : ℝ} (ha : 0 ≤ a) {f : E → ℝ} (h0 : f 0 = 0)
    (hl : ∀ z, a * ‖z‖ - c * ‖z‖ ^ 2 ≤ f z) (hu : ∀ z, f z ≤ a * ‖z‖ + c * ‖z‖ ^ 2) :
    frechetSubdiff f 0 = Metric.closedBall 0 a := by
  ext g
  rw [mem_closedBall_zero_iff]
  constructor
  · intro hg
    by_contra hlt
    have hlt := not_le.mp hlt
    have hgpos : 0 < ‖g‖ := lt_of_le_of_lt ha hlt
    obtain ⟨δ, hδ, h⟩ := hg ((‖g‖ - a) / 4) (by linarith)
    set r := min (δ / 2) ((‖g‖ - a) / (4 * (|c| + 1))) with hr
    have hc1 : 0 < |c| + 1 := by positivity
    have hr0 : 0 < r := lt_min (by linarith) (div_pos (by linarith) (by positivity))
    have hz : ‖(r / ‖g‖) • g‖ = r := by
      rw [norm_smul, Real.norm_of_nonneg (by positivity)]; field_simp
    have h1 := h ((r / ‖g‖) • g) (by rw [sub_zero, hz]; linarith [min_le_left (δ/2) ((‖g‖ - a) / (4 * (|c| + 1)))])
    have h2 := hu ((r / ‖g‖) • g)
    rw [sub_zero, hz, inner_smul_right, real_inner_self_eq_norm_sq, h0] at h1
    rw [hz] at h2
    have e : r / ‖g‖ * ‖g‖ ^ 2 = r * ‖g‖ := by field_simp
    rw [e] at h1
    have h3 : r * (4 * (|c| + 1)) ≤ ‖g‖ - a := by
      rw [← le_div_iff₀ (by positivity)]; exact min_le_right _ _
    have h4 : c * r ^ 2 ≤ |c| * r ^ 2 := mul_le_mul_of_nonneg_right (le_abs_self c) (sq_nonneg r)
    nlinarith [mul_pos hr0 hr0, mul_le_mul_of_nonneg_left h3 hr0.le]
  · intro hg ε hε
    have hc1 : 0 < |c| + 1 := by positivity
    refine ⟨ε / (|c| + 1), by positivity, fun z hz => ?_⟩
    rw [sub_zero] at *
    rw [h0]
    have h1 := real_inner_le_norm g z
    have h2 : ‖g‖ * ‖z‖ ≤ a * ‖z‖ := mul_le_mul_of_nonneg_right hg (norm_nonneg z)
    have h3 := hl z
    rw [lt_div_iff₀ hc1] at hz
    have h4 : c * ‖z‖ ^ 2 ≤ |c| * ‖z‖ ^ 2 :=
      mul_le_mul_of_nonneg_right (le_abs_self c) (sq_nonneg _)
    nlinarith [norm_nonneg z, mul_le_mul_of_nonneg_left hz.le (norm_nonneg z), sq_nonneg ‖z‖]

theorem subdiff_enet_zero {a b : ℝ} (ha : 0 ≤ a) (hb : 0 ≤ b) :
    subdiff (fun z : E => a * ‖z‖ + b * ‖z‖ ^ 2 / 2) 0 = Metric.closedBall 0 a := by
  apply Set.Subset.antisymm
  · rw [← frechet_zero_of_bounds (f := fun z : E => a * ‖z‖ + b * ‖z‖ ^ 2 / 2) (c := b / 2) ha
      (by simp) (fun z => by nlinarith [sq_nonneg ‖z‖, mul_nonneg hb (sq_nonneg ‖z‖)])
      (fun z => by nlinarith)]
    exact subdiff_subset_frechet _ _
  · intro g hg z
    rw [mem_closedBall_zero_iff] at hg
    simp only [norm_zero, sub_zero]
    have h1 := real_inner_le_norm g z
    nlinarith [norm_nonneg z, mul_nonneg hb (sq_nonneg ‖z‖), mul_le_mul_of_nonneg_right hg (norm_nonneg z)]

/-! ### MCP -/

omit [InnerProductSpace ℝ E] in
theorem mcp_lower {α γ : ℝ} (hγ : 0 < γ) (z : E) :
    α * ‖z‖ - 1 / (2 * γ) * ‖z‖ ^ 2 ≤ mcp α γ z := by
  unfold mcp
  split_ifs
  · apply le_of_eq; ring
  · have : γ * α ^ 2 / 2 - (α * ‖z‖ - 1 / (2 * γ) * ‖z‖ ^ 2) = 1 / (2 * γ) * (‖z‖ - γ * α) ^ 2 := by
      field_simp; ring
    have h2 : 0 ≤ 1 / (2 * γ) * (‖z‖ - γ * α) ^ 2 := by positivity
    linarith

omit [InnerProductSpace ℝ E] in
theorem mcp_upper {α γ : ℝ} (hα : 0 ≤ α) (hγ : 0 < γ) (z : E) : mcp α γ z ≤ α * ‖z‖ := by
  unfold mcp
  split_ifs with h
  · have : 0 ≤ ‖z‖ ^ 2 / (2 * γ) := by positivity
    linarith
  · have := not_le.mp h
    nlinarith [mul_nonneg hα (norm_nonneg z)]

omit [InnerProductSpace ℝ E] in
theorem mcp_zero {α γ : ℝ} (hα : 0 ≤ α) (hγ : 0 < γ) : mcp α γ (0 : E) = 0 := by
  unfold mcp; rw [norm_zero, if_pos (by positivity)]; simp

theorem frechet_mcp_zero {α γ : ℝ} (hα : 0 ≤ α) (hγ : 0 < γ) :
    frechetSubdiff (mcp α γ : E → ℝ) 0 = Metric.closedBall 0 α :=
  frechet_zero_of_bounds (c := 1 / (2 * γ)) hα (mcp_zero hα hγ) (mcp_lower hγ) (fun z => by
    have := mcp_upper hα hγ z
    have h2 : 0 ≤ 1 / (2 * γ) * ‖z‖ ^ 2 := by positivity
    linarith)

omit [InnerProductSpace ℝ E] in
theorem mcp_quad (α γ : ℝ) (z : E) :
    α * ‖z‖ - ‖z‖ ^ 2 / (2 * γ) = α * ‖z‖ + (-1 / γ) * ‖z‖ ^ 2 / 2 := by ring

theorem frechet_mcp_mid {α γ : ℝ} {x : E} (hx : x ≠ 0) (h : ‖x‖ < γ * α) :
    frechetSubdiff (mcp α γ : E → ℝ) x = {(α / ‖x‖ - 1 / γ) • x} := by
  apply frechetSubdiff_of_deriv
  have h1 := hasFDerivAt_enet (a := α) (b := -1 / γ) hx
  have e : α / ‖x‖ + -1 / γ = α / ‖x‖ - 1 / γ := by ring
  rw [e] at h1
  refine h1.congr_of_eventuallyEq ?_
  have hev : ∀ᶠ z in nhds x, ‖z‖ < γ * α :=
    (continuous_norm.tendsto x).eventually (gt_mem_nhds h)
  filter_upwards [hev] with z hz
  unfold mcp
  rw [if_pos hz.le, mcp_quad]

theorem frechet_mcp_out {α γ : ℝ} (hα : 0 ≤ α) (hγ : 0 < γ) {x : E} (hx : x ≠ 0) (h : γ * α ≤ ‖x‖) :
    frechetSubdiff (mcp α γ : E → ℝ) x = {0} := by
  apply frechetSubdiff_of_deriv
  rcases lt_or_eq_of_le h with h | h
  · have h0 : HasFDerivAt (fun _ : E => γ * α ^ 2 / 2) (0 : E →L[ℝ] ℝ) x := hasFDerivAt_const _ _
    have e : innerSL ℝ (0 : E) = (0 : E →L[ℝ] ℝ) := by simp
    rw [e]
    refine h0.congr_of_eventuallyEq ?_
    have hev : ∀ᶠ z in nhds x, γ * α < ‖z‖ :=
      (continuous_norm.tendsto x).eventually (lt_mem_nhds h)
    filter_upwards [hev] with z hz
    unfold mcp
    rw [if_neg (not_le.mpr hz)]
  · have hN : 0 < ‖x‖ := norm_pos_iff.mpr hx
    have hα0 : 0 < α := by
      rcases lt_or_eq_of_le hα with h' | h'
      · exact h'
      · rw [← h', mul_zero] at h; linarith
    have h1 := hasFDerivAt_enet (a := α) (b := -1 / γ) hx
    have e : α / ‖x‖ + -1 / γ = 0 := by rw [← h]; field_simp; ring
    rw [e, zero_smul] at h1
    have e0 : innerSL ℝ (0 : E) = (0 : E →L[ℝ] ℝ) := by simp
    rw [e0] at h1 ⊢
    rw [hasFDerivAt_iff_isLittleO] at h1 ⊢
    refine Asymptotics.IsBigO.trans_isLittleO ?_ h1
    apply Asymptotics.IsBigO.of_bound 1
    filter_upwards with z
    simp only [zero_apply, sub_zero, one_mul]
    have hfx : mcp α γ x = α * ‖x‖ + -1 / γ * ‖x‖ ^ 2 / 2 := by
      unfold mcp; rw [if_pos h.symm.le, mcp_quad]
    by_cases hz : ‖z‖ ≤ γ * α
    · rw [hfx]
      unfold mcp; rw [if_pos hz, mcp_quad]
    · have : mcp α γ z - mcp α γ x = 0 := by
        rw [hfx]; unfold mcp; rw [if_neg hz, ← h]; field_simp; ring
      rw [this, norm_zero]; exact norm_nonneg _

/-! ### Distances -/

theorem infDist_closedBall {a : ℝ} (ha : 0 ≤ a) (g : E) :
    Metric.infDist g (Metric.closedBall 0 a) = max 0 (‖g‖ - a) := by
  by_cases h : ‖g‖ ≤ a
  · rw [Metric.infDist_zero_of_mem (by rwa [mem_closedBall_zero_iff]), max_eq_left (by linarith)]
  · have hlt := not_le.mp h
    have hpos : 0 < ‖g‖ := lt_of_le_of_lt ha hlt
    rw [max_eq_right (by linarith)]
    apply le_antisymm
    · have hmem : (a / ‖g‖) • g ∈ Metric.closedBall (0:E) a := by
        rw [mem_closedBall_zero_iff, norm_smul, Real.norm_of_nonneg (by positivity)]
        apply le_of_eq; field_simp
      refine (Metric.infDist_le_dist_of_mem hmem).trans ?_
      rw [dist_eq_norm]
      have : g - (a / ‖g‖) • g = (1 - a / ‖g‖) • g := by rw [sub_smul, one_smul]
      rw [this, norm_smul, Real.norm_of_nonneg]
      · apply le_of_eq; field_simp
      · have : a / ‖g‖ ≤ 1 := (div_le_one hpos).mpr hlt.le
        linarith
    · rw [Metric.le_infDist (by exact ⟨0, by simpa using ha⟩)]
      intro y hy
      rw [mem_closedBall_zero_iff] at hy
      rw [dist_eq_norm]
      have := norm_sub_norm_le g y
      linarith

theorem isDist_ball {a : ℝ} (ha : 0 ≤ a) (g : E) :
    IsDist (-g) (Metric.closedBall 0 a) (max 0 (‖g‖ - a)) :=
  ⟨⟨0, by simpa using ha⟩, by rw [infDist_closedBall ha, norm_neg]⟩

omit [InnerProductSpace ℝ E] in
theorem isDist_singleton (g x : E) : IsDist (-g) {x} ‖g + x‖ :=
  ⟨⟨x, rfl⟩, by rw [Metric.infDist_singleton, dist_eq_norm, ← norm_neg]; congr 1; abel⟩

end General

/-! ### The maximum -/

theorem maxDist_fin (l : List ℝ) (hl : l ≠ []) :
    ∃ m ∈ l, (∀ a ∈ l, a ≤ m) ∧ maxDist (l.map XR.fin) = XR.fin m := by
  have aux : ∀ (l : List ℝ) (c : ℝ), ∃ m, (m = c ∨ m ∈ l) ∧ c ≤ m ∧ (∀ a ∈ l, a ≤ m) ∧
      (l.map XR.fin).foldl Scalar.fmax (XR.fin c) = XR.fin m := by
    intro l
    induction l with
    | nil => intro c; exact ⟨c, Or.inl rfl, le_rfl, by simp, rfl⟩
    | cons a l ih =>
      intro c
      obtain ⟨m, h1, h2, h3, h4⟩ := ih (max c a)
      refine ⟨m, ?_, (le_max_left c a).trans h2, ?_, ?_⟩
      · rcases h1 with h1 | h1
        · rcases max_choice c a with h | h <;> rw [h] at h1
          · exact Or.inl h1
          · right; rw [h1]; simp
        · right; exact List.mem_cons_of_mem _ h1
      · intro b hb
        rcases List.mem_cons.mp hb with rfl | hb
        · exact (le_max_right _ _).trans h2
        · exact h3 b hb
      · simp only [List.map_cons, List.foldl_cons, XR.s_fmax]; exact h4
  cases l with
  | nil => exact absurd rfl hl
  | cons a l =>
    obtain ⟨m, h1, h2, h3, h4⟩ := aux l a
    refine ⟨m, ?_, ?_, ?_⟩
    · rcases h1 with rfl | h1 <;> simp [*]
    · intro b hb
      rcases List.mem_cons.mp hb with rfl | hb
      · exact h2
      · exact h3 b hb
    · exact h4

theorem maxDist_vec {k : ℕ} (d : Fin k → ℝ) : IsMaxScore d (maxDist (vec d)) := by
  rcases Nat.eq_zero_or_pos k with rfl | hk
  · left; exact ⟨rfl, by simp [vec, maxDist]⟩
  · right
    have hne : List.ofFn d ≠ [] := by
      intro h
      have := congrArg List.length h
      simp at this; omega
    obtain ⟨m, h1, h2, h3⟩ := maxDist_fin (List.ofFn d) hne
    refine ⟨m, by rw [vec_eq_map, h3], ?_, ?_⟩
    · obtain ⟨i, hi⟩ := List.mem_ofFn.mp h1
      exact ⟨i, hi⟩
    · rintro a ⟨i, rfl⟩
      exact h2 _ (List.mem_ofFn.mpr ⟨i, rfl⟩)

theorem zip_ofFn {α β : Type} {k : ℕ} (f : Fin k → α) (g : Fin k → β) :
    (List.ofFn f).zip (List.ofFn g) = List.ofFn (fun i => (f i, g i)) := by
  apply List.ext_getElem (by simp)
  intro i h1 h2
  simp

theorem mapM_ok {α β : Type} (l : List α) (f : α → M β) (g : α → β) (h : ∀ a ∈ l, f a = .ok (g a)) :
    l.mapM f = .ok (l.map g) := by
  induction l with
  | nil => rfl
  | cons a l ih =>
    rw [List.mapM_cons, h a (by simp), ih (fun b hb => h b (List.mem_cons_of_mem _ hb))]
    rfl

theorem sepDistances_vec {k p : ℕ} (f : XR → XR → XR) (h : ℝ → ℝ → ℝ)
    (hf : ∀ a b, f (XR.fin a) (XR.fin b) = XR.fin (h a b)) (w : Fin p → ℝ) (g : Fin k → ℝ)
    (ws : Fin k → Fin p) :
    sepDistances f (vec w) (vec g) (idx ws) =
      .ok (vec (fun i => h (w (ws i)) (g i)), maxDist (vec (fun i => h (w (ws i)) (g i)))) := by
  unfold sepDistances
  have e : (vec g).zip (idx ws) = List.ofFn (fun i => (XR.fin (g i), ((ws i : Fin p) : ℕ))) :=
    zip_ofFn _ _
  have hm : ((vec g).zip (idx ws)).mapM (fun gj => (do
      let wj ← getM (vec w) gj.2
      pure (f wj gj.1) : M XR)) = .ok (vec (fun i => h (w (ws i)) (g i))) := by
    rw [e]
    have : (List.ofFn (fun i => (XR.fin (g i), ((ws i : Fin p) : ℕ)))) =
        (List.finRange k).map (fun i => (XR.fin (g i), ((ws i : Fin p) : ℕ))) := by
      rw [List.ofFn_eq_map]
    rw [this, List.mapM_map, mapM_ok (g := fun i => XR.fin (h (w (ws i)) (g i)))]
    · rw [vec, List.ofFn_eq_map]
    · intro i _
      simp only [Function.comp, getM_vec]
      show Except.ok _ = _
      rw [hf]
  rw [hm]
  rfl

theorem blockDistances_vec {k p T : ℕ} (f : List XR → List XR → M XR) (h : Euc T → Euc T → ℝ)
    (W : Fin p → Euc T) (g : Fin k → Euc T) (ws : Fin k → Fin p)
    (hf : ∀ i, f (evec (W (ws i))) (evec (g i)) = .ok (XR.fin (h (W (ws i)) (g i)))) :
    blockDistances f (mat (fun j => (W j).ofLp)) (mat (fun i => (g i).ofLp)) (idx ws) =
      .ok (vec (fun i => h (W (ws i)) (g i)), maxDist (vec (fun i => h (W (ws i)) (g i)))) := by
  unfold blockDistances
  have e : (mat (fun i => (g i).ofLp)).rows.zip (idx ws) =
      (List.finRange k).map (fun i => (evec (g i), ((ws i : Fin p) : ℕ))) := by
    rw [← List.ofFn_eq_map]; exact zip_ofFn _ _
  have hm : ((mat (fun i => (g i).ofLp)).rows.zip (idx ws)).mapM (fun gj => (do
      let Wj ← (mat (fun j => (W j).ofLp)).rowM gj.2
      f Wj gj.1 : M XR)) = .ok (vec (fun i => h (W (ws i)) (g i))) := by
    rw [e, List.mapM_map, mapM_ok (g := fun i => XR.fin (h (W (ws i)) (g i)))]
    · rw [vec, List.ofFn_eq_map]
    · intro i _
      have : (mat (fun j => (W j).ofLp)).rowM (ws i) = .ok (evec (W (ws i))) := by
        simp [Mat.rowM, getM, mat]
      simp only [Function.comp, this]
      exact hf i
  rw [hm]
  rfl

theorem anyNonzero_evec {T : ℕ} (v : Euc T) : anyNonzero (evec v) = true ↔ v ≠ 0 := by
  unfold anyNonzero
  rw [List.any_eq_true]
  constructor
  · rintro ⟨x, hx, h⟩ rfl
    obtain ⟨i, rfl⟩ := (List.mem_ofFn.mp hx)
    simp at h
  · intro hv
    by_contra hc
    apply hv
    ext i
    by_contra hi
    apply hc
    refine ⟨XR.fin (v.ofLp i), List.mem_ofFn.mpr ⟨i, rfl⟩, ?_⟩
    have hi' : v.ofLp i ≠ 0 := hi
    simp [hi']

theorem foldl_sq_evec {T : ℕ} (g w : Euc T) (F : XR × XR → XR) (c : ℝ)
    (hF : ∀ a b, F (XR.fin a, XR.fin b) = XR.fin (a + c * b)) :
    Scalar.sqrt (((evec g).zip (evec w)).foldl (fun s gw => Scalar.add s (Scalar.sq (F gw)))
      Scalar.zero) = XR.fin ‖g + c • w‖ := by
  have e : (evec g).zip (evec w) = (List.finRange T).map (fun i => (XR.fin (g.ofLp i), XR.fin (w.ofLp i))) := by
    rw [← List.ofFn_eq_map]; exact zip_ofFn _ _
  rw [e, List.foldl_map]
  have h2 : ∀ (l : List (Fin T)) (s : ℝ),
      l.foldl (fun s i => Scalar.add s (Scalar.sq (F (XR.fin (g.ofLp i), XR.fin (w.ofLp i))))) (XR.fin s) =
        XR.fin (s + (l.map (fun i => ((g + c • w).ofLp i) ^ 2)).sum) := by
    intro l
    induction l with
    | nil => intro s; simp
    | cons a l ih =>
      intro s
      rw [List.foldl_cons]
      simp only []
      rw [hF, XR.s_sq, XR.s_add, ih, List.map_cons, List.sum_cons]
      congr 1
      simp
      ring
  have h3 := h2 (List.finRange T) 0
  rw [XR.s_zero, h3, zero_add, ← List.ofFn_eq_map, List.sum_ofFn, ← EuclideanSpace.real_norm_sq_eq,
    XR.s_sqrt _ (by positivity), Real.sqrt_sq (norm_nonneg _)]

end Sglm
