import Verif.Proofs.Problem

/-!
# Monotone decrease of the objective
-/

namespace Sglm
open Scalar Spec

section
variable {E : Type} [NormedAddCommGroup E] [InnerProductSpace ℝ E] {p : ℕ}

/-- A composite objective whose coordinate updates are majorisation-minimisation steps. -/
structure RProb.MM (R : RProb E p) (f : (Fin p → E) → ℝ) (φ : E → ℝ) : Prop where
  obj : ∀ w, R.F w = f w + ∑ j, φ (w j)
  nonneg : ∀ j, 0 ≤ R.L j
  major : ∀ w j v, f (Function.update w j v) ≤
    f w + inner ℝ (R.G w j) (v - w j) + R.L j * ‖v - w j‖ ^ 2 / 2
  prox : ∀ j v, R.L j ≠ 0 → IsProx (fun z => (1 / R.L j) * φ z) v (R.px v (1 / R.L j))

omit [NormedAddCommGroup E] [InnerProductSpace ℝ E] in
theorem sum_update (φ : E → ℝ) (w : Fin p → E) (j : Fin p) (x : E) :
    ∑ k, φ (Function.update w j x k) = ∑ k, φ (w k) - φ (w j) + φ x := by
  rw [← Finset.add_sum_erase _ _ (Finset.mem_univ j), ← Finset.add_sum_erase (a := j) _ (fun k => φ (w k))
    (Finset.mem_univ j), Function.update_self]
  have : ∑ k ∈ Finset.univ.erase j, φ (Function.update w j x k) = ∑ k ∈ Finset.univ.erase j, φ (w k) :=
    Finset.sum_congr rfl fun k hk => by rw [Function.update_of_ne (Finset.ne_of_mem_erase hk)]
  rw [this]
  ring

/-- Proximal gradient steps do not increase the model. -/
theorem prox_grad_step {L : ℝ} (hL : 0 < L) {φ : E → ℝ} {w g x : E}
    (h : IsProx (fun z => (1 / L) * φ z) (w - (1 / L) • g) x) :
    inner ℝ g (x - w) + L * ‖x - w‖ ^ 2 / 2 + φ x ≤ φ w := by
  have h1 := h w
  have e1 : w - (w - (1 / L) • g) = (1 / L) • g := by abel
  have e2 : x - (w - (1 / L) • g) = (x - w) + (1 / L) • g := by abel
  rw [e1, e2, norm_add_sq_real, inner_smul_right, real_inner_comm] at h1
  have h2 : ‖x - w‖ ^ 2 / 2 + (1 / L) * inner ℝ g (x - w) + (1 / L) * φ x ≤ (1 / L) * φ w := by linarith
  have h3 := mul_le_mul_of_nonneg_left h2 hL.le
  have e3 : L * (‖x - w‖ ^ 2 / 2 + (1 / L) * inner ℝ g (x - w) + (1 / L) * φ x) =
      inner ℝ g (x - w) + L * ‖x - w‖ ^ 2 / 2 + φ x := by field_simp; ring
  have e4 : L * ((1 / L) * φ w) = φ w := by field_simp
  rw [e3, e4] at h3
  exact h3

theorem RProb.MM.step_le {R : RProb E p} {f : (Fin p → E) → ℝ} {φ : E → ℝ} (h : R.MM f φ) (w : Fin p → E)
    (j : Fin p) : R.F (R.step w j) ≤ R.F w := by
  unfold RProb.step
  split
  · exact le_rfl
  · rename_i h0
    have hL : 0 < R.L j := lt_of_le_of_ne (h.nonneg j) (Ne.symm h0)
    rw [h.obj, h.obj, sum_update]
    have h1 := h.major w j (R.px (w j - (1 / R.L j) • R.G w j) (1 / R.L j))
    have h2 := prox_grad_step hL (h.prox j (w j - (1 / R.L j) • R.G w j) h0)
    linarith

theorem RProb.MM.epoch_le {R : RProb E p} {f : (Fin p → E) → ℝ} {φ : E → ℝ} (h : R.MM f φ) (w : Fin p → E)
    (l : List (Fin p)) : R.F (l.foldl R.step w) ≤ R.F w := by
  induction l generalizing w with
  | nil => exact le_rfl
  | cons j l ih => exact le_trans (ih _) (h.step_le w j)

variable [Coord E]

/-- Runs do not increase the objective. -/
theorem RProb.MM.outer_le {R : RProb E p} {f : (Fin p → E) → ℝ} {φ : E → ℝ} (h : R.MM f φ) {srt : Argsort XR}
    (hs : ArgsortSpec srt) (cfg : Solver XR) {ws0 : ℕ} (h0 : ws0 ≤ p) (m : ℕ) (w v : Fin p → E) (k : ℕ)
    (hr : (R.skel srt cfg ws0).outer m w = .ok (v, k)) : R.F v ≤ R.F w :=
  (Tri.elim_ok ((R.hoare hs cfg h0 (fun v => R.F v ≤ R.F w) (fun v j hv => le_trans (h.step_le v j) hv)
    (fun _ _ _ hv _ hlt => le_trans hlt.le hv)).outer m w le_rfl) hr).1

theorem RProb.MM.run_le {R : RProb E p} {f : (Fin p → E) → ℝ} {φ : E → ℝ} (h : R.MM f φ) {srt : Argsort XR}
    (hs : ArgsortSpec srt) (cfg : Solver XR) (v : Fin p → E) (k : ℕ)
    (hr : R.run srt cfg = .ok (v, k)) : R.F v ≤ R.F (fun _ => 0) :=
  h.outer_le hs cfg (Nat.min_le_right _ _) _ _ _ _ hr

/-- More iterations do not give a larger objective. -/
theorem RProb.MM.run_mono {R : RProb E p} {f : (Fin p → E) → ℝ} {φ : E → ℝ} (h : R.MM f φ) {srt : Argsort XR}
    (hs : ArgsortSpec srt) (cfg : Solver XR) {m m' : ℕ} (hm : m ≤ m') (v v' : Fin p → E) (k k' : ℕ)
    (hr : R.run srt (cfg.setMaxIterations m) = .ok (v, k))
    (hr' : R.run srt (cfg.setMaxIterations m') = .ok (v', k')) : R.F v' ≤ R.F v := by
  obtain ⟨d, rfl⟩ := Nat.exists_eq_add_of_le hm
  have hr : (R.skel srt cfg (ws0CD cfg p)).outer m (fun _ => 0) = .ok (v, k) := hr
  have hr' : (R.skel srt cfg (ws0CD cfg p)).outer (m + d) (fun _ => 0) = .ok (v', k') := hr'
  rw [Skel.outer_add, hr] at hr'
  dsimp only [bind, Except.bind] at hr'
  cases h2 : (R.skel srt cfg (ws0CD cfg p)).outer d v with
  | error e => rw [h2] at hr'; cases hr'
  | ok q =>
    obtain ⟨v2, k2⟩ := q
    rw [h2] at hr'
    injection hr' with hr'
    injection hr' with h3 h4
    rw [← h3]
    exact h.outer_le hs cfg (Nat.min_le_right _ _) d v v2 k2 h2

end

/-! ## The concrete problems -/

variable {n p T : ℕ}

theorem stepsOf_lipschitz (D : Design n p) (hD : D.Canonical) (k : LossKind) (j : Fin p) :
    stepsOf D k j = lipschitz D k j := by
  rw [stepsOf_canonical D hD]
  cases k
  · show (∑ i, D.matrix i j * D.matrix i j) / (n : ℝ) = (∑ i, D.matrix i j ^ 2) / n
    congr 1; exact Finset.sum_congr rfl fun i _ => by ring
  · show (∑ i, D.matrix i j * D.matrix i j) / (4 * (n : ℝ)) = (∑ i, D.matrix i j ^ 2) / (4 * n)
    congr 1; exact Finset.sum_congr rfl fun i _ => by ring

/-- The proximal operators of the convex penalties, by subgradients. -/
theorem proxOf_subdiff (pen : Pen) (hv : pen.Valid) (hc : pen.Convex) (v : ℝ) {s : ℝ} (hs : 0 < s) :
    v - proxOf pen v s ∈ subdiff (fun z => s * pen.fn z) (proxOf pen v s) := by
  cases pen with
  | l1 α =>
    have h := enet_subdiff_real (a := α * s) (b := 0) (v := v) (mul_nonneg hv hs.le) le_rfl
    have e : (fun z : ℝ => α * s * ‖z‖ + 0 * ‖z‖ ^ 2 / 2) = fun z => s * (α * |z|) := by
      funext z; rw [Real.norm_eq_abs]; ring
    rw [e, add_zero, div_one] at h
    exact h
  | enet α ρ =>
    obtain ⟨h1, h2, h3⟩ := hv
    have h := enet_subdiff_real (a := ρ * α * s) (b := s * (1 - ρ) * α) (v := v)
      (by positivity) (mul_nonneg (mul_nonneg hs.le (by linarith)) h1)
    have e : (fun z : ℝ => ρ * α * s * ‖z‖ + s * (1 - ρ) * α * ‖z‖ ^ 2 / 2) = fun z => s * enet α ρ z := by
      funext z; unfold enet; ring
    rw [e] at h
    exact h
  | mcp α γ => exact hc.elim
  | l05 α => exact hc.elim

theorem proxOf_isProx (pen : Pen) (hv : pen.Valid) (v : ℝ) {s : ℝ} (hs : 0 < s)
    (hm : ∀ α γ, pen = .mcp α γ → s ≤ γ) : IsProx (fun z => s * pen.fn z) v (proxOf pen v s) := by
  cases pen with
  | l1 α => exact IsUniqueProx.isProx (prox_of_subdiff (proxOf_subdiff (.l1 α) hv trivial v hs))
  | enet α ρ => exact IsUniqueProx.isProx (prox_of_subdiff (proxOf_subdiff (.enet α ρ) hv trivial v hs))
  | mcp α γ => exact mcp_prox_real hv.1 hv.2 hs (hm α γ rfl)
  | l05 α =>
    have h := (prox05_core (lam := s * α) (mul_pos hs hv) v).1
    have e : (fun z : ℝ => s * α * Real.sqrt |z|) = fun z => s * (α * Real.sqrt |z|) := by
      funext z; ring
    rw [e] at h
    exact h

theorem loss_major (hn : 0 < n) (X : Fin n → Fin p → ℝ) (y : Fin n → ℝ) (k : LossKind) (hy : k.LabelsOK y)
    (w : Fin p → ℝ) (j : Fin p) (v : ℝ) :
    k.loss y (fit X (Function.update w j v)) ≤
      k.loss y (fit X w) + gradOf X y k (fit X w) j * (v - w j) + stepsOf (.dense X) k j * (v - w j) ^ 2 / 2 := by
  rw [fit_update]
  cases k with
  | quadratic => exact (quad_expand hn X y (fit X w) j (v - w j)).le
  | logistic => exact log_major X y hy (fit X w) j (v - w j)

theorem prob1_mm (hn : 0 < n) (D : Design n p) (hD : D.Canonical) (y : Fin n → ℝ) (k : LossKind)
    (hy : k.LabelsOK y) (pen : Pen) (hv : pen.Valid) (hst : pen.StepOK D k) :
    (prob1 D y k pen).MM (fun w => k.loss y (fit D.matrix w)) pen.fn where
  obj _ := rfl
  nonneg := stepsOf_nonneg D k
  major w j v := by
    refine (loss_major hn D.matrix y k hy w j v).trans (le_of_eq ?_)
    show _ = k.loss y (fit D.matrix w) + (v - w j) * gradOf D.matrix y k (fit D.matrix w) j +
      stepsOf D k j * ‖v - w j‖ ^ 2 / 2
    rw [stepsOf_canonical D hD, Real.norm_eq_abs, sq_abs]
    ring
  prox j v h0 := by
    have hL : 0 < stepsOf D k j := lt_of_le_of_ne (stepsOf_nonneg D k j) (Ne.symm h0)
    refine proxOf_isProx pen hv v (by positivity : 0 < 1 / stepsOf D k j) fun α γ e => ?_
    subst e
    have := hst j (by rw [← stepsOf_lipschitz D hD]; exact h0)
    rw [← stepsOf_lipschitz D hD] at this
    exact (div_le_iff₀ hL).mpr this

/-- The proximal operators of the convex block penalties, by subgradients. -/
theorem bproxOf_subdiff (pen : BPen) (hv : pen.Valid) (hc : pen.Convex) (v : Euc T) {s : ℝ} (hs : 0 < s) :
    v - bproxOf pen v s ∈ subdiff (fun z => s * pen.fn z) (bproxOf pen v s) := by
  cases pen with
  | l21 α =>
    have ha : 0 < α * s := mul_pos hv hs
    have h := block_enet_subdiff (a := α * s) (b := 0) v ha.le le_rfl (Or.inl ha)
    have e : (fun z : Euc T => α * s * ‖z‖ + 0 * ‖z‖ ^ 2 / 2) = fun z => s * (α * ‖z‖) := by
      funext z; ring
    rw [e, add_zero, div_one, one_smul] at h
    exact h
  | enet α ρ =>
    obtain ⟨h1, h2, h3⟩ := hv
    have ha : 0 < α * s * ρ := by positivity
    have h := block_enet_subdiff (a := α * s * ρ) (b := s * (1 - ρ) * α) v ha.le
      (mul_nonneg (mul_nonneg hs.le (by linarith)) h1.le) (Or.inl ha)
    have e : (fun z : Euc T => α * s * ρ * ‖z‖ + s * (1 - ρ) * α * ‖z‖ ^ 2 / 2) = fun z => s * enet α ρ z := by
      funext z; unfold enet; ring
    rw [e] at h
    exact h
  | mcp α γ => exact hc.elim

theorem bproxOf_isProx (pen : BPen) (hv : pen.Valid) (v : Euc T) {s : ℝ} (hs : 0 < s)
    (hm : ∀ α γ, pen = .mcp α γ → s ≤ γ) : IsProx (fun z => s * pen.fn z) v (bproxOf pen v s) := by
  cases pen with
  | l21 α => exact IsUniqueProx.isProx (prox_of_subdiff (bproxOf_subdiff (.l21 α) hv trivial v hs))
  | enet α ρ => exact IsUniqueProx.isProx (prox_of_subdiff (bproxOf_subdiff (.enet α ρ) hv trivial v hs))
  | mcp α γ => exact block_mcp_prox v hv.1 hv.2 hs (hm α γ rfl)

theorem probMT_mm (hn : 0 < n) (D : Design n p) (hD : D.Canonical) (Y : Fin n → Fin T → ℝ) (pen : BPen)
    (hv : pen.Valid) (hst : pen.StepOK D) :
    (probMT D Y pen).MM (fun W => mtLoss Y (fitMT D.matrix (fun j => (W j).ofLp))) pen.fn where
  obj _ := rfl
  nonneg := stepsOf_nonneg D .quadratic
  major W j v := by
    have e : (fun k => ((Function.update W j v) k).ofLp) = Function.update (fun k => (W k).ofLp) j v.ofLp := by
      funext k
      by_cases h : k = j
      · subst h; rw [Function.update_self, Function.update_self]
      · rw [Function.update_of_ne h, Function.update_of_ne h]
    beta_reduce
    rw [e, fitMT_update]
    refine (mt_expand hn D.matrix Y (fitMT D.matrix fun k => (W k).ofLp) j (fun t => v.ofLp t - (W j).ofLp t)).le.trans
      (le_of_eq ?_)
    have e1 : inner ℝ ((probMT D Y pen).G W j) (v - W j) =
        ∑ t, mtGrad D.matrix Y (fitMT D.matrix fun k => (W k).ofLp) j t * (v.ofLp t - (W j).ofLp t) := by
      rw [PiLp.inner_apply]
      exact Finset.sum_congr rfl fun t _ => mul_comm _ _
    have e2 : ‖v - W j‖ ^ 2 = ∑ t, (v.ofLp t - (W j).ofLp t) ^ 2 := by
      rw [EuclideanSpace.real_norm_sq_eq]; rfl
    have e3 : (probMT D Y pen).L j = quadStep D.matrix j := congrFun (stepsOf_canonical D hD .quadratic) j
    rw [e1, e2, e3]
  prox j v h0 := by
    have hL : 0 < stepsOf D .quadratic j := lt_of_le_of_ne (stepsOf_nonneg D _ j) (Ne.symm h0)
    refine bproxOf_isProx pen hv v (by positivity : 0 < 1 / stepsOf D .quadratic j) fun α γ e => ?_
    subst e
    have := hst j (by rw [← stepsOf_lipschitz D hD]; exact h0)
    rw [← stepsOf_lipschitz D hD] at this
    exact (div_le_iff₀ hL).mpr this

end Sglm
