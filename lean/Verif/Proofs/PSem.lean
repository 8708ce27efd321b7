import Verif.Proofs.Subdiff
import Verif.Proofs.BlockProx
import Verif.Proofs.ProxL05
import Verif.Proofs.Arrays

/-!
# Penalties on real data

`PSem pen φ px sc m0`: the penalty object `pen` computes the function `∑ φ`, the proximal map `px` and the
scores `sc`; `m0` is the maximal score it reports for an empty working set.
-/

namespace Sglm
open Scalar Spec

structure PSem {P : Type} [Penalty XR P] (pen : P) (φ : ℝ → ℝ) (px : ℝ → ℝ → ℝ) (sc : ℝ → ℝ → ℝ) (m0 : XR) :
    Prop where
  value : ∀ {p : ℕ} (w : Fin p → ℝ), Penalty.value pen (vec w) = .ok (XR.fin (∑ j, φ (w j)))
  prox : ∀ v s, 0 < s → Penalty.prox pen (XR.fin v) (XR.fin s) = .ok (XR.fin (px v s))
  dist : ∀ {p : ℕ} (w g : Fin p → ℝ) (l : List (Fin p)),
    Penalty.subdiffDistance pen (vec w) (l.map (fun j => XR.fin (g j))) (l.map Fin.val) =
      .ok (l.map (fun j => XR.fin (sc (w j) (g j))),
        if l = [] then m0 else maxDist (l.map (fun j => XR.fin (sc (w j) (g j)))))

/-- Same, for block penalties. -/
structure BSem {P : Type} [MTPenalty XR P] (pen : P) (T : ℕ) (φ : Euc T → ℝ) (px : Euc T → ℝ → Euc T)
    (sc : Euc T → Euc T → ℝ) (m0 : XR) : Prop where
  value : ∀ {p : ℕ} (W : Fin p → Euc T), MTPenalty.value pen (emat W) = .ok (XR.fin (∑ j, φ (W j)))
  prox : ∀ v s, 0 < s → MTPenalty.prox pen (evec v) (XR.fin s) = .ok (evec (px v s))
  dist : ∀ {p : ℕ} (W g : Fin p → Euc T) (l : List (Fin p)),
    MTPenalty.subdiffDistance pen (emat W) ⟨T, l.map (fun j => evec (g j))⟩ (l.map Fin.val) =
      .ok (l.map (fun j => XR.fin (sc (W j) (g j))),
        if l = [] then m0 else maxDist (l.map (fun j => XR.fin (sc (W j) (g j)))))

theorem maxDist_ite {α : Type} (l : List α) (f : α → XR) :
    maxDist (l.map f) = if l = [] then XR.ninf else maxDist (l.map f) := by
  split
  · rename_i h; subst h; rfl
  · rfl

theorem sepDistances_list {p : ℕ} (f : XR → XR → XR) (h : ℝ → ℝ → ℝ)
    (hf : ∀ a b, f (XR.fin a) (XR.fin b) = XR.fin (h a b)) (w g : Fin p → ℝ) (l : List (Fin p)) :
    sepDistances f (vec w) (l.map (fun j => XR.fin (g j))) (l.map Fin.val) =
      .ok (l.map (fun j => XR.fin (h (w j) (g j))),
        if l = [] then XR.ninf else maxDist (l.map (fun j => XR.fin (h (w j) (g j))))) := by
  rw [← maxDist_ite]
  unfold sepDistances
  rw [List.zip_map', List.mapM_map, mapM_ok (g := fun j => XR.fin (h (w j) (g j)))]
  · rfl
  · intro j _
    simp only [Function.comp, getM_vec]
    show Except.ok _ = _
    rw [hf]

theorem blockDistances_list {p T : ℕ} (f : List XR → List XR → M XR) (h : Euc T → Euc T → ℝ)
    (hf : ∀ a b, f (evec a) (evec b) = .ok (XR.fin (h a b))) (W g : Fin p → Euc T) (l : List (Fin p)) :
    blockDistances f (emat W) ⟨T, l.map (fun j => evec (g j))⟩ (l.map Fin.val) =
      .ok (l.map (fun j => XR.fin (h (W j) (g j))),
        if l = [] then XR.ninf else maxDist (l.map (fun j => XR.fin (h (W j) (g j))))) := by
  rw [← maxDist_ite]
  unfold blockDistances
  dsimp only
  rw [List.zip_map', List.mapM_map, mapM_ok (g := fun j => XR.fin (h (W j) (g j)))]
  · rfl
  · intro j _
    simp only [Function.comp, rowM_mat]
    exact hf _ _

/-! ## Separable penalties -/

noncomputable def l1Score (α a b : ℝ) : ℝ :=
  if a = 0 then max 0 (|b| - α) else |-b - (if a < 0 then -1 else 1) * α|

theorem l1_sem (α : ℝ) : PSem (L1.mk (XR.fin α)) (fun z => α * ‖z‖) (fun v s => softR v (α * s)) (l1Score α)
    XR.ninf where
  value w := by
    show Except.ok (L1.value _ _) = _
    unfold L1.value
    dsimp only
    rw [map_vec w Scalar.abs (fun x => |x|) (fun i => rfl), iterSum_vec, XR.s_mul, Finset.mul_sum]
    rfl
  prox v s _ := by
    show Except.ok (softThresholding _ _) = _
    rw [XR.s_mul, softThresholding_fin]
  dist w g l := by
    refine sepDistances_list _ (l1Score α) ?_ w g l
    intro a b
    unfold L1.dist l1Score
    simp only [XR.s_beq, XR.s_zero, decide_eq_true_eq, XR.s_abs, XR.s_sub, XR.s_fmax, XR.s_neg,
      XR.s_signum, XR.s_mul]
    split_ifs <;> rfl

noncomputable def enetScore (α ρ a b : ℝ) : ℝ :=
  if a = 0 then max 0 (|b| - α * ρ) else |-b - α * ((if a < 0 then -1 else 1) * ρ + (1 - ρ) * a)|

noncomputable def enetProxR (α ρ v s : ℝ) : ℝ := softR v (ρ * α * s) / (1 + s * (1 - ρ) * α)

theorem enet_sem (α ρ : ℝ) (hα : 0 ≤ α) (hρ1 : ρ ≤ 1) :
    PSem (L1PlusL2.mk (XR.fin α) (XR.fin ρ)) (enet α ρ) (enetProxR α ρ) (enetScore α ρ) XR.ninf where
  value w := by
    show Except.ok (L1PlusL2.value _ _) = _
    unfold L1PlusL2.value enet
    dsimp only
    rw [map_vec w Scalar.abs (fun x => |x|) (fun i => rfl), iterSum_vec, dot_vec]
    simp only [XR.s_mul, XR.s_add, XR.s_sub, XR.s_one, XR.s_lit]
    congr 2
    rw [← Finset.mul_sum, Finset.sum_add_distrib, Finset.mul_sum, Finset.mul_sum]
    congr 2
    apply Finset.sum_congr rfl
    intro j _
    rw [Real.norm_eq_abs, sq_abs]
    push_cast
    ring
  prox v s hs := by
    have hb : 0 ≤ s * (1 - ρ) * α := mul_nonneg (mul_nonneg hs.le (by linarith)) hα
    show Except.ok (L1PlusL2.prox _ _ _) = _
    unfold L1PlusL2.prox enetProxR
    simp only [XR.s_mul, softThresholding_fin, XR.s_one, XR.s_sub, XR.s_add]
    rw [XR.s_div _ _ (by linarith)]
  dist w g l := by
    refine sepDistances_list _ (enetScore α ρ) ?_ w g l
    intro a b
    unfold L1PlusL2.dist enetScore
    simp only [XR.s_beq, XR.s_zero, decide_eq_true_eq, XR.s_abs, XR.s_sub, XR.s_fmax, XR.s_neg,
      XR.s_signum, XR.s_mul, XR.s_add, XR.s_one]
    split_ifs <;> rfl

noncomputable def mcpScore (α γ a b : ℝ) : ℝ :=
  if a = 0 then max 0 (|b| - α)
  else if |a| < α * γ then |b + α * (if a < 0 then -1 else 1) - a / γ| else |b|

theorem mcp_value_eq (α γ : ℝ) (hγ : 0 < γ) (z : ℝ) :
    (if |z| < γ * α then α * |z| - z ^ 2 / (2 * γ) else γ * α ^ 2 / 2) = mcp α γ z := by
  unfold mcp
  rw [Real.norm_eq_abs, sq_abs]
  rcases lt_trichotomy |z| (γ * α) with h | h | h
  · rw [if_pos h, if_pos h.le]
  · have h2 : z ^ 2 = γ ^ 2 * α ^ 2 := by rw [← sq_abs, h, mul_pow]
    rw [if_neg h.not_lt, if_pos h.le, h2, h]
    field_simp
    ring
  · rw [if_neg h.not_gt, if_neg h.not_ge]

theorem mcp_sem (α γ : ℝ) (hα : 0 ≤ α) (hγ : 0 < γ) :
    PSem (MCP.mk (XR.fin α) (XR.fin γ)) (mcp α γ) (mcpProxR α γ) (mcpScore α γ) XR.ninf where
  value w := by
    show Except.ok (MCP.value _ _) = _
    unfold MCP.value
    dsimp only
    rw [map_vec w _ (fun z => mcp α γ z), iterSum_vec]
    intro i
    rw [← mcp_value_eq α γ hγ]
    have h2 : (2 : ℝ) * γ ≠ 0 := by positivity
    simp only [XR.s_abs, XR.s_mul, XR.s_lt, decide_eq_true_eq, XR.s_lit, XR.s_sq]
    norm_num
    simp only [XR.s_div _ _ h2, XR.s_div _ _ (two_ne_zero (α := ℝ)), XR.s_sub]
    split_ifs <;> rfl
  prox v s hs := by
    show Except.ok (MCP.prox _ _ _) = _
    congr 1
    by_cases hsγ : s ≤ γ
    · exact mcp_prox_fin v hs hγ hsγ
    · unfold MCP.prox mcpProxR
      have hg : γ / s ≠ 0 := by positivity
      have hlt : γ / s < 1 := (div_lt_one hs).mpr (not_le.mp hsγ)
      simp only [XR.s_mul, XR.s_div _ _ hs.ne', XR.s_abs, XR.s_le, XR.s_lt, XR.s_zero, XR.s_one,
        XR.s_div _ _ hg, XR.s_signum, XR.s_sub, decide_eq_true_eq]
      split_ifs with h1 h2 h3
      · rfl
      · rfl
      all_goals
        exfalso
        apply h2
        have : γ / s * (α * s) ≤ 1 * (α * s) := by gcongr
        linarith [not_le.mp h1]
  dist w g l := by
    refine sepDistances_list _ (mcpScore α γ) ?_ w g l
    intro a b
    unfold MCP.dist mcpScore
    simp only [XR.s_beq, XR.s_zero, decide_eq_true_eq, XR.s_abs, XR.s_sub, XR.s_fmax,
      XR.s_signum, XR.s_mul, XR.s_add, XR.s_lt, XR.s_div _ _ hγ.ne']
    split_ifs <;> rfl

/-- The MCP with infinite concavity parameter. -/
theorem mcp_inf_sem (α : ℝ) (hα : 0 < α) :
    PSem (MCP.mk (XR.fin α) XR.pinf) (fun z => α * ‖z‖) (fun v s => softR v (α * s)) (l1Score α) XR.ninf where
  value w := by
    show Except.ok (MCP.value _ _) = _
    unfold MCP.value
    dsimp only
    rw [map_vec w _ (fun z => α * ‖z‖), iterSum_vec]
    intro i
    have h1 : (XR.pinf *. XR.fin α : XR) = XR.pinf := by
      show XR.infTimes α = _
      unfold XR.infTimes; rw [if_pos hα]
    have h2 : ((lit 2 1 : XR) *. XR.pinf) = XR.pinf := by
      show XR.infTimes _ = _
      unfold XR.infTimes; rw [if_pos (by norm_num)]
    rw [h1, h2]
    simp only [XR.s_abs, XR.s_lt_pinf, if_true, XR.s_mul, XR.s_sq]
    show XR.fin _ -. XR.fin 0 = _
    rw [XR.s_sub, sub_zero, Real.norm_eq_abs]
  prox v s hs := by
    show Except.ok (MCP.prox _ _ _) = _
    have hτ : 0 < α * s := by positivity
    unfold MCP.prox softR
    have h0 : (XR.pinf /. XR.fin s : XR) = XR.pinf := by
      show (if s < 0 then XR.ninf else XR.pinf) = _
      rw [if_neg hs.not_gt]
    have h1 : (XR.pinf *. XR.fin (α * s) : XR) = XR.pinf := by
      show XR.infTimes _ = _
      unfold XR.infTimes; rw [if_pos hτ]
    have h3 : (XR.pinf <. XR.fin |v|) = false := rfl
    have h4 : ((one : XR) /. XR.pinf) = XR.fin 0 := rfl
    simp only [XR.s_mul, h0, h1, XR.s_abs, XR.s_le, h3, h4, decide_eq_true_eq]
    simp only [Bool.false_eq_true, if_false, XR.s_one, XR.s_sub, sub_zero, XR.s_signum, XR.s_mul, XR.s_zero]
    rw [XR.s_div _ _ one_ne_zero, div_one]
    congr 1
    by_cases hv : |v| ≤ α * s
    · rw [if_pos hv]
      have := abs_le.mp hv
      rw [if_neg (by linarith), if_neg (by linarith)]
    · rw [if_neg hv]
      congr 1
      by_cases hn : v < 0
      · rw [if_pos hn]
        rw [abs_of_neg hn] at hv ⊢
        rw [if_neg (by linarith), if_pos (by linarith)]
        ring
      · rw [if_neg hn]
        rw [abs_of_nonneg (not_lt.mp hn)] at hv ⊢
        rw [if_pos (by linarith)]
        ring
  dist w g l := by
    refine sepDistances_list _ (l1Score α) ?_ w g l
    intro a b
    unfold MCP.dist l1Score
    have h1 : (XR.fin α *. XR.pinf : XR) = XR.pinf := by
      show XR.infTimes α = _
      unfold XR.infTimes; rw [if_pos hα]
    have h2 : (XR.fin a /. XR.pinf : XR) = XR.fin 0 := rfl
    rw [h1, h2]
    simp only [XR.s_beq, XR.s_zero, decide_eq_true_eq, XR.s_abs, XR.s_sub, XR.s_fmax,
      XR.s_signum, XR.s_mul, XR.s_add, XR.s_lt_pinf, if_true, sub_zero]
    split_ifs <;> first | rfl | skip
    · congr 1; rw [← abs_neg]; congr 1; ring
    · congr 1; rw [← abs_neg]; congr 1; ring

/-- The `L05` penalty; its scores are constantly zero. -/
theorem l05_sem (α : ℝ) (hα : 0 < α) :
    PSem (L05.mk (XR.fin α)) (fun z => α * Real.sqrt |z|) (fun v s => prox05R v (s * α)) (fun _ _ => 0)
      (XR.fin 0) where
  value w := by
    show Except.ok (L05.value _ _) = _
    unfold L05.value
    dsimp only
    rw [map_vec w _ (fun x => Real.sqrt |x|) (fun i => by rw [XR.s_abs, XR.s_sqrt _ (abs_nonneg _)]), sum_vec,
      XR.s_mul, Finset.mul_sum]
  prox v s hs := by
    show Except.ok (prox05 _ _) = _
    dsimp only
    rw [XR.s_mul, prox05_fin (by positivity)]
  dist w g l := by
    show Except.ok (List.replicate (l.map Fin.val).length (XR.fin 0), XR.fin 0) = _
    rw [List.length_map]
    congr 1
    refine Prod.ext ?_ ?_
    · exact (List.map_const' ..).symm
    · dsimp only
      split
      · rfl
      · rename_i h
        have : ∀ {q : ℕ} (l : List (Fin q)), l ≠ [] → maxDist (l.map fun _ => XR.fin 0) = XR.fin 0 := by
          intro q l hl
          obtain ⟨m, h1, h2, h3⟩ := maxDist_fin (l.map fun _ => (0 : ℝ)) (by simpa using hl)
          rw [List.map_map] at h3
          refine h3.trans ?_
          obtain ⟨_, _, rfl⟩ := List.mem_map.mp h1
          rfl
        exact (this l h).symm

/-- The elastic net with `l1_ratio = 1`. -/
theorem enet_one_sem (α : ℝ) (hα : 0 ≤ α) :
    PSem (L1PlusL2.mk (XR.fin α) (XR.fin 1)) (fun z => α * ‖z‖) (fun v s => softR v (α * s)) (l1Score α)
      XR.ninf := by
  have h := enet_sem α 1 hα le_rfl
  have e1 : (enet α 1 : ℝ → ℝ) = fun z => α * ‖z‖ := by funext z; unfold enet; ring
  have e2 : enetProxR α 1 = fun v s => softR v (α * s) := by
    funext v s
    unfold enetProxR
    rw [one_mul, sub_self, mul_zero, zero_mul, add_zero, div_one]
  have e3 : enetScore α 1 = l1Score α := by
    funext a b
    unfold enetScore l1Score
    split_ifs <;> (congr 1; ring)
  rwa [e1, e2, e3] at h

end Sglm
