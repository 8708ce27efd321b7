import Verif.Proofs.RelRun

/-!
# Sign changes: losses, proximal operators and scores
-/

namespace Sglm
open Scalar Spec
variable {n p T : ℕ}

theorem softR_neg (v t : ℝ) (ht : 0 ≤ t) : softR (-v) t = -softR v t := by
  unfold softR
  split_ifs <;> linarith

theorem proxOf_neg (pen : Pen) (hv : pen.Valid) (v s : ℝ) (hs : 0 < s) : proxOf pen (-v) s = -proxOf pen v s := by
  cases pen with
  | l1 α => exact softR_neg v _ (mul_nonneg hv hs.le)
  | enet α ρ =>
    show enetProxR α ρ (-v) s = -enetProxR α ρ v s
    unfold enetProxR
    rw [softR_neg v _ (mul_nonneg (mul_nonneg hv.2.1 hv.1) hs.le), neg_div]
  | mcp α γ =>
    show mcpProxR α γ (-v) s = -mcpProxR α γ v s
    unfold mcpProxR
    rw [abs_neg]
    split_ifs with h1 h2 h3 h4 h4
    · rw [neg_zero]
    · rfl
    · linarith
    · ring
    · ring
    · have : v = 0 := by linarith
      subst this
      exact absurd (by rw [abs_zero]; exact mul_nonneg hv.1 hs.le) h1
  | l05 α =>
    show prox05R (-v) (s * α) = -prox05R v (s * α)
    unfold prox05R
    rw [abs_neg]
    split_ifs
    · rw [neg_zero]
    · unfold halfR; rw [abs_neg]; ring

theorem sgn_neg {a : ℝ} (h : a ≠ 0) : (if -a < 0 then -1 else 1 : ℝ) = -(if a < 0 then -1 else 1) := by
  rcases lt_or_gt_of_ne h with h | h
  · rw [if_neg (by linarith), if_pos h, neg_neg]
  · rw [if_pos (by linarith), if_neg (by linarith)]

theorem scoreOf_neg (pen : Pen) (a b : ℝ) : scoreOf pen (-a) (-b) = scoreOf pen a b := by
  cases pen with
  | l1 α =>
    show l1Score α (-a) (-b) = l1Score α a b
    unfold l1Score
    by_cases h : a = 0
    · subst h; simp
    · rw [if_neg (neg_ne_zero.mpr h), if_neg h, sgn_neg h, ← abs_neg]
      congr 1; ring
  | enet α ρ =>
    show enetScore α ρ (-a) (-b) = enetScore α ρ a b
    unfold enetScore
    by_cases h : a = 0
    · subst h; simp
    · rw [if_neg (neg_ne_zero.mpr h), if_neg h, sgn_neg h, ← abs_neg]
      congr 1; ring
  | mcp α γ =>
    show mcpScore α γ (-a) (-b) = mcpScore α γ a b
    unfold mcpScore
    by_cases h : a = 0
    · subst h; simp
    · rw [if_neg (neg_ne_zero.mpr h), if_neg h, sgn_neg h, abs_neg, abs_neg]
      rw [← abs_neg (-b + α * _ - _)]
      congr 2; ring
  | l05 α => rfl

theorem penFn_neg (pen : Pen) (a : ℝ) : pen.fn (-a) = pen.fn a := by
  cases pen with
  | l1 α => show α * |-a| = α * |a|; rw [abs_neg]
  | enet α ρ => show enet α ρ (-a) = enet α ρ a; unfold enet; rw [norm_neg]
  | mcp α γ => show mcp α γ (-a) = mcp α γ a; unfold mcp; rw [norm_neg]
  | l05 α => show α * Real.sqrt |-a| = α * Real.sqrt |a|; rw [abs_neg]

theorem fit_neg (X : Fin n → Fin p → ℝ) (w : Fin p → ℝ) : fit X (fun j => -w j) = fun i => -fit X w i := by
  funext i
  unfold fit
  rw [← Finset.sum_neg_distrib]
  exact Finset.sum_congr rfl fun j _ => mul_neg _ _

theorem loss_neg (k : LossKind) (y u : Fin n → ℝ) : k.loss (fun i => -y i) (fun i => -u i) = k.loss y u := by
  cases k with
  | quadratic =>
    show quadLoss _ _ = quadLoss _ _
    unfold quadLoss
    congr 1
    exact Finset.sum_congr rfl fun i _ => by ring
  | logistic =>
    show logLoss _ _ = logLoss _ _
    unfold logLoss
    congr 1
    exact Finset.sum_congr rfl fun i _ => by rw [neg_mul_neg]

theorem gradOf_neg (X : Fin n → Fin p → ℝ) (k : LossKind) (y u : Fin n → ℝ) (j : Fin p) :
    gradOf X (fun i => -y i) k (fun i => -u i) j = -gradOf X y k u j := by
  cases k with
  | quadratic =>
    show quadGrad _ _ _ _ = -quadGrad _ _ _ _
    unfold quadGrad
    simp only [mul_neg, Finset.sum_neg_distrib]
    ring
  | logistic =>
    show logGrad _ _ _ _ = -logGrad _ _ _ _
    unfold logGrad
    simp only [mul_neg, neg_mul, neg_neg, Finset.sum_neg_distrib]
    ring

/-- Negated targets. -/
theorem prob1_neg (D : Design n p) (y : Fin n → ℝ) (k : LossKind) (pen : Pen) (hv : pen.Valid) :
    RProb.RMap (prob1 D y k pen) (prob1 D (fun i => -y i) k pen) (fun x => -x) (-1) :=
  RProb.RMap.ofNeg (fun x c => rfl)
    (fun w => by
      show k.loss _ (fit D.matrix fun j => -w j) + ∑ j, pen.fn (-w j) = k.loss _ _ + ∑ j, pen.fn (w j)
      rw [fit_neg, loss_neg]
      simp only [penFn_neg])
    (fun w j => by
      show gradOf D.matrix _ k (fit D.matrix fun j => -w j) j = -gradOf D.matrix y k _ j
      rw [fit_neg, gradOf_neg])
    rfl (fun v s hs => proxOf_neg pen hv v s hs) (fun a b => scoreOf_neg pen a b) rfl (stepsOf_nonneg D k)

/-! ## Multi-task -/

theorem blockSoftR_neg (v : Euc T) (t : ℝ) : blockSoftR (-v) t = -blockSoftR v t := by
  unfold blockSoftR
  rw [norm_neg]
  split_ifs
  · rw [neg_zero]
  · rw [smul_neg]

theorem bproxOf_neg (pen : BPen) (v : Euc T) (s : ℝ) : bproxOf pen (-v) s = -bproxOf pen v s := by
  cases pen with
  | l21 α => exact blockSoftR_neg v _
  | enet α ρ =>
    show blockEnetProxR α ρ (-v) s = -blockEnetProxR α ρ v s
    unfold blockEnetProxR
    rw [blockSoftR_neg, smul_neg]
  | mcp α γ =>
    show blockMcpProxR α γ (-v) s = -blockMcpProxR α γ v s
    unfold blockMcpProxR
    rw [norm_neg]
    split_ifs
    · rw [neg_zero]
    · rfl
    · rw [smul_neg]

theorem bscoreOf_neg (pen : BPen) (a b : Euc T) : bscoreOf pen (-a) (-b) = bscoreOf pen a b := by
  cases pen with
  | l21 α =>
    show l21Score α (-a) (-b) = l21Score α a b
    unfold l21Score
    by_cases h : a = 0
    · subst h; simp
    · rw [if_neg (neg_ne_zero.mpr h), if_neg h, norm_neg, ← norm_neg]
      congr 1
      rw [smul_neg, neg_add, neg_neg, neg_neg]
  | enet α ρ =>
    show blockEnetScore α ρ (-a) (-b) = blockEnetScore α ρ a b
    unfold blockEnetScore
    by_cases h : a = 0
    · subst h; simp
    · rw [if_neg (neg_ne_zero.mpr h), if_neg h, norm_neg, ← norm_neg]
      congr 1
      rw [smul_neg, neg_add, neg_neg, neg_neg]
  | mcp α γ =>
    show blockMcpScore α γ (-a) (-b) = blockMcpScore α γ a b
    unfold blockMcpScore
    by_cases h : a = 0
    · subst h; simp
    · rw [if_neg (neg_ne_zero.mpr h), if_neg h, norm_neg, norm_neg, smul_neg, norm_neg]

theorem bpenFn_neg (pen : BPen) (a : Euc T) : pen.fn (-a) = pen.fn a := by
  cases pen with
  | l21 α => show α * ‖-a‖ = α * ‖a‖; rw [norm_neg]
  | enet α ρ => show enet α ρ (-a) = enet α ρ a; unfold enet; rw [norm_neg]
  | mcp α γ => show mcp α γ (-a) = mcp α γ a; unfold mcp; rw [norm_neg]

theorem fitMT_neg (X : Fin n → Fin p → ℝ) (W : Fin p → Euc T) :
    (fitMT X fun j => (-W j).ofLp) = fun i t => -fitMT X (fun j => (W j).ofLp) i t := by
  funext i t
  unfold fitMT
  rw [← Finset.sum_neg_distrib]
  exact Finset.sum_congr rfl fun j _ => mul_neg _ _

/-- Negated targets. -/
theorem probMT_neg (D : Design n p) (Y : Fin n → Fin T → ℝ) (pen : BPen) :
    RProb.RMap (probMT D Y pen) (probMT D (fun i t => -Y i t) pen) (fun x => -x) (-1) :=
  RProb.RMap.ofNeg (fun x c => by
      show extV (-x).ofLp _ = -extV x.ofLp _
      unfold extV
      split
      · rfl
      · rw [neg_zero])
    (fun W => by
      show mtLoss _ (fitMT D.matrix fun j => (-W j).ofLp) + ∑ j, pen.fn (-W j) = mtLoss _ _ + ∑ j, pen.fn (W j)
      rw [fitMT_neg]
      simp only [bpenFn_neg]
      congr 1
      unfold mtLoss
      congr 1
      exact Finset.sum_congr rfl fun i _ => Finset.sum_congr rfl fun t _ => by ring)
    (fun W j => by
      ext t
      rw [PiLp.neg_apply]
      show mtGrad D.matrix (fun i t => -Y i t) (fitMT D.matrix fun j => (-W j).ofLp) j t =
        -mtGrad D.matrix Y (fitMT D.matrix fun j => (W j).ofLp) j t
      rw [fitMT_neg]
      unfold mtGrad
      simp only [mul_neg, Finset.sum_neg_distrib]
      ring)
    rfl (fun v s _ => bproxOf_neg pen v s) (fun a b => bscoreOf_neg pen a b) rfl (stepsOf_nonneg D .quadratic)

/-! ## One task -/

/-- A row with one task. -/
noncomputable def row1 (x : ℝ) : Euc 1 := WithLp.toLp 2 (fun _ => x)

theorem row1_norm (x : ℝ) : ‖row1 x‖ = |x| := by
  rw [EuclideanSpace.norm_eq, Fin.sum_univ_one]
  show Real.sqrt (‖x‖ ^ 2) = _
  rw [Real.norm_eq_abs, Real.sqrt_sq (abs_nonneg x)]

theorem row1_smul (c x : ℝ) : c • row1 x = row1 (c * x) := rfl

theorem row1_zero {x : ℝ} : row1 x = 0 ↔ x = 0 := by
  rw [← norm_eq_zero, row1_norm, abs_eq_zero]

theorem row1_soft (v t : ℝ) (ht : 0 < t) : blockSoftR (row1 v) t = row1 (softR v t) := by
  unfold blockSoftR softR
  rw [row1_norm, row1_smul]
  by_cases h : |v| < t
  · rw [if_pos h, if_neg (by linarith [le_abs_self v]), if_neg (by linarith [neg_abs_le v])]
    exact (row1_zero.mpr rfl).symm
  · rw [if_neg h]
    push Not at h
    congr 1
    rcases le_or_gt 0 v with h0 | h0
    · rw [abs_of_nonneg h0] at h ⊢
      have hv : v ≠ 0 := by intro h1; linarith
      rcases h.eq_or_lt with h1 | h1
      · rw [if_neg (by linarith), if_neg (by linarith)]
        subst h1; field_simp; ring
      · rw [if_pos h1]; field_simp
    · rw [abs_of_neg h0] at h ⊢
      have hv : -v ≠ 0 := by intro h1; linarith
      rcases h.eq_or_lt with h1 | h1
      · rw [if_neg (by linarith), if_neg (by linarith)]
        rw [← h1, div_self (by linarith)]; ring
      · rw [if_neg (by linarith), if_pos (by linarith)]
        have hv' : v ≠ 0 := by intro h; linarith
        field_simp; ring

theorem row1_score (α a b : ℝ) : l21Score α (row1 a) (row1 b) = l1Score α a b := by
  unfold l21Score l1Score
  by_cases h : a = 0
  · rw [if_pos h, if_pos (row1_zero.mpr h), row1_norm]
  · rw [if_neg h, if_neg (fun h' => h (row1_zero.mp h')), row1_norm, row1_smul]
    have : row1 b + row1 (α / |a| * a) = row1 (b + α / |a| * a) := rfl
    rw [this, row1_norm, ← abs_neg]
    congr 1
    rcases lt_or_gt_of_ne h with h1 | h1
    · rw [if_pos h1, abs_of_neg h1]
      have : -a ≠ 0 := by linarith
      field_simp; ring
    · rw [if_neg (by linarith), abs_of_pos h1]
      field_simp; ring

theorem prob1_row_G (D : Design n p) (y : Fin n → ℝ) (α : ℝ) (w : Fin p → ℝ) (j : Fin p) :
    (probMT D (fun i (_ : Fin 1) => y i) (.l21 α)).G (fun j => row1 (w j)) j =
      row1 (quadGrad D.matrix y (fit D.matrix w) j) := by
  ext t
  rfl

theorem prob1_row_step (D : Design n p) (y : Fin n → ℝ) (α : ℝ) (hα : 0 < α) (w : Fin p → ℝ) (j : Fin p) :
    (probMT D (fun i (_ : Fin 1) => y i) (.l21 α)).step (fun j => row1 (w j)) j =
      fun i => row1 ((prob1 D y .quadratic (.l1 α)).step w j i) := by
  have hL := stepsOf_nonneg D .quadratic j
  funext i
  unfold RProb.step
  rw [prob1_row_G]
  show (if stepsOf D .quadratic j = 0 then _ else _ : Fin p → Euc 1) i =
    row1 ((if stepsOf D .quadratic j = 0 then _ else _ : Fin p → ℝ) i)
  split
  · rfl
  · rename_i h0
    have hs : 0 < 1 / stepsOf D .quadratic j := one_div_pos.mpr (lt_of_le_of_ne hL (Ne.symm h0))
    by_cases hi : i = j
    · subst hi
      rw [Function.update_self, Function.update_self]
      exact row1_soft (w i - 1 / stepsOf D .quadratic i * quadGrad D.matrix y (fit D.matrix w) i) _ (mul_pos hα hs)
    · rw [Function.update_of_ne hi, Function.update_of_ne hi]

/-- One task. -/
theorem prob1_row (D : Design n p) (y : Fin n → ℝ) (α : ℝ) (hα : 0 < α) :
    RProb.RMap (prob1 D y .quadratic (.l1 α)) (probMT D (fun i (_ : Fin 1) => y i) (.l21 α)) row1 1 where
  sig := one_mul 1
  dim := rfl
  co x c := by
    show extV (fun _ : Fin 1 => x) (c % 1) = 1 * x
    rw [Nat.mod_one, one_mul]
    exact extV_fin (fun _ : Fin 1 => x) 0
  ofCo f := by
    ext t
    show f 0 = 1 * f (t : ℕ)
    rw [one_mul]
    congr 1
    omega
  zero x := row1_zero
  F w := by
    show mtLoss _ (fitMT D.matrix fun j _ => w j) + ∑ j, α * ‖row1 (w j)‖ = quadLoss y (fit D.matrix w) + ∑ j, α * |w j|
    simp only [row1_norm]
    congr 1
    unfold mtLoss quadLoss
    congr 1
    exact Finset.sum_congr rfl fun i _ => Fin.sum_univ_one _
  step w j := prob1_row_step D y α hα w j
  sc w j := by
    rw [prob1_row_G]
    exact row1_score α (w j) (quadGrad D.matrix y (fit D.matrix w) j)
  m0 := rfl

end Sglm
