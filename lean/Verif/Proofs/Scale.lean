import Verif.Proofs.Symmetry

/-!
# Scaled data: losses, proximal operators and scores
-/

namespace Sglm
open Scalar Spec
variable {n p T : ℕ} {a b : ℝ}

theorem lt_mul_iff (ha : 0 < a) {x y : ℝ} : a * x < a * y ↔ x < y := mul_lt_mul_iff_right₀ ha

theorem softR_scale (ha : 0 < a) (v t : ℝ) : softR (a * v) (a * t) = a * softR v t := by
  unfold softR
  rw [← mul_neg]
  simp only [lt_mul_iff ha]
  split_ifs <;> ring

theorem sgn_scale (ha : 0 < a) (x : ℝ) : (if a * x < 0 then -1 else 1 : ℝ) = if x < 0 then -1 else 1 := by
  have : a * x < 0 ↔ x < 0 := by rw [← lt_mul_iff ha (x := x) (y := 0), mul_zero]
  simp only [this]

theorem abs_scale (ha : 0 < a) (x : ℝ) : |a * x| = a * |x| := by rw [abs_mul, abs_of_pos ha]

theorem max_scale (ha : 0 < a) (x : ℝ) : max 0 (a * x) = a * max 0 x := by
  rw [mul_max_of_nonneg _ _ ha.le, mul_zero]

theorem rpow_three_halves (ha : 0 < a) : a * Real.sqrt a = a ^ ((3 : ℝ) / 2) := by
  rw [Real.sqrt_eq_rpow, show (3 : ℝ) / 2 = 1 + 1 / 2 by norm_num, Real.rpow_add ha, Real.rpow_one]

theorem prox05R_scale (ha : 0 < a) (v : ℝ) {l : ℝ} (hl : 0 ≤ l) :
    prox05R (a * v) (a * Real.sqrt a * l) = a * prox05R v l := by
  rw [rpow_three_halves ha]
  have h32 : 0 < a ^ ((3 : ℝ) / 2) := Real.rpow_pos_of_pos ha _
  have h1 : (a ^ ((3 : ℝ) / 2) * l) ^ ((2 : ℝ) / 3) = a * l ^ ((2 : ℝ) / 3) := by
    rw [Real.mul_rpow h32.le hl, ← Real.rpow_mul ha.le]
    norm_num
  unfold prox05R
  rw [h1, abs_scale ha, show 3 / 2 * (a * l ^ ((2 : ℝ) / 3)) = a * (3 / 2 * l ^ ((2 : ℝ) / 3)) by ring]
  simp only [lt_mul_iff ha]
  split_ifs
  · rw [mul_zero]
  · unfold halfR
    rw [abs_scale ha, Real.mul_rpow ha.le (abs_nonneg v)]
    have h2 : a ^ ((3 : ℝ) / 2) * a ^ ((-3 : ℝ) / 2) = 1 := by
      rw [← Real.rpow_add ha]
      norm_num
    rw [show -((3 : ℝ) ^ ((3 : ℝ) / 2) / 4) * (a ^ ((3 : ℝ) / 2) * l) * (a ^ ((-3 : ℝ) / 2) * |v| ^ ((-3 : ℝ) / 2)) =
      -((3 : ℝ) ^ ((3 : ℝ) / 2) / 4) * l * |v| ^ ((-3 : ℝ) / 2) * (a ^ ((3 : ℝ) / 2) * a ^ ((-3 : ℝ) / 2)) by ring,
      h2, mul_one]
    ring

theorem proxOf_scale (ha : 0 < a) (hb : 0 < b) {pen pen' : Pen} (h : pen.Scaled a b pen') (hv : pen.Valid) (v : ℝ)
    {s : ℝ} (hs : 0 < s) : proxOf pen' (a * v) (a / b * s) = a * proxOf pen v s := by
  cases h with
  | l1 α =>
    show softR _ _ = a * softR _ _
    rw [← softR_scale ha]
    congr 1
    field_simp
  | enet α ρ α' ρ' h1 h2 =>
    show enetProxR _ _ _ _ = a * enetProxR _ _ _ _
    unfold enetProxR
    rw [show ρ' * α' * (a / b * s) = a * (ρ * α * s) by
        rw [mul_comm ρ', h1]; field_simp,
      show a / b * s * (1 - ρ') * α' = s * (1 - ρ) * α by
        rw [mul_assoc (a / b * s), mul_comm (1 - ρ') α', h2]; field_simp,
      softR_scale ha, mul_div_assoc]
  | mcp α γ =>
    show mcpProxR _ _ _ _ = a * mcpProxR _ _ _ _
    unfold mcpProxR
    have h1 : b * α * (a / b * s) = a * (α * s) := by field_simp
    have h2 : a / b * γ / (a / b * s) = γ / s := by field_simp
    rw [h1, h2, abs_scale ha, sgn_scale ha, show γ / s * (a * (α * s)) = a * (γ / s * (α * s)) by ring]
    simp only [lt_mul_iff ha, mul_le_mul_iff_right₀ ha]
    split_ifs
    · rw [mul_zero]
    · rfl
    · ring
    · ring
  | l05 α =>
    show prox05R _ _ = a * prox05R _ _
    rw [← prox05R_scale ha _ (mul_nonneg hs.le (le_of_lt hv))]
    congr 1
    field_simp

theorem scoreOf_scale (ha : 0 < a) (hb : 0 < b) {pen pen' : Pen} (h : pen.Scaled a b pen') (x g : ℝ) :
    scoreOf pen' (a * x) (b * g) = b * scoreOf pen x g := by
  have h0 : a * x = 0 ↔ x = 0 := by rw [mul_eq_zero, or_iff_right ha.ne']
  cases h with
  | l1 α =>
    show l1Score _ _ _ = b * l1Score _ _ _
    unfold l1Score
    simp only [h0, sgn_scale ha, abs_scale hb]
    split
    · rw [← max_scale hb]; congr 1; ring
    · rw [← abs_scale hb]; congr 1; ring
  | enet α ρ α' ρ' h1 h2 =>
    show enetScore _ _ _ _ = b * enetScore _ _ _ _
    unfold enetScore
    simp only [h0, sgn_scale ha, abs_scale hb]
    have h3 : α' * (1 - ρ') * a = b * (α * (1 - ρ)) := by rw [h2]; field_simp
    split
    · rw [← max_scale hb, h1]; congr 1; ring
    · rw [← abs_scale hb]; congr 1; linear_combination (-1 : ℝ) * h1 * (if x < 0 then -1 else 1 : ℝ) - h3 * x
  | mcp α γ =>
    show mcpScore _ _ _ _ = b * mcpScore _ _ _ _
    unfold mcpScore
    have h1 : b * α * (a / b * γ) = a * (α * γ) := by field_simp
    have h2 : a * x / (a / b * γ) = b * (x / γ) := by
      by_cases hγ : γ = 0
      · rw [hγ]; simp
      · field_simp
    simp only [h0, sgn_scale ha, abs_scale hb, abs_scale ha, h1, h2, lt_mul_iff ha]
    split_ifs
    all_goals first
      | rw [← max_scale hb]; congr 1; ring
      | rfl
      | rw [← abs_scale hb]; congr 1; ring
  | l05 α => exact (mul_zero b).symm

theorem penFn_scale (ha : 0 < a) (hb : 0 < b) {pen pen' : Pen} (h : pen.Scaled a b pen') (x : ℝ) :
    pen'.fn (a * x) = a * b * pen.fn x := by
  cases h with
  | l1 α => show b * α * |a * x| = a * b * (α * |x|); rw [abs_scale ha]; ring
  | enet α ρ α' ρ' h1 h2 =>
    show enet _ _ _ = a * b * enet _ _ _
    unfold enet
    rw [norm_mul, Real.norm_eq_abs a, abs_of_pos ha]
    have h3 : α' * (1 - ρ') * a = b * (α * (1 - ρ)) := by rw [h2]; field_simp
    linear_combination a * ‖x‖ * h1 + a * ‖x‖ ^ 2 / 2 * h3
  | mcp α γ =>
    show mcp _ _ _ = a * b * mcp _ _ _
    unfold mcp
    rw [norm_mul, Real.norm_eq_abs a, abs_of_pos ha]
    have h1 : a / b * γ * (b * α) = a * (γ * α) := by field_simp
    rw [h1]
    simp only [mul_le_mul_iff_right₀ ha]
    by_cases hγ : γ = 0
    · subst hγ; split_ifs <;> (simp; try ring)
    · split_ifs <;> field_simp
  | l05 α =>
    show b * Real.sqrt a * α * Real.sqrt |a * x| = a * b * (α * Real.sqrt |x|)
    rw [abs_scale ha, Real.sqrt_mul ha.le]
    have := Real.mul_self_sqrt ha.le
    linear_combination b * α * Real.sqrt |x| * this

/-! ## Blocks -/

theorem norm_scale (ha : 0 < a) (v : Euc T) : ‖a • v‖ = a * ‖v‖ := by
  rw [norm_smul, Real.norm_eq_abs, abs_of_pos ha]

theorem blockSoftR_scale (ha : 0 < a) (v : Euc T) (t : ℝ) : blockSoftR (a • v) (a * t) = a • blockSoftR v t := by
  unfold blockSoftR
  rw [norm_scale ha, mul_div_mul_left _ _ ha.ne']
  simp only [lt_mul_iff ha]
  split_ifs
  · rw [smul_zero]
  · rw [smul_comm]

theorem bproxOf_scale (ha : 0 < a) (hb : 0 < b) {pen pen' : BPen} (h : pen.Scaled a b pen') (v : Euc T)
    {s : ℝ} (hs : 0 < s) : bproxOf pen' (a • v) (a / b * s) = a • bproxOf pen v s := by
  cases h with
  | l21 α =>
    show blockSoftR _ _ = a • blockSoftR _ _
    rw [← blockSoftR_scale ha]
    congr 1
    field_simp
  | enet α ρ α' ρ' h1 h2 =>
    show blockEnetProxR _ _ _ _ = a • blockEnetProxR _ _ _ _
    unfold blockEnetProxR
    rw [show α' * (a / b * s) * ρ' = a * (α * s * ρ) by
        rw [mul_right_comm, h1]; field_simp,
      show a / b * s * (1 - ρ') * α' = s * (1 - ρ) * α by
        rw [mul_assoc (a / b * s), mul_comm (1 - ρ') α', h2]; field_simp,
      blockSoftR_scale ha, smul_comm]
  | mcp α γ =>
    show blockMcpProxR _ _ _ _ = a • blockMcpProxR _ _ _ _
    unfold blockMcpProxR
    have h1 : b * α * (a / b * s) = a * (α * s) := by field_simp
    have h2 : a / b * γ / (a / b * s) = γ / s := by field_simp
    rw [h1, h2, norm_scale ha, show γ / s * (a * (α * s)) = a * (γ / s * (α * s)) by ring,
      mul_div_mul_left _ _ ha.ne']
    simp only [lt_mul_iff ha, mul_le_mul_iff_right₀ ha]
    split_ifs
    · rw [smul_zero]
    · rfl
    · rw [smul_comm]

/-- The penalties whose scores scale. -/
def BPen.Homogeneous : BPen → Prop
  | .enet _ _ => False
  | _ => True

theorem bscoreOf_scale (ha : 0 < a) (hb : 0 < b) {pen pen' : BPen} (h : pen.Scaled a b pen')
    (hh : BPen.Homogeneous pen) (x g : Euc T) : bscoreOf pen' (a • x) (b • g) = b * bscoreOf pen x g := by
  have h0 : a • x = 0 ↔ x = 0 := by rw [smul_eq_zero, or_iff_right ha.ne']
  cases h with
  | l21 α =>
    show l21Score _ _ _ = b * l21Score _ _ _
    unfold l21Score
    simp only [h0, norm_scale ha, norm_scale hb]
    split
    · rw [← max_scale hb]; congr 1; ring
    · rename_i hx
      rw [← norm_scale hb]
      congr 1
      have : ‖x‖ ≠ 0 := norm_ne_zero_iff.mpr hx
      rw [smul_add, smul_smul, smul_smul]
      congr 2
      field_simp
  | enet α ρ α' ρ' h1 h2 => exact hh.elim
  | mcp α γ =>
    show blockMcpScore _ _ _ _ = b * blockMcpScore _ _ _ _
    unfold blockMcpScore
    have h1 : b * α * (a / b * γ) = a * (α * γ) := by field_simp
    simp only [h0, norm_scale ha, norm_scale hb, h1, lt_mul_iff ha]
    split_ifs with hx
    · rw [← max_scale hb]; congr 1; ring
    · rw [← norm_scale hb]
      congr 1
      have : ‖x‖ ≠ 0 := norm_ne_zero_iff.mpr hx
      rw [smul_smul, smul_smul]
      congr 1
      by_cases hγ : γ = 0
      · subst hγ; simp; field_simp
      · field_simp
    · rfl

theorem bpenFn_scale (ha : 0 < a) (hb : 0 < b) {pen pen' : BPen} (h : pen.Scaled a b pen') (x : Euc T) :
    pen'.fn (a • x) = a * b * pen.fn x := by
  cases h with
  | l21 α => show b * α * ‖a • x‖ = a * b * (α * ‖x‖); rw [norm_scale ha]; ring
  | enet α ρ α' ρ' h1 h2 =>
    show enet _ _ _ = a * b * enet _ _ _
    unfold enet
    rw [norm_scale ha]
    have h3 : α' * (1 - ρ') * a = b * (α * (1 - ρ)) := by rw [h2]; field_simp
    linear_combination a * ‖x‖ * h1 + a * ‖x‖ ^ 2 / 2 * h3
  | mcp α γ =>
    show mcp _ _ _ = a * b * mcp _ _ _
    unfold mcp
    rw [norm_scale ha]
    have h1 : a / b * γ * (b * α) = a * (γ * α) := by field_simp
    rw [h1]
    simp only [mul_le_mul_iff_right₀ ha]
    by_cases hγ : γ = 0
    · subst hγ; split_ifs <;> (simp; try ring)
    · split_ifs <;> field_simp

/-! ## Problems -/

/-- The design is multiplied by `d`. -/
theorem steps_scale {D D' : Design n p} {d : ℝ} (h : ∀ i j, D'.matrix i j = d * D.matrix i j) (hD : D.Canonical)
    (hD' : D'.Canonical) (k : LossKind) (j : Fin p) : stepsOf D' k j = d ^ 2 * stepsOf D k j := by
  rw [stepsOf_canonical D' hD', stepsOf_canonical D hD]
  have hc : ∀ i, D'.matrix i j * D'.matrix i j = d ^ 2 * (D.matrix i j * D.matrix i j) := by
    intro i
    rw [h]
    ring
  cases k with
  | quadratic =>
    show quadStep _ _ = d ^ 2 * quadStep _ _
    unfold quadStep
    simp only [hc]
    rw [← Finset.mul_sum, mul_div_assoc]
  | logistic =>
    show logStep _ _ = d ^ 2 * logStep _ _
    unfold logStep
    simp only [hc]
    rw [← Finset.mul_sum, mul_div_assoc]

theorem fit_scale {D D' : Design n p} {d : ℝ} (hd : d ≠ 0) (h : ∀ i j, D'.matrix i j = d * D.matrix i j) (c : ℝ)
    (w : Fin p → ℝ) : fit D'.matrix (fun j => (c / d) • w j) = fun i => c * fit D.matrix w i := by
  funext i
  unfold fit
  rw [Finset.mul_sum]
  refine Finset.sum_congr rfl fun j _ => ?_
  show _ * (c / d * w j) = _
  rw [h]
  field_simp

/-- Design multiplied by `d`, targets by `c` (`c = 1` for the logistic loss). -/
theorem prob1_scale {D D' : Design n p} {c d : ℝ} (hc : 0 < c) (hd : 0 < d)
    (h : ∀ i j, D'.matrix i j = d * D.matrix i j) (hD : D.Canonical) (hD' : D'.Canonical) (y : Fin n → ℝ)
    (k : LossKind) (hk : k = .logistic → c = 1) {pen pen' : Pen} (hp : pen.Scaled (c / d) (c * d) pen')
    (hv : pen.Valid) :
    RProb.Scaling (prob1 D y k pen) (prob1 D' (fun i => c * y i) k pen') (c / d) (c ^ 2) (c * d) := by
  have ha : 0 < c / d := div_pos hc hd
  have hb : 0 < c * d := mul_pos hc hd
  have hL : ∀ j, (prob1 D' (fun i => c * y i) k pen').L j = d ^ 2 * (prob1 D y k pen).L j :=
    steps_scale h hD hD' k
  have hG : ∀ w j, (prob1 D' (fun i => c * y i) k pen').G (fun i => (c / d) • w i) j =
      c * d * (prob1 D y k pen).G w j := by
    intro w j
    show gradOf D'.matrix _ k (fit D'.matrix fun i => (c / d) • w i) j = _
    rw [fit_scale hd.ne' h]
    cases k with
    | quadratic =>
      show quadGrad _ _ _ _ = c * d * quadGrad _ _ _ _
      unfold quadGrad
      have h1 : ∑ i, D'.matrix i j * (c * fit D.matrix w i) = c * d * ∑ i, D.matrix i j * fit D.matrix w i := by
        rw [Finset.mul_sum]
        exact Finset.sum_congr rfl fun i _ => by rw [h]; ring
      have h2 : ∑ i, D'.matrix i j * (c * y i) = c * d * ∑ i, D.matrix i j * y i := by
        rw [Finset.mul_sum]
        exact Finset.sum_congr rfl fun i _ => by rw [h]; ring
      rw [h1, h2]
      ring
    | logistic =>
      have hc1 := hk rfl
      subst hc1
      show logGrad _ _ _ _ = 1 * d * logGrad _ _ _ _
      unfold logGrad
      simp only [one_mul, h, mul_assoc, ← Finset.mul_sum]
      ring
  refine ⟨RProb.EMap.ofPx hb (fun _ x => ?_) (fun j => ?_) (fun w j h0 => ?_) (fun w j => ?_) ?_, ha.ne',
    pow_pos hc 2, fun _ _ => rfl, 0, fun w => ?_⟩
  · rw [smul_eq_zero, or_iff_right ha.ne']
  · rw [hL, mul_eq_zero, or_iff_right (pow_ne_zero 2 hd.ne')]
  · have hs : 0 < 1 / (prob1 D y k pen).L j :=
      one_div_pos.mpr (lt_of_le_of_ne (stepsOf_nonneg D k j) (Ne.symm h0))
    have h1 : 1 / (prob1 D' (fun i => c * y i) k pen').L j = c / d / (c * d) * (1 / (prob1 D y k pen).L j) := by
      rw [hL]
      field_simp
    rw [h1, hG]
    show proxOf pen' _ _ = c / d * proxOf pen _ _
    rw [← proxOf_scale ha hb hp hv _ hs]
    congr 1
    simp only [smul_eq_mul]
    field_simp
  · rw [hG]
    exact scoreOf_scale ha hb hp _ _
  · cases hp
    case l05 => show XR.fin 0 = XR.fin (c * d * 0); rw [mul_zero]
    all_goals exact (XR.scale_ninf hb).symm
  · show k.loss _ (fit D'.matrix fun i => (c / d) • w i) + ∑ j, pen'.fn (c / d * w j) =
      c ^ 2 * (k.loss y (fit D.matrix w) + ∑ j, pen.fn (w j)) + 0
    rw [fit_scale hd.ne' h, add_zero, mul_add]
    congr 1
    · cases k with
      | quadratic =>
        show quadLoss _ _ = c ^ 2 * quadLoss _ _
        unfold quadLoss
        rw [Finset.sum_congr rfl (g := fun i => c ^ 2 * (y i - fit D.matrix w i) ^ 2) fun i _ => by ring,
          ← Finset.mul_sum, mul_div_assoc]
      | logistic =>
        have hc1 := hk rfl
        subst hc1
        simp only [one_mul, one_pow]
    · rw [Finset.mul_sum]
      refine Finset.sum_congr rfl fun j _ => ?_
      rw [penFn_scale ha hb hp]
      field_simp

/-- Multi-task. -/
theorem probMT_scale {D D' : Design n p} {c d : ℝ} (hc : 0 < c) (hd : 0 < d)
    (h : ∀ i j, D'.matrix i j = d * D.matrix i j) (hD : D.Canonical) (hD' : D'.Canonical) (Y : Fin n → Fin T → ℝ)
    {pen pen' : BPen} (hp : pen.Scaled (c / d) (c * d) pen') (hh : BPen.Homogeneous pen) :
    RProb.Scaling (probMT D Y pen) (probMT D' (fun i t => c * Y i t) pen') (c / d) (c ^ 2) (c * d) := by
  have ha : 0 < c / d := div_pos hc hd
  have hb : 0 < c * d := mul_pos hc hd
  have hL : ∀ j, (probMT D' (fun i t => c * Y i t) pen').L j = d ^ 2 * (probMT D Y pen).L j :=
    steps_scale h hD hD' .quadratic
  have hfit : ∀ W : Fin p → Euc T, (fitMT D'.matrix fun j => ((c / d) • W j).ofLp) =
      fun i t => c * fitMT D.matrix (fun j => (W j).ofLp) i t := by
    intro W
    funext i t
    exact congrFun (fit_scale hd.ne' h c fun j => (W j).ofLp t) i
  have hG : ∀ W j, (probMT D' (fun i t => c * Y i t) pen').G (fun i => (c / d) • W i) j =
      (c * d) • (probMT D Y pen).G W j := by
    intro W j
    ext t
    show mtGrad D'.matrix (fun i t => c * Y i t) (fitMT D'.matrix fun j => ((c / d) • W j).ofLp) j t =
      c * d * mtGrad D.matrix Y (fitMT D.matrix fun j => (W j).ofLp) j t
    rw [hfit]
    unfold mtGrad
    have h1 : ∑ i, D'.matrix i j * (c * fitMT D.matrix (fun j => (W j).ofLp) i t) =
        c * d * ∑ i, D.matrix i j * fitMT D.matrix (fun j => (W j).ofLp) i t := by
      rw [Finset.mul_sum]
      exact Finset.sum_congr rfl fun i _ => by rw [h]; ring
    have h2 : ∑ i, D'.matrix i j * (c * Y i t) = c * d * ∑ i, D.matrix i j * Y i t := by
      rw [Finset.mul_sum]
      exact Finset.sum_congr rfl fun i _ => by rw [h]; ring
    rw [h1, h2]
    ring
  refine ⟨RProb.EMap.ofPx hb (fun _ x => ?_) (fun j => ?_) (fun w j h0 => ?_) (fun w j => ?_)
      (XR.scale_ninf hb).symm, ha.ne', pow_pos hc 2, fun x k => ?_, 0, fun W => ?_⟩
  · rw [smul_eq_zero, or_iff_right ha.ne']
  · rw [hL, mul_eq_zero, or_iff_right (pow_ne_zero 2 hd.ne')]
  · have hs : 0 < 1 / (probMT D Y pen).L j :=
      one_div_pos.mpr (lt_of_le_of_ne (stepsOf_nonneg D .quadratic j) (Ne.symm h0))
    have h1 : 1 / (probMT D' (fun i t => c * Y i t) pen').L j = c / d / (c * d) * (1 / (probMT D Y pen).L j) := by
      rw [hL]
      field_simp
    rw [h1, hG]
    show bproxOf pen' _ _ = (c / d) • bproxOf pen _ _
    rw [← bproxOf_scale ha hb hp _ hs]
    congr 1
    rw [smul_sub, smul_smul, smul_smul]
    congr 2
    field_simp
  · rw [hG]
    exact bscoreOf_scale ha hb hp hh _ _
  · show extV ((c / d) • x).ofLp _ = c / d * extV x.ofLp _
    unfold extV
    split
    · rfl
    · rw [mul_zero]
  · show mtLoss _ (fitMT D'.matrix fun j => ((c / d) • W j).ofLp) + ∑ j, pen'.fn ((c / d) • W j) =
      c ^ 2 * (mtLoss Y (fitMT D.matrix fun j => (W j).ofLp) + ∑ j, pen.fn (W j)) + 0
    rw [hfit, add_zero, mul_add]
    congr 1
    · unfold mtLoss
      rw [Finset.sum_congr rfl (g := fun i => c ^ 2 * ∑ t, (Y i t - fitMT D.matrix (fun j => (W j).ofLp) i t) ^ 2)
          fun i _ => by rw [Finset.mul_sum]; exact Finset.sum_congr rfl fun t _ => by ring,
        ← Finset.mul_sum, mul_div_assoc]
    · rw [Finset.mul_sum]
      refine Finset.sum_congr rfl fun j _ => ?_
      rw [bpenFn_scale ha hb hp]
      field_simp

end Sglm
