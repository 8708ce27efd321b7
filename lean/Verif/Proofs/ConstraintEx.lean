import Verif.Proofs.ConstraintBound
import Verif.Proofs.CustomLib
import Verif.Proofs.CustomHuber

/-!
# Examples of constraints

The penalty of the non-negative Lasso and the one of the dual of the support vector machine.  Neither is part of the library (the list of
planned features of `/repo/README.md` names them); the definitions are what a user would write as implementations of the trait
`Penalty`, and do not model code in `/repo`.
-/

namespace Sglm
open Scalar Spec
variable {n p : ℕ}

/-- `slope * z` for `z ≥ 0`, infinite for negative `z`. -/
structure NonNeg (F : Type) where
  slope : F

/-- `slope * z` for `0 ≤ z ≤ cap`, infinite elsewhere. -/
structure Capped (F : Type) where
  slope : F
  cap : F

section Instances
variable {F : Type} [Scalar F]

def NonNeg.dist (pen : NonNeg F) (w g : F) : F :=
  if zero <. w then Scalar.abs (g +. pen.slope) else fmax (neg g -. pen.slope) zero

instance : Penalty F (NonNeg F) where
  value pen w := .ok (if w.all (fun z => zero <=. z) then iterSum (w.map fun z => pen.slope *. z) else inf)
  prox pen v s := .ok (fmax (v -. s *. pen.slope) zero)
  subdiffDistance pen := sepDistances pen.dist

def Capped.clip (pen : Capped F) (z : F) : F := if pen.cap <. z then pen.cap else fmax z zero

def Capped.dist (pen : Capped F) (w g : F) : F :=
  if zero <. w then if w <. pen.cap then Scalar.abs (g +. pen.slope) else fmax (g +. pen.slope) zero
  else fmax (neg g -. pen.slope) zero

instance : Penalty F (Capped F) where
  value pen w := .ok (if w.all (fun z => (zero <=. z) && (z <=. pen.cap)) then iterSum (w.map fun z => pen.slope *. z) else inf)
  prox pen v s := .ok (pen.clip (v -. s *. pen.slope))
  subdiffDistance pen := sepDistances pen.dist

end Instances

/-! ### Mathematics -/

theorem isDist_Iic (u x : ℝ) : IsDist x (Set.Iic u) (max (x - u) 0) := by
  refine ⟨⟨u, Set.mem_Iic.mpr le_rfl⟩, le_antisymm ((Metric.le_infDist ⟨u, Set.mem_Iic.mpr le_rfl⟩).mpr fun y hy => ?_)
    ((Metric.infDist_le_dist_of_mem (Set.mem_Iic.mpr (min_le_right x u))).trans ?_)⟩
  · rw [Real.dist_eq]
    exact max_le (by linarith [le_abs_self (x - y), Set.mem_Iic.mp hy]) (abs_nonneg _)
  · rw [Real.dist_eq]
    rcases le_total x u with h | h
    · rw [min_eq_left h, sub_self, abs_zero]; exact le_max_right _ _
    · rw [min_eq_right h, abs_of_nonneg (by linarith)]; exact le_max_left _ _

theorem isDist_Ici (l x : ℝ) : IsDist x (Set.Ici l) (max (l - x) 0) := by
  refine ⟨⟨l, Set.mem_Ici.mpr le_rfl⟩, le_antisymm ((Metric.le_infDist ⟨l, Set.mem_Ici.mpr le_rfl⟩).mpr fun y hy => ?_)
    ((Metric.infDist_le_dist_of_mem (Set.mem_Ici.mpr (le_max_right x l))).trans ?_)⟩
  · rw [Real.dist_eq]
    exact max_le (by linarith [neg_le_abs (x - y), Set.mem_Ici.mp hy]) (abs_nonneg _)
  · rw [Real.dist_eq]
    rcases le_total x l with h | h
    · rw [max_eq_right h, abs_of_nonpos (by linarith), neg_sub]; exact le_max_left _ _
    · rw [max_eq_left h, sub_self, abs_zero]; exact le_max_right _ _

section Sub
variable {a C : ℝ}

theorem sub_nonneg_zero : subdiffOn (fun z => a * z) (Set.Ici 0) 0 = Set.Iic a := by
  ext s
  constructor
  · intro h
    have := h 1 (Set.mem_Ici.mpr zero_le_one)
    rw [Set.mem_Iic]
    linarith
  · intro h z hz
    have h1 := Set.mem_Ici.mp hz
    have h2 := Set.mem_Iic.mp h
    nlinarith

theorem sub_nonneg_pos {x : ℝ} (hx : 0 < x) : subdiffOn (fun z => a * z) (Set.Ici 0) x = {a} := by
  ext s
  rw [Set.mem_singleton_iff]
  constructor
  · intro h
    have h1 := h (2 * x) (Set.mem_Ici.mpr (by linarith))
    have h2 := h 0 (Set.mem_Ici.mpr le_rfl)
    have h3 : (s - a) * x = 0 := by linarith
    rcases mul_eq_zero.mp h3 with h | h <;> linarith
  · rintro rfl z _
    linarith

theorem sub_cap_zero (hC : 0 < C) : subdiffOn (fun z => a * z) (Set.Icc 0 C) 0 = Set.Iic a := by
  ext s
  constructor
  · intro h
    have := h C ⟨hC.le, le_rfl⟩
    rw [Set.mem_Iic]
    nlinarith
  · intro h z hz
    have h1 := hz.1
    have h2 := Set.mem_Iic.mp h
    nlinarith

theorem sub_cap_cap (hC : 0 < C) : subdiffOn (fun z => a * z) (Set.Icc 0 C) C = Set.Ici a := by
  ext s
  constructor
  · intro h
    have := h 0 ⟨le_rfl, hC.le⟩
    rw [Set.mem_Ici]
    nlinarith
  · intro h z hz
    have h1 := hz.2
    have h2 := Set.mem_Ici.mp h
    nlinarith

theorem sub_cap_mid {x : ℝ} (hx : 0 < x) (hx' : x < C) : subdiffOn (fun z => a * z) (Set.Icc 0 C) x = {a} := by
  ext s
  rw [Set.mem_singleton_iff]
  constructor
  · intro h
    have h1 := h C ⟨(hx.trans hx').le, le_rfl⟩
    have h2 := h 0 ⟨le_rfl, (hx.trans hx').le⟩
    nlinarith
  · rintro rfl z _
    linarith

noncomputable def nonNegScore (a w g : ℝ) : ℝ := if 0 < w then |g + a| else max (-g - a) 0

theorem nonNegScore_dist {w : ℝ} (hw : w ∈ Set.Ici (0 : ℝ)) (g : ℝ) :
    IsDist (-g) (subdiffOn (fun z => a * z) (Set.Ici 0) w) (nonNegScore a w g) := by
  unfold nonNegScore
  split_ifs with h
  · rw [sub_nonneg_pos h]; exact isDist_singleton g a
  · obtain rfl : w = 0 := le_antisymm (not_lt.mp h) hw
    rw [sub_nonneg_zero]; exact isDist_Iic a (-g)

noncomputable def cappedScore (a C w g : ℝ) : ℝ :=
  if 0 < w then if w < C then |g + a| else max (g + a) 0 else max (-g - a) 0

theorem cappedScore_dist (hC : 0 < C) {w : ℝ} (hw : w ∈ Set.Icc (0 : ℝ) C) (g : ℝ) :
    IsDist (-g) (subdiffOn (fun z => a * z) (Set.Icc 0 C) w) (cappedScore a C w g) := by
  unfold cappedScore
  split_ifs with h h'
  · rw [sub_cap_mid h h']; exact isDist_singleton g a
  · obtain rfl : w = C := le_antisymm hw.2 (not_lt.mp h')
    rw [sub_cap_cap hC]
    have := isDist_Ici a (-g)
    rwa [sub_neg_eq_add, add_comm] at this
  · obtain rfl : w = 0 := le_antisymm (not_lt.mp h) hw.1
    rw [sub_cap_zero hC]; exact isDist_Iic a (-g)

theorem convexOn_linear {D : Set ℝ} (hD : Convex ℝ D) (a : ℝ) : ConvexOn ℝ D fun z => a * z :=
  ⟨hD, fun x _ z _ s t _ _ _ => by simp only [smul_eq_mul]; exact le_of_eq (by ring)⟩

theorem all_vec {q : ℕ} (w : Fin q → ℝ) (g : XR → Bool) : (vec w).all g = true ↔ ∀ j, g (XR.fin (w j)) = true := by
  unfold vec
  rw [List.all_eq_true]
  constructor
  · intro h j
    exact h _ (List.mem_ofFn.mpr ⟨j, rfl⟩)
  · intro h x hx
    obtain ⟨j, rfl⟩ := List.mem_ofFn.mp hx
    exact h j

/-- Penalties which compute the right numbers meet the contract. -/
theorem constrainedOK_of {P : Type} [Penalty XR P] {pen : P} {φ : ℝ → ℝ} {D : Set ℝ} {px sc : ℝ → ℝ → ℝ} {L : Fin p → ℝ} {dist : XR → XR → XR}
    (h0 : (0 : ℝ) ∈ D) (hc : ConvexOn ℝ D φ)
    (hval : ∀ {q : ℕ} (w : Fin q → ℝ), (Feasible D w → Penalty.value pen (vec w) = .ok (XR.fin (∑ j, φ (w j)))) ∧
      (¬ Feasible D w → Penalty.value pen (vec w) = .ok inf))
    (hpx : ∀ v s, 0 < s → Penalty.prox pen (XR.fin v) (XR.fin s) = .ok (XR.fin (px v s)) ∧ px v s ∈ D ∧
      ∀ z ∈ D, (px v s - v) ^ 2 / 2 + s * φ (px v s) ≤ (z - v) ^ 2 / 2 + s * φ z)
    (hdist : ∀ w g, dist (XR.fin w) (XR.fin g) = XR.fin (sc w g)) (hpen : Penalty.subdiffDistance pen = sepDistances dist)
    (hsc : ∀ x ∈ D, ∀ g, IsDist (-g) (subdiffOn φ D x) (sc x g)) : ConstrainedOK pen φ D L := by
  classical
  refine ⟨h0, hc, fun w => ?_, fun v s hs => ⟨px v s, (hpx v s hs).1, fun _ => (hpx v s hs).2⟩, fun x hx => (hsc x hx 0).1,
    ⟨XR.ninf, Or.inl rfl, fun {q} w g ws hw => ⟨if ws = [] then XR.ninf else maxDist (ws.map fun j => XR.fin (Metric.infDist (-g j)
      (subdiffOn φ D (w j)))), ?_, fun h => if_pos h, fun hne => ?_⟩⟩⟩
  · split
    · rename_i h; exact (hval w).1 h
    · rename_i h; exact (hval w).2 h
  · have := sepDistances_list dist sc hdist w g ws
    rw [hpen, this]
    simp only [fun j => (hsc (w j) (hw j) (g j)).2]
  · rw [if_neg hne]
    obtain ⟨r, h1, h2, h3⟩ := maxDist_fin (ws.map fun j => Metric.infDist (-g j) (subdiffOn φ D (w j))) (by simpa using hne)
    rw [List.map_map] at h3
    refine ⟨r, h3, ?_, ?_⟩
    · obtain ⟨j, hj, hj'⟩ := List.mem_map.mp h1
      exact ⟨j, hj, hj'.symm⟩
    · rintro a ⟨j, hj, rfl⟩
      exact h2 _ (List.mem_map.mpr ⟨j, hj, rfl⟩)

theorem nonNeg_ok (a : ℝ) (L : Fin p → ℝ) : ConstrainedOK (⟨XR.fin a⟩ : NonNeg XR) (fun z => a * z) (Set.Ici 0) L := by
  refine constrainedOK_of (px := fun v s => max (v - s * a) 0) (sc := nonNegScore a) (dist := NonNeg.dist ⟨XR.fin a⟩)
    (Set.mem_Ici.mpr le_rfl) (convexOn_linear (convex_Ici 0) a) (fun w => ?_)
    (fun v s hs => ⟨?_, Set.mem_Ici.mpr (le_max_right _ _), fun z hz => ?_⟩) (fun w g => ?_) rfl fun x hx g => nonNegScore_dist hx g
  · have hall : ((vec w).all fun z => zero <=. z) = true ↔ Feasible (Set.Ici 0) w := by
      rw [all_vec]
      refine forall_congr' fun j => ?_
      rw [XR.s_zero, XR.s_le, decide_eq_true_iff, Set.mem_Ici]
    constructor
    · intro h
      show Except.ok (if _ then _ else _) = _
      rw [if_pos (hall.mpr h), map_vec w _ (fun z => a * z) fun i => ?_, iterSum_vec]
      rw [XR.s_mul]
    · intro h
      show Except.ok (if _ then _ else _) = _
      rw [if_neg fun h' => h (hall.mp h')]
  · show Except.ok (fmax _ _) = _
    rw [XR.s_mul, XR.s_sub, XR.s_zero, XR.s_fmax]
  · have hz := Set.mem_Ici.mp hz
    rcases le_total (v - s * a) 0 with h | h
    · rw [max_eq_right h]; nlinarith [sq_nonneg z]
    · rw [max_eq_left h]; nlinarith [sq_nonneg (z - (v - s * a))]
  · unfold NonNeg.dist nonNegScore
    simp only [XR.s_lt, XR.s_zero, decide_eq_true_eq, XR.s_abs, XR.s_sub, XR.s_add, XR.s_fmax, XR.s_neg]
    split_ifs <;> rfl

theorem capped_ok (a : ℝ) (hC : 0 < C) (L : Fin p → ℝ) :
    ConstrainedOK (⟨XR.fin a, XR.fin C⟩ : Capped XR) (fun z => a * z) (Set.Icc 0 C) L := by
  refine constrainedOK_of (px := fun v s => if C < v - s * a then C else max (v - s * a) 0) (sc := cappedScore a C)
    (dist := Capped.dist ⟨XR.fin a, XR.fin C⟩) ⟨le_rfl, hC.le⟩ (convexOn_linear (convex_Icc 0 C) a) (fun w => ?_)
    (fun v s hs => ⟨?_, ?_, fun z hz => ?_⟩) (fun w g => ?_) rfl fun x hx g => cappedScore_dist hC hx g
  · have hall : ((vec w).all fun z => (zero <=. z) && (z <=. XR.fin C)) = true ↔ Feasible (Set.Icc 0 C) w := by
      rw [all_vec]
      refine forall_congr' fun j => ?_
      rw [XR.s_zero, XR.s_le, XR.s_le, Bool.and_eq_true, decide_eq_true_iff, decide_eq_true_iff, Set.mem_Icc]
    constructor
    · intro h
      show Except.ok (if _ then _ else _) = _
      rw [if_pos (hall.mpr h), map_vec w _ (fun z => a * z) fun i => ?_, iterSum_vec]
      rw [XR.s_mul]
    · intro h
      show Except.ok (if _ then _ else _) = _
      rw [if_neg fun h' => h (hall.mp h')]
  · show Except.ok (Capped.clip _ _) = _
    unfold Capped.clip
    simp only [XR.s_mul, XR.s_sub, XR.s_zero, XR.s_fmax, XR.s_lt, decide_eq_true_eq]
    split_ifs <;> rfl
  · split_ifs with h
    · exact ⟨hC.le, le_rfl⟩
    · exact ⟨le_max_right _ _, max_le (not_lt.mp h) hC.le⟩
  · split_ifs with h
    · nlinarith [hz.2, sq_nonneg (z - C)]
    · rcases le_total (v - s * a) 0 with h' | h'
      · rw [max_eq_right h']; nlinarith [sq_nonneg z, hz.1]
      · rw [max_eq_left h']; nlinarith [sq_nonneg (z - (v - s * a))]
  · unfold Capped.dist cappedScore
    simp only [XR.s_lt, XR.s_zero, decide_eq_true_eq, XR.s_abs, XR.s_sub, XR.s_add, XR.s_fmax, XR.s_neg]
    split_ifs <;> rfl

theorem nonNeg_regular (ha : 0 ≤ a) (B : ℝ) : RegularOn (fun z => a * z) (Set.Ici 0) 0 0 B where
  low z hz := mul_nonneg ha hz
  bound := le_rfl
  near z hz s hs _ := by
    refine ⟨s, ?_, by simp⟩
    rcases eq_or_lt_of_le (Set.mem_Ici.mp hz) with h | h
    · subst h; exact hs
    · rw [sub_nonneg_pos h, Set.mem_singleton_iff] at hs
      rw [hs, sub_nonneg_zero]; exact Set.mem_Iic.mpr le_rfl

theorem capped_regular (ha : a ≤ 0) (hC : 0 < C) {B : ℝ} (hB : 0 ≤ B) :
    RegularOn (fun z => a * z) (Set.Icc 0 C) (a * C) ((B - a) / C) B where
  low z hz := by nlinarith [hz.2]
  bound := div_nonneg (by linarith) hC.le
  near z hz s hs hsB := by
    have hpos : 0 ≤ (B - a) / C * |z| := mul_nonneg (div_nonneg (by linarith) hC.le) (abs_nonneg z)
    rcases eq_or_lt_of_le hz.1 with h | h
    · subst h; exact ⟨s, hs, by simp⟩
    · refine ⟨a, by rw [sub_cap_zero hC]; exact Set.mem_Iic.mpr le_rfl, ?_⟩
      rcases eq_or_lt_of_le hz.2 with h' | h'
      · subst h'
        rw [sub_cap_cap hC, Set.mem_Ici] at hs
        rw [abs_of_pos hC, div_mul_cancel₀ _ hC.ne', abs_of_nonneg (by linarith)]
        linarith [le_abs_self s]
      · rw [sub_cap_mid h h', Set.mem_singleton_iff] at hs
        rw [hs, sub_self, abs_zero]; exact hpos
end Sub

/-! ### The quadratic datafit -/

theorem quadratic_dense (hn : 0 < n) (X : Fin n → Fin p → ℝ) (y : Fin n → ℝ) :
    StorageOK (mat X) X ∧ LossOK (quadLoss y) X (quadStep X) ∧
      DatafitOK (⟨mat X, Targets.one (vec y)⟩ : Dataset (Mat XR) XR) (Quadratic.new : Quadratic XR) (quadLoss y) X (quadStep X) := by
  have h := quad_dense X y hn
  have hl := library_lossOK (.dense X) y .quadratic trivial
  have e : lipschitz (.dense X) .quadratic = quadStep X := by
    funext j
    show (∑ i, X i j ^ 2) / (n : ℝ) = (∑ i, X i j * X i j) / n
    congr 1; exact Finset.sum_congr rfl fun i _ => by ring
  rw [e] at hl
  exact ⟨storageOK_of h, hl, datafitOK_of h (library_fderiv X y .quadratic) _⟩

theorem quadratic_zero_grad (X : Fin n → Fin p → ℝ) (w : Fin p → ℝ) (j : Fin p) :
    fderiv ℝ (quadLoss fun _ => 0) (fit X w) (column X j) = ∑ i, X i j * ((∑ k, X i k * w k) / n) := by
  refine (library_fderiv X (fun _ => 0) .quadratic (fit X w) j).trans ?_
  show quadGrad X (fun _ => 0) (fit X w) j = _
  unfold quadGrad fit
  simp only [mul_zero, Finset.sum_const_zero, sub_zero]
  rw [Finset.sum_div]
  exact Finset.sum_congr rfl fun i _ => by rw [mul_div_assoc]

theorem subdiffOn_gap {φ : ℝ → ℝ} {D : Set ℝ} {x g τ z : ℝ} (hne : (subdiffOn φ D x).Nonempty)
    (h : Metric.infDist (-g) (subdiffOn φ D x) ≤ τ) (hz : z ∈ D) : φ x ≤ φ z + g * (z - x) + τ * |x - z| := by
  refine le_of_forall_pos_le_add fun ε hε => ?_
  obtain ⟨s, hs, hd⟩ := (Metric.infDist_lt_iff hne).mp (lt_of_le_of_lt h (show τ < τ + ε / (|x - z| + 1) by linarith [show 0 < ε / (|x - z| + 1) by positivity]))
  rw [Real.dist_eq] at hd
  have h1 := hs z hz
  have h2 : -((s + g) * (z - x)) ≤ |-g - s| * |x - z| := by
    rw [← abs_mul]
    refine le_trans (le_of_eq ?_) (neg_le_abs _)
    ring
  have h3 : |-g - s| * |x - z| ≤ (τ + ε / (|x - z| + 1)) * |x - z| := mul_le_mul_of_nonneg_right hd.le (abs_nonneg _)
  have h4 : ε / (|x - z| + 1) * |x - z| ≤ ε := by
    rw [div_mul_eq_mul_div, div_le_iff₀ (by positivity)]
    nlinarith [abs_nonneg (x - z)]
  nlinarith

/-! ### Duality of support vector machines -/

theorem sum_swap (X : Fin n → Fin p → ℝ) (β : Fin n → ℝ) (w : Fin p → ℝ) :
    ∑ j, w j * ∑ i, X i j * β i = ∑ i, β i * ∑ j, X i j * w j := by
  simp only [Finset.mul_sum]
  rw [Finset.sum_comm]
  exact Finset.sum_congr rfl fun i _ => Finset.sum_congr rfl fun j _ => by ring

/-- The dual objective. -/
noncomputable def svmDual (X : Fin n → Fin p → ℝ) (w : Fin p → ℝ) : ℝ := ∑ j, w j - (∑ i, (∑ j, X i j * w j) ^ 2) / (2 * n)

theorem svm_weak (hn : 0 < n) (X : Fin n → Fin p → ℝ) {C : ℝ} (w : Fin p → ℝ) (hw : Feasible (Set.Icc 0 C) w) (β : Fin n → ℝ) :
    svmDual X w ≤ svmPrimal C X β := by
  have hn' : (0 : ℝ) < n := Nat.cast_pos.mpr hn
  unfold svmDual svmPrimal
  have h1 : ∑ j, w j * (1 - ∑ i, X i j * β i) ≤ C * ∑ j, max 0 (1 - ∑ i, X i j * β i) := by
    rw [Finset.mul_sum]
    refine Finset.sum_le_sum fun j _ => ?_
    exact (mul_le_mul_of_nonneg_left (le_max_right 0 _) (hw j).1).trans (mul_le_mul_of_nonneg_right (hw j).2 (le_max_left _ _))
  have h2 : ∑ j, w j * (1 - ∑ i, X i j * β i) = ∑ j, w j - ∑ i, β i * ∑ j, X i j * w j := by
    rw [← sum_swap, ← Finset.sum_sub_distrib]
    exact Finset.sum_congr rfl fun j _ => by ring
  have h3 : ∑ i, β i * ∑ j, X i j * w j ≤ (n : ℝ) / 2 * ∑ i, β i ^ 2 + (∑ i, (∑ j, X i j * w j) ^ 2) / (2 * n) := by
    rw [Finset.mul_sum, Finset.sum_div, ← Finset.sum_add_distrib]
    refine Finset.sum_le_sum fun i _ => ?_
    have : (n : ℝ) / 2 * β i ^ 2 + (∑ j, X i j * w j) ^ 2 / (2 * n) - β i * ∑ j, X i j * w j = (n * β i - ∑ j, X i j * w j) ^ 2 / (2 * n) := by
      field_simp; ring
    have h4 : 0 ≤ (n * β i - ∑ j, X i j * w j) ^ 2 / (2 * (n : ℝ)) := by positivity
    linarith
  linarith

theorem svm_gap (hn : 0 < n) (X : Fin n → Fin p → ℝ) {C τ : ℝ} (hC : 0 < C) (w : Fin p → ℝ) (hw : Feasible (Set.Icc 0 C) w)
    (h : ∀ j, cappedScore (-1) C (w j) (∑ i, X i j * ((∑ k, X i k * w k) / n)) ≤ τ) :
    svmPrimal C X (fun i => (∑ j, X i j * w j) / n) ≤ svmDual X w + p * C * τ := by
  have hn' : (0 : ℝ) < n := Nat.cast_pos.mpr hn
  obtain ⟨g, hg⟩ : ∃ g : Fin p → ℝ, ∀ j, g j = ∑ i, X i j * ((∑ k, X i k * w k) / n) := ⟨_, fun _ => rfl⟩
  have h1 : ∑ j, w j * g j = (∑ i, (∑ j, X i j * w j) ^ 2) / n := by
    simp only [hg]
    rw [sum_swap, Finset.sum_div]
    exact Finset.sum_congr rfl fun i _ => by ring
  have h2 : (n : ℝ) / 2 * ∑ i, ((∑ j, X i j * w j) / n) ^ 2 = (∑ i, (∑ j, X i j * w j) ^ 2) / (2 * n) := by
    rw [Finset.mul_sum, Finset.sum_div]
    exact Finset.sum_congr rfl fun i _ => by field_simp
  have h3 : ∑ j, (w j * (g j - 1) + C * max 0 (1 - g j)) ≤ ∑ _j : Fin p, C * τ := by
    refine Finset.sum_le_sum fun j _ => ?_
    have a := h j
    rw [← hg] at a
    refine le_trans ?_ (mul_le_mul_of_nonneg_left a hC.le)
    have b := hw j
    unfold cappedScore
    split_ifs with c1 c2
    · rcases le_total (g j) 1 with d | d
      · rw [max_eq_right (by linarith), abs_of_nonpos (by linarith)]; nlinarith
      · rw [max_eq_left (by linarith), abs_of_nonneg (by linarith)]; nlinarith
    · rw [le_antisymm b.2 (not_lt.mp c2)]
      rcases le_total (g j) 1 with d | d
      · rw [max_eq_right (by linarith), max_eq_right (by linarith)]; nlinarith
      · rw [max_eq_left (by linarith), max_eq_left (by linarith)]; nlinarith
    · rw [le_antisymm (not_lt.mp c1) b.1]
      rcases le_total (g j) 1 with d | d
      · rw [max_eq_right (by linarith), max_eq_left (by linarith)]; nlinarith
      · rw [max_eq_left (by linarith), max_eq_right (by linarith)]; nlinarith
  rw [Finset.sum_const, Finset.card_univ, Fintype.card_fin, nsmul_eq_mul, Finset.sum_add_distrib, ← Finset.mul_sum] at h3
  have h4 : ∑ j, w j * (g j - 1) = ∑ j, w j * g j - ∑ j, w j := by
    rw [← Finset.sum_sub_distrib]; exact Finset.sum_congr rfl fun j _ => by ring
  unfold svmPrimal svmDual
  rw [h2]
  simp only [← hg]
  have h5 : (∑ i, (∑ j, X i j * w j) ^ 2) / (n : ℝ) = 2 * ((∑ i, (∑ j, X i j * w j) ^ 2) / (2 * n)) := by field_simp
  linarith

end Sglm
