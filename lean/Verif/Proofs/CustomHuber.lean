import Verif.Proofs.Custom

/-!
# An example of a user's datafit and penalty

Huber regression with a penalty which treats positive and negative coefficients differently.  Neither is part of the library; the
definitions are what a user would write as implementations of the traits `Datafit` and `Penalty`, and do not model code in `/repo`.
-/

namespace Sglm
open Scalar Spec
variable {n p : ℕ}

/-- Huber's loss with threshold `delta`: `(1/n) ∑ h (y_i - u_i)`, quadratic up to `delta`, linear beyond. -/
structure Huber (F : Type) where
  delta : F
  lipschitz : List F

/-- A penalty with slope `up` on positive coefficients, `down` on negative ones. -/
structure Asym (F : Type) where
  up : F
  down : F

section Instances
variable {F : Type} [Scalar F]

/-- `r² / 2`, minus half the square of the excess over `delta`. -/
def Huber.fn (d r : F) : F :=
  (r *. r -. fmax (r -. d) zero *. fmax (r -. d) zero -. fmax (neg r -. d) zero *. fmax (neg r -. d) zero) /. Scalar.ofNat 2

/-- Derivative: `r` clipped to `[-delta, delta]`. -/
def Huber.clip (d r : F) : F := r -. fmax (r -. d) zero +. fmax (neg r -. d) zero

def Huber.grad (df : Huber F) (ds : Dataset (Mat F) F) (Xw : List F) (j : ℕ) : M F := do
  let y ← ds.targets.single
  let x ← ds.designMatrix.colM j
  let r ← bop Scalar.sub Xw y
  let s ← dotM x (r.map (Huber.clip df.delta))
  pure (s /. Scalar.ofNat ds.targets.nSamples)

def Huber.init (df : Huber F) (ds : Dataset (Mat F) F) : M (Huber F) := do
  let l ← colSqNorms ds.designMatrix (Scalar.ofNat ds.targets.nSamples)
  pure ⟨df.delta, l⟩

def Huber.value (df : Huber F) (ds : Dataset (Mat F) F) (Xw : List F) : M F := do
  let y ← ds.targets.single
  let r ← bop Scalar.sub Xw y
  pure (iterSum (r.map (Huber.fn df.delta)) /. Scalar.ofNat ds.targets.nSamples)

instance : Datafit F (Mat F) (Huber F) where
  init := Huber.init
  value := Huber.value
  gradientJ := Huber.grad
  fullGrad df ds Xw := (List.range ds.designMatrix.ncols).mapM (Huber.grad df ds Xw)
  stepSize := Huber.lipschitz

def Asym.fn (pen : Asym F) (z : F) : F := pen.up *. fmax z zero +. pen.down *. fmax (neg z) zero

def Asym.prox (pen : Asym F) (v s : F) : F :=
  fmax (v -. s *. pen.up) zero -. fmax (neg v -. s *. pen.down) zero

def Asym.dist (pen : Asym F) (w g : F) : F :=
  if zero <. w then Scalar.abs (g +. pen.up)
  else if w <. zero then Scalar.abs (g -. pen.down)
  else fmax (fmax (neg g -. pen.up) (g -. pen.down)) zero

instance : Penalty F (Asym F) where
  value pen w := .ok (iterSum (w.map pen.fn))
  prox pen v s := .ok (pen.prox v s)
  subdiffDistance pen := sepDistances pen.dist

end Instances

/-! ### Mathematics -/

noncomputable def huber (d r : ℝ) : ℝ := (r ^ 2 - max (r - d) 0 ^ 2 - max (-r - d) 0 ^ 2) / 2
noncomputable def hclip (d r : ℝ) : ℝ := r - max (r - d) 0 + max (-r - d) 0
noncomputable def asym (a b z : ℝ) : ℝ := a * max z 0 + b * max (-z) 0

theorem hasDerivAt_posPart_sq (t : ℝ) : HasDerivAt (fun t : ℝ => max t 0 ^ 2) (2 * max t 0) t := by
  rcases lt_trichotomy t 0 with h | h | h
  · rw [max_eq_right h.le, mul_zero]
    refine (hasDerivAt_const t (0 : ℝ)).congr_of_eventuallyEq ?_
    filter_upwards [Iio_mem_nhds h] with s hs
    rw [max_eq_right (le_of_lt hs)]; simp
  · subst h
    rw [max_self, mul_zero, hasDerivAt_iff_isLittleO]
    refine Asymptotics.IsLittleO.of_bound fun c hc => ?_
    filter_upwards [Metric.ball_mem_nhds (0 : ℝ) hc] with s hs
    rw [Metric.mem_ball, Real.dist_eq, sub_zero] at hs
    simp only [max_self, sub_zero, smul_zero, ne_eq, OfNat.ofNat_ne_zero, not_false_eq_true, zero_pow, Real.norm_eq_abs]
    rw [abs_of_nonneg (sq_nonneg _)]
    have h1 : max s 0 ≤ |s| := max_le (le_abs_self s) (abs_nonneg s)
    have h2 : 0 ≤ max s 0 := le_max_right _ _
    nlinarith [abs_nonneg s]
  · rw [max_eq_left h.le]
    have h1 : HasDerivAt (fun t : ℝ => t ^ 2) (2 * t) t := by
      have := hasDerivAt_pow 2 t
      simpa using this
    refine h1.congr_of_eventuallyEq ?_
    filter_upwards [Ioi_mem_nhds h] with s hs
    rw [max_eq_left (le_of_lt hs)]

theorem hasDerivAt_huber (d r : ℝ) : HasDerivAt (huber d) (hclip d r) r := by
  have h1 : HasDerivAt (fun r : ℝ => r ^ 2) (2 * r) r := by
    have := hasDerivAt_pow 2 r
    simpa using this
  have h2 : HasDerivAt (fun r : ℝ => max (r - d) 0 ^ 2) (2 * max (r - d) 0 * 1) r :=
    HasDerivAt.comp (h₂ := fun t : ℝ => max t 0 ^ 2) (h := fun r : ℝ => r - d) r (hasDerivAt_posPart_sq (r - d))
      ((hasDerivAt_id' r).sub_const d)
  have h3 : HasDerivAt (fun r : ℝ => max (-r - d) 0 ^ 2) (2 * max (-r - d) 0 * -1) r :=
    HasDerivAt.comp (h₂ := fun t : ℝ => max t 0 ^ 2) (h := fun r : ℝ => -r - d) r (hasDerivAt_posPart_sq (-r - d))
      ((hasDerivAt_neg r).sub_const d)
  have := ((h1.sub h2).sub h3).div_const 2
  refine this.congr_deriv ?_
  unfold hclip
  ring

theorem hclip_eq {d : ℝ} (hd : 0 ≤ d) (r : ℝ) : hclip d r = max (-d) (min r d) := by
  unfold hclip
  rcases le_total r d with h | h <;> rcases le_total (-d) r with h' | h'
  · rw [max_eq_right (by linarith), max_eq_right (by linarith), min_eq_left h, max_eq_right h']; ring
  · rw [max_eq_right (by linarith), max_eq_left (by linarith), min_eq_left h, max_eq_left h']; ring
  · rw [max_eq_left (by linarith), max_eq_right (by linarith), min_eq_right h, max_eq_right (by linarith)]; ring
  · rw [max_eq_left (by linarith), max_eq_left (by linarith), min_eq_right h, max_eq_right (by linarith)]; linarith

theorem hclip_mono {d : ℝ} (hd : 0 ≤ d) : Monotone (hclip d) := fun a b h => by
  rw [hclip_eq hd, hclip_eq hd]
  exact max_le_max le_rfl (min_le_min h le_rfl)

theorem hclip_lip {d : ℝ} (hd : 0 ≤ d) (a b : ℝ) : |hclip d a - hclip d b| ≤ |a - b| := by
  rw [hclip_eq hd, hclip_eq hd]
  refine (abs_max_sub_max_le_max _ _ _ _).trans ?_
  rw [sub_self, abs_zero]
  refine max_le (abs_nonneg _) ?_
  refine (abs_min_sub_min_le_max _ _ _ _).trans ?_
  rw [sub_self, abs_zero]
  exact max_le le_rfl (abs_nonneg _)

theorem huber_nonneg {d : ℝ} (hd : 0 ≤ d) (r : ℝ) : 0 ≤ huber d r := by
  unfold huber
  rcases le_total r d with h | h <;> rcases le_total (-d) r with h' | h'
  · rw [max_eq_right (by linarith), max_eq_right (by linarith)]; nlinarith [sq_nonneg r]
  · rw [max_eq_right (by linarith), max_eq_left (by linarith)]; nlinarith
  · rw [max_eq_left (by linarith), max_eq_right (by linarith)]; nlinarith
  · rw [max_eq_left (by linarith), max_eq_left (by linarith)]; nlinarith

/-- Huber's loss of a prediction. -/
noncomputable def huberLoss (d : ℝ) (y u : Fin n → ℝ) : ℝ := (∑ i, huber d (u i - y i)) / n

theorem huberLoss_eq (d : ℝ) (y : Fin n → ℝ) : huberLoss d y = fun u => ∑ i, huber d (u i - y i) / n := by
  funext u
  unfold huberLoss
  rw [Finset.sum_div]

theorem huber_deriv (d : ℝ) (y : Fin n → ℝ) (i : Fin n) (s : ℝ) :
    HasDerivAt (fun s => huber d (s - y i) / n) (hclip d (s - y i) / n) s := by
  have := ((hasDerivAt_huber d (s - y i)).comp s ((hasDerivAt_id s).sub_const (y i))).div_const (n : ℝ)
  rw [mul_one] at this
  exact this

theorem huber_lossOK (X : Fin n → Fin p → ℝ) (y : Fin n → ℝ) {d : ℝ} (hd : 0 ≤ d) : LossOK (huberLoss d y) X (quadStep X) := by
  rw [huberLoss_eq]
  refine separable_loss X (ℓ := fun i s => huber d (s - y i) / n) (κ := fun _ => 1 / (n : ℝ)) (huber_deriv d y) (fun i a b h => ?_)
    (fun i s => div_nonneg (huber_nonneg hd _) (Nat.cast_nonneg n)) (fun i s t => ?_) (fun _ => by positivity) (fun j => ?_)
  · exact div_le_div_of_nonneg_right (hclip_mono hd (by linarith)) (Nat.cast_nonneg n)
  · rw [← sub_div, abs_div, abs_of_nonneg (Nat.cast_nonneg n : (0 : ℝ) ≤ n), one_div_mul_eq_div]
    refine div_le_div_of_nonneg_right ((hclip_lip hd _ _).trans (le_of_eq ?_)) (Nat.cast_nonneg n)
    congr 1; ring
  · unfold quadStep
    rw [← Finset.mul_sum, one_div_mul_eq_div]
    exact le_of_eq (congrArg (· / (n : ℝ)) (Finset.sum_congr rfl fun i _ => by ring))

theorem huber_fn_fin (d r : ℝ) : Huber.fn (XR.fin d) (XR.fin r) = XR.fin (huber d r) := by
  unfold Huber.fn huber
  simp only [XR.s_mul, XR.s_sub, XR.s_neg, XR.s_fmax, XR.s_zero, XR.s_ofNat]
  rw [XR.s_div _ _ (by norm_num)]
  push_cast
  congr 1
  ring

theorem huber_clip_fin (d r : ℝ) : Huber.clip (XR.fin d) (XR.fin r) = XR.fin (hclip d r) := by
  unfold Huber.clip hclip
  simp only [XR.s_sub, XR.s_add, XR.s_neg, XR.s_fmax, XR.s_zero]

theorem huber_datafitOK (hn : 0 < n) (X : Fin n → Fin p → ℝ) (y : Fin n → ℝ) (d : ℝ) (l : List XR) :
    DatafitOK (⟨mat X, Targets.one (vec y)⟩ : Dataset (Mat XR) XR) (⟨XR.fin d, l⟩ : Huber XR) (huberLoss d y) X (quadStep X) := by
  have hn' : (n : ℝ) ≠ 0 := by positivity
  have hg : ∀ (u : Fin n → ℝ) (j : Fin p), Huber.grad (⟨XR.fin d, vec (quadStep X)⟩ : Huber XR)
      (⟨mat X, Targets.one (vec y)⟩ : Dataset (Mat XR) XR) (vec u) j = .ok (XR.fin (fderiv ℝ (huberLoss d y) u (column X j))) := by
    intro u j
    unfold Huber.grad
    simp only [single_one, colM_mat, bind, Except.bind, bop_sub_vec, one_nSamples, pure, Except.pure, XR.s_ofNat]
    rw [map_vec _ _ (hclip d) fun i => huber_clip_fin d _, dotM_vec]
    dsimp only
    rw [XR.s_div _ _ hn', huberLoss_eq, sum_fderiv_apply (huber_deriv d y), Finset.sum_div]
    congr 2
    exact Finset.sum_congr rfl fun i _ => by show X i j * _ / _ = _ / _ * X i j; ring
  have hi : Huber.init (⟨XR.fin d, l⟩ : Huber XR) (⟨mat X, Targets.one (vec y)⟩ : Dataset (Mat XR) XR) =
      .ok ⟨XR.fin d, vec (quadStep X)⟩ := by
    unfold Huber.init
    simp only [one_nSamples, XR.s_ofNat, colSqNorms_mat X n hn', bind, Except.bind, pure, Except.pure]
    rfl
  have hv : ∀ u : Fin n → ℝ, Huber.value (⟨XR.fin d, vec (quadStep X)⟩ : Huber XR)
      (⟨mat X, Targets.one (vec y)⟩ : Dataset (Mat XR) XR) (vec u) = .ok (XR.fin (huberLoss d y u)) := by
    intro u
    unfold Huber.value
    simp only [single_one, bind, Except.bind, bop_sub_vec, one_nSamples, pure, Except.pure, XR.s_ofNat]
    rw [map_vec _ _ (huber d) fun i => huber_fn_fin d _, iterSum_vec, XR.s_div _ _ hn']
    rfl
  exact ⟨one_nSamples y, ⟨XR.fin d, vec (quadStep X)⟩, hi, hv, hg, fun u => mapM_range _ fun j => hg u j, rfl⟩

theorem dense_storageOK (X : Fin n → Fin p → ℝ) : StorageOK (mat X) X :=
  ⟨rfl, fun u d j => dense_upd X u d j, fun ws w => dense_extra X ws w⟩

theorem csc_storageOK (A : CSCData n p) : StorageOK A.toCSC A.dense :=
  ⟨csc_nFeatures A, fun u d j => csc_upd A u d j, fun ws w => csc_extra A ws w⟩

/-! ### The penalty -/

section Asym
variable {a b : ℝ}

theorem asym_of_nonneg {z : ℝ} (h : 0 ≤ z) : asym a b z = a * z := by
  unfold asym; rw [max_eq_left h, max_eq_right (by linarith)]; ring

theorem asym_of_nonpos {z : ℝ} (h : z ≤ 0) : asym a b z = -(b * z) := by
  unfold asym; rw [max_eq_right h, max_eq_left (by linarith)]; ring

theorem asym_eq_max (ha : 0 ≤ a) (hb : 0 ≤ b) (z : ℝ) : asym a b z = max (a * z) (-(b * z)) := by
  rcases le_total 0 z with h | h
  · rw [asym_of_nonneg h, max_eq_left]; nlinarith [mul_nonneg ha h, mul_nonneg hb h]
  · rw [asym_of_nonpos h, max_eq_right]
    nlinarith [mul_nonneg ha (neg_nonneg.mpr h), mul_nonneg hb (neg_nonneg.mpr h)]

theorem asym_nonneg (ha : 0 ≤ a) (hb : 0 ≤ b) (z : ℝ) : 0 ≤ asym a b z := by
  unfold asym; positivity

theorem asym_convex (ha : 0 ≤ a) (hb : 0 ≤ b) : ConvexOn ℝ Set.univ (asym a b) := by
  refine ⟨convex_univ, fun x _ z _ s t hs ht _ => ?_⟩
  simp only [smul_eq_mul]
  rw [asym_eq_max ha hb, asym_eq_max ha hb, asym_eq_max ha hb]
  refine max_le ?_ ?_
  · have h1 := mul_le_mul_of_nonneg_left (le_max_left (a * x) (-(b * x))) hs
    have h2 := mul_le_mul_of_nonneg_left (le_max_left (a * z) (-(b * z))) ht
    linarith
  · have h1 := mul_le_mul_of_nonneg_left (le_max_right (a * x) (-(b * x))) hs
    have h2 := mul_le_mul_of_nonneg_left (le_max_right (a * z) (-(b * z))) ht
    linarith

theorem asym_weak (ha : 0 ≤ a) (hb : 0 ≤ b) : WeaklyConvex (asym a b) 0 :=
  weaklyConvex_of (by simpa using asym_convex ha hb)

theorem mem_subdiff_real {φ : ℝ → ℝ} {x g : ℝ} : g ∈ subdiff φ x ↔ ∀ z, φ x + g * (z - x) ≤ φ z := by
  unfold subdiff
  simp only [Set.mem_ofPred_eq]
  refine forall_congr' fun z => ?_
  rw [show inner ℝ g (z - x) = g * (z - x) from by simp [mul_comm]]

theorem subdiff_asym_zero (ha : 0 ≤ a) (hb : 0 ≤ b) : subdiff (asym a b) 0 = Set.Icc (-b) a := by
  ext g
  rw [mem_subdiff_real, asym_of_nonneg le_rfl, Set.mem_Icc]
  constructor
  · intro h
    have h1 := h 1
    have h2 := h (-1)
    rw [asym_of_nonneg zero_le_one] at h1
    rw [asym_of_nonpos (by norm_num)] at h2
    constructor <;> linarith
  · rintro ⟨h1, h2⟩ z
    rw [asym_eq_max ha hb]
    rcases le_total 0 z with h | h
    · exact le_max_of_le_left (by nlinarith)
    · exact le_max_of_le_right (by nlinarith)

theorem subdiff_asym_pos (ha : 0 ≤ a) (hb : 0 ≤ b) {x : ℝ} (hx : 0 < x) : subdiff (asym a b) x = {a} := by
  ext g
  rw [mem_subdiff_real, asym_of_nonneg hx.le, Set.mem_singleton_iff]
  constructor
  · intro h
    have h1 := h (2 * x)
    have h2 := h 0
    rw [asym_of_nonneg (by linarith)] at h1
    rw [asym_of_nonneg le_rfl] at h2
    have h3 : (g - a) * x = 0 := by linarith
    rcases mul_eq_zero.mp h3 with h | h <;> linarith
  · rintro rfl z
    rw [asym_eq_max ha hb]
    exact le_max_of_le_left (by linarith)

theorem subdiff_asym_neg (ha : 0 ≤ a) (hb : 0 ≤ b) {x : ℝ} (hx : x < 0) : subdiff (asym a b) x = {-b} := by
  ext g
  rw [mem_subdiff_real, asym_of_nonpos hx.le, Set.mem_singleton_iff]
  constructor
  · intro h
    have h1 := h (2 * x)
    have h2 := h 0
    rw [asym_of_nonpos (by linarith)] at h1
    rw [asym_of_nonneg le_rfl] at h2
    have h3 : (g + b) * x = 0 := by linarith
    rcases mul_eq_zero.mp h3 with h | h <;> linarith
  · rintro rfl z
    rw [asym_eq_max ha hb]
    exact le_max_of_le_right (by linarith)

theorem isDist_Icc {l u : ℝ} (h : l ≤ u) (x : ℝ) : IsDist x (Set.Icc l u) (max (max (x - u) (l - x)) 0) := by
  refine ⟨⟨l, le_rfl, h⟩, ?_⟩
  have hm : max l (min x u) ∈ Set.Icc l u := ⟨le_max_left _ _, max_le h (min_le_right _ _)⟩
  refine le_antisymm ((Metric.le_infDist (Set.nonempty_Icc.mpr h)).mpr fun y hy => ?_) ((Metric.infDist_le_dist_of_mem hm).trans ?_)
  · rw [Real.dist_eq]
    refine max_le (max_le ?_ ?_) (abs_nonneg _)
    · linarith [le_abs_self (x - y), hy.2]
    · linarith [neg_le_abs (x - y), hy.1]
  · rw [Real.dist_eq]
    rcases le_total x u with h1 | h1
    · rw [min_eq_left h1]
      rcases le_total l x with h2 | h2
      · rw [max_eq_right h2, sub_self, abs_zero]; exact le_max_right _ _
      · rw [max_eq_left h2, abs_of_nonpos (by linarith), neg_sub]
        exact le_max_of_le_left (le_max_right _ _)
    · rw [min_eq_right h1, max_eq_right h, abs_of_nonneg (by linarith)]
      exact le_max_of_le_left (le_max_left _ _)

noncomputable def asymScore (a b w g : ℝ) : ℝ :=
  if 0 < w then |g + a| else if w < 0 then |g - b| else max (max (-g - a) (g - b)) 0

theorem asymScore_dist (ha : 0 ≤ a) (hb : 0 ≤ b) (w g : ℝ) : IsDist (-g) (frechetSubdiff (asym a b) w) (asymScore a b w g) := by
  rw [frechet_convex (asym_weak ha hb)]
  unfold asymScore
  split_ifs with h1 h2
  · rw [subdiff_asym_pos ha hb h1]
    exact isDist_singleton g a
  · rw [subdiff_asym_neg ha hb h2]
    exact isDist_singleton g (-b)
  · obtain rfl : w = 0 := le_antisymm (not_lt.mp h1) (not_lt.mp h2)
    rw [subdiff_asym_zero ha hb]
    have := isDist_Icc (l := -b) (u := a) (by linarith) (-g)
    rwa [show -b - -g = g - b by ring] at this

noncomputable def asymProx (a b v s : ℝ) : ℝ := max (v - s * a) 0 - max (-v - s * b) 0

theorem asym_isProx (ha : 0 ≤ a) (hb : 0 ≤ b) {s : ℝ} (hs : 0 < s) (v : ℝ) : IsProx (fun z => s * asym a b z) v (asymProx a b v s) := by
  intro z
  simp only [Real.norm_eq_abs, sq_abs]
  have hsa : 0 ≤ s * a := by positivity
  have hsb : 0 ≤ s * b := by positivity
  have hz : s * asym a b z = max (s * a * z) (-(s * b * z)) := by
    rw [asym_eq_max ha hb, mul_max_of_nonneg _ _ hs.le]; congr 1 <;> ring
  have hz1 : s * a * z ≤ s * asym a b z := by rw [hz]; exact le_max_left _ _
  have hz2 : -(s * b * z) ≤ s * asym a b z := by rw [hz]; exact le_max_right _ _
  unfold asymProx
  rcases le_total (v - s * a) 0 with h | h <;> rcases le_total (-v - s * b) 0 with h' | h'
  · rw [max_eq_right h, max_eq_right h', sub_self, asym_of_nonneg le_rfl, mul_zero, mul_zero]
    rcases le_total 0 z with h0 | h0
    · nlinarith [sq_nonneg z]
    · nlinarith [sq_nonneg z]
  · rw [max_eq_right h, max_eq_left h', zero_sub, asym_of_nonpos (by linarith)]
    nlinarith [sq_nonneg (z - (v + s * b))]
  · rw [max_eq_left h, max_eq_right h', sub_zero, asym_of_nonneg h]
    nlinarith [sq_nonneg (z - (v - s * a))]
  · have e1 : v = s * a := by linarith
    have e2 : s * b = -(s * a) := by linarith
    have e3 : s * a = 0 := by linarith
    rw [max_eq_left h, max_eq_left h']
    have e4 : v - s * a - (-v - s * b) = 0 := by linarith
    rw [e4, asym_of_nonneg le_rfl, mul_zero, mul_zero, e1, e3]
    nlinarith [sq_nonneg z, mul_nonneg hs.le (asym_nonneg ha hb z)]

theorem asym_sem (a b : ℝ) : PSem (⟨XR.fin a, XR.fin b⟩ : Asym XR) (asym a b) (asymProx a b) (asymScore a b) XR.ninf where
  value w := by
    show Except.ok (iterSum ((vec w).map _)) = _
    rw [map_vec w _ (asym a b) fun i => ?_, iterSum_vec]
    unfold Asym.fn asym
    simp only [XR.s_mul, XR.s_add, XR.s_neg, XR.s_fmax, XR.s_zero]
  prox v s _ := by
    show Except.ok (Asym.prox _ _ _) = _
    unfold Asym.prox asymProx
    simp only [XR.s_mul, XR.s_sub, XR.s_neg, XR.s_fmax, XR.s_zero]
  dist w g l := by
    refine sepDistances_list _ (asymScore a b) ?_ w g l
    intro w g
    unfold Asym.dist asymScore
    simp only [XR.s_lt, XR.s_zero, decide_eq_true_eq, XR.s_abs, XR.s_sub, XR.s_add, XR.s_fmax, XR.s_neg]
    split_ifs <;> rfl

theorem asym_penaltyOK (ha : 0 ≤ a) (hb : 0 ≤ b) (L : Fin p → ℝ) : PenaltyOK (⟨XR.fin a, XR.fin b⟩ : Asym XR) (asym a b) L :=
  penaltyOK_of (asym_sem a b) (Or.inl rfl) (asymScore_dist ha hb) fun _ _ h v => asym_isProx ha hb h v

theorem asym_regular (ha : 0 ≤ a) (hb : 0 ≤ b) : Regular (asym a b) 0 0 where
  zero := by rw [asym_of_nonneg le_rfl, mul_zero]
  nonneg := asym_nonneg ha hb
  convex := convexOn_of_weakly (asym_weak ha hb)
  bound := le_rfl
  near z s hs := by
    refine ⟨s, ?_, by simp⟩
    rw [frechet_convex (asym_weak ha hb)] at hs ⊢
    rw [subdiff_asym_zero ha hb]
    rcases lt_trichotomy z 0 with h | h | h
    · rw [subdiff_asym_neg ha hb h, Set.mem_singleton_iff] at hs
      rw [hs]; exact ⟨le_rfl, by linarith⟩
    · rw [h, subdiff_asym_zero ha hb] at hs; exact hs
    · rw [subdiff_asym_pos ha hb h, Set.mem_singleton_iff] at hs
      rw [hs]; exact ⟨by linarith, le_rfl⟩
end Asym

end Sglm
