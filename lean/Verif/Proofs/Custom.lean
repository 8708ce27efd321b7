import Verif.Spec.Custom
import Verif.Proofs.IterBound
import Mathlib.Analysis.Calculus.Deriv.MeanValue
import Mathlib.Analysis.Calculus.FDeriv.Add
import Mathlib.Analysis.Calculus.FDeriv.Mul
import Mathlib.Analysis.Calculus.Deriv.Comp
import Mathlib.Analysis.Convex.Deriv

/-!
# User-supplied datafits and penalties as runs over the reals
-/

namespace Sglm
open Scalar Spec
variable {n p : ℕ}

section Line
variable {V : Type} [NormedAddCommGroup V] [NormedSpace ℝ V] {f : V → ℝ}

theorem line_deriv (hf : Differentiable ℝ f) (u d : V) (t : ℝ) :
    HasDerivAt (fun t : ℝ => f (u + t • d)) (fderiv ℝ f (u + t • d) d) t := by
  have h1 : HasDerivAt (fun t : ℝ => u + t • d) d t := by
    simpa using ((hasDerivAt_id t).smul_const d).const_add u
  exact (hf (u + t • d)).hasFDerivAt.comp_hasDerivAt t h1

/-- Tangents lie below. -/
theorem tangent_le (hc : ConvexOn ℝ Set.univ f) (hf : Differentiable ℝ f) (u v : V) :
    f u + fderiv ℝ f u (v - u) ≤ f v := by
  have h1 := line_deriv hf u (v - u) 0
  rw [zero_smul, add_zero] at h1
  by_contra hlt
  have hpos : 0 < f u + fderiv ℝ f u (v - u) - f v := by linarith
  obtain ⟨c, hcdef⟩ : ∃ c, c = f u + fderiv ℝ f u (v - u) - f v := ⟨_, rfl⟩
  have h2 := (hasDerivAt_iff_isLittleO.mp h1).def (show 0 < c / 2 by linarith)
  rw [Metric.eventually_nhds_iff] at h2
  obtain ⟨δ, hδ, h2⟩ := h2
  obtain ⟨t, ht⟩ : ∃ t, t = min 1 (δ / 2) := ⟨_, rfl⟩
  have ht0 : 0 < t := by rw [ht]; positivity
  have ht1 : t ≤ 1 := by rw [ht]; exact min_le_left _ _
  have htd : t < δ := by
    have : t ≤ δ / 2 := by rw [ht]; exact min_le_right _ _
    linarith
  have h3 := h2 (y := t) (by rw [Real.dist_eq, sub_zero, abs_of_pos ht0]; exact htd)
  simp only [sub_zero, zero_smul, add_zero, smul_eq_mul, Real.norm_eq_abs, abs_of_pos ht0] at h3
  have h4 := hc.2 (Set.mem_univ u) (Set.mem_univ v) (show 0 ≤ 1 - t by linarith) ht0.le (by ring)
  have e : (1 - t) • u + t • v = u + t • (v - u) := by
    rw [smul_sub, sub_smul, one_smul]; abel
  rw [e, smul_eq_mul, smul_eq_mul] at h4
  have h5 := (abs_le.mp h3).1
  nlinarith

/-- Lipschitz derivatives along a line give a quadratic upper bound. -/
theorem line_bound (hf : Differentiable ℝ f) {u d : V} {c : ℝ}
    (hl : ∀ t : ℝ, |fderiv ℝ f (u + t • d) d - fderiv ℝ f u d| ≤ c * |t|) (t : ℝ) :
    f (u + t • d) ≤ f u + t * fderiv ℝ f u d + c * t ^ 2 / 2 := by
  obtain ⟨k, hk⟩ : ∃ k : ℝ → ℝ, k = fun t => f u + t * fderiv ℝ f u d + c * t ^ 2 / 2 - f (u + t • d) := ⟨_, rfl⟩
  have hd : ∀ t, HasDerivAt k (fderiv ℝ f u d + c * t - fderiv ℝ f (u + t • d) d) t := by
    intro t
    rw [hk]
    refine HasDerivAt.sub ?_ (line_deriv hf u _ t)
    have h1 : HasDerivAt (fun t : ℝ => t * fderiv ℝ f u d) (1 * fderiv ℝ f u d) t :=
      (hasDerivAt_id t).mul_const _
    have h2 : HasDerivAt (fun t : ℝ => c * t ^ 2 / 2) (c * t) t := by
      have := (((hasDerivAt_id t).pow 2).const_mul c).div_const 2
      have e : c * (((2 : ℕ) : ℝ) * id t ^ (2 - 1) * 1) / 2 = c * t := by
        rw [id_eq, Nat.cast_ofNat]; ring
      rw [e] at this
      exact this
    have := (h1.const_add (f u)).add h2
    rw [one_mul] at this
    exact this
  have h0 : k 0 = 0 := by rw [hk]; simp
  have hcont : Continuous k := continuous_iff_continuousAt.mpr fun t => (hd t).continuousAt
  have key : 0 ≤ k t := by
    rcases le_total 0 t with ht | ht
    · have hm : MonotoneOn k (Set.Ici 0) := by
        refine monotoneOn_of_deriv_nonneg (convex_Ici 0) hcont.continuousOn
          (fun x _ => (hd x).differentiableAt.differentiableWithinAt) fun x hx => ?_
        rw [interior_Ici, Set.mem_Ioi] at hx
        rw [(hd x).deriv]
        have := (abs_le.mp (hl x)).2
        rw [abs_of_pos hx] at this
        linarith
      have := hm Set.self_mem_Ici (Set.mem_Ici.mpr ht) ht
      rwa [h0] at this
    · have hm : AntitoneOn k (Set.Iic 0) := by
        refine antitoneOn_of_deriv_nonpos (convex_Iic 0) hcont.continuousOn
          (fun x _ => (hd x).differentiableAt.differentiableWithinAt) fun x hx => ?_
        rw [interior_Iic, Set.mem_Iio] at hx
        rw [(hd x).deriv]
        have := (abs_le.mp (hl x)).1
        rw [abs_of_neg hx] at this
        linarith
      have := hm (Set.mem_Iic.mpr ht) Set.self_mem_Iic ht
      rwa [h0] at this
  rw [hk] at key
  linarith
end Line

section Loss
variable {f : (Fin n → ℝ) → ℝ} {X : Fin n → Fin p → ℝ} {L : Fin p → ℝ}

theorem line_major (hf : LossOK f X L) (u : Fin n → ℝ) (j : Fin p) (t : ℝ) :
    f (u + t • column X j) ≤ f u + t * fderiv ℝ f u (column X j) + L j * t ^ 2 / 2 :=
  line_bound hf.diff (fun t => hf.lipschitz u j t) t

theorem fit_update_column (X : Fin n → Fin p → ℝ) (w : Fin p → ℝ) (j : Fin p) (a : ℝ) :
    fit X (Function.update w j a) = fit X w + (a - w j) • column X j := by
  funext i
  rw [fit_set]
  rfl

theorem fit_sub_columns (X : Fin n → Fin p → ℝ) (w w' : Fin p → ℝ) :
    fit X w' - fit X w = ∑ j, (w' j - w j) • column X j := by
  funext i
  rw [Finset.sum_apply]
  show ∑ j, X i j * w' j - ∑ j, X i j * w j = ∑ j, (w' j - w j) * X i j
  rw [← Finset.sum_sub_distrib]
  exact Finset.sum_congr rfl fun j _ => by ring
end Loss

/-! ### Losses which are sums over the samples -/

section Separable
variable {ℓ ℓ' : Fin n → ℝ → ℝ} {κ : Fin n → ℝ}

theorem sum_fderiv (hd : ∀ i s, HasDerivAt (ℓ i) (ℓ' i s) s) (u : Fin n → ℝ) :
    HasFDerivAt (fun u : Fin n → ℝ => ∑ i, ℓ i (u i))
      (∑ i, (ℓ' i (u i)) • (ContinuousLinearMap.proj i : (Fin n → ℝ) →L[ℝ] ℝ)) u := by
  refine HasFDerivAt.fun_sum fun i _ => ?_
  have h1 : HasFDerivAt (fun u : Fin n → ℝ => u i) (ContinuousLinearMap.proj i : (Fin n → ℝ) →L[ℝ] ℝ) u := hasFDerivAt_apply i u
  exact (hd i (u i)).comp_hasFDerivAt u h1

theorem sum_fderiv_apply (hd : ∀ i s, HasDerivAt (ℓ i) (ℓ' i s) s) (u d : Fin n → ℝ) :
    fderiv ℝ (fun u : Fin n → ℝ => ∑ i, ℓ i (u i)) u d = ∑ i, ℓ' i (u i) * d i := by
  rw [(sum_fderiv hd u).fderiv, sum_apply]
  rfl

/-- Sums of nonnegative convex functions of one prediction with Lipschitz derivatives. -/
theorem separable_loss (X : Fin n → Fin p → ℝ) (hd : ∀ i s, HasDerivAt (ℓ i) (ℓ' i s) s) (hm : ∀ i, Monotone (ℓ' i))
    (h0 : ∀ i s, 0 ≤ ℓ i s) (hκ : ∀ i s t, |ℓ' i s - ℓ' i t| ≤ κ i * |s - t|) (hκ0 : ∀ i, 0 ≤ κ i) {L : Fin p → ℝ}
    (hL : ∀ j, ∑ i, κ i * X i j ^ 2 ≤ L j) : LossOK (fun u : Fin n → ℝ => ∑ i, ℓ i (u i)) X L where
  convex := by
    have hc : ∀ i, ConvexOn ℝ Set.univ (ℓ i) := fun i => by
      refine MonotoneOn.convexOn_of_deriv convex_univ
        (continuous_iff_continuousAt.mpr fun t => (hd i t).continuousAt).continuousOn
        (fun t _ => (hd i t).differentiableAt.differentiableWithinAt) ?_
      rw [show deriv (ℓ i) = ℓ' i from funext fun t => (hd i t).deriv]
      exact (hm i).monotoneOn _
    refine ⟨convex_univ, fun u _ v _ a b ha hb hab => ?_⟩
    have : ∀ i, ℓ i ((a • u + b • v) i) ≤ a * ℓ i (u i) + b * ℓ i (v i) := fun i =>
      (hc i).2 (Set.mem_univ (u i)) (Set.mem_univ (v i)) ha hb hab
    refine (Finset.sum_le_sum fun i _ => this i).trans (le_of_eq ?_)
    rw [Finset.sum_add_distrib, ← Finset.mul_sum, ← Finset.mul_sum]
    rfl
  diff u := (sum_fderiv hd u).differentiableAt
  nonneg u := Finset.sum_nonneg fun i _ => h0 i _
  steps j := le_trans (Finset.sum_nonneg fun i _ => mul_nonneg (hκ0 i) (sq_nonneg _)) (hL j)
  lipschitz u j t := by
    rw [sum_fderiv_apply hd, sum_fderiv_apply hd, ← Finset.sum_sub_distrib]
    refine (Finset.abs_sum_le_sum_abs _ _).trans ?_
    refine le_trans ?_ (mul_le_mul_of_nonneg_right (hL j) (abs_nonneg t))
    rw [Finset.sum_mul]
    refine Finset.sum_le_sum fun i _ => ?_
    show |ℓ' i (u i + t * X i j) * X i j - ℓ' i (u i) * X i j| ≤ _
    rw [← sub_mul, abs_mul]
    have h1 := mul_le_mul_of_nonneg_right (hκ i (u i + t * X i j) (u i)) (abs_nonneg (X i j))
    rw [add_sub_cancel_left, abs_mul] at h1
    refine h1.trans (le_of_eq ?_)
    rw [← sq_abs (X i j)]
    ring
end Separable

section Pen
variable {φ : ℝ → ℝ} {m b : ℝ}

theorem weaklyConvex_of (h : ConvexOn ℝ Set.univ fun z => φ z + m / 2 * z ^ 2) : WeaklyConvex φ m := by
  intro x z t h0 h1
  have := h.2 (Set.mem_univ x) (Set.mem_univ z) (show 0 ≤ 1 - t by linarith) h0 (by ring)
  have e : (1 - t) • x + t • z = x + t * (z - x) := by simp only [smul_eq_mul]; ring
  rw [e] at this
  simp only [smul_eq_mul] at this ⊢
  rw [Real.norm_eq_abs, sq_abs]
  nlinarith

theorem convexOn_of_weakly (h : WeaklyConvex φ m) : ConvexOn ℝ Set.univ fun z => φ z + m / 2 * z ^ 2 := by
  refine ⟨convex_univ, fun x _ z _ a t ha ht hat => ?_⟩
  obtain rfl : a = 1 - t := by linarith
  have := h x z t ht (by linarith)
  have e : (1 - t) • x + t • z = x + t * (z - x) := by simp only [smul_eq_mul]; ring
  rw [e]
  simp only [smul_eq_mul] at this ⊢
  rw [Real.norm_eq_abs, sq_abs] at this
  nlinarith

theorem frechet_zero_mem (h0 : φ 0 = 0) (h1 : ∀ z, 0 ≤ φ z) : (0 : ℝ) ∈ frechetSubdiff φ 0 := by
  intro ε hε
  refine ⟨1, one_pos, fun z _ => ?_⟩
  rw [h0, inner_zero_left]
  have := mul_nonneg hε.le (norm_nonneg (z - 0))
  linarith [h1 z]
end Pen

section Call
variable {DM DF P : Type} [DesignMatrix XR DM] [Datafit XR DM DF] [Penalty XR P]
  {ds : Dataset DM XR} {df0 : DF} {pen : P} {f : (Fin n → ℝ) → ℝ} {X : Fin n → Fin p → ℝ} {L : Fin p → ℝ} {φ : ℝ → ℝ}

/-- A penalty which computes the right numbers meets the contract. -/
theorem penaltyOK_of {px sc : ℝ → ℝ → ℝ} {m0 : XR} (h : PSem pen φ px sc m0) (hm0 : m0 = XR.ninf ∨ m0 = XR.fin 0)
    (hsc : ∀ x g, IsDist (-g) (frechetSubdiff φ x) (sc x g))
    (hpx : ∀ j, L j ≠ 0 → 0 < 1 / L j → ∀ v, IsProx (fun z => 1 / L j * φ z) v (px v (1 / L j))) : PenaltyOK pen φ L where
  value := h.value
  prox v s hs := ⟨px v s, h.prox v s hs, fun ⟨j, h0, e⟩ => by
    subst e
    exact hpx j h0 hs v⟩
  subdiff x := (hsc x 0).1
  scores := by
    refine ⟨m0, hm0, fun {q} w g ws => ⟨if ws = [] then m0 else maxDist (ws.map fun j => XR.fin (Metric.infDist (-g j)
      (frechetSubdiff φ (w j)))), ?_, fun h => if_pos h, fun hne => ?_⟩⟩
    · have := h.dist w g ws
      simp only [fun j => (hsc (w j) (g j)).2] at this
      exact this
    · rw [if_neg hne]
      obtain ⟨r, h1, h2, h3⟩ := maxDist_fin (ws.map fun j => Metric.infDist (-g j) (frechetSubdiff φ (w j))) (by simpa using hne)
      rw [List.map_map] at h3
      refine ⟨r, h3, ?_, ?_⟩
      · obtain ⟨j, hj, hj'⟩ := List.mem_map.mp h1
        exact ⟨j, hj, hj'.symm⟩
      · rintro a ⟨j, hj, rfl⟩
        exact h2 _ (List.mem_map.mpr ⟨j, hj, rfl⟩)

/-- The datafit with the result of its initialization filled in. -/
abbrev fixInit (DM : Type) {DF : Type} [Datafit XR DM DF] (df : DF) : Datafit XR DM DF where
  init := fun _ _ => .ok df
  value := Datafit.value
  gradientJ := Datafit.gradientJ
  fullGrad := Datafit.fullGrad
  stepSize := Datafit.stepSize (DM := DM)

/-- A run of the solver on real data, for one initial datafit object. -/
theorem runCD_init {df : DF} {g : (Fin n → ℝ) → Fin p → ℝ} {px sc : ℝ → ℝ → ℝ} {m0 : XR}
    (hi : Datafit.init df0 ds = .ok df) (hd : @DSem DM DF _ (fixInit DM df) ds df n p X f g L) (hp : PSem pen φ px sc m0)
    (hL : ∀ j, 0 ≤ L j) {srt : Argsort XR} (hs : ArgsortSpec srt) (cfg : Solver XR) :
    runCD srt ds df0 pen cfg =
      (fun q => (⟨vec q.1, vec (fit X q.1)⟩, q.2)) <$> (probCD X f g L φ px sc m0).run srt cfg := by
  have h1 := @runCD_eq (hd := hd) (hp := hp) (hL := hL) (srt := srt) (hs := hs) (cfg := cfg) (df0 := df0)
  rw [← h1]
  unfold runCD
  rw [hi]
  rfl

omit [DesignMatrix XR DM] [Datafit XR DM DF] in
theorem Spec.PenaltyOK.scored (hp : PenaltyOK pen φ L) :
    PenaltyScored pen φ (fun x g => Metric.infDist (-g) (frechetSubdiff φ x)) L :=
  ⟨hp.value, hp.prox, hp.scores⟩

/-- What the contracts of the storage, the datafit and the penalty give, whatever the step constants and the scores: a problem over the reals, and
the solver runs on it. -/
theorem custom_scored {sc : ℝ → ℝ → ℝ} (hX : StorageOK ds.designMatrix X) (hL : ∀ j, 0 ≤ L j) (hd : DatafitOK ds df0 f X L)
    (hp : PenaltyScored pen φ sc L) : ∃ R : RProb ℝ p,
      (∀ w, R.F w = customObjective f X φ w) ∧ (∀ w j, R.G w j = fderiv ℝ f (fit X w) (column X j)) ∧ R.L = L ∧
      R.sc = sc ∧ (R.m0 = XR.ninf ∨ R.m0 = XR.fin 0) ∧
      (∀ v s, 0 < s → Penalty.prox pen (XR.fin v) (XR.fin s) = .ok (XR.fin (R.px v s))) ∧
      (∀ j v, L j ≠ 0 → IsProx (fun z => (1 / L j) * φ z) v (R.px v (1 / L j))) ∧
      ∀ {srt : Argsort XR}, ArgsortSpec srt → ∀ cfg : Solver XR,
        runCD srt ds df0 pen cfg = (fun q => (⟨vec q.1, vec (fit X q.1)⟩, q.2)) <$> R.run srt cfg := by
  classical
  obtain ⟨hn, df, hi, hval, hgrad, hfull, hstep⟩ := hd
  choose px hpx using fun (v s : ℝ) => (show ∃ x, 0 < s → Penalty.prox pen (XR.fin v) (XR.fin s) = .ok (XR.fin x) ∧
      ((∃ j, L j ≠ 0 ∧ s = 1 / L j) → IsProx (fun z => s * φ z) v x) by
    by_cases h : 0 < s
    · obtain ⟨x, hx⟩ := hp.prox v s h
      exact ⟨x, fun _ => hx⟩
    · exact ⟨0, fun h' => absurd h' h⟩)
  obtain ⟨m0, hm0, hsc⟩ := hp.scores
  have hD : @DSem DM DF _ (fixInit DM df) ds df n p X f (fun u j => fderiv ℝ f u (column X j)) L :=
    @DSem.mk DM DF _ (fixInit DM df) ds df n p X f (fun u j => fderiv ℝ f u (column X j)) L
      hn hX.features (fun _ => rfl) hval hgrad hfull hstep hX.update hX.combine
  have hP : PSem pen φ px sc m0 := by
    refine ⟨hp.value, fun v s h => (hpx v s h).1, fun {q} w g l => ?_⟩
    obtain ⟨m, h1, h2, h3⟩ := hsc w g l
    rw [h1]
    split
    · rename_i h; rw [h2 h]
    · rename_i h
      obtain ⟨r, h4, h5⟩ := h3 h
      obtain ⟨r', h6, h7, h8⟩ := maxDist_fin (l.map fun j => sc (w j) (g j)) (by simpa using h)
      rw [List.map_map] at h8
      have e : r = r' := by
        refine h5.unique ⟨?_, ?_⟩
        · obtain ⟨j, hj, hj'⟩ := List.mem_map.mp h6
          exact ⟨j, hj, hj'.symm⟩
        · rintro a ⟨j, hj, rfl⟩
          exact h7 _ (List.mem_map.mpr ⟨j, hj, rfl⟩)
      rw [h4, e]
      exact congrArg (fun x => Except.ok (_, x)) h8.symm
  refine ⟨probCD X f (fun u j => fderiv ℝ f u (column X j)) L φ px sc m0,
    fun _ => rfl, fun _ _ => rfl, rfl, rfl, hm0, fun v s h => (hpx v s h).1, fun j v h0 => ?_,
    fun hs cfg => runCD_init hi hD hP hL hs cfg⟩
  have h1 : 0 < L j := lt_of_le_of_ne (hL j) (Ne.symm h0)
  exact (hpx v (1 / L j) (by positivity)).2 ⟨j, h0, rfl⟩

/-- The same with distances as scores. -/
theorem custom_problem (hX : StorageOK ds.designMatrix X) (hL : ∀ j, 0 ≤ L j) (hd : DatafitOK ds df0 f X L)
    (hp : PenaltyOK pen φ L) : ∃ R : RProb ℝ p,
      (∀ w, R.F w = customObjective f X φ w) ∧ (∀ w j, R.G w j = fderiv ℝ f (fit X w) (column X j)) ∧ R.L = L ∧
      (∀ x g, R.sc x g = Metric.infDist (-g) (frechetSubdiff φ x)) ∧ (R.m0 = XR.ninf ∨ R.m0 = XR.fin 0) ∧
      (∀ v s, 0 < s → Penalty.prox pen (XR.fin v) (XR.fin s) = .ok (XR.fin (R.px v s))) ∧
      (∀ j v, L j ≠ 0 → IsProx (fun z => (1 / L j) * φ z) v (R.px v (1 / L j))) ∧
      ∀ {srt : Argsort XR}, ArgsortSpec srt → ∀ cfg : Solver XR,
        runCD srt ds df0 pen cfg = (fun q => (⟨vec q.1, vec (fit X q.1)⟩, q.2)) <$> R.run srt cfg := by
  obtain ⟨R, hF, hG, hL', hsc, h⟩ := custom_scored hX hL hd hp.scored
  exact ⟨R, hF, hG, hL', fun x g => by rw [hsc], h⟩

/-- The same with Lipschitz constants of the loss as step constants. -/
theorem custom_run (hX : StorageOK ds.designMatrix X) (hf : LossOK f X L) (hd : DatafitOK ds df0 f X L)
    (hp : PenaltyOK pen φ L) : ∃ R : RProb ℝ p,
      (∀ w, R.F w = customObjective f X φ w) ∧ (∀ w j, R.G w j = fderiv ℝ f (fit X w) (column X j)) ∧ R.L = L ∧
      (∀ x g, R.sc x g = Metric.infDist (-g) (frechetSubdiff φ x)) ∧ (R.m0 = XR.ninf ∨ R.m0 = XR.fin 0) ∧
      R.MM (fun w => f (fit X w)) φ ∧ R.Smooth (fun w => f (fit X w)) ∧
      ∀ {srt : Argsort XR}, ArgsortSpec srt → ∀ cfg : Solver XR,
        runCD srt ds df0 pen cfg = (fun q => (⟨vec q.1, vec (fit X q.1)⟩, q.2)) <$> R.run srt cfg := by
  obtain ⟨R, hF, hG, hL, hsc, hm0, -, hpx, hrun⟩ := custom_problem hX hf.steps hd hp
  have major : ∀ (w : Fin p → ℝ) (j : Fin p) (v : ℝ), f (fit X (Function.update w j v)) ≤
      f (fit X w) + inner ℝ (R.G w j) (v - w j) + R.L j * ‖v - w j‖ ^ 2 / 2 := by
    intro w j v
    rw [hG, hL, fit_update_column, Real.norm_eq_abs, sq_abs]
    exact line_major hf (fit X w) j (v - w j)
  refine ⟨R, hF, hG, hL, hsc, hm0, ⟨hF, by rw [hL]; exact hf.steps, major, by rw [hL]; exact hpx⟩,
    ⟨by rw [hL]; exact hf.steps, major, fun w w' => ?_, fun w => hf.nonneg _⟩, hrun⟩
  have h1 := tangent_le hf.convex hf.diff (fit X w) (fit X w')
  rw [fit_sub_columns, map_sum] at h1
  refine le_trans (le_of_eq ?_) h1
  congr 1
  refine Finset.sum_congr rfl fun j _ => ?_
  rw [hG, map_smul]
  rfl

theorem custom_weak {m b : ℝ} (hp : PenaltyOK pen φ L) (hr : Regular φ m b) {R : RProb ℝ p}
    (hsc : ∀ x g, R.sc x g = Metric.infDist (-g) (frechetSubdiff φ x)) (hM : R.MM (fun w => f (fit X w)) φ)
    (hS : R.Smooth (fun w => f (fit X w))) : R.Weak (fun w => f (fit X w)) φ m b :=
  ⟨hM, hS, weaklyConvex_of hr.convex, hr.bound, hr.nonneg, fun x g => ⟨hp.subdiff x, hsc x g⟩, frechet_zero_mem hr.zero hr.nonneg, hr.near⟩

/-- `solve` and the verbose run in terms of the run over the reals. -/
theorem custom_solve {R : RProb ℝ p} {srt : Argsort XR} {cfg : Solver XR}
    (h : runCD srt ds df0 pen cfg = (fun q => (⟨vec q.1, vec (fit X q.1)⟩, q.2)) <$> R.run srt cfg) :
    cfg.solve srt ds df0 pen = (fun q => vec q.1) <$> R.run srt cfg := by
  rw [solve_eq, h]
  cases R.run srt cfg <;> rfl

theorem custom_of_solve {R : RProb ℝ p} {srt : Argsort XR} {cfg : Solver XR} {v : Fin p → ℝ}
    (h : runCD srt ds df0 pen cfg = (fun q => (⟨vec q.1, vec (fit X q.1)⟩, q.2)) <$> R.run srt cfg)
    (hv : cfg.solve srt ds df0 pen = .ok (vec v)) : ∃ k, R.run srt cfg = .ok (v, k) := by
  rw [custom_solve h] at hv
  cases hr : R.run srt cfg with
  | error e => rw [hr] at hv; cases hv
  | ok q =>
    rw [hr] at hv
    injection hv with hv
    exact ⟨q.2, by rw [← vec_injective hv]⟩

theorem custom_trace {R : RProb ℝ p} {srt : Argsort XR} {cfg : Solver XR}
    (h : ∀ cfg : Solver XR, runCD srt ds df0 pen cfg = (fun q => (⟨vec q.1, vec (fit X q.1)⟩, q.2)) <$> R.run srt cfg)
    {v : Fin p → ℝ} {k : ℕ} (hr : R.run srt cfg = .ok (v, k)) :
    ∃ st df' log, coordinateDescent srt ds df0 pen (cfg.setVerbose true) = .ok (st, df', log) ∧ iterationsPrinted log = k := by
  have h1 := cd_rel srt ds df0 pen (cfg.setVerbose true)
  have hr' : R.run srt (cfg.setVerbose true) = .ok (v, k) := hr
  rw [h, hr'] at h1
  cases hc : coordinateDescent srt ds df0 pen (cfg.setVerbose true) with
  | error e => rw [hc] at h1; exact h1.elim
  | ok r =>
    rw [hc] at h1
    exact ⟨r.1, r.2.1, r.2.2, rfl, h1.2.1 rfl⟩
end Call

end Sglm
