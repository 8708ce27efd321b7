import Verif.Spec.CustomMT
import Verif.Proofs.Custom

/-!
# User-supplied multi-task datafits and penalties as runs over the reals
-/

namespace Sglm
open Scalar Spec
variable {n p T : ℕ}

section Loss
variable {f : (Fin n → Fin T → ℝ) → ℝ} {X : Fin n → Fin p → ℝ} {L : Fin p → ℝ}

theorem rowDir_sum (X : Fin n → Fin p → ℝ) (j : Fin p) (d : Fin T → ℝ) :
    rowDir X j d = ∑ t, d t • rowDir X j (Pi.single t 1) := by
  funext i s
  rw [Finset.sum_apply, Finset.sum_apply]
  simp only [Pi.smul_apply, smul_eq_mul, rowDir]
  rw [Finset.sum_eq_single s]
  · rw [Pi.single_eq_same]; ring
  · intro t _ ht
    rw [Pi.single_eq_of_ne (Ne.symm ht)]; ring
  · intro h; exact absurd (Finset.mem_univ s) h

theorem fderiv_rowDir (f : (Fin n → Fin T → ℝ) → ℝ) (X : Fin n → Fin p → ℝ) (u : Fin n → Fin T → ℝ) (j : Fin p) (d : Euc T) :
    fderiv ℝ f u (rowDir X j d.ofLp) = inner ℝ (blockGrad f X u j) d := by
  rw [rowDir_sum, map_sum, PiLp.inner_apply]
  refine Finset.sum_congr rfl fun t _ => ?_
  rw [map_smul]
  rfl

theorem smul_rowDir (X : Fin n → Fin p → ℝ) (j : Fin p) (d : Euc T) (s : ℝ) : s • rowDir X j d.ofLp = rowDir X j (s • d).ofLp := by
  funext i t
  show s * (X i j * d.ofLp t) = X i j * (s * d.ofLp t)
  ring

/-- Lipschitz gradients give a quadratic upper bound. -/
theorem block_major (hf : LossOKMT f X L) (u : Fin n → Fin T → ℝ) (j : Fin p) (d : Euc T) :
    f (u + rowDir X j d.ofLp) ≤ f u + inner ℝ (blockGrad f X u j) d + L j * ‖d‖ ^ 2 / 2 := by
  have h := line_bound hf.diff (u := u) (d := rowDir X j d.ofLp) (c := L j * ‖d‖ ^ 2) (fun t => ?_) 1
  · rw [one_smul, one_mul, fderiv_rowDir, one_pow, mul_one] at h
    exact h
  · rw [fderiv_rowDir, fderiv_rowDir, ← inner_sub_left]
    refine (abs_real_inner_le_norm _ _).trans ?_
    have h1 := hf.lipschitz u j (t • d)
    rw [norm_smul, Real.norm_eq_abs, ← smul_rowDir] at h1
    refine (mul_le_mul_of_nonneg_right h1 (norm_nonneg d)).trans (le_of_eq ?_)
    ring

theorem predictions_update (X : Fin n → Fin p → ℝ) (W : Fin p → Euc T) (j : Fin p) (a : Euc T) :
    predictions X (Function.update W j a) = predictions X W + rowDir X j (a - W j).ofLp := by
  funext i t
  refine (MT.fitE_set X W j a i t).trans ?_
  show _ = MT.fitE X W i t + X i j * (a.ofLp t - (W j).ofLp t)
  ring

theorem predictions_sub (X : Fin n → Fin p → ℝ) (W W' : Fin p → Euc T) :
    predictions X W' - predictions X W = ∑ j, rowDir X j (W' j - W j).ofLp := by
  funext i t
  rw [Finset.sum_apply, Finset.sum_apply]
  show ∑ j, X i j * (W' j).ofLp t - ∑ j, X i j * (W j).ofLp t = ∑ j, X i j * ((W' j).ofLp t - (W j).ofLp t)
  rw [← Finset.sum_sub_distrib]
  exact Finset.sum_congr rfl fun j _ => by ring

theorem block_tangent (hc : ConvexOn ℝ Set.univ f) (hd : Differentiable ℝ f) (W W' : Fin p → Euc T) :
    f (predictions X W) + ∑ j, inner ℝ (blockGrad f X (predictions X W) j) (W' j - W j) ≤ f (predictions X W') := by
  have h1 := tangent_le hc hd (predictions X W) (predictions X W')
  rw [predictions_sub, map_sum] at h1
  simpa only [fderiv_rowDir] using h1
end Loss

section Pen
variable {E : Type} [NormedAddCommGroup E] [InnerProductSpace ℝ E] {φ : E → ℝ} {m : ℝ}

theorem convex_combo_sq (x z : E) (t : ℝ) :
    ‖x + t • (z - x)‖ ^ 2 = (1 - t) * ‖x‖ ^ 2 + t * ‖z‖ ^ 2 - t * (1 - t) * ‖z - x‖ ^ 2 := by
  rw [norm_add_sq_real, norm_sub_sq_real, norm_smul, inner_smul_right, inner_sub_right, real_inner_self_eq_norm_sq, mul_pow,
    Real.norm_eq_abs, sq_abs, norm_sub_sq_real, real_inner_comm]
  ring

theorem weaklyConvex_iff : WeaklyConvex φ m ↔ ConvexOn ℝ Set.univ fun z => φ z + m / 2 * ‖z‖ ^ 2 := by
  have e : ∀ (x z : E) (t : ℝ), (1 - t) • x + t • z = x + t • (z - x) := fun x z t => by
    rw [smul_sub, sub_smul, one_smul]; abel
  constructor
  · intro h
    refine ⟨convex_univ, fun x _ z _ a t ha ht hat => ?_⟩
    obtain rfl : a = 1 - t := by linarith
    have h1 := h x z t ht (by linarith)
    rw [e]
    beta_reduce
    rw [convex_combo_sq]
    simp only [smul_eq_mul]
    linarith
  · intro h x z t h0 h1
    have h2 := h.2 (Set.mem_univ x) (Set.mem_univ z) (show 0 ≤ 1 - t by linarith) h0 (by ring)
    rw [e] at h2
    beta_reduce at h2
    rw [convex_combo_sq] at h2
    simp only [smul_eq_mul] at h2
    linarith

theorem frechet_zero_memE (h0 : φ 0 = 0) (h1 : ∀ z, 0 ≤ φ z) : (0 : E) ∈ frechetSubdiff φ 0 := by
  intro ε hε
  refine ⟨1, one_pos, fun z _ => ?_⟩
  rw [h0, inner_zero_left]
  have := mul_nonneg hε.le (norm_nonneg (z - 0))
  linarith [h1 z]
end Pen

section Call
variable {DM DF P : Type} [DesignMatrix XR DM] [MTDatafit XR DM DF] [MTPenalty XR P]
  {ds : Dataset DM XR} {df0 : DF} {pen : P} {f : (Fin n → Fin T → ℝ) → ℝ} {X : Fin n → Fin p → ℝ} {L : Fin p → ℝ} {φ : Euc T → ℝ}

/-- A penalty which computes the right numbers meets the contract. -/
theorem penaltyOKMT_of {px : Euc T → ℝ → Euc T} {sc : Euc T → Euc T → ℝ} {m0 : XR} (h : BSem pen T φ px sc m0)
    (hm0 : m0 = XR.ninf ∨ m0 = XR.fin 0) (hsc : ∀ x g, IsDist (-g) (frechetSubdiff φ x) (sc x g))
    (hpx : ∀ j, L j ≠ 0 → 0 < 1 / L j → ∀ v, IsProx (fun z => 1 / L j * φ z) v (px v (1 / L j))) : PenaltyOKMT pen φ L where
  value := h.value
  prox v s hs := ⟨px v s, h.prox v s hs, fun ⟨j, h0, e⟩ => by
    subst e
    exact hpx j h0 hs v⟩
  subdiff x := (hsc x 0).1
  scores := by
    refine ⟨m0, hm0, fun {q} w g ws => ⟨if ws = [] then m0 else maxDist (ws.map fun j => XR.fin (Metric.infDist (-g j)
      (frechetSubdiff φ (w j)))), ?_, fun h => if_pos h, fun hne => ?_⟩⟩
    · have := h.dist w g ws
      simp only [fun j => (hsc (w j) (g j)).2] at this
      exact this
    · rw [if_neg hne]
      obtain ⟨r, h1, h2, h3⟩ := maxDist_fin (ws.map fun j => Metric.infDist (-g j) (frechetSubdiff φ (w j))) (by simpa using hne)
      rw [List.map_map] at h3
      refine ⟨r, h3, ?_, ?_⟩
      · obtain ⟨j, hj, hj'⟩ := List.mem_map.mp h1
        exact ⟨j, hj, hj'.symm⟩
      · rintro a ⟨j, hj, rfl⟩
        exact h2 _ (List.mem_map.mpr ⟨j, hj, rfl⟩)

/-- The datafit with the result of its initialization filled in. -/
abbrev fixInitMT (DM : Type) {DF : Type} [MTDatafit XR DM DF] (df : DF) : MTDatafit XR DM DF where
  init := fun _ _ => .ok df
  value := MTDatafit.value
  gradientJ := MTDatafit.gradientJ
  fullGrad := MTDatafit.fullGrad
  stepSize := MTDatafit.stepSize (DM := DM)

/-- A run of the solver on real data, for one initial datafit object. -/
theorem runBCD_init {df : DF} {g : (Fin n → Fin T → ℝ) → Fin p → Fin T → ℝ} {px : Euc T → ℝ → Euc T} {sc : Euc T → Euc T → ℝ} {m0 : XR}
    (hi : MTDatafit.init df0 ds = .ok df) (hd : @MSem DM DF _ (fixInitMT DM df) ds df n p T X f g L) (hp : BSem pen T φ px sc m0)
    (hL : ∀ j, 0 ≤ L j) {srt : Argsort XR} (hs : ArgsortSpec srt) (cfg : Solver XR) :
    MT.runBCD srt ds df0 pen cfg =
      (fun q => (⟨emat q.1, mat (MT.fitE X q.1)⟩, q.2)) <$> (probBCD X f g L φ px sc m0).run srt cfg := by
  have h1 := @MT.runBCD_eq (hd := hd) (hp := hp) (hL := hL) (srt := srt) (hs := hs) (cfg := cfg) (df0 := df0)
  rw [← h1]
  unfold MT.runBCD
  rw [hi]
  rfl

/-- What the contracts give: a problem over the reals, and the solver runs on it. -/
theorem customMT_run (hX : StorageOKMT T ds.designMatrix X) (hf : LossOKMT f X L) (hd : DatafitOKMT ds df0 f X L)
    (hp : PenaltyOKMT pen φ L) : ∃ R : RProb (Euc T) p,
      (∀ W, R.F W = customObjectiveMT f X φ W) ∧ (∀ W j, R.G W j = blockGrad f X (predictions X W) j) ∧ R.L = L ∧
      (∀ x g, R.sc x g = Metric.infDist (-g) (frechetSubdiff φ x)) ∧ (R.m0 = XR.ninf ∨ R.m0 = XR.fin 0) ∧
      R.MM (fun W => f (predictions X W)) φ ∧ R.Smooth (fun W => f (predictions X W)) ∧
      ∀ {srt : Argsort XR}, ArgsortSpec srt → ∀ cfg : Solver XR,
        MT.runBCD srt ds df0 pen cfg = (fun q => (⟨emat q.1, mat (MT.fitE X q.1)⟩, q.2)) <$> R.run srt cfg := by
  classical
  obtain ⟨hn, hT, df, hi, hval, hgrad, hfull, hstep⟩ := hd
  choose px hpx using fun (v : Euc T) (s : ℝ) => (show ∃ x, 0 < s → MTPenalty.prox pen (evec v) (XR.fin s) = .ok (evec x) ∧
      ((∃ j, L j ≠ 0 ∧ s = 1 / L j) → IsProx (fun z => s * φ z) v x) by
    by_cases h : 0 < s
    · obtain ⟨x, hx⟩ := hp.prox v s h
      exact ⟨x, fun _ => hx⟩
    · exact ⟨0, fun h' => absurd h' h⟩)
  obtain ⟨m0, hm0, hsc⟩ := hp.scores
  have hD : @MSem DM DF _ (fixInitMT DM df) ds df n p T X f (fun u j => (blockGrad f X u j).ofLp) L :=
    @MSem.mk DM DF _ (fixInitMT DM df) ds df n p T X f (fun u j => (blockGrad f X u j).ofLp) L
      hn hT hX.features (fun _ => rfl) hval hgrad hfull hstep hX.update hX.combine
  have hP : BSem pen T φ px (fun x g => Metric.infDist (-g) (frechetSubdiff φ x)) m0 := by
    refine ⟨hp.value, fun v s h => (hpx v s h).1, fun {q} w g l => ?_⟩
    obtain ⟨m, h1, h2, h3⟩ := hsc w g l
    rw [h1]
    split
    · rename_i h; rw [h2 h]
    · rename_i h
      obtain ⟨r, h4, h5⟩ := h3 h
      obtain ⟨r', h6, h7, h8⟩ := maxDist_fin (l.map fun j => Metric.infDist (-g j) (frechetSubdiff φ (w j))) (by simpa using h)
      rw [List.map_map] at h8
      have e : r = r' := by
        refine h5.unique ⟨?_, ?_⟩
        · obtain ⟨j, hj, hj'⟩ := List.mem_map.mp h6
          exact ⟨j, hj, hj'.symm⟩
        · rintro a ⟨j, hj, rfl⟩
          exact h7 _ (List.mem_map.mpr ⟨j, hj, rfl⟩)
      rw [h4, e]
      exact congrArg (fun x => Except.ok (_, x)) h8.symm
  have major : ∀ (W : Fin p → Euc T) (j : Fin p) (v : Euc T), f (predictions X (Function.update W j v)) ≤
      f (predictions X W) + inner ℝ (blockGrad f X (predictions X W) j) (v - W j) + L j * ‖v - W j‖ ^ 2 / 2 := by
    intro W j v
    rw [predictions_update]
    exact block_major hf _ j (v - W j)
  refine ⟨probBCD X f (fun u j => (blockGrad f X u j).ofLp) L φ px (fun x g => Metric.infDist (-g) (frechetSubdiff φ x)) m0,
    fun _ => rfl, fun _ _ => rfl, rfl, fun _ _ => rfl, hm0, ⟨fun _ => rfl, hf.steps, major, ?_⟩,
    ⟨hf.steps, major, fun W W' => block_tangent hf.convex hf.diff W W', fun W => hf.nonneg _⟩,
    fun hs cfg => runBCD_init hi hD hP hf.steps hs cfg⟩
  intro j v h0
  have hL : 0 < L j := lt_of_le_of_ne (hf.steps j) (Ne.symm h0)
  exact (hpx v (1 / L j) (by positivity)).2 ⟨j, h0, rfl⟩

theorem customMT_weak {m b : ℝ} (hp : PenaltyOKMT pen φ L) (hr : RegularMT φ m b) {R : RProb (Euc T) p}
    (hsc : ∀ x g, R.sc x g = Metric.infDist (-g) (frechetSubdiff φ x)) (hM : R.MM (fun W => f (predictions X W)) φ)
    (hS : R.Smooth (fun W => f (predictions X W))) : R.Weak (fun W => f (predictions X W)) φ m b :=
  ⟨hM, hS, weaklyConvex_iff.mpr hr.convex, hr.bound, hr.nonneg, fun x g => ⟨hp.subdiff x, hsc x g⟩, frechet_zero_memE hr.zero hr.nonneg,
    hr.near⟩

/-- `solve_multi_task` and the verbose run in terms of the run over the reals. -/
theorem customMT_solve {R : RProb (Euc T) p} {srt : Argsort XR} {cfg : Solver XR}
    (h : MT.runBCD srt ds df0 pen cfg = (fun q => (⟨emat q.1, mat (MT.fitE X q.1)⟩, q.2)) <$> R.run srt cfg) :
    cfg.solveMultiTask srt ds df0 pen = (fun q => emat q.1) <$> R.run srt cfg := by
  rw [MT.solve_eq, h]
  cases R.run srt cfg <;> rfl

theorem customMT_of_solve {R : RProb (Euc T) p} {srt : Argsort XR} {cfg : Solver XR} {V : Fin p → Euc T}
    (h : MT.runBCD srt ds df0 pen cfg = (fun q => (⟨emat q.1, mat (MT.fitE X q.1)⟩, q.2)) <$> R.run srt cfg)
    (hv : cfg.solveMultiTask srt ds df0 pen = .ok (emat V)) : ∃ k, R.run srt cfg = .ok (V, k) := by
  rw [customMT_solve h] at hv
  cases hr : R.run srt cfg with
  | error e => rw [hr] at hv; cases hv
  | ok q =>
    rw [hr] at hv
    injection hv with hv
    exact ⟨q.2, by rw [← emat_injective hv]⟩

theorem customMT_trace {R : RProb (Euc T) p} {srt : Argsort XR} {cfg : Solver XR}
    (h : ∀ cfg : Solver XR, MT.runBCD srt ds df0 pen cfg = (fun q => (⟨emat q.1, mat (MT.fitE X q.1)⟩, q.2)) <$> R.run srt cfg)
    {V : Fin p → Euc T} {k : ℕ} (hr : R.run srt cfg = .ok (V, k)) :
    ∃ st df' log, MT.blockCoordinateDescent srt ds df0 pen (cfg.setVerbose true) = .ok (st, df', log) ∧ iterationsPrinted log = k := by
  have h1 := MT.bcd_rel srt ds df0 pen (cfg.setVerbose true)
  have hr' : R.run srt (cfg.setVerbose true) = .ok (V, k) := hr
  rw [h, hr'] at h1
  cases hc : MT.blockCoordinateDescent srt ds df0 pen (cfg.setVerbose true) with
  | error e => rw [hc] at h1; exact h1.elim
  | ok r =>
    rw [hc] at h1
    exact ⟨r.1, r.2.1, r.2.2, rfl, h1.2.1 rfl⟩
end Call

end Sglm
