import Verif.Spec.Examples
import Verif.Proofs.SingleEntry
import Verif.Props.TestHelpers
import Verif.Props.Datafits
import Verif.Props.Sync
import Verif.Props.Descent
import Verif.Props.Predictions
import Verif.Proofs.Fits
import Verif.Proofs.Strong

/-!
# C98: The example programs

`Solver::new()` and the estimators have different default tolerances (`1e-8` and `1e-6`), so that the coefficients which the
examples compare with a precision of `1e-4` come from different stopping tests.
-/

namespace Sglm
open Scalar Spec Classical
variable {n p T : ℕ}

theorem generate_drawn (z : ℕ → ℝ) (n p : ℕ) :
    generateRandomData (fun k => XR.fin (z k)) n p = .ok (mat (drawnX z n p), vec (drawnY z n p)) := by
  unfold generateRandomData
  simp only [fromShapeVecF_fin, fillRandomVector_fin z p, fillRandomVector_fin z n, bind, Except.bind, dotVec_mat, bop_add_vec]
  rfl

theorem generate_drawnT (z : ℕ → ℝ) (n p T : ℕ) :
    generateRandomDataMtl (fun k => XR.fin (z k)) n p T = .ok (mat (drawnX z n p), mat (drawnYT z n p T)) := by
  unfold generateRandomDataMtl
  simp only [fromShapeVecF_fin, fromShapeVec_fin, bind, Except.bind, dotMat_mat]
  unfold bopMat
  rw [if_pos (by simp)]
  show Except.ok (mat _, Mat.mk _ _) = _
  congr 2
  unfold mat
  dsimp only
  congr 1
  apply List.ext_getElem
  · simp
  · intro i h1 h2
    simp only [List.getElem_zipWith, List.getElem_ofFn]
    exact zipWith_vec _ _ Scalar.add (fun a b => a + b) fun t => XR.s_add _ _

theorem solver_new : (Solver.new : Solver XR) = solverDefaults := by
  unfold Solver.new solverDefaults
  rw [XR.s_lit]
  norm_num

theorem lasso_solver (a : XR) : (LassoParams.new.setAlpha a).solver = estimatorDefaults := by
  unfold estimatorDefaults
  show (⟨10, 50, 1000, lit 1 1000000, 5, true, true⟩ : Solver XR) = _
  rw [XR.s_lit]
  norm_num

theorem enet_solver (a r : XR) : ((ElasticNetParams.new.setAlpha a).setL1Ratio r).solver = estimatorDefaults := by
  unfold estimatorDefaults
  show (⟨10, 50, 1000, lit 1 1000000, 5, true, true⟩ : Solver XR) = _
  rw [XR.s_lit]
  norm_num

theorem absDiffNe_fin (a b δ : ℝ) : absDiffNe (XR.fin a) (XR.fin b) (XR.fin δ) = !decide (|a - b| ≤ δ) := by
  unfold absDiffNe
  simp

theorem any_zip_vec (v w : Fin p → ℝ) (δ : ℝ) :
    ((vec v).zip (vec w)).any (fun q => absDiffNe q.1 q.2 (XR.fin δ)) = !decide (AllClose v w δ) := by
  rw [Bool.eq_iff_iff, List.any_eq_true, Bool.not_eq_true', decide_eq_false_iff_not]
  unfold AllClose
  push Not
  constructor
  · rintro ⟨q, hq, h⟩
    obtain ⟨k, hk, rfl⟩ := List.getElem_of_mem hq
    have hk' : k < p := by simpa [vec] using hk
    refine ⟨⟨k, hk'⟩, ?_⟩
    simp only [vec, List.getElem_zip, List.getElem_ofFn, absDiffNe_fin, Bool.not_eq_true', decide_eq_false_iff_not, not_le] at h
    exact h
  · rintro ⟨j, hj⟩
    refine ⟨(XR.fin (v j), XR.fin (w j)), ?_, ?_⟩
    · have h1 : (j : ℕ) < ((vec v).zip (vec w)).length := by simp [vec]
      have h2 : ((vec v).zip (vec w))[(j : ℕ)] = (XR.fin (v j), XR.fin (w j)) := by simp [vec]
      rw [← h2]
      exact List.getElem_mem h1
    · rw [absDiffNe_fin, Bool.not_eq_true', decide_eq_false_iff_not, not_le]
      exact hj

theorem assertArrayAllClose_vec (v w : Fin p → ℝ) (δ : ℝ) :
    assertArrayAllClose (vec v) (vec w) (XR.fin δ) = if AllClose v w δ then .ok () else .error .assertion := by
  unfold assertArrayAllClose
  rw [if_pos (by simp), any_zip_vec]
  by_cases h : AllClose v w δ <;> simp [h]

theorem assertArray2dAllClose_mat (V W : Fin p → Fin T → ℝ) (δ : ℝ) :
    assertArray2dAllClose (mat V) (mat W) (XR.fin δ) = if AllClose2 V W δ then .ok () else .error .assertion := by
  unfold assertArray2dAllClose
  rw [if_pos ⟨by simp, by simp⟩]
  have h : ((mat V).rows.zip (mat W).rows).any (fun r => (r.1.zip r.2).any (fun q => absDiffNe q.1 q.2 (XR.fin δ))) =
      !decide (AllClose2 V W δ) := by
    rw [Bool.eq_iff_iff, List.any_eq_true, Bool.not_eq_true', decide_eq_false_iff_not]
    constructor
    · rintro ⟨q, hq, h⟩ hc
      obtain ⟨k, hk, rfl⟩ := List.getElem_of_mem hq
      have hk' : k < p := by simpa [mat] using hk
      have e : ((mat V).rows.zip (mat W).rows)[k] = (vec (V ⟨k, hk'⟩), vec (W ⟨k, hk'⟩)) := by simp [mat]
      rw [e, any_zip_vec, Bool.not_eq_true', decide_eq_false_iff_not] at h
      exact h fun t => hc ⟨k, hk'⟩ t
    · intro hc
      unfold AllClose2 at hc
      push Not at hc
      obtain ⟨j, t, hj⟩ := hc
      refine ⟨(vec (V j), vec (W j)), ?_, ?_⟩
      · have h1 : (j : ℕ) < ((mat V).rows.zip (mat W).rows).length := by simp [mat]
        have h2 : ((mat V).rows.zip (mat W).rows)[(j : ℕ)] = (vec (V j), vec (W j)) := by simp [mat]
        rw [← h2]
        exact List.getElem_mem h1
      · rw [any_zip_vec, Bool.not_eq_true', decide_eq_false_iff_not]
        exact fun h => absurd (h t) (not_le.mpr hj)
  rw [h]
  by_cases h : AllClose2 V W δ <;> simp [h]

theorem absMax_nonneg (f : Fin p → ℝ) : 0 ≤ absMax f := by
  unfold absMax
  have : ∀ (l : List ℝ) (c : ℝ), c ≤ l.foldl (fun c a => max c |a|) c := by
    intro l
    induction l with
    | nil => intro c; exact le_rfl
    | cons a l ih => intro c; exact (le_max_left _ _).trans (ih _)
  exact this _ 0

theorem absMax_least (hn : 0 < n) (f : Fin p → ℝ) : IsLeast {a : ℝ | 0 ≤ a ∧ ∀ j, |f j| / n ≤ a} (10 * (absMax f / n * (1 / 10))) := by
  have hn' : (0:ℝ) < n := by exact_mod_cast hn
  have h0 := absMax_nonneg f
  have e : 10 * (absMax f / n * (1 / 10)) = absMax f / n := by ring
  rw [e]
  refine ⟨⟨by positivity, fun j => div_le_div_of_nonneg_right ((absMax_le _ h0).mp le_rfl j) hn'.le⟩, ?_⟩
  rintro a ⟨ha, hj⟩
  rw [div_le_iff₀ hn', absMax_le _ (by positivity)]
  intro j
  rw [← div_le_iff₀ hn']
  exact hj j

theorem lassoParams_ok {α : ℝ} (hα : 0 ≤ α) :
    (LassoParams.new.setAlpha (XR.fin α)).checkRef = .ok (LassoParams.new.setAlpha (XR.fin α)) := by
  unfold LassoParams.checkRef checkTail LassoParams.setAlpha LassoParams.new
  dsimp only
  rw [XR.s_signBit, XR.s_lit, XR.s_signBit, decide_eq_false (not_lt.mpr hα), decide_eq_false (by norm_num)]
  rfl

theorem enetParams_ok {α ρ : ℝ} (hα : 0 ≤ α) (h0 : 0 ≤ ρ) (h1 : ρ ≤ 1) :
    ((ElasticNetParams.new.setAlpha (XR.fin α)).setL1Ratio (XR.fin ρ)).checkRef =
      .ok ((ElasticNetParams.new.setAlpha (XR.fin α)).setL1Ratio (XR.fin ρ)) := by
  unfold ElasticNetParams.checkRef checkTail ElasticNetParams.setAlpha ElasticNetParams.setL1Ratio ElasticNetParams.new
  dsimp only
  rw [XR.s_signBit, XR.s_lit, XR.s_lit, XR.s_one, XR.s_zero, XR.s_lt, XR.s_lt, XR.s_signBit, decide_eq_false (not_lt.mpr hα),
    decide_eq_false (not_lt.mpr h1), decide_eq_false (not_lt.mpr h0), decide_eq_false (by norm_num)]
  rfl

/-! ## The programs on data of any size -/

theorem lassoProgram_eq {srt : Argsort XR} (hs : ArgsortSpec srt) (hn : 0 < n) (hp : 5 ≤ p) (X : Fin n → Fin p → ℝ) (y : Fin n → ℝ) :
    ∃ (α : ℝ) (v v' : Fin p → ℝ), 0 ≤ α ∧ TenthOfMax X y α ∧
    solve1 srt solverDefaults (.dense X) y .quadratic (.l1 α) = .ok (vec v) ∧
    solve1 srt estimatorDefaults (.dense X) y .quadratic (.l1 α) = .ok (vec v') ∧
    lassoProgram srt (mat X) (vec y) = if AllClose v v' (1 / 10 ^ 4) then .ok (vec v, vec v') else .error .assertion := by
  obtain ⟨α, hα⟩ : ∃ α, α = absMax (fun j => ∑ i, X i j * y i) / n * (1 / 10) := ⟨_, rfl⟩
  have h0 : 0 ≤ α := by
    rw [hα]
    exact mul_nonneg (div_nonneg (absMax_nonneg _) (Nat.cast_nonneg _)) (by norm_num)
  obtain ⟨v, hv⟩ := C26_finite_partial hs hn (.dense X) y .quadratic (.l1 α) h0 solverDefaults (by decide) (by decide) hp
  obtain ⟨v', hv'⟩ := C26_finite_partial hs hn (.dense X) y .quadratic (.l1 α) h0 estimatorDefaults (by decide) (by decide) hp
  refine ⟨α, v, v', h0, hα ▸ absMax_least hn _, hv, hv', ?_⟩
  have hf : Lasso.fit srt (LassoParams.new.setAlpha (XR.fin α)) (denseDs X y) = .ok (.ok (vec v')) := by
    have := fitLasso_eq srt (LassoParams.new.setAlpha (XR.fin α)) α rfl (.dense X) y
    rw [lassoParams_ok h0, guarded_ok, lasso_solver, hv'] at this
    exact this
  have hv2 : Solver.new.solve srt (denseDs X y) (Quadratic.new : Quadratic XR) (L1.mk (XR.fin α)) = .ok (vec v) := by
    rw [solver_new]
    exact hv
  unfold lassoProgram
  rw [alphaMax_eq hn]
  have e : (XR.fin (absMax (fun j => ∑ i, X i j * y i) / n) *. lit 1 10) = XR.fin α := by
    rw [XR.s_lit, XR.s_mul, hα]
    norm_num
  show (do
    let coefficients ← ExFail.lib (Solver.new.solve srt (denseDs X y) (Quadratic.new : Quadratic XR) (L1.mk (_ *. lit 1 10)))
    let estimator ← ExFail.unwrap (Lasso.fit srt (LassoParams.new.setAlpha (_ *. lit 1 10)) (denseDs X y))
    assertArrayAllClose coefficients estimator (lit 1 10000)
    pure (coefficients, estimator) : Except ExFail _) = _
  rw [e, hv2, hf]
  show (assertArrayAllClose (vec v) (vec v') (lit 1 10000) >>= _) = _
  rw [XR.s_lit, show ((1 : ℤ) : ℝ) / ((10000 : ℕ) : ℝ) = 1 / 10 ^ 4 by norm_num, assertArrayAllClose_vec]
  split <;> rfl

theorem elasticNetProgram_eq {srt : Argsort XR} (hs : ArgsortSpec srt) (hn : 0 < n) (hp : 5 ≤ p) (X : Fin n → Fin p → ℝ) (y : Fin n → ℝ) :
    ∃ v v' : Fin p → ℝ,
    solve1 srt solverDefaults (.dense X) y .quadratic (.enet (1 / 20) (7 / 10)) = .ok (vec v) ∧
    solve1 srt estimatorDefaults (.dense X) y .quadratic (.enet (1 / 20) (7 / 10)) = .ok (vec v') ∧
    elasticNetProgram srt (mat X) (vec y) = if AllClose v v' (1 / 10 ^ 4) then .ok (vec v, vec v') else .error .assertion := by
  have hval : (Pen.enet (1 / 20) (7 / 10)).Valid := ⟨by norm_num, by norm_num, by norm_num⟩
  obtain ⟨v, hv⟩ := C26_finite_partial hs hn (.dense X) y .quadratic (.enet (1 / 20) (7 / 10)) hval solverDefaults (by decide) (by decide) hp
  obtain ⟨v', hv'⟩ := C26_finite_partial hs hn (.dense X) y .quadratic (.enet (1 / 20) (7 / 10)) hval estimatorDefaults (by decide) (by decide) hp
  have ea : (lit 1 20 : XR) = XR.fin (1 / 20) := by rw [XR.s_lit]; norm_num
  have er : (lit 7 10 : XR) = XR.fin (7 / 10) := by rw [XR.s_lit]; norm_num
  have hf : ElasticNet.fit srt ((ElasticNetParams.new.setAlpha (lit 1 20 : XR)).setL1Ratio (lit 7 10)) (denseDs X y) = .ok (.ok (vec v')) := by
    rw [ea, er]
    have := fitElasticNet_eq srt ((ElasticNetParams.new.setAlpha (XR.fin (1 / 20))).setL1Ratio (XR.fin (7 / 10))) (1 / 20) (7 / 10) rfl rfl (.dense X) y
    rw [enetParams_ok hval.1 hval.2.1 hval.2.2, guarded_ok, enet_solver, hv'] at this
    exact this
  have hv2 : Solver.new.solve srt (denseDs X y) (Quadratic.new : Quadratic XR) (L1PlusL2.mk (lit 1 20 : XR) (lit 7 10)) = .ok (vec v) := by
    rw [solver_new, ea, er]
    exact hv
  refine ⟨v, v', hv, hv', ?_⟩
  unfold elasticNetProgram
  show (do
    let coefficients ← ExFail.lib (Solver.new.solve srt (denseDs X y) (Quadratic.new : Quadratic XR) (L1PlusL2.mk (lit 1 20 : XR) (lit 7 10)))
    let estimator ← ExFail.unwrap (ElasticNet.fit srt ((ElasticNetParams.new.setAlpha (lit 1 20 : XR)).setL1Ratio (lit 7 10)) (denseDs X y))
    assertArrayAllClose coefficients estimator (lit 1 10000)
    pure (coefficients, estimator) : Except ExFail _) = _
  rw [hv2, hf]
  show (assertArrayAllClose (vec v) (vec v') (lit 1 10000) >>= _) = _
  rw [XR.s_lit, show ((1 : ℤ) : ℝ) / ((10000 : ℕ) : ℝ) = 1 / 10 ^ 4 by norm_num, assertArrayAllClose_vec]
  split <;> rfl

theorem multiTaskLassoProgram_eq {srt : Argsort XR} (hs : ArgsortSpec srt) (hn : 0 < n) (hp : 5 ≤ p * T) (hT : 5 ≤ 10 * T)
    (X : Fin n → Fin p → ℝ) (Y : Fin n → Fin T → ℝ) (hXY : ∃ j t, ∑ i, X i j * Y i t ≠ 0) :
    ∃ (α : ℝ) (V V' : Fin p → Fin T → ℝ), 0 < α ∧ TenthOfMaxMT X Y α ∧
    solveMT srt solverDefaults (.dense X) Y (.l21 α) = .ok (mat V) ∧
    solveMT srt estimatorDefaults (.dense X) Y (.l21 α) = .ok (mat V') ∧
    multiTaskLassoProgram srt (mat X) (mat Y) = if AllClose2 V V' (1 / 10 ^ 4) then .ok (mat V, mat V') else .error .assertion := by
  obtain ⟨α, hα⟩ : ∃ α, α = absMax (fun j => nrm (fun t => ∑ i, X i j * Y i t)) / n * (1 / 10) := ⟨_, rfl⟩
  have h0 : 0 < α := by
    obtain ⟨j, t, hjt⟩ := hXY
    rw [hα]
    refine mul_pos (div_pos ?_ (by exact_mod_cast hn)) (by norm_num)
    have h1 : 0 < ∑ t, (∑ i, X i j * Y i t) ^ 2 :=
      Finset.sum_pos' (fun _ _ => sq_nonneg _) ⟨t, Finset.mem_univ t, by positivity⟩
    have h2 : 0 < nrm (fun t => ∑ i, X i j * Y i t) := Real.sqrt_pos.mpr h1
    by_contra hc
    have h3 := (absMax_least Nat.one_pos fun j => nrm (fun t => ∑ i, X i j * Y i t)).1.2 j
    rw [Nat.cast_one, div_one, div_one, abs_of_pos h2] at h3
    linarith
  obtain ⟨v, hv⟩ := C26_finite_mt_partial hs hn (.dense X) Y (.l21 α) h0 solverDefaults (by decide) hT hp
  obtain ⟨v', hv'⟩ := C26_finite_mt_partial hs hn (.dense X) Y (.l21 α) h0 estimatorDefaults (by decide) hT hp
  refine ⟨α, v, v', h0, ?_, hv, hv', ?_⟩
  · have := absMax_least hn fun j => nrm (fun t => ∑ i, X i j * Y i t)
    rw [← hα] at this
    simp only [nrm, abs_of_nonneg (Real.sqrt_nonneg _)] at this
    exact this
  have hf : MultiTaskLasso.fit srt (LassoParams.new.setAlpha (XR.fin α)) (denseDsMT X Y) = .ok (.ok (mat v')) := by
    have := fitMTLasso_eq srt (LassoParams.new.setAlpha (XR.fin α)) α rfl (.dense X) Y
    rw [lassoParams_ok h0.le, guarded_ok, lasso_solver, hv'] at this
    exact this
  have hv2 : Solver.new.solveMultiTask srt (denseDsMT X Y) (QuadraticMT.new : QuadraticMT XR) (L21.mk (XR.fin α)) = .ok (mat v) := by
    rw [solver_new]
    exact hv
  unfold multiTaskLassoProgram
  rw [alphaMaxMtl_eq hn]
  have e : (XR.fin (absMax (fun j => nrm (fun t => ∑ i, X i j * Y i t)) / n) *. lit 1 10) = XR.fin α := by
    rw [XR.s_lit, XR.s_mul, hα]
    norm_num
  show (do
    let coefficients ← ExFail.lib (Solver.new.solveMultiTask srt (denseDsMT X Y) (QuadraticMT.new : QuadraticMT XR) (L21.mk (_ *. lit 1 10)))
    let estimator ← ExFail.unwrap (MultiTaskLasso.fit srt (LassoParams.new.setAlpha (_ *. lit 1 10)) (denseDsMT X Y))
    assertArray2dAllClose coefficients estimator (lit 1 10000)
    pure (coefficients, estimator) : Except ExFail _) = _
  rw [e, hv2, hf]
  show (assertArray2dAllClose (mat v) (mat v') (lit 1 10000) >>= _) = _
  rw [XR.s_lit, show ((1 : ℤ) : ℝ) / ((10000 : ℕ) : ℝ) = 1 / 10 ^ 4 by norm_num, assertArray2dAllClose_mat]
  split <;> rfl

theorem logisticProgram_eq {srt : Argsort XR} (X : Fin n → Fin p → ℝ) (y : Fin n → ℝ) :
    logisticProgram srt (mat X) (vec y) = ExFail.lib (solve1 srt solverDefaults (.dense X) y .logistic (.mcp (1 / 2) 3)) := by
  have ea : (lit 1 2 : XR) = XR.fin (1 / 2) := by rw [XR.s_lit]; norm_num
  have er : (lit 3 1 : XR) = XR.fin 3 := by rw [XR.s_lit]; norm_num
  unfold logisticProgram
  dsimp only
  rw [ea, er, solver_new]
  rfl

theorem exampleLasso_of {srt : Argsort XR} {rng : ℕ → XR} {x : Mat XR} {y : List XR} (h : generateRandomData rng 30 100 = .ok (x, y)) :
    exampleLasso srt rng = lassoProgram srt x y := by
  unfold exampleLasso
  rw [h]
  rfl

theorem exampleElasticNet_of {srt : Argsort XR} {rng : ℕ → XR} {x : Mat XR} {y : List XR} (h : generateRandomData rng 100 60 = .ok (x, y)) :
    exampleElasticNet srt rng = elasticNetProgram srt x y := by
  unfold exampleElasticNet
  rw [h]
  rfl

theorem exampleMultiTaskLasso_of {srt : Argsort XR} {rng : ℕ → XR} {x y : Mat XR} (h : generateRandomDataMtl rng 30 100 40 = .ok (x, y)) :
    exampleMultiTaskLasso srt rng = multiTaskLassoProgram srt x y := by
  unfold exampleMultiTaskLasso
  rw [h]
  rfl

theorem exampleLogistic_of {srt : Argsort XR} {rng : ℕ → XR} {x : Mat XR} {y : List XR} (h : generateRandomData rng 30 100 = .ok (x, y)) :
    exampleLogistic srt rng = logisticProgram srt x y := by
  unfold exampleLogistic
  rw [h]
  rfl

theorem mcp_half_valid : (Pen.mcp (1 / 2) 3).Valid := ⟨by norm_num, by norm_num⟩

theorem enet_near {srt : Argsort XR} (hs : ArgsortSpec srt) (hn : 0 < n) (X : Fin n → Fin p → ℝ) (y : Fin n → ℝ) {v v' : Fin p → ℝ}
    (h1 : Stops srt solverDefaults (.dense X) y .quadratic (.enet (1 / 20) (7 / 10)) v)
    (h2 : Stops srt estimatorDefaults (.dense X) y .quadratic (.enet (1 / 20) (7 / 10)) v') {c : ℝ} (hc : 0 ≤ c)
    (hcurv : Curvature (.dense X) .quadratic c) :
    ∑ j, (v j - v' j) ^ 2 ≤ p * ((1 / 10 ^ 8 + 1 / 10 ^ 6) / (c + 1 / 20 * (1 - 7 / 10))) ^ 2 := by
  have hval : (Pen.enet (1 / 20) (7 / 10)).Valid := ⟨by norm_num, by norm_num, by norm_num⟩
  have c1 := (stops_cert hs hn hval trivial rfl h1).2
  have c2 := (stops_cert hs hn hval trivial rfl h2).2
  have := (strong1 hn (.dense X) y .quadratic (.enet (1 / 20) (7 / 10)) hval trivial hcurv).near
    (add_pos_of_nonneg_of_pos hc (by show (0:ℝ) < 1 / 20 * (1 - 7 / 10); norm_num)) (v := v) (w := v') (τ := 1 / 10 ^ 8) (σ := 1 / 10 ^ 6) c1 c2
  simp only [Real.norm_eq_abs, sq_abs] at this
  exact this

/-! ## What is asked -/

/-- The full claim: for all random numbers, the first three examples pass their assertions, and the coefficients of the
logistic regression example are no worse than zero. -/
def C98_full : Prop := ∀ (srt : Argsort XR) (_ : ArgsortSpec srt) (z : ℕ → ℝ),
    (∃ r, exampleLasso srt (fun k => XR.fin (z k)) = .ok r) ∧
    (∃ r, exampleElasticNet srt (fun k => XR.fin (z k)) = .ok r) ∧
    (∃ r, exampleMultiTaskLasso srt (fun k => XR.fin (z k)) = .ok r) ∧
    ∃ v : Fin 100 → ℝ, exampleLogistic srt (fun k => XR.fin (z k)) = .ok (vec v) ∧
      objective1 (.dense (drawnX z 30 100)) (drawnY z 30 100) .logistic (.mcp (1 / 2) 3) v ≤
        objective1 (.dense (drawnX z 30 100)) (drawnY z 30 100) .logistic (.mcp (1 / 2) 3) fun _ => 0

/-! ## What holds -/

/-- The Lasso example runs, and its only possible failure is its assertion, on the results of two runs with the same
regularisation and different tolerances.  Missing from the full statement: that the results are close. -/
theorem C98_lasso_partial {srt : Argsort XR} (hs : ArgsortSpec srt) (z : ℕ → ℝ) : ∃ (α : ℝ) (v v' : Fin 100 → ℝ),
    TenthOfMax (drawnX z 30 100) (drawnY z 30 100) α ∧
    solve1 srt solverDefaults (.dense (drawnX z 30 100)) (drawnY z 30 100) .quadratic (.l1 α) = .ok (vec v) ∧
    solve1 srt estimatorDefaults (.dense (drawnX z 30 100)) (drawnY z 30 100) .quadratic (.l1 α) = .ok (vec v') ∧
    exampleLasso srt (fun k => XR.fin (z k)) =
      if AllClose v v' (1 / 10 ^ 4) then .ok (vec v, vec v') else .error .assertion := by
  obtain ⟨α, v, v', -, h1, h2, h3, h4⟩ := lassoProgram_eq hs (by norm_num) (by norm_num) (drawnX z 30 100) (drawnY z 30 100)
  refine ⟨α, v, v', h1, h2, h3, ?_⟩
  rw [exampleLasso_of (generate_drawn _ _ _)]
  exact h4

/-- The same for the elastic net example.  If both runs stop by their tolerances, the coefficients differ by at most
`5.3e-4` in norm, and the assertion holds if moreover the features have curvature at least `0.064`.  Missing from the full
statement: the other random numbers. -/
theorem C98_elastic_net_partial {srt : Argsort XR} (hs : ArgsortSpec srt) (z : ℕ → ℝ) : ∃ v v' : Fin 60 → ℝ,
    solve1 srt solverDefaults (.dense (drawnX z 100 60)) (drawnY z 100 60) .quadratic (.enet (1 / 20) (7 / 10)) = .ok (vec v) ∧
    solve1 srt estimatorDefaults (.dense (drawnX z 100 60)) (drawnY z 100 60) .quadratic (.enet (1 / 20) (7 / 10)) = .ok (vec v') ∧
    (exampleElasticNet srt (fun k => XR.fin (z k)) =
      if AllClose v v' (1 / 10 ^ 4) then .ok (vec v, vec v') else .error .assertion) ∧
    (Stops srt solverDefaults (.dense (drawnX z 100 60)) (drawnY z 100 60) .quadratic (.enet (1 / 20) (7 / 10)) v →
      Stops srt estimatorDefaults (.dense (drawnX z 100 60)) (drawnY z 100 60) .quadratic (.enet (1 / 20) (7 / 10)) v' →
      ∑ j, (v j - v' j) ^ 2 ≤ (5.3 / 10 ^ 4) ^ 2 ∧
      (Curvature (.dense (drawnX z 100 60)) .quadratic 0.064 →
        exampleElasticNet srt (fun k => XR.fin (z k)) = .ok (vec v, vec v'))) := by
  obtain ⟨v, v', hv, hv', hp⟩ := elasticNetProgram_eq hs (by norm_num) (by norm_num) (drawnX z 100 60) (drawnY z 100 60)
  have hex : exampleElasticNet srt (fun k => XR.fin (z k)) =
      if AllClose v v' (1 / 10 ^ 4) then .ok (vec v, vec v') else .error .assertion := by
    rw [exampleElasticNet_of (generate_drawn _ _ _)]
    exact hp
  refine ⟨v, v', hv, hv', hex, fun h1 h2 => ⟨?_, fun hc => ?_⟩⟩
  · refine (enet_near hs (by norm_num) _ _ h1 h2 le_rfl fun d => ?_).trans (by norm_num)
    rw [zero_mul]
    exact div_nonneg (Finset.sum_nonneg fun _ _ => sq_nonneg _) (Nat.cast_nonneg _)
  · rw [hex, if_pos]
    intro j
    have h3 := enet_near hs (by norm_num) _ _ h1 h2 (by norm_num) hc
    have h4 : (v j - v' j) ^ 2 ≤ ∑ j, (v j - v' j) ^ 2 :=
      Finset.single_le_sum (f := fun j => (v j - v' j) ^ 2) (fun _ _ => sq_nonneg _) (Finset.mem_univ j)
    refine abs_le_of_sq_le_sq (h4.trans (h3.trans ?_)) (by norm_num)
    norm_num

/-- The multi-task example: as the Lasso example, if the targets are not orthogonal to the features. -/
theorem C98_multi_task_partial {srt : Argsort XR} (hs : ArgsortSpec srt) (z : ℕ → ℝ)
    (hz : ∃ j t, ∑ i, drawnX z 30 100 i j * drawnYT z 30 100 40 i t ≠ 0) : ∃ (α : ℝ) (V V' : Fin 100 → Fin 40 → ℝ),
    TenthOfMaxMT (drawnX z 30 100) (drawnYT z 30 100 40) α ∧
    solveMT srt solverDefaults (.dense (drawnX z 30 100)) (drawnYT z 30 100 40) (.l21 α) = .ok (mat V) ∧
    solveMT srt estimatorDefaults (.dense (drawnX z 30 100)) (drawnYT z 30 100 40) (.l21 α) = .ok (mat V') ∧
    exampleMultiTaskLasso srt (fun k => XR.fin (z k)) =
      if AllClose2 V V' (1 / 10 ^ 4) then .ok (mat V, mat V') else .error .assertion := by
  obtain ⟨α, V, V', -, h1, h2, h3, h4⟩ := multiTaskLassoProgram_eq hs (by norm_num) (by norm_num) (by norm_num)
    (drawnX z 30 100) (drawnYT z 30 100 40) hz
  refine ⟨α, V, V', h1, h2, h3, ?_⟩
  rw [exampleMultiTaskLasso_of (generate_drawnT _ _ _ _)]
  exact h4

/-- The logistic regression example runs; and if the targets happen to be in `[-1, 1]` and the steps at most `gamma`, its
coefficients are no worse than zero.  Missing from the full statement: the other random numbers. -/
theorem C98_logistic_partial {srt : Argsort XR} (hs : ArgsortSpec srt) (z : ℕ → ℝ) : ∃ v : Fin 100 → ℝ,
    exampleLogistic srt (fun k => XR.fin (z k)) = .ok (vec v) ∧
    ((∀ i, |drawnY z 30 100 i| ≤ 1) → (∀ j, ∑ i, drawnX z 30 100 i j ^ 2 ≠ 0 → 40 ≤ ∑ i, drawnX z 30 100 i j ^ 2) →
      objective1 (.dense (drawnX z 30 100)) (drawnY z 30 100) .logistic (.mcp (1 / 2) 3) v ≤
        objective1 (.dense (drawnX z 30 100)) (drawnY z 30 100) .logistic (.mcp (1 / 2) 3) fun _ => 0) := by
  obtain ⟨v, hv⟩ := C26_finite_partial hs (by norm_num) (.dense (drawnX z 30 100)) (drawnY z 30 100) .logistic (.mcp (1 / 2) 3) mcp_half_valid
    solverDefaults (by decide) (by decide) (by decide)
  refine ⟨v, ?_, fun hy hst => ?_⟩
  · rw [exampleLogistic_of (generate_drawn _ _ _), logisticProgram_eq, hv]
    rfl
  · refine C28_result hs (by norm_num) (.dense (drawnX z 30 100)) trivial _ .logistic hy _ mcp_half_valid (fun j hj => ?_) _ v hv
    have e : lipschitz (.dense (drawnX z 30 100)) .logistic j = (∑ i, drawnX z 30 100 i j ^ 2) / 120 := by
      show (∑ i, drawnX z 30 100 i j ^ 2) / (4 * ((30 : ℕ) : ℝ)) = _
      norm_num
    rw [e] at hj ⊢
    have := hst j fun h => hj (by rw [h, zero_div])
    linarith

/-- With equal tolerances, the solver and the estimator return the same coefficients, so that the assertions of the examples
hold whatever their precision.  (The examples leave the tolerances at their different defaults.) -/
theorem C98_same_tolerance {srt : Argsort XR} (hs : ArgsortSpec srt) (hn : 0 < n) (hp : 5 ≤ p) (X : Fin n → Fin p → ℝ) (y : Fin n → ℝ)
    {α : ℝ} (hα : 0 ≤ α) {τ : ℝ} (hτ : 0 ≤ τ) {δ : ℝ} (hδ : 0 ≤ δ) : ∃ v : Fin p → ℝ,
    (Solver.new.setTolerance (XR.fin τ)).solve srt (denseDs X y) (Quadratic.new : Quadratic XR) (L1.mk (XR.fin α)) = .ok (vec v) ∧
    Lasso.fit srt ((LassoParams.new.setAlpha (XR.fin α)).setTolerance (XR.fin τ)) (denseDs X y) = .ok (.ok (vec v)) ∧
    assertArrayAllClose (vec v) (vec v) (XR.fin δ) = .ok () := by
  obtain ⟨v, hv⟩ := C26_finite_partial hs hn (.dense X) y .quadratic (.l1 α) hα ⟨10, 50, 1000, XR.fin τ, 5, true, true⟩
    (show 0 < 5 by decide) (show 5 ≤ 10 by decide) hp
  refine ⟨v, hv, ?_, ?_⟩
  · have := fitLasso_eq srt ((LassoParams.new.setAlpha (XR.fin α)).setTolerance (XR.fin τ)) α rfl (.dense X) y
    have e : ((LassoParams.new.setAlpha (XR.fin α)).setTolerance (XR.fin τ)).checkRef =
        .ok ((LassoParams.new.setAlpha (XR.fin α)).setTolerance (XR.fin τ)) := by
      unfold LassoParams.checkRef checkTail LassoParams.setTolerance LassoParams.setAlpha LassoParams.new
      dsimp only
      rw [XR.s_signBit, XR.s_signBit, decide_eq_false (not_lt.mpr hα), decide_eq_false (not_lt.mpr hτ)]
      rfl
    rw [e, guarded_ok] at this
    have e2 : ((LassoParams.new.setAlpha (XR.fin α)).setTolerance (XR.fin τ)).solver = (⟨10, 50, 1000, XR.fin τ, 5, true, true⟩ : Solver XR) := rfl
    rw [e2, hv] at this
    exact this
  · rw [assertArrayAllClose_vec, if_pos]
    intro j
    rw [sub_self, abs_zero]
    exact hδ

/-! ## What does not hold -/

/-- Random numbers of which only the first is nonzero. -/
noncomputable def soloZ (s : ℝ) (k : ℕ) : ℝ := if k = 0 then s else 0

theorem soloZ_X (s : ℝ) : drawnX (soloZ s) 30 100 = soloX s (0 : Fin 30) (0 : Fin 100) := by
  funext i j
  unfold drawnX soloZ soloX
  have h : (j : ℕ) * 30 + (i : ℕ) = 0 ↔ i = 0 ∧ j = 0 := by
    rw [Fin.ext_iff, Fin.ext_iff]
    show _ ↔ (i : ℕ) = 0 ∧ (j : ℕ) = 0
    omega
  simp only [h]

theorem soloZ_Y (s : ℝ) : drawnY (soloZ s) 30 100 = soloY (s * s + s) (0 : Fin 30) := by
  funext i
  unfold drawnY
  rw [soloZ_X]
  have h1 : ∑ j : Fin 100, soloX s (0 : Fin 30) (0 : Fin 100) i j * soloZ s j = fit (soloX s (0 : Fin 30) (0 : Fin 100)) (fun j => soloZ s j) i := rfl
  rw [h1, soloX_fit]
  have h2 : (i : ℕ) = 0 ↔ i = 0 := by
    rw [Fin.ext_iff]
    rfl
  have h3 : soloZ s ((0 : Fin 100) : ℕ) = s := if_pos rfl
  rw [h3]
  unfold soloY soloZ
  simp only [h2]
  split
  · rfl
  · exact add_zero _

/-- The assertion of the Lasso example fails for the random numbers `1/200, 0, 0, …`: the estimator accepts zero, the solver does not. -/
theorem C98_lasso_false {srt : Argsort XR} (hs : ArgsortSpec srt) : exampleLasso srt (fun k => XR.fin (soloZ (1 / 200) k)) = .error .assertion := by
  obtain ⟨α, v, v', h1, h2, h3, h4⟩ := C98_lasso_partial hs (soloZ (1 / 200))
  rw [h4, if_neg]
  rw [soloZ_X, soloZ_Y] at h1 h2 h3
  have hα : 10 * α = 201 / 200 ^ 3 / 30 := by
    refine h1.unique ⟨⟨by norm_num, fun j => ?_⟩, ?_⟩
    · rw [soloX_sum]
      unfold soloY
      split
      · norm_num
      · norm_num
    · rintro a ⟨_, ha⟩
      have := ha 0
      rw [soloX_sum, if_pos rfl] at this
      unfold soloY at this
      rw [if_pos rfl] at this
      norm_num at this
      norm_num
      exact this
  obtain rfl : α = 201 / 200 ^ 3 / 300 := by linarith
  have k1 := (solo_lasso (srt := srt) hs (n := 30) (p := 100) (s := 1 / 200) (c := 1 / 200 * (1 / 200) + 1 / 200) (α := 201 / 200 ^ 3 / 300)
    (τ := 1 / 10 ^ 6) (by norm_num) 0 0 (by norm_num) (by norm_num) (by norm_num) estimatorDefaults rfl (by norm_num) (by decide)
    (by decide) (by decide) (by decide) (by decide) (by decide)).1 (by norm_num)
  have k2 := (solo_lasso (srt := srt) hs (n := 30) (p := 100) (s := 1 / 200) (c := 1 / 200 * (1 / 200) + 1 / 200) (α := 201 / 200 ^ 3 / 300)
    (τ := 1 / 10 ^ 8) (by norm_num) 0 0 (by norm_num) (by norm_num) (by norm_num) solverDefaults rfl (by norm_num) (by decide)
    (by decide) (by decide) (by decide) (by decide) (by decide)).2 (by norm_num)
  rw [k1] at h3
  rw [k2] at h2
  have e3 := vec_injective (Except.ok.inj h3)
  have e2 := vec_injective (Except.ok.inj h2)
  intro hc
  have := hc 0
  rw [← e2, ← e3, Function.update_self] at this
  norm_num at this

/-- The coefficients of the logistic regression example for the random numbers `3, 0, 0, …` are worse than zero. -/
theorem C98_logistic_false {srt : Argsort XR} (hs : ArgsortSpec srt) : ∃ v : Fin 100 → ℝ,
    exampleLogistic srt (fun k => XR.fin (soloZ 3 k)) = .ok (vec v) ∧
    objective1 (.dense (drawnX (soloZ 3) 30 100)) (drawnY (soloZ 3) 30 100) .logistic (.mcp (1 / 2) 3) (fun _ => 0) <
      objective1 (.dense (drawnX (soloZ 3) 30 100)) (drawnY (soloZ 3) 30 100) .logistic (.mcp (1 / 2) 3) v := by
  obtain ⟨v, h1, h2, h3⟩ := solo_logistic (srt := srt) hs (n := 30) (p := 100) (by norm_num) 0 0 solverDefaults rfl (by norm_num) (by decide)
    (by decide) (by decide) (by decide) (by decide) (by decide)
  refine ⟨v, ?_, ?_⟩
  · rw [exampleLogistic_of (generate_drawn _ _ _), logisticProgram_eq, soloZ_X, soloZ_Y, show (3:ℝ) * 3 + 3 = 12 by norm_num, h1]
    rfl
  · rw [soloZ_X, soloZ_Y, show (3:ℝ) * 3 + 3 = 12 by norm_num]
    exact solo_logistic_worse (by norm_num) 0 0 h2 h3

theorem C98_false : ¬ C98_full := by
  intro h
  obtain ⟨⟨r, hr⟩, -⟩ := h argsortIns argsortIns_spec (soloZ (1 / 200))
  rw [C98_lasso_false argsortIns_spec] at hr
  cases hr

/-! ## Examples -/

example : ∃ j t, ∑ i, drawnX (fun _ => 1) 30 100 i j * drawnYT (fun _ => 1) 30 100 40 i t ≠ 0 :=
  ⟨0, 0, by unfold drawnYT drawnX; norm_num⟩

/-- Random numbers for which all targets of the logistic regression example are `7/10`. -/
noncomputable def logisticZ (k : ℕ) : ℝ :=
  if k = 50 ∨ k = 51 then 7 else if 1500 ≤ k ∧ k < 1530 then 2 else if 1530 ≤ k ∧ k < 1560 then -(19 / 10) else 0

example : (∀ i, |drawnY logisticZ 30 100 i| ≤ 1) ∧
    (∀ j, ∑ i, drawnX logisticZ 30 100 i j ^ 2 ≠ 0 → 40 ≤ ∑ i, drawnX logisticZ 30 100 i j ^ 2) := by
  have z0 : ∀ j : ℕ, j < 100 → j ≠ 50 → j ≠ 51 → logisticZ j = 0 := by
    intro j h1 h2 h3
    unfold logisticZ
    rw [if_neg (by omega), if_neg (by omega), if_neg (by omega)]
  have h50 : ∀ i : Fin 30, drawnX logisticZ 30 100 i 50 = 2 := by
    intro i
    show logisticZ (50 * 30 + i) = 2
    have := i.2
    unfold logisticZ
    rw [if_neg (by omega), if_pos (by omega)]
  have h51 : ∀ i : Fin 30, drawnX logisticZ 30 100 i 51 = -(19 / 10) := by
    intro i
    show logisticZ (51 * 30 + i) = _
    have := i.2
    unfold logisticZ
    rw [if_neg (by omega), if_neg (by omega), if_pos (by omega)]
  constructor
  · intro i
    unfold drawnY
    rw [Finset.sum_eq_add (50 : Fin 100) 51 (by decide)]
    · have e1 : logisticZ ((50 : Fin 100) : ℕ) = 7 := if_pos (Or.inl rfl)
      have e2 : logisticZ ((51 : Fin 100) : ℕ) = 7 := if_pos (Or.inr rfl)
      rw [h50, h51, e1, e2, z0 i (by omega) (by omega) (by omega)]
      norm_num [abs_le]
    · intro j _ hj
      rw [z0 j j.2 (fun h => hj.1 (Fin.ext h)) (fun h => hj.2 (Fin.ext h)), mul_zero]
    · simp
    · simp
  · intro j hj
    by_cases j50 : j = 50
    · subst j50
      simp only [h50]
      norm_num
    · by_cases j51 : j = 51
      · subst j51
        simp only [h51]
        norm_num
      · by_cases j1 : j = 1
        · subst j1
          have e : drawnX logisticZ 30 100 20 1 = 7 := by
            show logisticZ (1 * 30 + 20) = 7
            exact if_pos (Or.inl rfl)
          refine le_trans ?_ (Finset.single_le_sum (f := fun i => drawnX logisticZ 30 100 i 1 ^ 2) (fun _ _ => sq_nonneg _) (Finset.mem_univ 20))
          rw [e]
          norm_num
        · refine absurd (Finset.sum_eq_zero fun i _ => ?_) hj
          have a1 : (j : ℕ) ≠ 1 := fun h => j1 (Fin.ext h)
          have a2 : (j : ℕ) ≠ 50 := fun h => j50 (Fin.ext h)
          have a3 : (j : ℕ) ≠ 51 := fun h => j51 (Fin.ext h)
          have := i.2
          have e : drawnX logisticZ 30 100 i j = 0 := by
            show logisticZ (j * 30 + i) = 0
            unfold logisticZ
            rw [if_neg (by omega), if_neg (by omega), if_neg (by omega)]
          rw [e]
          norm_num

/-- Random numbers for which both fits of the elastic net example stop at zero. -/
noncomputable def enetZ (k : ℕ) : ℝ := if k = 0 then -(9 / 10) else if k = 60 then 3 else if k % 101 = 0 then 10 else 0

theorem enetZ_col0 (i : Fin 100) : drawnX enetZ 100 60 i 0 = enetZ i := by
  show enetZ (0 * 100 + i) = _
  rw [zero_mul, zero_add]

theorem enetZ_col (i : Fin 100) (j : Fin 60) (hj : j ≠ 0) : drawnX enetZ 100 60 i j = if (i : ℕ) = j then 10 else 0 := by
  show enetZ (j * 100 + i) = _
  have h1 : (j : ℕ) ≠ 0 := fun h => hj (Fin.ext h)
  have := i.2
  have := j.2
  unfold enetZ
  rw [if_neg (by omega), if_neg (by omega)]
  congr 1
  rw [eq_iff_iff]
  omega

theorem enetZ_low (k : ℕ) (h : k < 100) (h0 : k ≠ 0) (h6 : k ≠ 60) : enetZ k = 0 := by
  unfold enetZ
  rw [if_neg h0, if_neg h6, if_neg (by omega)]

theorem enetZ_zero : enetZ 0 = -(9 / 10) := if_pos rfl

theorem enetZ_sixty : enetZ 60 = 3 := by
  unfold enetZ
  norm_num

theorem enetZ_fit (d : Fin 60 → ℝ) (i : Fin 100) :
    fit (drawnX enetZ 100 60) d i = enetZ i * d 0 + if h : 0 < (i : ℕ) ∧ (i : ℕ) < 60 then 10 * d ⟨i, h.2⟩ else 0 := by
  unfold fit
  rw [← Finset.add_sum_erase _ _ (Finset.mem_univ (0 : Fin 60)), enetZ_col0]
  congr 1
  split
  · next h =>
    rw [Finset.sum_eq_single ⟨i, h.2⟩]
    · rw [enetZ_col _ _ (fun hc => by have := congrArg Fin.val hc; simp at this; omega), if_pos rfl]
    · intro j hj hji
      rw [enetZ_col _ _ (Finset.ne_of_mem_erase hj), if_neg (fun hc => hji (Fin.ext hc.symm)), zero_mul]
    · intro hc
      refine absurd (Finset.mem_erase.mpr ⟨fun hc => ?_, Finset.mem_univ _⟩) hc
      have := congrArg Fin.val hc
      simp at this
      omega
  · next h =>
    refine Finset.sum_eq_zero fun j hj => ?_
    have h1 : (j : ℕ) ≠ 0 := fun h => Finset.ne_of_mem_erase hj (Fin.ext h)
    have := j.2
    rw [enetZ_col _ _ (Finset.ne_of_mem_erase hj), if_neg (by omega), zero_mul]

theorem enetZ_curv : Curvature (.dense (drawnX enetZ 100 60)) .quadratic 0.064 := by
  intro d
  show _ ≤ (∑ i, fit (drawnX enetZ 100 60) d i ^ 2) / ((100 : ℕ) : ℝ)
  have h1 : ∑ j : Fin 60, fit (drawnX enetZ 100 60) d (if j = 0 then 60 else ⟨j, by omega⟩) ^ 2 ≤ ∑ i, fit (drawnX enetZ 100 60) d i ^ 2 := by
    rw [← Finset.sum_image (s := Finset.univ) (g := fun j : Fin 60 => (if j = 0 then (60 : Fin 100) else ⟨j, by omega⟩))
      (f := fun i => fit (drawnX enetZ 100 60) d i ^ 2)]
    · exact Finset.sum_le_univ_sum_of_nonneg fun _ => sq_nonneg _
    · intro a _ b _ hab
      have e60 : ((60 : Fin 100) : ℕ) = 60 := rfl
      have := a.2
      have := b.2
      have := congrArg Fin.val hab
      dsimp only at this
      split at this <;> split at this <;> rename_i h1 h2
      · rw [h1, h2]
      · rw [e60] at this; simp only at this; omega
      · rw [e60] at this; simp only at this; omega
      · exact Fin.ext this
  have h2 : ∀ j : Fin 60, 9 * d j ^ 2 ≤ fit (drawnX enetZ 100 60) d (if j = 0 then 60 else ⟨j, by omega⟩) ^ 2 := by
    intro j
    rw [enetZ_fit]
    split
    · next h =>
      have e60 : ((60 : Fin 100) : ℕ) = 60 := rfl
      subst h
      rw [dif_neg (by rw [e60]; omega), e60, enetZ_sixty]
      nlinarith [sq_nonneg (d 0)]
    · next h =>
      have h3 : (j : ℕ) ≠ 0 := fun hc => h (Fin.ext hc)
      have := j.2
      rw [dif_pos ⟨by show 0 < (j : ℕ); omega, j.2⟩]
      have e : enetZ ((⟨j, by omega⟩ : Fin 100) : ℕ) = 0 := enetZ_low j (by omega) h3 (by omega)
      rw [e]
      show _ ≤ (0 * d 0 + 10 * d j) ^ 2
      nlinarith [sq_nonneg (d j)]
  have h3 := Finset.sum_le_sum fun j (_ : j ∈ Finset.univ) => h2 j
  rw [← Finset.mul_sum] at h3
  have h4 : 0 ≤ ∑ j, d j ^ 2 := Finset.sum_nonneg fun _ _ => sq_nonneg _
  rw [le_div_iff₀ (by norm_num)]
  norm_num
  linarith

theorem enetZ_target (i : Fin 100) : drawnY enetZ 100 60 i = enetZ i / 10 := by
  unfold drawnY
  have e : ∑ j : Fin 60, drawnX enetZ 100 60 i j * enetZ j = fit (drawnX enetZ 100 60) (fun j => enetZ j) i := rfl
  rw [e, enetZ_fit]
  have e0 : enetZ ((0 : Fin 60) : ℕ) = -(9 / 10) := enetZ_zero
  rw [e0]
  split
  · next h =>
    show _ + 10 * enetZ i + _ = _
    rw [enetZ_low i (by omega) (by omega) (by omega)]
    norm_num
  · ring

theorem enetZ_stops (cfg : Solver XR) {τ : ℝ} (ht : cfg.tolerance = XR.fin τ) (hτ : 0 ≤ τ) (hm : 0 < cfg.maxIterations) :
    Stops argsortIns cfg (.dense (drawnX enetZ 100 60)) (drawnY enetZ 100 60) .quadratic (.enet (1 / 20) (7 / 10)) fun _ => 0 := by
  have hval : (Pen.enet (1 / 20) (7 / 10)).Valid := ⟨by norm_num, by norm_num, by norm_num⟩
  obtain ⟨R, hR⟩ : ∃ R, R = prob1 (.dense (drawnX enetZ 100 60)) (drawnY enetZ 100 60) .quadratic (.enet (1 / 20) (7 / 10)) := ⟨_, rfl⟩
  have hsum : ∀ j : Fin 60, |∑ i, drawnX enetZ 100 60 i j * drawnY enetZ 100 60 i| ≤ 1 := by
    intro j
    simp only [enetZ_target]
    by_cases hj : j = 0
    · subst hj
      simp only [enetZ_col0]
      rw [Finset.sum_eq_add (0 : Fin 100) 60 (by decide)]
      · have a0 : enetZ ((0 : Fin 100) : ℕ) = -(9 / 10) := enetZ_zero
        have a6 : enetZ ((60 : Fin 100) : ℕ) = 3 := enetZ_sixty
        rw [a0, a6]
        norm_num [abs_le]
      · intro i _ hi
        rw [enetZ_low i i.2 (fun h => hi.1 (Fin.ext h)) (fun h => hi.2 (Fin.ext h)), zero_mul]
      · simp
      · simp
    · rw [Finset.sum_eq_zero]
      · norm_num
      · intro i _
        rw [enetZ_col i j hj]
        split
        · next h =>
          have := j.2
          have : (j : ℕ) ≠ 0 := fun hc => hj (Fin.ext hc)
          rw [enetZ_low i i.2 (by omega) (by omega)]
          norm_num
        · exact zero_mul _
  have h4 := R.viol_le_of (w := fun _ => 0) (τ := τ) (Or.inl (by rw [hR]; rfl)) (fun j => by
    have e : R.sc 0 (R.G (fun _ => 0) j) = enetScore (1 / 20) (7 / 10) 0 (R.G (fun _ => 0) j) := by rw [hR]; rfl
    have eG : R.G (fun _ => 0) j = (∑ i, drawnX enetZ 100 60 i j * 0 - ∑ i, drawnX enetZ 100 60 i j * drawnY enetZ 100 60 i) / ((100 : ℕ) : ℝ) := by
      rw [hR]
      show (∑ i, drawnX enetZ 100 60 i j * fit (drawnX enetZ 100 60) (fun _ => 0) i - _) / _ = _
      have : ∀ i, fit (drawnX enetZ 100 60) (fun _ => 0) i = 0 := fun i => by unfold fit; simp
      simp only [this]
      rfl
    have hb : |R.G (fun _ => 0) j| ≤ 1 / 100 := by
      rw [eG, abs_div]
      simp only [mul_zero, Finset.sum_const_zero, zero_sub, abs_neg]
      rw [div_le_iff₀ (by norm_num)]
      refine (hsum j).trans ?_
      norm_num
    rw [e]
    unfold enetScore
    rw [if_pos rfl]
    exact max_le hτ (by linarith))
  have h5 : R.run argsortIns cfg = .ok (fun _ => 0, 0) :=
    Skel.outer_done _ _ _ (R.viol (fun _ => 0) (List.finRange 60)).1 (R.viol (fun _ => 0) (List.finRange 60)).2 rfl (by
      show (_ <=. cfg.tolerance) = true
      rw [ht]; exact h4)
  exact stops_of_run argsortIns_spec (by norm_num) hval (hR ▸ h5) hm

example : exampleElasticNet argsortIns (fun k => XR.fin (enetZ k)) = .ok (vec fun _ : Fin 60 => 0, vec fun _ : Fin 60 => 0) := by
  obtain ⟨v, v', h1, h2, -, h4⟩ := C98_elastic_net_partial argsortIns_spec enetZ
  have s1 := enetZ_stops solverDefaults rfl (by norm_num) (by decide)
  have s2 := enetZ_stops estimatorDefaults rfl (by norm_num) (by decide)
  obtain rfl : v = fun _ => 0 := vec_injective (Except.ok.inj (h1.symm.trans s1.1))
  obtain rfl : v' = fun _ => 0 := vec_injective (Except.ok.inj (h2.symm.trans s2.1))
  exact (h4 s1 s2).2 enetZ_curv

end Sglm
