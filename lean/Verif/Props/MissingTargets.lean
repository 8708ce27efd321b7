import Verif.Proofs.Empty
import Verif.Proofs.MissingMT
import Verif.Props.Misc

/-!
# C45: NaN targets, logistic loss and several tasks
-/

namespace Sglm
open Scalar Spec
variable {n p T : ℕ}

theorem nan_sub_xr (a : XR) : (XR.nan -. a : XR) = XR.nan := XR.nan_add _

theorem fmax_nan_xr : (fmax zero XR.nan : XR) = XR.fin 0 := rfl

/-- Logistic gradients are NaN as soon as one label is. -/
theorem log_grad_nan {X : Mat XR} {y : List XR} (hX : Shaped X n p) (hy : y.length = n) (hn : XR.nan ∈ y) {Xw : List XR} (hw : Xw.length = n)
    {j : ℕ} (hj : j < p) : Tri (fun _ => False) (Logistic.gradDense ⟨X, Targets.one y⟩ Xw j) (fun g => g = XR.nan) := by
  unfold Logistic.gradDense
  dsimp only
  rw [single_one']
  dsimp only [bind, Except.bind]
  obtain ⟨c, h1, h2⟩ := Tri.exists_ok (hX.colM hj)
  rw [h1]
  dsimp only
  have hl : (List.zipWith (fun y_i xw_i : XR => y_i *. sigmoid ((-.y_i) *. xw_i)) y Xw).length = n := by
    rw [List.length_zipWith, hy, hw, min_self]
  have hmem : XR.nan ∈ List.zipWith (fun y_i xw_i : XR => y_i *. sigmoid ((-.y_i) *. xw_i)) y Xw := by
    obtain ⟨i, hi, e⟩ := List.getElem_of_mem hn
    refine List.mem_iff_getElem.mpr ⟨i, by rw [hl, ← hy]; exact hi, ?_⟩
    rw [List.getElem_zipWith, e]
    exact nan_mul' _
  unfold dotM
  rw [if_pos (by rw [h2, hl])]
  show (-.(dot c _)) /. _ = XR.nan
  rw [show (dot c (List.zipWith (fun y_i xw_i : XR => y_i *. sigmoid ((-.y_i) *. xw_i)) y Xw) : XR) = XR.nan from
    XR.dot_nan (by rw [h2, hl]) hmem]
  exact XR.nan_div _

/-- Sparse logistic regression: the same as for least squares. -/
theorem C45_logistic_partial (X : Mat XR) (y : List XR) (hX : Shaped X n p) (hy : y.length = n) (hn : XR.nan ∈ y) (a : XR) (srt : Argsort XR)
    (cfg : Solver XR) (ht : (XR.fin 0 <=. cfg.tolerance) = true) :
    cfg.solve srt ⟨X, Targets.one y⟩ (Logistic.new : Logistic XR) (L1.mk a) = .ok (List.replicate p (XR.fin 0)) := by
  obtain ⟨df, h1, -⟩ := Tri.exists_ok (log_dense_safe (T := Targets.one y) hX (by rw [← hy]; exact shaped_one) (Logistic.new : Logistic XR))
  have key : Tri (fun _ => False) (optCondViolation (⟨X, Targets.one y⟩ : Dataset (Mat XR) XR)
      (List.replicate p (XR.fin 0)) (List.replicate y.length (XR.fin 0)) (List.range p) df (L1.mk a))
      (fun r => r.2 = maxDist r.1 ∧ ∀ x ∈ r.1, x = XR.fin 0) := by
    unfold optCondViolation constructGrad
    refine Tri.bind (Tri.mapM_len (fun x => x = XR.nan) _ _ fun j hj =>
      log_grad_nan hX hy hn (by rw [List.length_replicate, hy]) (List.mem_range.mp hj)) fun g hg => ?_
    refine scores_nan ?_ hg.2
    show (if _ then _ else _) = _
    rw [if_pos beq_zero]
    show fmax zero (Scalar.abs XR.nan -. a) = _
    rw [show (Scalar.abs XR.nan : XR) = XR.nan from rfl, nan_sub_xr, fmax_nan_xr]
  obtain ⟨r, h4, h5, h6⟩ := key.exists_ok
  exact solve_null srt cfg _ _ df (L1.mk a) p r (congrArg Except.ok hX.2.1) h1 h4 (by rw [h5]; exact maxDist_zeros h6 _ ht)

/-! ### Several tasks -/

theorem matOf_zeros (k T : ℕ) : (matOf fun (_ : Fin k) (_ : Fin T) => (zero : XR)) = Mat.zeros k T := by
  unfold matOf Mat.zeros
  simp [List.ofFn_const]

/-- The score of a zero row is zero if a gradient of the row is NaN. -/
theorem block_scores_nan {f : List XR → List XR → M XR}
    (hf : ∀ g : List XR, XR.nan ∈ g → f (List.replicate T (XR.fin 0)) g = .ok (XR.fin 0))
    (g : Fin p → Fin T → XR) (t : Fin T) (hg : ∀ j, g j t = XR.nan) (τ : XR) (hτ : (XR.fin 0 <=. τ) = true) :
    ∃ r, blockDistances f (Mat.zeros p T) (matOf g) (List.range p) = .ok r ∧ (r.2 <=. τ) = true := by
  have h := mapM_const (b := XR.fin 0) (f := fun gj : List XR × ℕ => do
    let Wj ← (Mat.zeros p T : Mat XR).rowM gj.2
    f Wj gj.1) ((matOf g).rows.zip (List.range p)) fun a ha => by
      have h2 := List.of_mem_zip ha
      unfold Mat.rowM Mat.zeros
      dsimp only
      rw [getM_replicate _ (List.mem_range.mp h2.2)]
      obtain ⟨j, hj⟩ := (List.mem_ofFn' _ _).mp h2.1
      refine hf _ ?_
      rw [← hj]
      exact (List.mem_ofFn' _ _).mpr ⟨t, hg j⟩
  unfold blockDistances
  rw [h]
  exact ⟨_, rfl, maxDist_zeros (fun x hx => List.eq_of_mem_replicate hx) _ hτ⟩

theorem solveMT_nan {P : Type} [MTPenalty XR P] (pen : P) (f : List XR → List XR → M XR) (hp : MTPenalty.subdiffDistance pen = blockDistances f)
    (hf : ∀ g : List XR, XR.nan ∈ g → f (List.replicate T (XR.fin 0)) g = .ok (XR.fin 0)) (srt : Argsort XR)
    (cfg : Solver XR) (ht : (XR.fin 0 <=. cfg.tolerance) = true) (x : Fin n → Fin p → XR) (y : Fin n → Fin T → XR) (hn : ∃ i t, y i t = XR.nan) :
    cfg.solveMultiTask srt (⟨matOf x, Targets.two (matOf y)⟩ : Dataset (Mat XR) XR) (QuadraticMT.new : QuadraticMT XR) pen =
      .ok (Mat.zeros p T) := by
  obtain ⟨i, t, hit⟩ := hn
  have hc : ∀ j, (mmdot (List.ofFn fun i => x i j) (List.ofFn fun i => y i t) : XR) = XR.nan := fun j =>
    XR.dot_nan (by simp) ((List.mem_ofFn' _ _).mpr ⟨i, hit⟩)
  obtain ⟨r, h5, h6⟩ := block_scores_nan (p := p) hf (fun j t' =>
    (dot (List.ofFn fun i => x i j) (List.ofFn fun _ : Fin n => (zero : XR)) -. mmdot (List.ofFn fun i => x i j) (List.ofFn fun i => y i t')) /.
      Scalar.ofNat n) t (fun j => by
        rw [hc, show (dot (List.ofFn fun i => x i j) (List.ofFn fun _ : Fin n => (zero : XR)) -. XR.nan : XR) = XR.nan from XR.add_nan _]
        exact XR.nan_div _) cfg.tolerance ht
  have hnT : (Targets.two (matOf y)).nTasks = T := rfl
  have hnS : (Targets.two (matOf y)).nSamples = n := matOf_nrows y
  have := MT.solve_null srt cfg (⟨matOf x, Targets.two (matOf y)⟩ : Dataset (Mat XR) XR) (QuadraticMT.new : QuadraticMT XR) _ pen p r rfl
    (mt_init_dense_eq x y _) (by
      unfold MT.optCondViolation MT.constructGrad
      dsimp only
      rw [hnT, hnS, ← matOf_zeros n T]
      rw [mapM_range (fun j : Fin p => List.ofFn fun t' => (dot (List.ofFn fun i => x i j) (List.ofFn fun _ : Fin n => (zero : XR)) -.
        mmdot (List.ofFn fun i => x i j) (List.ofFn fun i => y i t')) /. Scalar.ofNat n) fun j => mt_grad_dense x y _ _ _ j]
      dsimp only [bind, Except.bind]
      rw [List.length_range, fromShapeVec_flatten _ (by simp) fun z hz => by
        obtain ⟨j, hj⟩ := (List.mem_ofFn' _ _).mp hz
        rw [← hj, List.length_ofFn]]
      rw [hp]
      exact h5) h6
  rw [hnT] at this
  exact this

theorem norm2_nan {g : List XR} (h : XR.nan ∈ g) : (norm2 g : XR) = XR.nan := by
  unfold norm2
  rw [show (dot g g : XR) = XR.nan from XR.dot_nan rfl h]
  rfl

/-- A single missing target makes the multi-task Lasso return the null model, for all tasks. -/
theorem C45_mtlasso_partial (x : Fin n → Fin p → XR) (y : Fin n → Fin T → XR) (hn : ∃ i t, y i t = XR.nan) (srt : Argsort XR)
    (ps q : LassoParams XR) (hp : ps.checkRef = .ok q) (ht : (XR.fin 0 <=. ps.tolerance) = true) :
    MultiTaskLasso.fit srt ps (⟨matOf x, Targets.two (matOf y)⟩ : Dataset (Mat XR) XR) = .ok (.ok (Mat.zeros p T)) := by
  unfold MultiTaskLasso.fit
  rw [guardedFit_eq (m := ps.solver.solveMultiTask srt ⟨matOf x, Targets.two (matOf y)⟩ (QuadraticMT.new : QuadraticMT XR) (L21.mk ps.alpha))
    (fun q h => (LassoParams.checkRef_ok h).1) (by unfold MultiTaskLasso.fitValid; rw [fitBCD_eq]), hp, guarded_ok,
    solveMT_nan (L21.mk ps.alpha) (L21.dist (L21.mk ps.alpha)) rfl (fun g hg => by
      unfold L21.dist
      rw [if_neg (by rw [anyNonzero_zeros]; simp), norm2_nan hg, nan_sub_xr]
      rfl) srt ps.solver ht x y hn]
  rfl

/-- The same for the multi-task elastic net. -/
theorem C45_mtenet_partial (x : Fin n → Fin p → XR) (y : Fin n → Fin T → XR) (hn : ∃ i t, y i t = XR.nan) (srt : Argsort XR)
    (ps q : ElasticNetParams XR) (hp : ps.checkRef = .ok q) (ht : (XR.fin 0 <=. ps.tolerance) = true) :
    MultiTaskElasticNet.fit srt ps (⟨matOf x, Targets.two (matOf y)⟩ : Dataset (Mat XR) XR) = .ok (.ok (Mat.zeros p T)) := by
  unfold MultiTaskElasticNet.fit
  rw [guardedFit_eq (m := ps.solver.solveMultiTask srt ⟨matOf x, Targets.two (matOf y)⟩ (QuadraticMT.new : QuadraticMT XR)
      (BlockL1PlusL2.mk ps.alpha ps.l1Ratio))
    (fun q h => (ElasticNetParams.checkRef_ok h).1) (by unfold MultiTaskElasticNet.fitValid; rw [fitBCD_eq]), hp, guarded_ok,
    solveMT_nan (BlockL1PlusL2.mk ps.alpha ps.l1Ratio) (BlockL1PlusL2.dist (BlockL1PlusL2.mk ps.alpha ps.l1Ratio)) rfl (fun g hg => by
      unfold BlockL1PlusL2.dist
      rw [if_neg (by rw [anyNonzero_zeros]; simp)]
      dsimp only
      rw [show (dot g g : XR) = XR.nan from XR.dot_nan rfl hg, nan_sub_xr]
      rfl) srt ps.solver ht x y hn]
  rfl

/-- The same for the block minimax concave penalty. -/
theorem C45_mtmcp_partial (x : Fin n → Fin p → XR) (y : Fin n → Fin T → XR) (hn : ∃ i t, y i t = XR.nan) (srt : Argsort XR)
    (ps q : MCParams XR) (hp : ps.checkRefBlock = .ok q) (ht : (XR.fin 0 <=. ps.tolerance) = true) :
    BlockMCPEstimator.fit srt ps (⟨matOf x, Targets.two (matOf y)⟩ : Dataset (Mat XR) XR) = .ok (.ok (Mat.zeros p T)) := by
  unfold BlockMCPEstimator.fit
  rw [guardedFit_eq (m := ps.solver.solveMultiTask srt ⟨matOf x, Targets.two (matOf y)⟩ (QuadraticMT.new : QuadraticMT XR)
      (BlockMCP.mk ps.alpha ps.gamma))
    (fun q h => (MCParams.checkRefBlock_ok h).1) (by unfold BlockMCPEstimator.fitValid; rw [fitBCD_eq]), hp, guarded_ok,
    solveMT_nan (BlockMCP.mk ps.alpha ps.gamma) (BlockMCP.dist (BlockMCP.mk ps.alpha ps.gamma)) rfl (fun g hg => by
      unfold BlockMCP.dist
      dsimp only
      rw [if_neg (by rw [anyNonzero_zeros]; simp), norm2_nan hg, nan_sub_xr]
      rfl) srt ps.solver ht x y hn]
  rfl

/-! ### Examples -/

example : (⟨10, 50, 1000, XR.fin 0, 5, true, false⟩ : Solver XR).solve argsortIns
    (⟨⟨1, [[XR.fin 1], [XR.fin 2]]⟩, Targets.one [XR.nan, XR.fin 1]⟩ : Dataset (Mat XR) XR) (Logistic.new : Logistic XR) (L1.mk (XR.fin 1)) =
    .ok [XR.fin 0] :=
  C45_logistic_partial (n := 2) (p := 1) _ _ ⟨rfl, rfl, by simp⟩ rfl (by simp) _ argsortIns _ (by simp [Scalar.le, XR.le, XR.lt, XR.beq])

-- two tasks, one missing value
example : MultiTaskLasso.fit argsortIns nanPs (⟨matOf fun (_ : Fin 2) (_ : Fin 1) => XR.fin 1,
    Targets.two (matOf ![![XR.fin 5, XR.nan], ![XR.fin 7, XR.fin 2]])⟩ : Dataset (Mat XR) XR) = .ok (.ok (Mat.zeros 1 2)) :=
  C45_mtlasso_partial _ _ ⟨0, 1, rfl⟩ argsortIns nanPs nanPs nanPs_ok nanPs_tol

end Sglm
