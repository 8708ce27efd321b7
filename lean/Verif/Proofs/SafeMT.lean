import Verif.Proofs.SafeInst

/-!
# Multi-task runs on data of consistent shapes do not panic
-/

set_option linter.unusedSectionVars false

namespace Sglm
open Scalar Spec
namespace MT

section
variable {F DM DF P : Type} [Scalar F]

/-- Contract of a multi-task datafit and a design matrix. -/
structure SafeFit [DesignMatrix F DM] [MTDatafit F DM DF] (ds : Dataset DM F) (df : DF) (n nf t : ℕ) :
    Prop where
  step : (MTDatafit.stepSize (DM := DM) df).length = nf
  grad : ∀ XW j, Shaped XW n t → j < nf → Ok (MTDatafit.gradientJ df ds XW j) (fun g => g.length = t)
  value : ∀ XW, Shaped XW n t → Ok (MTDatafit.value df ds XW) (fun _ => True)
  upd : ∀ XW d j, Shaped XW n t → d.length = t → j < nf →
    Ok (DesignMatrix.updateModelFitMT ds.designMatrix XW d j) (fun v => Shaped v n t)
  extra : ∀ ws W, (∀ j ∈ ws, j < nf) → Shaped W nf t →
    Ok (DesignMatrix.extrapolatedFitMT ds.designMatrix ws W n t) (fun v => Shaped v n t)

/-- Contract of a block penalty. -/
structure SafePen [MTPenalty F P] (pen : P) : Prop where
  prox : ∀ v s, Ok (MTPenalty.prox pen v s) (fun r => r.length = v.length)
  value : ∀ W, Ok (MTPenalty.value pen W) (fun _ => True)
  dist : ∀ W g ws nf t, Shaped g ws.length t → Shaped W nf t → (∀ j ∈ ws, j < nf) →
    Ok (MTPenalty.subdiffDistance pen W g ws) (fun r => r.1.length = ws.length)

theorem blockDistances_safe (f : List F → List F → M F) (hf : ∀ a b, Ok (f a b) (fun _ => True))
    {W g : Mat F} {ws : List ℕ} {nf t : ℕ} (hg : Shaped g ws.length t) (hW : Shaped W nf t)
    (hws : ∀ j ∈ ws, j < nf) : Ok (blockDistances f W g ws) (fun r => r.1.length = ws.length) := by
  unfold blockDistances
  refine Tri.bind (Tri.mapM_len (fun _ => True) _ _ fun gj hgj => ?_) fun ds hds => ?_
  · exact Tri.bind (hW.rowM (hws _ (List.of_mem_zip hgj).2)) fun _ _ => hf _ _
  · show ds.length = _
    rw [hds.1, List.length_zip, hg.1, Nat.min_self]

theorem bst_length (v : List F) (s : F) : (blockSoftThresholding v s).length = v.length := by
  unfold blockSoftThresholding
  dsimp only
  split <;> simp

theorem safe_L21 (p : L21 F) : SafePen p := by
  refine ⟨fun v s => bst_length v _, fun _ => trivial, fun W g ws nf t h1 h2 h3 =>
    blockDistances_safe _ (fun a b => ?_) h1 h2 h3⟩
  unfold L21.dist
  split <;> trivial

theorem safe_BlockL1PlusL2 (p : BlockL1PlusL2 F) : SafePen p := by
  refine ⟨fun v s => ?_, fun _ => trivial, fun W g ws nf t h1 h2 h3 =>
    blockDistances_safe _ (fun a b => ?_) h1 h2 h3⟩
  · show (p.prox v s).length = _
    unfold BlockL1PlusL2.prox
    dsimp only
    rw [List.length_map, bst_length]
  · unfold BlockL1PlusL2.dist
    split <;> trivial

theorem safe_BlockMCP (p : BlockMCP F) : SafePen p := by
  refine ⟨fun v s => ?_, fun _ => trivial, fun W g ws nf t h1 h2 h3 =>
    blockDistances_safe _ (fun a b => ?_) h1 h2 h3⟩
  · show (p.prox v s).length = _
    unfold BlockMCP.prox
    dsimp only
    split
    · simp
    · split <;> simp
  · unfold BlockMCP.dist
    dsimp only
    split
    · split <;> trivial
    · trivial

theorem constructWs_safe {srt : Argsort F} (hs : ArgsortSpec srt) {kkt : List F} {W : Mat F} {start : ℕ}
    (hk : kkt.length = W.nrows) (h0 : start ≤ W.nrows) :
    Tri (· = .nanCompare) (constructWs srt kkt W start)
      (fun r => (∀ j ∈ r.1, j < W.nrows) ∧ r.2 = r.1.length ∧ start ≤ r.1.length ∧
        r.1.length ≤ W.nrows) := by
  unfold constructWs
  refine Tri.bind (Q := fun r => r.1.length = W.nrows) ?_ fun ⟨k', nnz⟩ hk' => ?_
  · unfold markSupport
    refine Tri.foldlM (fun r : List F × ℕ => r.1.length = W.nrows) _ _ (fun r j hj hr => ?_) _ hk
    rw [List.mem_range] at hj
    refine Tri.bind (Tri.getM' hj) fun wj _ => ?_
    split
    · refine Tri.bind (Tri.setM' _ (by rw [hr]; exact hj)) fun k h => ?_
      show k.length = _
      rw [h.1, hr]
    · exact hr
  dsimp only at hk'
  by_cases hn : k'.length < 2 ∨ ∀ x ∈ k', isNaN x = false
  · obtain ⟨π, hπ, hperm, -⟩ := hs.sorted k' hn
    dsimp only
    rw [hπ]
    have hl : (π.take (max start (min (2 * nnz) W.nrows))).length =
        max start (min (2 * nnz) W.nrows) := by
      rw [List.length_take, hperm.length_eq, List.length_range, hk']
      omega
    show Tri _ (if _ then _ else _) _
    rw [if_pos hl]
    refine ⟨fun j hj => ?_, hl.symm, ?_, ?_⟩
    · have := (hperm.mem_iff).mp (List.mem_of_mem_take hj)
      rwa [List.mem_range, hk'] at this
    · show start ≤ (π.take _).length
      rw [hl]; exact Nat.le_max_left _ _
    · show (π.take _).length ≤ _
      rw [hl]; exact Nat.max_le.mpr ⟨h0, Nat.min_le_right _ _⟩
  · rw [not_or] at hn
    dsimp only
    rw [hs.nan k' (by omega) (by
      have := hn.2
      push Not at this
      obtain ⟨x, hx, hx'⟩ := this
      exact ⟨x, hx, by simpa using hx'⟩)]
    rfl

theorem flatten_length {rows : List (List F)} {t : ℕ} (h : ∀ x ∈ rows, x.length = t) :
    rows.flatten.length = rows.length * t := by
  rw [List.length_flatten]
  have : rows.map List.length = List.replicate rows.length t := by
    rw [List.eq_replicate_iff]
    refine ⟨by simp, fun x hx => ?_⟩
    obtain ⟨y, hy, rfl⟩ := List.mem_map.mp hx
    exact h y hy
  rw [this, List.sum_replicate]; rfl

variable [DesignMatrix F DM] [MTDatafit F DM DF] [MTPenalty F P]
  {ds : Dataset DM F} {df : DF} {pen : P} {n nf t : ℕ}

theorem objective_safe (hf : SafeFit ds df n nf t) (hp : SafePen pen) {W XW : Mat F} (hX : Shaped XW n t) :
    Ok (objective ds df pen W XW) (fun _ => True) := by
  unfold objective
  exact Tri.bind (hf.value XW hX) fun _ _ => Tri.bind (hp.value W) fun _ _ => trivial

theorem viol_safe (ht : ds.targets.nTasks = t) (hf : SafeFit ds df n nf t) (hp : SafePen pen) {W XW : Mat F}
    {ws : List ℕ} (hW : Shaped W nf t) (hX : Shaped XW n t) (hws : ∀ j ∈ ws, j < nf) :
    Ok (optCondViolation ds W XW ws df pen) (fun r => r.1.length = ws.length) := by
  unfold optCondViolation constructGrad
  rw [bind_assoc]
  refine Tri.bind (Tri.mapM_len (fun g : List F => g.length = t) _ _
    fun j hj => hf.grad XW j hX (hws j hj)) fun g hg => ?_
  refine Tri.bind (Shaped.fromShapeVec (r := ws.length) (c := ds.targets.nTasks)
    (by rw [flatten_length hg.2, hg.1, ht])) fun G hG => ?_
  rw [ht] at hG
  exact hp.dist W G ws nf t hG hW hws

theorem bcdStep_safe (ht : ds.targets.nTasks = t) (hf : SafeFit ds df n nf t) (hp : SafePen pen)
    {st : BCDState F} {j : ℕ}
    (hW : Shaped st.W nf t) (hX : Shaped st.XW n t) (hj : j < nf) :
    Ok (bcdStep ds df pen st j) (fun s => Shaped s.W nf t ∧ Shaped s.XW n t) := by
  unfold bcdStep
  refine Tri.bind (Tri.getM' (by rw [hf.step]; exact hj)) fun lj _ => ?_
  split
  · exact ⟨hW, hX⟩
  · refine Tri.bind (hW.rowM hj) fun old hold => ?_
    refine Tri.bind (hf.grad _ j hX hj) fun g hg => ?_
    refine Tri.bind (bop_safe _ (by rw [hold, List.length_map, hg])) fun step hstep => ?_
    refine Tri.bind (hp.prox _ _) fun upd hupd => ?_
    refine Tri.bind (Q := fun W => Shaped W nf t) ?_ fun W hW' => ?_
    · refine Tri.foldlM (fun W => Shaped W nf t) _ _ (fun A k hk hA => ?_) _ hW
      rw [List.mem_range, ht] at hk
      refine Tri.bind (Tri.getM' (by rw [hupd, hstep, hold]; exact hk)) fun u _ => ?_
      exact hA.set2 hj hk _
    refine Tri.bind (Tri.mapM_len (fun _ => True) _ _ fun ot hot => ?_) fun diff hdiff => ?_
    · have h1 := List.mem_zipIdx hot
      exact Tri.bind (hW'.get2 hj (by omega)) fun _ _ => trivial
    rw [List.length_zipIdx, hold] at hdiff
    split
    · refine Tri.bind (hf.upd _ _ j hX hdiff.1 hj) fun XW hXW => ?_
      exact ⟨hW', hXW⟩
    · exact ⟨hW', hX⟩

theorem bcdEpoch_safe (ht : ds.targets.nTasks = t) (hf : SafeFit ds df n nf t) (hp : SafePen pen)
    {st : BCDState F} {ws : List ℕ}
    (hW : Shaped st.W nf t) (hX : Shaped st.XW n t) (hws : ∀ j ∈ ws, j < nf) :
    Ok (bcdEpoch ds df pen ws st) (fun s => Shaped s.W nf t ∧ Shaped s.XW n t) := by
  unfold bcdEpoch
  exact Tri.foldlM (fun s : BCDState F => Shaped s.W nf t ∧ Shaped s.XW n t) _ _
    (fun s j hj hs => bcdStep_safe ht hf hp hs.1 hs.2 (hws j hj)) _ ⟨hW, hX⟩

theorem storeIterate_safe {B : Mat F} {K : ℕ} {W : Mat F} {ws : List ℕ} {k : ℕ}
    (hB : Shaped B (K + 1) (ws.length * t)) (hW : Shaped W nf t) (hws : ∀ j ∈ ws, j < nf)
    (hk : k < K + 1) :
    Ok (storeIterate B W ws k) (fun B => Shaped B (K + 1) (ws.length * t)) := by
  unfold storeIterate
  refine Tri.bind (Tri.mapM_len (fun x : List F => x.length = t) _ _ fun j hj => hW.rowM (hws j hj))
    fun rows hrows => ?_
  dsimp only
  have hl : rows.flatten.length = ws.length * t := by rw [flatten_length hrows.2, hrows.1]
  rw [if_pos (by rw [hl, hB.2.1])]
  refine Tri.bind (hB.setRow hk (x := rows.flatten) hl) fun rows' h => ?_
  exact h

theorem scatter_safe {pt : List F} {ws : List ℕ} (hpt : pt.length = ws.length * t) (hws : ∀ j ∈ ws, j < nf) :
    Ok (scatter nf t pt ws) (fun W : Mat F => Shaped W nf t) := by
  unfold scatter
  refine Tri.bind (Shaped.fromShapeVec hpt) fun A hA => ?_
  refine Tri.foldlM (fun W : Mat F => Shaped W nf t) _ _ (fun acc rj hrj hacc => ?_) _ Shaped.zeros
  have h1 := List.of_mem_zip hrj
  refine Tri.bind (hacc.setRow (hws _ h1.2) (hA.2.2 _ h1.1)) fun rows h => ?_
  exact h

theorem accel_safe (hn : ds.targets.nSamples = n) (ht : ds.targets.nTasks = t)
    (hnf : DesignMatrix.nFeatures (F := F) ds.designMatrix = .ok nf)
    (hf : SafeFit ds df n nf t) (hp : SafePen pen)
    {st : BCDState F} {ws : List ℕ} {B : Mat F} {K e : ℕ} {v : Bool} {log : List (Event F)}
    (hW : Shaped st.W nf t) (hX : Shaped st.XW n t) (hws : ∀ j ∈ ws, j < nf)
    (hB : Shaped B (K + 1) (ws.length * t)) (hK : 0 < K) (hKw : K ≤ ws.length * t) :
    Ok (andersonAccel ds df pen B st ws e K v log)
      (fun r => Shaped r.1 (K + 1) (ws.length * t) ∧ Shaped r.2.1.W nf t ∧ Shaped r.2.1.XW n t) := by
  unfold andersonAccel
  rw [hnf, ht, hn]
  refine Tri.bind (Q := fun k => k = nf) rfl fun k hk => ?_
  subst hk
  refine Tri.bind (storeIterate_safe hB hW hws (Nat.mod_lt _ (Nat.succ_pos _))) fun B1 hB1 => ?_
  split
  · refine Tri.bind (diffMatrix_safe hB1) fun U hU => ?_
    refine Tri.bind (tMulMat_safe hU hU) fun C hC => ?_
    refine Tri.bind (solveLinSys_safe hC (by simpa using hK) (by simpa using hKw) (by simpa using hKw))
      fun z _ => ?_
    cases z with
    | none => exact ⟨hB1, hW, hX⟩
    | some z =>
      refine Tri.bind (extrapolate_safe hB1 z) fun pt hpt => ?_
      refine Tri.bind (scatter_safe hpt hws) fun Wa hWa => ?_
      refine Tri.bind (hf.extra ws Wa hws hWa) fun XWa hXWa => ?_
      refine Tri.bind (objective_safe hf hp hX) fun _ _ => ?_
      refine Tri.bind (objective_safe hf hp hXWa) fun _ _ => ?_
      split
      · exact ⟨hB1, hWa, hXWa⟩
      · exact ⟨hB1, hW, hX⟩
  · exact ⟨hB1, hW, hX⟩

theorem stop_safe (ht : ds.targets.nTasks = t) (hf : SafeFit ds df n nf t) (hp : SafePen pen)
    {st : BCDState F} {ws : List ℕ} {tol km : F} {sz e : ℕ}
    (hW : Shaped st.W nf t) (hX : Shaped st.XW n t) (hws : ∀ j ∈ ws, j < nf) :
    Ok (stopBCD ds df pen tol nf ws sz km e st) (fun _ => True) := by
  unfold stopBCD
  split
  · refine Tri.bind (objective_safe hf hp hX) fun _ _ => ?_
    refine Tri.bind (viol_safe ht hf hp hW hX hws) fun ⟨_, _⟩ _ => ?_
    dsimp only
    split <;> trivial
  · trivial

/-- The invariant rule applied to shapes. -/
theorem hoare_safe {srt : Argsort F} (hs : ArgsortSpec srt) (cfg : Solver F)
    (hn : ds.targets.nSamples = n) (ht : ds.targets.nTasks = t)
    (hnf : DesignMatrix.nFeatures (F := F) ds.designMatrix = .ok nf)
    (hf : SafeFit ds df n nf t) (hp : SafePen pen) {ws0 : ℕ} (h0 : ws0 ≤ nf)
    (hacc : cfg.useAcceleration = true → 0 < cfg.K ∧ cfg.K ≤ ws0 * t) :
    Skel.Hoare (skelBCD srt ds df pen cfg nf ws0) (· = .nanCompare)
      (fun s => Shaped s.W nf t ∧ Shaped s.XW n t)
      (fun ws sz => (∀ j ∈ ws, j < nf) ∧ sz = ws.length ∧ ws0 ≤ ws.length)
      (fun _ sz b => Shaped b (cfg.K + 1) (sz * t)) where
  viol s hs := Tri.ofOk (Tri.mono (viol_safe ht hf hp hs.1 hs.2 fun j hj => List.mem_range.mp hj)
    fun _ _ => trivial)
  mkWs s kkt km hs' hv _ := by
    have hr : s.W.nrows = nf := hs'.1.1
    have hk : kkt.length = s.W.nrows := by
      have := viol_safe ht hf hp hs'.1 hs'.2 fun j (hj : j ∈ List.range nf) => List.mem_range.mp hj
      have h2 := Tri.elim_ok this hv
      rw [List.length_range] at h2
      rw [hr]; exact h2
    refine Tri.mono (constructWs_safe hs hk (by rw [hr]; exact h0)) fun r h => ?_
    rw [hr] at h
    exact ⟨h.1, h.2.1, h.2.2.1⟩
  buf0 ws sz _ := by
    show Shaped (Mat.zeros (cfg.K + 1) (sz * ds.targets.nTasks)) _ _
    rw [ht]; exact Shaped.zeros
  epoch ws sz s hs hws := Tri.ofOk (bcdEpoch_safe ht hf hp hs.1 hs.2 hws.1)
  accel ws sz e b s hs hws hb := by
    show Tri _ (accelBCD ds df pen cfg ws e b s) _
    unfold accelBCD
    split
    · rename_i hu
      obtain ⟨h1, h2⟩ := hacc hu
      rw [hws.2.1] at hb
      have := accel_safe (v := false) (log := []) (e := e) hn ht hnf hf hp hs.1 hs.2 hws.1 hb h1
        (Nat.le_trans h2 (Nat.mul_le_mul_right t hws.2.2))
      refine Tri.ofOk (Tri.bind this fun r hr => ?_)
      rw [hws.2.1]
      exact hr
    · exact ⟨hb, hs⟩
  stop ws sz km e s hs hws := Tri.ofOk (stop_safe ht hf hp hs.1 hs.2 hws.1)

/-- `solve_multi_task` does not panic, except for comparing NaN. -/
theorem solve_safe {srt : Argsort F} (hs : ArgsortSpec srt) (cfg : Solver F) (df0 : DF)
    (hn : ds.targets.nSamples = n) (ht : ds.targets.nTasks = t)
    (hnf : DesignMatrix.nFeatures (F := F) ds.designMatrix = .ok nf)
    (hi : Ok (MTDatafit.init df0 ds) (fun df => SafeFit ds df n nf t)) (hp : SafePen pen)
    (hacc : cfg.useAcceleration = true → 0 < cfg.K ∧ cfg.K ≤ cfg.wsStartSize * t ∧ cfg.K ≤ nf * t) :
    Tri (· = .nanCompare) (cfg.solveMultiTask srt ds df0 pen) (fun W => Shaped W nf t) := by
  rw [solve_eq]
  unfold runBCD
  rw [hnf]
  refine Tri.bind (Q := fun q : BCDState F × ℕ => Shaped q.1.W nf t) ?_ fun q hq => hq
  refine Tri.bind (Q := fun k => k = nf) rfl fun k hk => ?_
  subst hk
  refine Tri.bind (Tri.ofOk hi) fun df hf => ?_
  have h := hoare_safe (srt := srt) hs cfg hn ht hnf hf hp (ws0 := ws0CD cfg k) (Nat.min_le_right _ _)
    (fun hu => ⟨(hacc hu).1, by
      unfold ws0CD
      rcases Nat.le_total cfg.wsStartSize k with h | h
      · rw [Nat.min_eq_left h]; exact (hacc hu).2.1
      · rw [Nat.min_eq_right h]; exact (hacc hu).2.2⟩)
  refine Tri.mono (h.outer cfg.maxIterations (initBCD ds.targets.nSamples k ds.targets.nTasks) ?_)
    fun q hq => hq.1.1
  unfold initBCD
  rw [hn, ht]
  exact ⟨Shaped.zeros, Shaped.zeros⟩

end

section
variable {F : Type} [Scalar F] {n p t : ℕ}

theorem dense_upd_safe {X : Mat F} (hX : Shaped X n p) {XW : Mat F} {d : List F} {j : ℕ} (hW : Shaped XW n t)
    (hd : d.length = t) (hj : j < p) : Ok (X.updateModelFitMT XW d j) (fun v => Shaped v n t) := by
  unfold Mat.updateModelFitMT
  refine Tri.foldlM (fun A => Shaped A n t) _ _ (fun A i hi hA => ?_) _ hW
  have hi : i < n := by rw [List.mem_range] at hi; unfold Mat.nrows at hi; rwa [hW.1] at hi
  refine Tri.foldlM (fun A => Shaped A n t) _ _ (fun A k hk hA => ?_) _ hA
  rw [List.mem_range, hW.2.1] at hk
  refine Tri.bind (hA.get2 hi hk) fun a _ => ?_
  refine Tri.bind (Tri.getM' (by rw [hd]; exact hk)) fun d _ => ?_
  refine Tri.bind (hX.get2 hi hj) fun x _ => ?_
  exact hA.set2 hi hk _

theorem dense_extra_safe {X : Mat F} (hX : Shaped X n p) {W : Mat F} {ws : List ℕ}
    (hws : ∀ j ∈ ws, j < p) (hW : Shaped W p t) :
    Ok (X.extrapolatedFitMT ws W n t) (fun v => Shaped v n t) := by
  unfold Mat.extrapolatedFitMT
  refine Tri.bind (Tri.mapM_len (fun x : List F => x.length = t) _ _ fun row hrow => ?_) fun rows hr => ?_
  · refine Tri.mono (Tri.mapM_len (fun _ => True) _ _ fun k hk => ?_)
      fun x hx => by rw [hx.1, List.length_range, hW.2.1]
    rw [List.mem_range, hW.2.1] at hk
    refine Tri.bind (hW.colM hk) fun col hcol => ?_
    refine Tri.bind (Tri.mapM_len (fun _ => True) _ _ fun j hj => ?_) fun _ _ => trivial
    refine Tri.bind (Tri.getM' (by rw [hX.2.2 row hrow]; exact hws j hj)) fun _ _ => ?_
    exact Tri.bind (Tri.getM' (by rw [hcol]; exact hws j hj)) fun _ _ => trivial
  · exact Shaped.fromShapeVec (by rw [flatten_length hr.2, hr.1, hX.1])

theorem csc_upd_safe {X : CSC F} (hX : ShapedCSC X n p) {XW : Mat F} {d : List F} {j : ℕ}
    (hW : Shaped XW n t) (hd : d.length = t) (hj : j < p) :
    Ok (X.updateModelFitMT XW d j) (fun v => Shaped v n t) := by
  unfold CSC.updateModelFitMT
  refine Tri.bind (ShapedCSC.colRange hX hj) fun r hr => ?_
  refine Tri.foldlM (fun A => Shaped A n t) _ _ (fun A k hk hA => ?_) _ hW
  refine Tri.foldlM (fun A => Shaped A n t) _ _ (fun A s hs hA => ?_) _ hA
  rw [List.mem_range, hW.2.1] at hs
  refine Tri.bind (ShapedCSC.rowAt hX (hr k hk)) fun i hi => ?_
  refine Tri.bind (hA.get2 hi hs) fun a _ => ?_
  refine Tri.bind (Tri.getM' (by rw [hd]; exact hs)) fun d _ => ?_
  refine Tri.bind (ShapedCSC.dataAt hX (hr k hk)) fun x _ => ?_
  exact hA.set2 hi hs _

theorem csc_extra_safe {X : CSC F} (hX : ShapedCSC X n p) {W : Mat F} {ws : List ℕ}
    (hws : ∀ j ∈ ws, j < p) (hW : Shaped W p t) :
    Ok (X.extrapolatedFitMT ws W n t) (fun v => Shaped v n t) := by
  unfold CSC.extrapolatedFitMT
  refine Tri.foldlM (fun A => Shaped A n t) _ _ (fun A j hj hA => ?_) _ Shaped.zeros
  refine Tri.bind (ShapedCSC.colRange hX (hws j hj)) fun r hr => ?_
  refine Tri.foldlM (fun A => Shaped A n t) _ _ (fun A k hk hA => ?_) _ hA
  refine Tri.foldlM (fun A => Shaped A n t) _ _ (fun A s hs hA => ?_) _ hA
  rw [List.mem_range] at hs
  refine Tri.bind (ShapedCSC.rowAt hX (hr k hk)) fun i hi => ?_
  refine Tri.bind (hA.get2 hi hs) fun a _ => ?_
  refine Tri.bind (ShapedCSC.dataAt hX (hr k hk)) fun x _ => ?_
  refine Tri.bind (hW.get2 (hws j hj) hs) fun w _ => ?_
  exact hA.set2 hi hs _

theorem quad_value_safe {DM : Type} {ds : Dataset DM F} (hT : ShapedTargets ds.targets n t) {XW : Mat F}
    (hX : Shaped XW n t) : Ok (QuadraticMT.value ds XW) (fun _ => True) := by
  unfold QuadraticMT.value
  exact Tri.bind (bopMat_safe _ hT.multi hX) fun _ _ => trivial

theorem quad_dense_safe {X : Mat F} {T : Targets F} (hX : Shaped X n p) (hT : ShapedTargets T n t)
    (df0 : QuadraticMT F) : Ok (MTDatafit.init df0 (⟨X, T⟩ : Dataset (Mat F) F))
      (fun df => SafeFit (⟨X, T⟩ : Dataset (Mat F) F) df n p t) := by
  show Ok (QuadraticMT.initDense _) _
  unfold QuadraticMT.initDense
  refine Tri.bind (tMulMat_safe hX hT.multi) fun xty hxty => ?_
  refine Tri.bind (colSqNorms_safe hX _) fun l hl => ?_
  refine ⟨hl, fun XW j h1 h2 => ?_, fun XW h1 => quad_value_safe hT h1,
    fun XW d j h1 h2 h3 => dense_upd_safe hX h1 h2 h3, fun ws W h1 h2 => dense_extra_safe hX h1 h2⟩
  show Ok (QuadraticMT.gradDense _ _ _ _) _
  unfold QuadraticMT.gradDense
  refine Tri.bind (hX.colM h2) fun c hc => ?_
  refine Tri.bind (vecMul_safe h1 hc) fun v hv => ?_
  refine Tri.bind (hxty.rowM h2) fun x hx => ?_
  refine Tri.bind (bop_safe _ (by rw [hv, hx])) fun r hr => ?_
  show (r.map _).length = _
  rw [List.length_map, hr, hv]

theorem quad_csc_safe {X : CSC F} {T : Targets F} (hX : ShapedCSC X n p) (hT : ShapedTargets T n t)
    (df0 : QuadraticMT F) : Ok (MTDatafit.init df0 (⟨X, T⟩ : Dataset (CSC F) F))
      (fun df => SafeFit (⟨X, T⟩ : Dataset (CSC F) F) df n p t) := by
  show Ok (QuadraticMT.initCSC _) _
  unfold QuadraticMT.initCSC
  refine Tri.bind (Q := fun k => k = p) (by rw [ShapedCSC.nFeatures hX]; rfl) fun k hk => ?_
  subst hk
  dsimp only
  rw [hT.nTasks]
  refine Tri.bind (Tri.mapM_len (fun q : F × List F => q.2.length = t) _ _ fun j hj => ?_) fun ps hps => ?_
  · rw [List.mem_range] at hj
    refine Tri.bind (ShapedCSC.colRange hX hj) fun r hr => ?_
    refine Tri.bind (Q := fun q : F × List F => q.2.length = t) ?_ fun _ h => h
    refine Tri.foldlM (fun q : F × List F => q.2.length = t) _ _ (fun acc k hk hacc => ?_) _ (by simp)
    refine Tri.bind (ShapedCSC.dataAt hX (hr k hk)) fun x _ => ?_
    refine Tri.bind (Q := fun v : List F => v.length = t) ?_ fun _ h => h
    refine Tri.foldlM (fun v : List F => v.length = t) _ _ (fun acc s hs hacc => ?_) _ hacc
    rw [List.mem_range] at hs
    refine Tri.bind (Tri.getM' (by rw [hacc]; exact hs)) fun a _ => ?_
    refine Tri.bind (ShapedCSC.rowAt hX (hr k hk)) fun i hi => ?_
    refine Tri.bind (hT.multi.get2 hi hs) fun y _ => ?_
    exact Tri.mono (Tri.setM' _ (by rw [hacc]; exact hs)) fun v hv => by rw [hv.1, hacc]
  rw [List.length_range] at hps
  refine ⟨by show (ps.map Prod.fst).length = _; rw [List.length_map, hps.1], fun XW j h1 h2 => ?_,
    fun XW h1 => quad_value_safe hT h1,
    fun XW d j h1 h2 h3 => csc_upd_safe hX h1 h2 h3, fun ws W h1 h2 => csc_extra_safe hX h1 h2⟩
  show Ok (QuadraticMT.gradCSC _ _ _ _) _
  unfold QuadraticMT.gradCSC
  dsimp only
  rw [hT.nTasks]
  refine Tri.bind (ShapedCSC.colRange hX h2) fun r hr => ?_
  refine Tri.bind (Q := fun v : List F => v.length = t) ?_ fun v hv => ?_
  · refine Tri.foldlM (fun v : List F => v.length = t) _ _ (fun acc k hk hacc => ?_) _ (by simp)
    refine Tri.foldlM (fun v : List F => v.length = t) _ _ (fun acc s hs hacc => ?_) _ hacc
    rw [List.mem_range] at hs
    refine Tri.bind (Tri.getM' (by rw [hacc]; exact hs)) fun a _ => ?_
    refine Tri.bind (ShapedCSC.dataAt hX (hr k hk)) fun x _ => ?_
    refine Tri.bind (ShapedCSC.rowAt hX (hr k hk)) fun i hi => ?_
    refine Tri.bind (h1.get2 hi hs) fun y _ => ?_
    exact Tri.mono (Tri.setM' _ (by rw [hacc]; exact hs)) fun v hv => by rw [hv.1, hacc]
  · refine Tri.bind (Q := fun x : List F => x.length = t) ?_ fun x hx => ?_
    · unfold Mat.rowM
      refine Tri.mono (Tri.getM' (by rw [List.length_map, hps.1]; exact h2)) fun x hx => ?_
      obtain ⟨q, hq, rfl⟩ := List.mem_map.mp hx
      exact hps.2 q hq
    refine Tri.bind (bop_safe _ (by rw [hv, hx])) fun r hr => ?_
    show (r.map _).length = _
    rw [List.length_map, hr, hv]

end
end MT
end Sglm
