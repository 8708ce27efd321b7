import Verif.Proofs.Shapes
import Verif.Proofs.Runs

/-!
# Runs on data of consistent shapes do not panic

The contracts `SafeFit`, `SafePen` say that the methods do not panic on arguments of the right shapes; they are
established for all datafits, designs and penalties of the crate, for every interpretation of the arithmetic.
-/

set_option linter.unusedSectionVars false

namespace Sglm
open Scalar Spec

/-- A computation which does not panic, and whose result satisfies `Q`. -/
abbrev Ok {α : Type} (m : M α) (Q : α → Prop) : Prop := Tri (fun _ => False) m Q

theorem Tri.ofOk {α : Type} {E : Panic → Prop} {m : M α} {Q : α → Prop} (h : Ok m Q) : Tri E m Q :=
  Tri.monoE h fun _ h => h.elim

section
variable {F DM DF P : Type} [Scalar F]

/-- Contract of a datafit and a design matrix with `n` samples and `nf` features. -/
structure SafeFit [DesignMatrix F DM] [Datafit F DM DF] (ds : Dataset DM F) (df : DF) (n nf : ℕ) : Prop where
  step : (Datafit.stepSize (DM := DM) df).length = nf
  grad : ∀ Xw j, Xw.length = n → j < nf → Ok (Datafit.gradientJ df ds Xw j) (fun _ => True)
  value : ∀ Xw, Xw.length = n → Ok (Datafit.value df ds Xw) (fun _ => True)
  upd : ∀ Xw d j, Xw.length = n → j < nf →
    Ok (DesignMatrix.updateModelFit ds.designMatrix Xw d j) (fun v => v.length = n)
  extra : ∀ ws w, (∀ j ∈ ws, j < nf) → w.length = nf →
    Ok (DesignMatrix.extrapolatedFit ds.designMatrix ws w n) (fun v => v.length = n)

/-- Contract of a separable penalty. -/
structure SafePen [Penalty F P] (pen : P) : Prop where
  prox : ∀ v s, Ok (Penalty.prox pen v s) (fun _ => True)
  value : ∀ w, Ok (Penalty.value pen w) (fun _ => True)
  dist : ∀ w g ws, g.length = ws.length → (∀ j ∈ ws, j < w.length) →
    Ok (Penalty.subdiffDistance pen w g ws) (fun r => r.1.length = ws.length)

theorem sepDistances_safe (f : F → F → F) {w g : List F} {ws : List ℕ} (hg : g.length = ws.length)
    (hws : ∀ j ∈ ws, j < w.length) : Ok (sepDistances f w g ws) (fun r => r.1.length = ws.length) := by
  unfold sepDistances
  refine Tri.bind (Tri.mapM_len (fun _ => True) _ _ fun gj hgj => ?_) fun ds hds => ?_
  · exact Tri.bind (Tri.getM' (hws _ (List.of_mem_zip hgj).2)) fun _ _ => trivial
  · show ds.length = _
    rw [hds.1, List.length_zip, hg, Nat.min_self]

theorem safe_L1 (p : L1 F) : SafePen p :=
  ⟨fun _ _ => trivial, fun _ => trivial, fun _ _ _ h1 h2 => sepDistances_safe _ h1 h2⟩
theorem safe_L1PlusL2 (p : L1PlusL2 F) : SafePen p :=
  ⟨fun _ _ => trivial, fun _ => trivial, fun _ _ _ h1 h2 => sepDistances_safe _ h1 h2⟩
theorem safe_MCP (p : MCP F) : SafePen p :=
  ⟨fun _ _ => trivial, fun _ => trivial, fun _ _ _ h1 h2 => sepDistances_safe _ h1 h2⟩
theorem safe_L05 (p : L05 F) : SafePen p :=
  ⟨fun _ _ => trivial, fun _ => trivial, fun _ _ _ _ _ => by
    show (List.replicate _ _).length = _; simp⟩

theorem constructWs_safe {srt : Argsort F} (hs : ArgsortSpec srt) {kkt w : List F} {start : ℕ}
    (hk : kkt.length = w.length) (h0 : start ≤ w.length) :
    Tri (· = .nanCompare) (constructWs srt kkt w start)
      (fun r => (∀ j ∈ r.1, j < w.length) ∧ r.2 = r.1.length ∧ start ≤ r.1.length ∧
        r.1.length ≤ w.length) := by
  unfold constructWs
  refine Tri.bind (Q := fun r => r.1.length = w.length) ?_ fun ⟨k', nnz⟩ hk' => ?_
  · unfold markSupport
    refine Tri.foldlM (fun r : List F × ℕ => r.1.length = w.length) _ _ (fun r j hj hr => ?_) _ hk
    rw [List.mem_range] at hj
    refine Tri.bind (Tri.getM' hj) fun wj _ => ?_
    split
    · refine Tri.bind (Tri.setM' _ (by rw [hr]; exact hj)) fun k h => ?_
      show k.length = _
      rw [h.1, hr]
    · exact hr
  dsimp only at hk'
  by_cases hn : k'.length < 2 ∨ ∀ x ∈ k', isNaN x = false
  · obtain ⟨π, hπ, hperm, -⟩ := hs.sorted k' hn
    dsimp only
    rw [hπ]
    have hl : (π.take (max start (min (2 * nnz) w.length))).length =
        max start (min (2 * nnz) w.length) := by
      rw [List.length_take, hperm.length_eq, List.length_range, hk']
      omega
    show Tri _ (if _ then _ else _) _
    rw [if_pos hl]
    refine ⟨fun j hj => ?_, hl.symm, ?_, ?_⟩
    · have := (hperm.mem_iff).mp (List.mem_of_mem_take hj)
      rwa [List.mem_range, hk'] at this
    · show start ≤ (π.take _).length
      rw [hl]; exact Nat.le_max_left _ _
    · show (π.take _).length ≤ _
      rw [hl]; exact Nat.max_le.mpr ⟨h0, Nat.min_le_right _ _⟩
  · rw [not_or] at hn
    dsimp only
    rw [hs.nan k' (by omega) (by
      have := hn.2
      push Not at this
      obtain ⟨x, hx, hx'⟩ := this
      exact ⟨x, hx, by simpa using hx'⟩)]
    rfl

variable [DesignMatrix F DM] [Datafit F DM DF] [Penalty F P]
  {ds : Dataset DM F} {df : DF} {pen : P} {n nf : ℕ}

theorem objective_safe (hf : SafeFit ds df n nf) (hp : SafePen pen) {w Xw : List F} (hX : Xw.length = n) :
    Ok (objective ds df pen w Xw) (fun _ => True) := by
  unfold objective
  exact Tri.bind (hf.value Xw hX) fun _ _ => Tri.bind (hp.value w) fun _ _ => trivial

theorem viol_safe (hf : SafeFit ds df n nf) (hp : SafePen pen) {w Xw : List F} {ws : List ℕ}
    (hw : w.length = nf) (hX : Xw.length = n) (hws : ∀ j ∈ ws, j < nf) :
    Ok (optCondViolation ds w Xw ws df pen) (fun r => r.1.length = ws.length) := by
  unfold optCondViolation constructGrad
  refine Tri.bind (Tri.mapM_len (fun _ => True) _ _ fun j hj => hf.grad Xw j hX (hws j hj)) fun g hg => ?_
  exact hp.dist w g ws hg.1 (fun j hj => by rw [hw]; exact hws j hj)

theorem cdStep_safe (hf : SafeFit ds df n nf) (hp : SafePen pen) {st : CDState F} {j : ℕ}
    (hw : st.w.length = nf) (hX : st.Xw.length = n) (hj : j < nf) :
    Ok (cdStep ds df pen st j) (fun s => s.w.length = nf ∧ s.Xw.length = n) := by
  unfold cdStep
  refine Tri.bind (Tri.getM' (by rw [hf.step]; exact hj)) fun lj _ => ?_
  split
  · exact ⟨hw, hX⟩
  · refine Tri.bind (Tri.getM' (by rw [hw]; exact hj)) fun old _ => ?_
    refine Tri.bind (hf.grad _ j hX hj) fun g _ => ?_
    refine Tri.bind (hp.prox _ _) fun new _ => ?_
    refine Tri.bind (Tri.setM' new (by rw [hw]; exact hj)) fun w hw' => ?_
    dsimp only
    split
    · refine Tri.bind (hf.upd _ _ j hX hj) fun Xw hXw => ?_
      exact ⟨by rw [hw'.1, hw], hXw⟩
    · exact ⟨by rw [hw'.1, hw], hX⟩

theorem cdEpoch_safe (hf : SafeFit ds df n nf) (hp : SafePen pen) {st : CDState F} {ws : List ℕ}
    (hw : st.w.length = nf) (hX : st.Xw.length = n) (hws : ∀ j ∈ ws, j < nf) :
    Ok (cdEpoch ds df pen ws st) (fun s => s.w.length = nf ∧ s.Xw.length = n) := by
  unfold cdEpoch
  exact Tri.foldlM (fun s : CDState F => s.w.length = nf ∧ s.Xw.length = n) _ _
    (fun s j hj hs => cdStep_safe hf hp hs.1 hs.2 (hws j hj)) _ ⟨hw, hX⟩

omit [DesignMatrix F DM] [Datafit F DM DF] [Penalty F P] in
theorem storeIterate_safe {B : Mat F} {K : ℕ} {w : List F} {ws : List ℕ} {k : ℕ}
    (hB : Shaped B (K + 1) ws.length) (hws : ∀ j ∈ ws, j < w.length) (hk : k < K + 1) :
    Ok (storeIterate B w ws k) (fun B => Shaped B (K + 1) ws.length) := by
  unfold storeIterate
  refine Tri.foldlM (fun B => Shaped B (K + 1) ws.length) _ _ (fun A ji hji hA => ?_) _ hB
  have h1 := List.mem_zipIdx hji
  refine Tri.bind (Tri.getM' (hws _ (List.fst_mem_of_mem_zipIdx hji))) fun wj _ => ?_
  exact hA.set2 hk (by omega) _

omit [DesignMatrix F DM] [Datafit F DM DF] [Penalty F P] in
theorem scatter_safe {pt : List F} {ws : List ℕ} (hws : ∀ j ∈ ws, j < nf) :
    Ok (scatter nf pt ws) (fun w : List F => w.length = nf) := by
  unfold scatter
  refine Tri.foldlM (fun w : List F => w.length = nf) _ _ (fun acc vj hvj hacc => ?_) _ (by simp)
  exact Tri.mono (Tri.setM' _ (by rw [hacc]; exact hws _ (List.of_mem_zip hvj).2))
    fun w h => by rw [h.1, hacc]

theorem accel_safe (hn : ds.targets.nSamples = n)
    (hnf : DesignMatrix.nFeatures (F := F) ds.designMatrix = .ok nf)
    (hf : SafeFit ds df n nf) (hp : SafePen pen)
    {st : CDState F} {ws : List ℕ} {B : Mat F} {K e : ℕ} {v : Bool} {log : List (Event F)}
    (hw : st.w.length = nf) (hX : st.Xw.length = n) (hws : ∀ j ∈ ws, j < nf)
    (hB : Shaped B (K + 1) ws.length) (hK : 0 < K) (hKw : K ≤ ws.length) :
    Ok (andersonAccel ds df pen B st ws e K v log)
      (fun r => Shaped r.1 (K + 1) ws.length ∧ r.2.1.w.length = nf ∧ r.2.1.Xw.length = n) := by
  unfold andersonAccel
  rw [hnf]
  refine Tri.bind (Q := fun k => k = nf) rfl fun k hk => ?_
  subst hk
  refine Tri.bind (storeIterate_safe hB (fun j hj => by rw [hw]; exact hws j hj)
    (Nat.mod_lt _ (Nat.succ_pos _))) fun B1 hB1 => ?_
  split
  · refine Tri.bind (diffMatrix_safe hB1) fun U hU => ?_
    refine Tri.bind (tMulMat_safe hU hU) fun C hC => ?_
    refine Tri.bind (solveLinSys_safe hC (by simpa using hK) (by simpa using hKw) (by simpa using hKw))
      fun z _ => ?_
    cases z with
    | none => exact ⟨hB1, hw, hX⟩
    | some z =>
      refine Tri.bind (extrapolate_safe hB1 z) fun pt _ => ?_
      refine Tri.bind (scatter_safe hws) fun wa hwa => ?_
      refine Tri.bind (Q := fun v => v.length = n) (by rw [hn]; exact hf.extra ws wa hws hwa)
        fun Xwa hXwa => ?_
      refine Tri.bind (objective_safe hf hp hX) fun _ _ => ?_
      refine Tri.bind (objective_safe hf hp hXwa) fun _ _ => ?_
      split
      · exact ⟨hB1, hwa, hXwa⟩
      · exact ⟨hB1, hw, hX⟩
  · exact ⟨hB1, hw, hX⟩

theorem stop_safe (hf : SafeFit ds df n nf) (hp : SafePen pen) {st : CDState F} {ws : List ℕ}
    {tol km : F} {sz e : ℕ}
    (hw : st.w.length = nf) (hX : st.Xw.length = n) (hws : ∀ j ∈ ws, j < nf) :
    Ok (stopCD ds df pen tol nf ws sz km e st) (fun _ => True) := by
  unfold stopCD
  split
  · refine Tri.bind (objective_safe hf hp hX) fun _ _ => ?_
    refine Tri.bind (viol_safe hf hp hw hX hws) fun ⟨_, _⟩ _ => ?_
    dsimp only
    split <;> trivial
  · trivial

/-- The invariant rule applied to shapes. -/
theorem hoare_safe {srt : Argsort F} (hs : ArgsortSpec srt) (cfg : Solver F)
    (hn : ds.targets.nSamples = n)
    (hnf : DesignMatrix.nFeatures (F := F) ds.designMatrix = .ok nf)
    (hf : SafeFit ds df n nf) (hp : SafePen pen) {ws0 : ℕ} (h0 : ws0 ≤ nf)
    (hacc : cfg.useAcceleration = true → 0 < cfg.K ∧ cfg.K ≤ ws0) :
    Skel.Hoare (skelCD srt ds df pen cfg nf ws0) (· = .nanCompare)
      (fun s => s.w.length = nf ∧ s.Xw.length = n)
      (fun ws sz => (∀ j ∈ ws, j < nf) ∧ sz = ws.length ∧ ws0 ≤ ws.length)
      (fun _ sz b => Shaped b (cfg.K + 1) sz) where
  viol s hs := Tri.ofOk (Tri.mono (viol_safe hf hp hs.1 hs.2 fun j hj => List.mem_range.mp hj)
    fun _ _ => trivial)
  mkWs s kkt km hs' hv _ := by
    have hk : kkt.length = s.w.length := by
      have := viol_safe hf hp hs'.1 hs'.2 fun j (hj : j ∈ List.range nf) => List.mem_range.mp hj
      have h2 := Tri.elim_ok this hv
      rw [List.length_range] at h2
      rw [hs'.1]; exact h2
    refine Tri.mono (constructWs_safe hs hk (by rw [hs'.1]; exact h0)) fun r hr => ?_
    rw [hs'.1] at hr
    exact ⟨hr.1, hr.2.1, hr.2.2.1⟩
  buf0 ws sz _ := Shaped.zeros
  epoch ws sz s hs hws := Tri.ofOk (cdEpoch_safe hf hp hs.1 hs.2 hws.1)
  accel ws sz e b s hs hws hb := by
    show Tri _ (accelCD ds df pen cfg ws e b s) _
    unfold accelCD
    split
    · rename_i hu
      obtain ⟨h1, h2⟩ := hacc hu
      rw [hws.2.1] at hb
      have := accel_safe (v := false) (log := []) (e := e) hn hnf hf hp hs.1 hs.2 hws.1 hb h1
        (Nat.le_trans h2 hws.2.2)
      refine Tri.ofOk (Tri.bind this fun r hr => ?_)
      rw [hws.2.1]
      exact hr
    · exact ⟨hb, hs⟩
  stop ws sz km e s hs hws := Tri.ofOk (stop_safe hf hp hs.1 hs.2 hws.1)

/-- `solve` does not panic, except for comparing NaN. -/
theorem solve_safe {srt : Argsort F} (hs : ArgsortSpec srt) (cfg : Solver F) (df0 : DF)
    (hn : ds.targets.nSamples = n)
    (hnf : DesignMatrix.nFeatures (F := F) ds.designMatrix = .ok nf)
    (hi : Ok (Datafit.init df0 ds) (fun df => SafeFit ds df n nf)) (hp : SafePen pen)
    (hacc : cfg.useAcceleration = true → 0 < cfg.K ∧ cfg.K ≤ cfg.wsStartSize ∧ cfg.K ≤ nf) :
    Tri (· = .nanCompare) (cfg.solve srt ds df0 pen) (fun w => w.length = nf) := by
  rw [solve_eq]
  unfold runCD
  rw [hnf]
  refine Tri.bind (Q := fun q : CDState F × ℕ => q.1.w.length = nf) ?_ fun q hq => hq
  refine Tri.bind (Q := fun k => k = nf) rfl fun k hk => ?_
  subst hk
  refine Tri.bind (Tri.ofOk hi) fun df hf => ?_
  have h := hoare_safe (srt := srt) hs cfg hn hnf hf hp (ws0 := ws0CD cfg k) (Nat.min_le_right _ _)
    (fun hu => ⟨(hacc hu).1, Nat.le_min.mpr (hacc hu).2⟩)
  refine Tri.mono (h.outer cfg.maxIterations (initCD ds.targets.nSamples k) ?_) fun q hq => hq.1.1
  unfold initCD
  simp [hn]

end
end Sglm
