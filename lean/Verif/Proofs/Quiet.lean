import Verif.Proofs.Safe
import Verif.Proofs.SafeMT
import Verif.Proofs.WorkingSet

/-!
# No score that is sorted is NaN

The scores of features with coefficient zero are `max(0, ·)`, which ignores NaN; those of the other features (NaN
coefficients included) are replaced by infinity before the scores are sorted.
-/

set_option linter.unusedSectionVars false

namespace Sglm
open Scalar Spec LawfulCmp

section
variable {F DM DF P : Type} [Scalar F]

/-- The scores of the features with coefficient zero are not NaN. -/
def QuietPen [Penalty F P] (pen : P) : Prop :=
  ∀ (w g : List F) (ws : List ℕ) (kkt : List F) (km : F), Penalty.subdiffDistance pen w g ws = .ok (kkt, km) →
    ∀ (i j : ℕ) (wj x : F), ws[i]? = some j → w[j]? = some wj → (wj ==. zero) = true → kkt[i]? = some x →
      isNaN x = false

/-- `Result::collect`: the `i`-th result comes from the `i`-th argument. -/
theorem mapM_get {α β : Type} {f : α → M β} : ∀ {l : List α} {r : List β}, l.mapM f = .ok r →
    ∀ (i : ℕ) (a : α) (b : β), l[i]? = some a → r[i]? = some b → f a = .ok b := by
  intro l
  induction l with
  | nil => intro r _ i a b ha _; simp at ha
  | cons c l ih =>
    intro r h i a b ha hb
    rw [List.mapM_cons] at h
    cases hc : f c with
    | error e => rw [hc] at h; cases h
    | ok c' =>
      rw [hc] at h
      cases hl : l.mapM f with
      | error e => rw [hl] at h; cases h
      | ok l' =>
        rw [hl] at h
        injection h with h
        subst h
        cases i with
        | zero =>
          simp only [List.getElem?_cons_zero, Option.some.injEq] at ha hb
          subst ha hb
          exact hc
        | succ i =>
          simp only [List.getElem?_cons_succ] at ha hb
          exact ih hl i a b ha hb

theorem zip_second {α : Type} : ∀ {g : List α} {ws : List ℕ} {i j : ℕ} {y : α × ℕ}, (g.zip ws)[i]? = some y →
    ws[i]? = some j → y.2 = j := by
  intro g ws i j y h1 h2
  rw [List.getElem?_zip_eq_some] at h1
  rw [h2] at h1
  exact (Option.some.inj h1.2).symm

theorem quiet_sep (f : F → F → F) (hf : ∀ wj g, (wj ==. zero) = true → isNaN (f wj g) = false)
    (w g : List F) (ws : List ℕ) (kkt : List F) (km : F) (h : sepDistances f w g ws = .ok (kkt, km))
    (i j : ℕ) (wj x : F) (hi : ws[i]? = some j) (hw : w[j]? = some wj) (h0 : (wj ==. zero) = true)
    (hx : kkt[i]? = some x) : isNaN x = false := by
  unfold sepDistances at h
  cases hm : (g.zip ws).mapM (fun gj => do
    let wj ← getM w gj.2
    pure (f wj gj.1)) with
  | error e => rw [hm] at h; cases h
  | ok r =>
    rw [hm] at h
    injection h with h
    injection h with h _
    subst h
    have hlen : (g.zip ws)[i]? ≠ none := by
      intro hn
      have hl : r.length = (g.zip ws).length := by
        have := Tri.elim_ok (Tri.mapM_len (E := fun _ => True) (fun _ => True) (fun gj : F × ℕ => do
          let wj ← getM w gj.2
          pure (f wj gj.1)) (g.zip ws) fun a _ => Tri.triv) hm
        exact this.1
      rw [List.getElem?_eq_none_iff] at hn
      have := List.getElem?_eq_none_iff.mpr (show r.length ≤ i by omega)
      rw [this] at hx
      cases hx
    obtain ⟨gj, hgj⟩ := Option.ne_none_iff_exists'.mp hlen
    have h1 := mapM_get hm i gj x hgj hx
    have h2 := zip_second hgj hi
    rw [h2] at h1
    unfold getM at h1
    rw [hw] at h1
    injection h1 with h1
    rw [← h1]
    exact hf wj gj.1 h0

variable [LawfulCmp F]

theorem fmax_zero_quiet (z : F) : isNaN (fmax zero z) = false := by
  rw [not_isNaN_iff, key_fmax, key_zero]
  cases key z <;> exact ⟨_, rfl⟩

theorem zero_quiet : isNaN (zero : F) = false := (not_isNaN_iff _).mpr ⟨_, key_zero⟩
theorem inf_quiet : isNaN (inf : F) = false := (not_isNaN_iff _).mpr ⟨_, key_inf⟩

theorem quiet_L1 (p : L1 F) : QuietPen p :=
  quiet_sep _ fun wj g h => by unfold L1.dist; rw [if_pos h]; exact fmax_zero_quiet _
theorem quiet_L1PlusL2 (p : L1PlusL2 F) : QuietPen p :=
  quiet_sep _ fun wj g h => by unfold L1PlusL2.dist; rw [if_pos h]; exact fmax_zero_quiet _
theorem quiet_MCP (p : MCP F) : QuietPen p :=
  quiet_sep _ fun wj g h => by unfold MCP.dist; rw [if_pos h]; exact fmax_zero_quiet _
theorem quiet_L05 (p : L05 F) : QuietPen p := by
  intro w g ws kkt km h i j wj x hi hw h0 hx
  injection h with h
  injection h with h _
  subst h
  rw [List.getElem?_replicate] at hx
  split at hx
  · injection hx with hx
    rw [← hx]; exact zero_quiet
  · cases hx

/-- Sorting scores of which only those of non-zero coefficients may be NaN. -/
theorem constructWs_quiet {srt : Argsort F} (hs : ArgsortSpec srt) {kkt w : List F} {start : ℕ}
    (hk : kkt.length = w.length) (h0 : start ≤ w.length)
    (hq : ∀ (j : ℕ) (wj x : F), w[j]? = some wj → (wj ==. zero) = true → kkt[j]? = some x → isNaN x = false) :
    Ok (constructWs srt kkt w start)
      (fun r => (∀ j ∈ r.1, j < w.length) ∧ r.2 = r.1.length ∧ start ≤ r.1.length ∧
        r.1.length ≤ w.length) := by
  obtain ⟨k', h1, h2, h3⟩ := mark_fold (fun j => !(w.getD j zero ==. zero))
    (fun (acc : List F × Nat) j => do
      let wj ← getM w j
      if !(wj ==. zero) then do
        let kkt' ← setM acc.1 j inf
        pure (kkt', acc.2 + 1)
      else pure acc) kkt w.length (by
        intro acc j hj
        have : getM w j = .ok (w.getD j zero) := by
          unfold getM
          rw [List.getD_eq_getElem?_getD, List.getElem?_eq_getElem hj]; rfl
        rw [this]; rfl) (le_of_eq hk.symm)
  have hn : ∀ x ∈ k', isNaN x = false := by
    intro x hx
    obtain ⟨j, hj, hx⟩ := List.mem_iff_getElem.mp hx
    have hx' : k'[j]? = some x := by rw [List.getElem?_eq_getElem hj, hx]
    rw [h3] at hx'
    split at hx'
    · injection hx' with hx'
      rw [← hx']; exact inf_quiet
    · rename_i hz
      have hjw : j < w.length := by omega
      refine hq j _ x (List.getElem?_eq_getElem hjw) ?_ hx'
      by_contra hc
      refine hz ⟨hjw, ?_⟩
      rw [List.getD_eq_getElem?_getD, List.getElem?_eq_getElem hjw]
      simpa using hc
  obtain ⟨π, hπ, -⟩ := hs.sorted k' (Or.inr hn)
  have hsafe := constructWs_safe hs hk h0
  revert hsafe
  unfold constructWs markSupport
  rw [h1]
  simp only [bind, Except.bind]
  rw [hπ]
  dsimp only
  split
  · exact fun h => h
  · intro h
    have h' : Panic.shape = Panic.nanCompare := h
    cases h'

variable [DesignMatrix F DM] [Datafit F DM DF] [Penalty F P]
  {ds : Dataset DM F} {df : DF} {pen : P} {n nf : ℕ}

/-- The invariant rule applied to shapes, without any panic. -/
theorem hoare_quiet {srt : Argsort F} (hs : ArgsortSpec srt) (cfg : Solver F)
    (hn : ds.targets.nSamples = n)
    (hnf : DesignMatrix.nFeatures (F := F) ds.designMatrix = .ok nf)
    (hf : SafeFit ds df n nf) (hp : SafePen pen) (hq : QuietPen (F := F) pen) {ws0 : ℕ} (h0 : ws0 ≤ nf)
    (hacc : cfg.useAcceleration = true → 0 < cfg.K ∧ cfg.K ≤ ws0) :
    Skel.Hoare (skelCD srt ds df pen cfg nf ws0) (fun _ => False)
      (fun s => s.w.length = nf ∧ s.Xw.length = n)
      (fun ws sz => (∀ j ∈ ws, j < nf) ∧ sz = ws.length ∧ ws0 ≤ ws.length)
      (fun _ sz b => Shaped b (cfg.K + 1) sz) where
  viol s hs := Tri.mono (viol_safe hf hp hs.1 hs.2 fun j hj => List.mem_range.mp hj) fun _ _ => trivial
  mkWs s kkt km hs' hv _ := by
    have hk : kkt.length = s.w.length := by
      have := viol_safe hf hp hs'.1 hs'.2 fun j (hj : j ∈ List.range nf) => List.mem_range.mp hj
      have h2 := Tri.elim_ok this hv
      rw [List.length_range] at h2
      rw [hs'.1]; exact h2
    refine Tri.mono (constructWs_quiet hs hk (by rw [hs'.1]; exact h0) ?_) fun r hr => ?_
    · intro j wj x hw hz hx
      have hv' : optCondViolation ds s.w s.Xw (List.range nf) df pen = .ok (kkt, km) := hv
      unfold optCondViolation at hv'
      cases hg : constructGrad ds s.Xw (List.range nf) df with
      | error e => rw [hg] at hv'; cases hv'
      | ok g =>
        rw [hg] at hv'
        have hj : j < nf := by
          rw [← hs'.1]
          by_contra hc
          rw [List.getElem?_eq_none_iff.mpr (by omega)] at hw
          cases hw
        exact hq s.w g (List.range nf) kkt km hv' j j wj x (by rw [List.getElem?_range hj]) hw hz hx
    · rw [hs'.1] at hr
      exact ⟨hr.1, hr.2.1, hr.2.2.1⟩
  buf0 ws sz _ := Shaped.zeros
  epoch ws sz s hs hws := cdEpoch_safe hf hp hs.1 hs.2 hws.1
  accel ws sz e b s hs hws hb := by
    show Tri _ (accelCD ds df pen cfg ws e b s) _
    unfold accelCD
    split
    · rename_i hu
      obtain ⟨h1, h2⟩ := hacc hu
      rw [hws.2.1] at hb
      have := accel_safe (v := false) (log := []) (e := e) hn hnf hf hp hs.1 hs.2 hws.1 hb h1
        (Nat.le_trans h2 hws.2.2)
      refine Tri.bind this fun r hr => ?_
      rw [hws.2.1]
      exact hr
    · exact ⟨hb, hs⟩
  stop ws sz km e s hs hws := stop_safe hf hp hs.1 hs.2 hws.1

/-- `solve` does not panic. -/
theorem solve_quiet {srt : Argsort F} (hs : ArgsortSpec srt) (cfg : Solver F) (df0 : DF)
    (hn : ds.targets.nSamples = n)
    (hnf : DesignMatrix.nFeatures (F := F) ds.designMatrix = .ok nf)
    (hi : Ok (Datafit.init df0 ds) (fun df => SafeFit ds df n nf)) (hp : SafePen pen) (hq : QuietPen (F := F) pen)
    (hacc : cfg.useAcceleration = true → 0 < cfg.K ∧ cfg.K ≤ cfg.wsStartSize ∧ cfg.K ≤ nf) :
    Ok (cfg.solve srt ds df0 pen) (fun w => w.length = nf) := by
  rw [solve_eq]
  unfold runCD
  rw [hnf]
  refine Tri.bind (Q := fun q : CDState F × ℕ => q.1.w.length = nf) ?_ fun q hq => hq
  refine Tri.bind (Q := fun k => k = nf) rfl fun k hk => ?_
  subst hk
  refine Tri.bind hi fun df hf => ?_
  have h := hoare_quiet (srt := srt) hs cfg hn hnf hf hp hq (ws0 := ws0CD cfg k) (Nat.min_le_right _ _)
    (fun hu => ⟨(hacc hu).1, Nat.le_min.mpr (hacc hu).2⟩)
  refine Tri.mono (h.outer cfg.maxIterations (initCD ds.targets.nSamples k) ?_) fun q hq => hq.1.1
  unfold initCD
  simp [hn]

end

namespace MT
section
variable {F DM DF P : Type} [Scalar F]

/-- The scores of the features with coefficients zero are not NaN. -/
def QuietPen [MTPenalty F P] (pen : P) : Prop :=
  ∀ (W g : Mat F) (ws : List ℕ) (kkt : List F) (km : F), MTPenalty.subdiffDistance pen W g ws = .ok (kkt, km) →
    ∀ (i j : ℕ) (Wj : List F) (x : F), ws[i]? = some j → W.rows[j]? = some Wj → anyNonzero Wj = false →
      kkt[i]? = some x → isNaN x = false

theorem quiet_block (f : List F → List F → M F) (hf : ∀ Wj g x, anyNonzero Wj = false → f Wj g = .ok x → isNaN x = false)
    (W g : Mat F) (ws : List ℕ) (kkt : List F) (km : F) (h : blockDistances f W g ws = .ok (kkt, km))
    (i j : ℕ) (Wj : List F) (x : F) (hi : ws[i]? = some j) (hw : W.rows[j]? = some Wj) (h0 : anyNonzero Wj = false)
    (hx : kkt[i]? = some x) : isNaN x = false := by
  unfold blockDistances at h
  cases hm : (g.rows.zip ws).mapM (fun gj => do
    let Wj ← W.rowM gj.2
    f Wj gj.1) with
  | error e => rw [hm] at h; cases h
  | ok r =>
    rw [hm] at h
    injection h with h
    injection h with h _
    subst h
    have hlen : (g.rows.zip ws)[i]? ≠ none := by
      intro hn
      have hl : r.length = (g.rows.zip ws).length := by
        have := Tri.elim_ok (Tri.mapM_len (E := fun _ => True) (fun _ => True) (fun gj : List F × ℕ => do
          let Wj ← W.rowM gj.2
          f Wj gj.1) (g.rows.zip ws) fun a _ => Tri.triv) hm
        exact this.1
      rw [List.getElem?_eq_none_iff] at hn
      have := List.getElem?_eq_none_iff.mpr (show r.length ≤ i by omega)
      rw [this] at hx
      cases hx
    obtain ⟨gj, hgj⟩ := Option.ne_none_iff_exists'.mp hlen
    have h1 := mapM_get hm i gj x hgj hx
    have h2 := zip_second hgj hi
    rw [h2] at h1
    unfold Mat.rowM getM at h1
    rw [hw] at h1
    exact hf Wj gj.1 x h0 h1

variable [LawfulCmp F]

theorem quiet_L21 (p : L21 F) : QuietPen p :=
  quiet_block _ fun Wj g x h hx => by
    unfold L21.dist at hx
    rw [if_neg (by rw [h]; decide)] at hx
    injection hx with hx
    rw [← hx]; exact fmax_zero_quiet _
theorem quiet_BlockL1PlusL2 (p : BlockL1PlusL2 F) : QuietPen p :=
  quiet_block _ fun Wj g x h hx => by
    unfold BlockL1PlusL2.dist at hx
    rw [if_neg (by rw [h]; decide)] at hx
    injection hx with hx
    rw [← hx]; exact fmax_zero_quiet _
theorem quiet_BlockMCP (p : BlockMCP F) : QuietPen p :=
  quiet_block _ fun Wj g x h hx => by
    unfold BlockMCP.dist at hx
    dsimp only at hx
    rw [if_neg (by rw [h]; decide)] at hx
    injection hx with hx
    rw [← hx]; exact fmax_zero_quiet _

/-- Sorting scores of which only those of non-zero coefficients may be NaN. -/
theorem constructWs_quiet {srt : Argsort F} (hs : ArgsortSpec srt) {kkt : List F} {W : Mat F} {start : ℕ}
    (hk : kkt.length = W.nrows) (h0 : start ≤ W.nrows)
    (hq : ∀ (j : ℕ) (Wj : List F) (x : F), W.rows[j]? = some Wj → anyNonzero Wj = false → kkt[j]? = some x →
      isNaN x = false) :
    Ok (constructWs srt kkt W start)
      (fun r => (∀ j ∈ r.1, j < W.nrows) ∧ r.2 = r.1.length ∧ start ≤ r.1.length ∧
        r.1.length ≤ W.nrows) := by
  obtain ⟨k', h1, h2, h3⟩ := mark_fold (fun j => anyNonzero (W.rows.getD j []))
    (fun (acc : List F × Nat) j => do
      let Wj ← W.rowM j
      if anyNonzero Wj then do
        let kkt' ← setM acc.1 j inf
        pure (kkt', acc.2 + 1)
      else pure acc) kkt W.nrows (by
        intro acc j hj
        have : W.rowM j = .ok (W.rows.getD j []) := by
          unfold Mat.rowM getM
          rw [List.getD_eq_getElem?_getD, List.getElem?_eq_getElem hj]; rfl
        rw [this]; rfl) (le_of_eq hk.symm)
  have hn : ∀ x ∈ k', isNaN x = false := by
    intro x hx
    obtain ⟨j, hj, hx⟩ := List.mem_iff_getElem.mp hx
    have hx' : k'[j]? = some x := by rw [List.getElem?_eq_getElem hj, hx]
    rw [h3] at hx'
    split at hx'
    · injection hx' with hx'
      rw [← hx']; exact inf_quiet
    · rename_i hz
      have hjw : j < W.rows.length := by unfold Mat.nrows at hk; omega
      refine hq j _ x (List.getElem?_eq_getElem hjw) ?_ hx'
      by_contra hc
      refine hz ⟨hjw, ?_⟩
      rw [List.getD_eq_getElem?_getD, List.getElem?_eq_getElem hjw]
      simpa using hc
  obtain ⟨π, hπ, -⟩ := hs.sorted k' (Or.inr hn)
  have hsafe := constructWs_safe hs hk h0
  revert hsafe
  unfold constructWs markSupport
  rw [h1]
  simp only [bind, Except.bind]
  rw [hπ]
  dsimp only
  split
  · exact fun h => h
  · intro h
    have h' : Panic.shape = Panic.nanCompare := h
    cases h'

variable [DesignMatrix F DM] [MTDatafit F DM DF] [MTPenalty F P]
  {ds : Dataset DM F} {df : DF} {pen : P} {n nf t : ℕ}

/-- The invariant rule applied to shapes, without any panic. -/
theorem hoare_quiet {srt : Argsort F} (hs : ArgsortSpec srt) (cfg : Solver F)
    (hn : ds.targets.nSamples = n) (ht : ds.targets.nTasks = t)
    (hnf : DesignMatrix.nFeatures (F := F) ds.designMatrix = .ok nf)
    (hf : SafeFit ds df n nf t) (hp : SafePen pen) (hq : QuietPen (F := F) pen) {ws0 : ℕ} (h0 : ws0 ≤ nf)
    (hacc : cfg.useAcceleration = true → 0 < cfg.K ∧ cfg.K ≤ ws0 * t) :
    Skel.Hoare (skelBCD srt ds df pen cfg nf ws0) (fun _ => False)
      (fun s => Shaped s.W nf t ∧ Shaped s.XW n t)
      (fun ws sz => (∀ j ∈ ws, j < nf) ∧ sz = ws.length ∧ ws0 ≤ ws.length)
      (fun _ sz b => Shaped b (cfg.K + 1) (sz * t)) where
  viol s hs := Tri.mono (viol_safe ht hf hp hs.1 hs.2 fun j hj => List.mem_range.mp hj) fun _ _ => trivial
  mkWs s kkt km hs' hv _ := by
    have hr : s.W.nrows = nf := hs'.1.1
    have hk : kkt.length = s.W.nrows := by
      have := viol_safe ht hf hp hs'.1 hs'.2 fun j (hj : j ∈ List.range nf) => List.mem_range.mp hj
      have h2 := Tri.elim_ok this hv
      rw [List.length_range] at h2
      rw [hr]; exact h2
    refine Tri.mono (constructWs_quiet hs hk (by rw [hr]; exact h0) ?_) fun r h => ?_
    · intro j Wj x hw hz hx
      have hv' : optCondViolation ds s.W s.XW (List.range nf) df pen = .ok (kkt, km) := hv
      unfold optCondViolation at hv'
      cases hg : constructGrad ds s.XW (List.range nf) df with
      | error e => rw [hg] at hv'; cases hv'
      | ok g =>
        rw [hg] at hv'
        have hj : j < nf := by
          rw [← hr]
          by_contra hc
          unfold Mat.nrows at hc
          rw [List.getElem?_eq_none_iff.mpr (by omega)] at hw
          cases hw
        exact hq s.W g (List.range nf) kkt km hv' j j Wj x (by rw [List.getElem?_range hj]) hw hz hx
    · rw [hr] at h
      exact ⟨h.1, h.2.1, h.2.2.1⟩
  buf0 ws sz _ := by
    show Shaped (Mat.zeros (cfg.K + 1) (sz * ds.targets.nTasks)) _ _
    rw [ht]; exact Shaped.zeros
  epoch ws sz s hs hws := bcdEpoch_safe ht hf hp hs.1 hs.2 hws.1
  accel ws sz e b s hs hws hb := by
    show Tri _ (accelBCD ds df pen cfg ws e b s) _
    unfold accelBCD
    split
    · rename_i hu
      obtain ⟨h1, h2⟩ := hacc hu
      rw [hws.2.1] at hb
      have := accel_safe (v := false) (log := []) (e := e) hn ht hnf hf hp hs.1 hs.2 hws.1 hb h1
        (Nat.le_trans h2 (Nat.mul_le_mul_right t hws.2.2))
      refine Tri.bind this fun r hr => ?_
      rw [hws.2.1]
      exact hr
    · exact ⟨hb, hs⟩
  stop ws sz km e s hs hws := stop_safe ht hf hp hs.1 hs.2 hws.1

/-- `solve_multi_task` does not panic. -/
theorem solve_quiet {srt : Argsort F} (hs : ArgsortSpec srt) (cfg : Solver F) (df0 : DF)
    (hn : ds.targets.nSamples = n) (ht : ds.targets.nTasks = t)
    (hnf : DesignMatrix.nFeatures (F := F) ds.designMatrix = .ok nf)
    (hi : Ok (MTDatafit.init df0 ds) (fun df => SafeFit ds df n nf t)) (hp : SafePen pen)
    (hq : QuietPen (F := F) pen)
    (hacc : cfg.useAcceleration = true → 0 < cfg.K ∧ cfg.K ≤ cfg.wsStartSize * t ∧ cfg.K ≤ nf * t) :
    Ok (cfg.solveMultiTask srt ds df0 pen) (fun W => Shaped W nf t) := by
  rw [solve_eq]
  unfold runBCD
  rw [hnf]
  refine Tri.bind (Q := fun q : BCDState F × ℕ => Shaped q.1.W nf t) ?_ fun q hq => hq
  refine Tri.bind (Q := fun k => k = nf) rfl fun k hk => ?_
  subst hk
  refine Tri.bind hi fun df hf => ?_
  have h := hoare_quiet (srt := srt) hs cfg hn ht hnf hf hp hq (ws0 := ws0CD cfg k) (Nat.min_le_right _ _)
    (fun hu => ⟨(hacc hu).1, by
      unfold ws0CD
      rcases Nat.le_total cfg.wsStartSize k with h | h
      · rw [Nat.min_eq_left h]; exact (hacc hu).2.1
      · rw [Nat.min_eq_right h]; exact (hacc hu).2.2⟩)
  refine Tri.mono (h.outer cfg.maxIterations (initBCD ds.targets.nSamples k ds.targets.nTasks) ?_)
    fun q hq => hq.1.1
  unfold initBCD
  rw [hn, ht]
  exact ⟨Shaped.zeros, Shaped.zeros⟩

end
end MT
end Sglm
