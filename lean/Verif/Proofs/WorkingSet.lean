import Verif.Model.SolverBCD
import Verif.Proofs.CmpXR
import Verif.Proofs.Triple
import Verif.Proofs.MatN
import Verif.Spec.WorkingSet

/-!
# Construction of working sets
-/

namespace Sglm
open Scalar Spec LawfulCmp

variable {F : Type} [Scalar F]

/-- Both `markSupport` functions, for a predicate "non-zero weight". -/
theorem mark_fold (nz : ℕ → Bool) (f : List F × ℕ → ℕ → M (List F × ℕ)) (kkt : List F) (p : ℕ)
    (hf : ∀ acc, ∀ j < p, f acc j = if nz j = true then do
      let k ← setM acc.1 j inf
      pure (k, acc.2 + 1)
    else pure acc)
    (hp : p ≤ kkt.length) :
    ∃ k', (List.range p).foldlM f (kkt, 0) = .ok (k', (List.range p).countP nz) ∧
      k'.length = kkt.length ∧
      ∀ j, k'[j]? = if j < p ∧ nz j = true then some inf else kkt[j]? := by
  induction p with
  | zero => exact ⟨kkt, rfl, rfl, fun j => by simp⟩
  | succ p ih =>
    obtain ⟨k', h1, h2, h3⟩ := ih (fun acc j hj => hf acc j (by omega)) (by omega)
    rw [List.range_succ, List.foldlM_append, h1]
    simp only [bind, Except.bind, List.foldlM_cons, List.foldlM_nil]
    rw [hf _ p (by omega)]
    by_cases hn : nz p = true
    · rw [if_pos hn]
      unfold setM
      rw [if_pos (by dsimp only; omega)]
      refine ⟨k'.set p inf, ?_, by simpa using h2, fun j => ?_⟩
      · simp only [bind, Except.bind, pure, Except.pure]
        rw [List.countP_append]
        simp [hn]
      · rw [List.getElem?_set]
        by_cases hj : p = j
        · subst hj
          rw [if_pos rfl, if_pos (by omega), if_pos ⟨by omega, hn⟩]
        · rw [if_neg hj, h3]
          have : (j < p ∧ nz j = true) ↔ (j < p + 1 ∧ nz j = true) := by
            constructor
            · rintro ⟨a, b⟩; exact ⟨by omega, b⟩
            · rintro ⟨a, b⟩; exact ⟨by omega, b⟩
          simp only [this]
    · rw [if_neg hn]
      refine ⟨k', ?_, h2, fun j => ?_⟩
      · simp only [pure, Except.pure]
        rw [List.countP_append]
        simp [hn]
      · rw [h3]
        have : (j < p ∧ nz j = true) ↔ (j < p + 1 ∧ nz j = true) := by
          constructor
          · rintro ⟨a, b⟩; exact ⟨by omega, b⟩
          · rintro ⟨a, b⟩
            refine ⟨?_, b⟩
            rcases Nat.lt_succ_iff_lt_or_eq.mp a with h | h
            · exact h
            · subst h; exact absurd b hn
        simp only [this]

/-- Selecting the first elements of the sorted indices. -/
theorem pick_ws [LawfulCmp F] {srt : Argsort F} (hs : ArgsortSpec srt) (p start : ℕ) (nz : ℕ → Bool)
    (kkt k' : List F) (hlen : kkt.length = p) (hstart : start ≤ p)
    (hfin : ∀ x ∈ kkt, ∃ k, key x = some k ∧ k ≠ ⊤)
    (hk' : k'.length = kkt.length)
    (h3 : ∀ j, k'[j]? = if j < p ∧ nz j = true then some inf else kkt[j]?) :
    ∃ π, srt k' = .ok π ∧
      (π.take (max start (min (2 * (List.range p).countP nz) p))).length =
        max start (min (2 * (List.range p).countP nz) p) ∧
      WorkingSet p start nz (fun j => kkt.getD j zero)
        (π.take (max start (min (2 * (List.range p).countP nz) p))) := by
  set sz := max start (min (2 * (List.range p).countP nz) p) with hsz
  have hnan : ∀ x ∈ k', isNaN x = false := by
    intro x hx
    obtain ⟨j, hj, rfl⟩ := List.getElem_of_mem hx
    have := h3 j
    rw [List.getElem?_eq_getElem hj] at this
    split at this
    · injection this with h
      rw [h, not_isNaN_iff]; exact ⟨⊤, key_inf⟩
    · have hj' : j < kkt.length := by omega
      rw [List.getElem?_eq_getElem hj'] at this
      injection this with h
      rw [h, not_isNaN_iff]
      obtain ⟨k, hk, -⟩ := hfin _ (List.getElem_mem hj')
      exact ⟨k, hk⟩
  obtain ⟨π, hπ, hperm, hsort⟩ := hs.sorted k' (Or.inr hnan)
  have hszp : sz ≤ p := by
    rw [hsz]; exact max_le hstart (min_le_right _ _)
  have hplen : π.length = p := by rw [hperm.length_eq, List.length_range, hk', hlen]
  have hnd : π.Nodup := hperm.nodup_iff.mpr List.nodup_range
  have hmem : ∀ j, j ∈ π ↔ j < p := fun j => by rw [hperm.mem_iff, List.mem_range, hk', hlen]
  have htl : (π.take sz).length = sz := by rw [List.length_take, hplen]; omega
  -- values of the marked scores
  have hval : ∀ j < p, nz j = true → k'[j]? = some inf := fun j hj hn => by
    rw [h3, if_pos ⟨hj, hn⟩]
  have hval0 : ∀ j < p, nz j = false → k'[j]? = some (kkt.getD j zero) := fun j hj hn => by
    rw [h3, if_neg (by rw [hn]; simp), List.getD_eq_getElem?_getD,
      List.getElem?_eq_getElem (by omega : j < kkt.length)]
    rfl
  have hkey : ∀ j < p, ∃ k, key (kkt.getD j zero) = some k ∧ k ≠ ⊤ := fun j hj => by
    rw [List.getD_eq_getElem?_getD, List.getElem?_eq_getElem (by omega : j < kkt.length)]
    exact hfin _ (List.getElem_mem _)
  -- sortedness between `i` before `j`
  have hrel : ∀ i j, i < p → j < p →
      (∀ a b, k'[i]? = some a → k'[j]? = some b → (a <. b) = false) →
      (nz j = true → nz i = true) ∧
      (nz i = false → nz j = false → (kkt.getD i zero <. kkt.getD j zero) = false) := by
    intro i j hi hj h
    refine ⟨fun hnj => ?_, fun hni hnj => h _ _ (hval0 i hi hni) (hval0 j hj hnj)⟩
    by_contra hni
    have hni : nz i = false := by simpa using hni
    have h1 := h _ _ (hval0 i hi hni) (hval j hj hnj)
    obtain ⟨k, hk, hk2⟩ := hkey i hi
    rw [lt_false_iff hk key_inf] at h1
    exact hk2 (top_le_iff.mp h1)
  have hall : π.Pairwise (fun i j => (nz j = true → nz i = true) ∧
      (nz i = false → nz j = false → (kkt.getD i zero <. kkt.getD j zero) = false)) := by
    refine List.Pairwise.imp_of_mem ?_ hsort
    intro i j hi hj h
    exact hrel i j ((hmem i).mp hi) ((hmem j).mp hj) h
  have hsplit := hall
  rw [← List.take_append_drop sz π] at hsplit
  obtain ⟨hA, -, hC⟩ := List.pairwise_append.mp hsplit
  have hdrop : ∀ j < p, j ∉ π.take sz → j ∈ π.drop sz := by
    intro j hj hn
    have : j ∈ π.take sz ++ π.drop sz := by rw [List.take_append_drop]; exact (hmem j).mpr hj
    exact (List.mem_append.mp this).resolve_left hn
  refine ⟨π, hπ, htl, hnd.sublist (List.take_sublist _ _), fun j hj => (hmem j).mp (List.mem_of_mem_take hj),
    htl, ?_, ?_, hA⟩
  · intro j hj hn
    by_contra hc
    have hd := hdrop j hj hc
    have hnz : ∀ i ∈ π.take sz, nz i = true := fun i hi => (hC i hi j hd).1 hn
    have hnd' : (j :: π.take sz).Nodup :=
      List.nodup_cons.mpr ⟨hc, hnd.sublist (List.take_sublist _ _)⟩
    have hsub : (j :: π.take sz) ⊆ (List.range p).filter nz := by
      intro i hi
      rw [List.mem_filter, List.mem_range]
      rcases List.mem_cons.mp hi with h | h
      · subst h; exact ⟨hj, hn⟩
      · exact ⟨(hmem i).mp (List.mem_of_mem_take h), hnz i h⟩
    have hle := (hnd'.subperm hsub).length_le
    rw [List.length_cons, htl, ← List.countP_eq_length_filter] at hle
    have hcp : (List.range p).countP nz ≤ p := by
      have := List.countP_le_length (p := nz) (l := List.range p)
      rwa [List.length_range] at this
    have : min (2 * (List.range p).countP nz) p ≤ sz := le_max_right _ _
    omega
  · intro i hi hni j hj hc
    have hd := hdrop j hj hc
    have h := hC i hi j hd
    cases hnj : nz j with
    | false => exact h.2 hni hnj
    | true => exact absurd (h.1 hnj) (by rw [hni]; simp)

/-- Single-task working sets. -/
theorem constructWs_ok [LawfulCmp F] {srt : Argsort F} (hs : ArgsortSpec srt) (kkt w : List F) (start : ℕ)
    (hlen : kkt.length = w.length) (hstart : start ≤ w.length)
    (hfin : ∀ x ∈ kkt, ∃ k, key x = some k ∧ k ≠ ⊤) :
    ∃ ws, constructWs srt kkt w start = .ok (ws, ws.length) ∧
      WorkingSet w.length start (fun j => !(w.getD j zero ==. zero)) (fun j => kkt.getD j zero) ws := by
  obtain ⟨k', h1, h2, h3⟩ := mark_fold (fun j => !(w.getD j zero ==. zero))
    (fun (acc : List F × Nat) j => do
      let wj ← getM w j
      if !(wj ==. zero) then do
        let kkt' ← setM acc.1 j inf
        pure (kkt', acc.2 + 1)
      else pure acc) kkt w.length (by
        intro acc j hj
        have : getM w j = .ok (w.getD j zero) := by
          unfold getM
          rw [List.getD_eq_getElem?_getD, List.getElem?_eq_getElem hj]; rfl
        rw [this]; rfl) (le_of_eq hlen.symm)
  obtain ⟨π, hπ, htl, hW⟩ := pick_ws hs w.length start (fun j => !(w.getD j zero ==. zero)) kkt k' hlen
    hstart hfin h2 h3
  refine ⟨_, ?_, hW⟩
  unfold constructWs markSupport
  rw [h1]
  simp only [bind, Except.bind]
  rw [hπ]
  dsimp only
  rw [if_pos htl, htl]
  rfl

/-- Multi-task working sets. -/
theorem MT.constructWs_ok [LawfulCmp F] {srt : Argsort F} (hs : ArgsortSpec srt) (kkt : List F) (W : Mat F)
    (start : ℕ) (hlen : kkt.length = W.nrows) (hstart : start ≤ W.nrows)
    (hfin : ∀ x ∈ kkt, ∃ k, key x = some k ∧ k ≠ ⊤) :
    ∃ ws, MT.constructWs srt kkt W start = .ok (ws, ws.length) ∧
      WorkingSet W.nrows start (fun j => (W.rows.getD j []).any (fun x => !(x ==. zero)))
        (fun j => kkt.getD j zero) ws := by
  obtain ⟨k', h1, h2, h3⟩ := mark_fold (fun j => anyNonzero (W.rows.getD j []))
    (fun (acc : List F × Nat) j => do
      let Wj ← W.rowM j
      if anyNonzero Wj then do
        let kkt' ← setM acc.1 j inf
        pure (kkt', acc.2 + 1)
      else pure acc) kkt W.nrows (by
        intro acc j hj
        have : W.rowM j = .ok (W.rows.getD j []) := by
          unfold Mat.rowM getM
          rw [List.getD_eq_getElem?_getD, List.getElem?_eq_getElem hj]; rfl
        rw [this]; rfl) (le_of_eq hlen.symm)
  obtain ⟨π, hπ, htl, hW⟩ := pick_ws hs W.nrows start (fun j => anyNonzero (W.rows.getD j [])) kkt k' hlen
    hstart hfin h2 h3
  refine ⟨_, ?_, hW⟩
  unfold MT.constructWs MT.markSupport
  rw [h1]
  simp only [bind, Except.bind]
  rw [hπ]
  dsimp only
  rw [if_pos htl, htl]
  rfl

end Sglm
