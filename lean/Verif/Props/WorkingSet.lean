import Verif.Proofs.WorkingSet

/-!
# C23: working sets

For every floating point format with exact comparisons (`LawfulCmp`: `f32`, `f64`, and `XR`), every sorting routine
satisfying the contract of the standard library (`ArgsortSpec`).
-/

namespace Sglm
open Scalar Spec LawfulCmp

/-- `construct_ws_from_kkt` of the single-task solver. -/
theorem C23_working_set {F : Type} [Scalar F] [LawfulCmp F] {srt : Argsort F} (hs : ArgsortSpec srt)
    (kkt w : List F) (start : ℕ) (hlen : kkt.length = w.length) (hstart : start ≤ w.length)
    (hfin : ∀ x ∈ kkt, isNaN x = false ∧ (x ==. inf) = false) :
    ∃ ws, constructWs srt kkt w start = .ok (ws, ws.length) ∧
      WorkingSet w.length start (fun j => !(w.getD j zero ==. zero)) (fun j => kkt.getD j zero) ws := by
  refine constructWs_ok hs kkt w start hlen hstart fun x hx => ?_
  obtain ⟨h1, h2⟩ := hfin x hx
  obtain ⟨k, hk⟩ := (not_isNaN_iff x).mp h1
  refine ⟨k, hk, fun hc => ?_⟩
  rw [← Bool.not_eq_true, beq_iff] at h2
  exact h2 ⟨k, ⊤, hk, key_inf, hc⟩

/-- `construct_ws_from_kkt` of the multi-task solver; a feature is in the support if its row is not zero. -/
theorem C23_working_set_mt {F : Type} [Scalar F] [LawfulCmp F] {srt : Argsort F} (hs : ArgsortSpec srt)
    (kkt : List F) (W : Mat F) (start : ℕ) (hlen : kkt.length = W.nrows) (hstart : start ≤ W.nrows)
    (hfin : ∀ x ∈ kkt, isNaN x = false ∧ (x ==. inf) = false) :
    ∃ ws, MT.constructWs srt kkt W start = .ok (ws, ws.length) ∧
      WorkingSet W.nrows start (fun j => (W.rows.getD j []).any (fun x => !(x ==. zero)))
        (fun j => kkt.getD j zero) ws := by
  refine MT.constructWs_ok hs kkt W start hlen hstart fun x hx => ?_
  obtain ⟨h1, h2⟩ := hfin x hx
  obtain ⟨k, hk⟩ := (not_isNaN_iff x).mp h1
  refine ⟨k, hk, fun hc => ?_⟩
  rw [← Bool.not_eq_true, beq_iff] at h2
  exact h2 ⟨k, ⊤, hk, key_inf, hc⟩

/-- Infinite scores have to be excluded: zero-weight features with score `inf` can push a feature of the support
(here feature 2) out of the working set. -/
theorem C23_infinite_scores_evict : ∃ srt : Argsort XR, ArgsortSpec srt ∧
    constructWs srt [XR.pinf, XR.pinf, XR.fin 0] [XR.fin 0, XR.fin 0, XR.fin 1] 1 = .ok ([0, 1], 2) := by
  refine ⟨argsortIns, argsortIns_spec, ?_⟩
  have h1 : markSupport [XR.pinf, XR.pinf, XR.fin 0] [XR.fin 0, XR.fin 0, XR.fin 1] =
      .ok ([XR.pinf, XR.pinf, XR.pinf], 1) := by
    simp [markSupport, List.range_succ, getM, setM, bind, Except.bind, pure, Except.pure]
  have hlt : (XR.pinf <. XR.pinf) = false := rfl
  have h2 : argsortIns [XR.pinf, XR.pinf, XR.pinf] = .ok [0, 1, 2] := by
    have hn : isNaN XR.pinf = false := rfl
    simp [argsortIns, List.range_succ, List.insertionSort, hlt, hn]
  unfold constructWs
  rw [h1]
  simp only [bind, Except.bind]
  rw [h2]
  rfl

-- Four features, one in the support, start size 1: the two selected features are the support feature 2 and the
-- feature 1 with the largest score among the others.
example : ∃ ws, constructWs argsortIns [XR.fin 1, XR.fin 5, XR.fin 0, XR.fin 2]
      [XR.fin 0, XR.fin 0, XR.fin 3, XR.fin 0] 1 = .ok (ws, ws.length) ∧
    WorkingSet 4 1 (fun j => !([XR.fin 0, XR.fin 0, XR.fin 3, XR.fin 0].getD j zero ==. zero))
      (fun j => [XR.fin 1, XR.fin 5, XR.fin 0, XR.fin 2].getD j zero) ws :=
  C23_working_set argsortIns_spec _ _ 1 rfl (by decide) (by
    intro x hx
    fin_cases hx <;> exact ⟨by simp, rfl⟩)

example : ∃ ws, MT.constructWs argsortIns [XR.fin 1, XR.fin 5] ⟨2, [[XR.fin 0, XR.fin 2], [XR.fin 0, XR.fin 0]]⟩ 1 =
      .ok (ws, ws.length) ∧
    WorkingSet 2 1 (fun j => ([[XR.fin 0, XR.fin 2], [XR.fin 0, XR.fin 0]].getD j []).any
      (fun x => !(x ==. zero))) (fun j => [XR.fin 1, XR.fin 5].getD j zero) ws :=
  C23_working_set_mt argsortIns_spec _ ⟨2, [[XR.fin 0, XR.fin 2], [XR.fin 0, XR.fin 0]]⟩ 1 rfl
    (by decide) (by
    intro x hx
    fin_cases hx <;> exact ⟨by simp, rfl⟩)

end Sglm
