import Verif.Proofs.SkelBCD

/-!
# From a successful run of a solver to a run of its skeleton
-/

namespace Sglm
open Scalar Spec

section
variable {F DM DF P : Type} [Scalar F] [DesignMatrix F DM] [Datafit F DM DF] [Penalty F P]

theorem cd_run {srt : Argsort F} {cfg : Solver F} {ds : Dataset DM F} {df df1 : DF} {pen : P}
    {st : CDState F} {log : List (Event F)}
    (h : coordinateDescent srt ds df pen cfg = .ok (st, df1, log)) :
    ∃ nf k, DesignMatrix.nFeatures (F := F) ds.designMatrix = .ok nf ∧ Datafit.init df ds = .ok df1 ∧
      (skelCD srt ds df1 pen cfg nf (ws0CD cfg nf)).outer cfg.maxIterations
        (initCD ds.targets.nSamples nf) = .ok (st, k) ∧
      (cfg.verbose = true → iterationsPrinted log = k) := by
  have hrel := cd_rel srt ds df pen cfg
  cases hnf : DesignMatrix.nFeatures (F := F) ds.designMatrix with
  | error e =>
    unfold coordinateDescent at h
    rw [hnf] at h
    cases h
  | ok nf =>
  have hdf : Datafit.init df ds = .ok df1 := by
    unfold coordinateDescent at h
    rw [hnf] at h
    cases hi : Datafit.init df ds with
    | error e => rw [hi] at h; cases h
    | ok df2 =>
      rw [hi] at h
      simp only [bind, Except.bind] at h
      split at h
      · cases h
      · injection h with h; injection h with h1 h2; injection h2 with h2 h3; rw [h2]
  rw [h] at hrel
  cases hq : runCD srt ds df pen cfg with
  | error e => rw [hq] at hrel; exact hrel.elim
  | ok q =>
    rw [hq] at hrel
    obtain ⟨h1, h2, -⟩ := hrel
    obtain ⟨s, k⟩ := q
    dsimp only at h1 h2
    subst h1
    unfold runCD at hq
    rw [hnf, hdf] at hq
    exact ⟨nf, k, rfl, hdf, hq, h2⟩

end

namespace MT
section
variable {F DM DF P : Type} [Scalar F] [DesignMatrix F DM] [MTDatafit F DM DF] [MTPenalty F P]

theorem bcd_run {srt : Argsort F} {cfg : Solver F} {ds : Dataset DM F} {df df1 : DF} {pen : P}
    {st : BCDState F} {log : List (Event F)}
    (h : blockCoordinateDescent srt ds df pen cfg = .ok (st, df1, log)) :
    ∃ nf k, DesignMatrix.nFeatures (F := F) ds.designMatrix = .ok nf ∧ MTDatafit.init df ds = .ok df1 ∧
      (skelBCD srt ds df1 pen cfg nf (ws0CD cfg nf)).outer cfg.maxIterations
        (initBCD ds.targets.nSamples nf ds.targets.nTasks) = .ok (st, k) ∧
      (cfg.verbose = true → iterationsPrinted log = k) := by
  have hrel := bcd_rel srt ds df pen cfg
  cases hnf : DesignMatrix.nFeatures (F := F) ds.designMatrix with
  | error e =>
    unfold blockCoordinateDescent at h
    rw [hnf] at h
    cases h
  | ok nf =>
  have hdf : MTDatafit.init df ds = .ok df1 := by
    unfold blockCoordinateDescent at h
    rw [hnf] at h
    cases hi : MTDatafit.init df ds with
    | error e => rw [hi] at h; cases h
    | ok df2 =>
      rw [hi] at h
      simp only [bind, Except.bind] at h
      split at h
      · cases h
      · injection h with h; injection h with h1 h2; injection h2 with h2 h3; rw [h2]
  rw [h] at hrel
  cases hq : runBCD srt ds df pen cfg with
  | error e => rw [hq] at hrel; exact hrel.elim
  | ok q =>
    rw [hq] at hrel
    obtain ⟨h1, h2, -⟩ := hrel
    obtain ⟨s, k⟩ := q
    dsimp only at h1 h2
    subst h1
    unfold runBCD at hq
    rw [hnf, hdf] at hq
    exact ⟨nf, k, rfl, hdf, hq, h2⟩

end
end MT
end Sglm
