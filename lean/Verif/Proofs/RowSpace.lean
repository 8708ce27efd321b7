import Verif.Proofs.ZeroCol

/-!
# Runs stay in a linear subspace which the coordinate updates respect, acceleration included
-/

namespace Sglm
open Scalar Spec

namespace RProb
open Coord
variable {E : Type} [AddCommGroup E] [Module ℝ E] [Coord E] {p : ℕ} (R : RProb E p)

/-- The rows of the stored iterates lie in `P`. -/
def BufIn (P : Submodule ℝ E) (ws : List ℕ) (b : ℕ → ℕ → ℝ) : Prop :=
  ∀ j ∈ finws p ws, ∀ k, (ofCo (fun t => b k ((finws p ws).idxOf j * dim E + t)) : E) ∈ P

theorem ofCo_comb (K : ℕ) (b : ℕ → ℕ → ℝ) (z : ℕ → ℝ) (o : ℕ) :
    (ofCo (fun t => comb K b z (o + t)) : E) =
      ∑ k ∈ Finset.range K, (z k / ∑ l ∈ Finset.range K, z l) • ofCo (fun t => b k (o + t)) := by
  unfold comb
  generalize (∑ l ∈ Finset.range K, z l) = S
  induction K with
  | zero =>
    simp only [Finset.range_zero, Finset.sum_empty]
    exact ofCo_zero
  | succ K ih =>
    simp only [Finset.sum_range_succ]
    rw [ofCo_add, ih, ← ofCo_smul]
    congr 2
    funext t
    ring

theorem hoare_rows {srt : Argsort XR} (cfg : Solver XR) (ws0 : ℕ) (P : Submodule ℝ E)
    (hstep : ∀ w : Fin p → E, (∀ i, w i ∈ P) → ∀ j, R.step w j j ∈ P) :
    Skel.Hoare (R.skel srt cfg ws0) (fun _ => True) (fun w => ∀ i, w i ∈ P) (fun _ _ => True)
      (fun ws _ b => BufIn (p := p) P ws b) where
  viol _ _ := trivial
  mkWs _ _ _ _ _ _ := Tri.mono Tri.triv fun _ _ => trivial
  buf0 _ _ _ := fun _ _ _ => by
    show (ofCo (fun _ => 0) : E) ∈ P
    rw [ofCo_zero]; exact P.zero_mem
  epoch ws sz w hw _ := by
    show ∀ i, (((finws p ws).foldl R.step w) i) ∈ P
    generalize finws p ws = l
    induction l generalizing w with
    | nil => exact hw
    | cons j l ih =>
      refine ih _ fun i => ?_
      by_cases hij : i = j
      · subst hij; exact hstep w hw i
      · unfold step
        split
        · exact hw i
        · rw [Function.update_of_ne hij]; exact hw i
  accel ws sz e b w hw _ hb := by
    show Tri _ (R.accel cfg (finws p ws) e b w) _
    unfold accel
    have hb1 : BufIn (p := p) P ws (Function.update b (e % (cfg.K + 1)) (flat (finws p ws) w)) := by
      intro j hj k
      by_cases hk : k = e % (cfg.K + 1)
      · subst hk
        have : (ofCo (fun t => Function.update b (e % (cfg.K + 1)) (flat (finws p ws) w) (e % (cfg.K + 1))
            ((finws p ws).idxOf j * dim E + t)) : E) = w j := by
          rw [Function.update_self, ← ofCo_co (w j)]
          exact ofCo_congr _ _ fun t ht => flat_idxOf hj w ht
        rw [this]; exact hw j
      · rw [Function.update_of_ne hk]; exact hb j hj k
    split
    · dsimp only
      split
      · refine Tri.bind Tri.triv fun z _ => ?_
        cases z with
        | none => exact ⟨hb1, hw⟩
        | some z =>
          refine ⟨hb1, ?_⟩
          dsimp only
          split
          · intro j
            unfold scat
            split
            · rename_i hj
              rw [ofCo_comb]
              exact P.sum_mem fun k _ => P.smul_mem _ (hb1 j hj k)
            · exact P.zero_mem
          · exact hw
      · exact ⟨hb1, hw⟩
    · exact ⟨hb, hw⟩
  stop _ _ _ _ _ _ _ := trivial

/-- **A run stays in a subspace** `P` of the rows, if the gradient and the proximal operator do. -/
theorem run_rows {srt : Argsort XR} (cfg : Solver XR) (P : Submodule ℝ E)
    (hG : ∀ w : Fin p → E, (∀ i, w i ∈ P) → ∀ j, R.G w j ∈ P) (hpx : ∀ x ∈ P, ∀ s, R.px x s ∈ P)
    {v : Fin p → E} {m : ℕ} (h : R.run srt cfg = .ok (v, m)) (j : Fin p) : v j ∈ P := by
  have H := R.hoare_rows (srt := srt) cfg (ws0CD cfg p) P fun w hw j => by
    unfold step
    split
    · exact hw j
    · rw [Function.update_self]
      exact hpx _ (P.sub_mem (hw j) (P.smul_mem _ (hG w hw j))) _
  exact (Tri.elim_ok (H.outer cfg.maxIterations (fun _ => 0) fun _ => P.zero_mem) h).1 j

end RProb
end Sglm
