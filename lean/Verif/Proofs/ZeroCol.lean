import Verif.Proofs.Problem

/-!
# Features whose column is zero keep a zero coefficient, acceleration included
-/

namespace Sglm
open Scalar Spec

namespace RProb
open Coord
variable {E : Type} [AddCommGroup E] [Module ℝ E] [Coord E] {p : ℕ} (R : RProb E p)

theorem ofCo_zero : (ofCo (fun _ => 0) : E) = 0 := by
  have := ofCo_smul (E := E) 0 (fun _ => 0)
  rw [zero_smul] at this
  rw [← this]
  exact ofCo_congr _ _ fun t _ => (zero_mul _).symm

theorem co_zero {t : ℕ} (ht : t < dim E) : co (0 : E) t = 0 := by
  rw [← ofCo_zero]
  exact co_ofCo _ t ht

/-- The stored iterates are zero at feature `j`. -/
def BufZero (E : Type) [AddCommGroup E] [Module ℝ E] [Coord E] (j : Fin p) (ws : List ℕ) (b : ℕ → ℕ → ℝ) : Prop :=
  j ∈ finws p ws → ∀ k, ∀ t < dim E, b k ((finws p ws).idxOf j * dim E + t) = 0

theorem flat_idxOf {l : List (Fin p)} {j : Fin p} (hj : j ∈ l) (w : Fin p → E) {t : ℕ} (ht : t < dim E) :
    flat l w (l.idxOf j * dim E + t) = co (w j) t := by
  unfold flat
  have h0 : 0 < dim E := Nat.zero_lt_of_lt ht
  rw [Nat.mul_comm, Nat.mul_add_div h0, Nat.div_eq_of_lt ht, Nat.add_zero, Nat.mul_add_mod, Nat.mod_eq_of_lt ht]
  rw [List.getElem?_eq_getElem (List.idxOf_lt_length_iff.mpr hj), List.getElem_idxOf]

theorem hoare_zero {srt : Argsort XR} (cfg : Solver XR) (ws0 : ℕ) (j : Fin p)
    (hstep : ∀ w, w j = 0 → R.step w j j = 0) :
    Skel.Hoare (R.skel srt cfg ws0) (fun _ => True) (fun w => w j = 0) (fun _ _ => True)
      (fun ws _ b => BufZero E j ws b) where
  viol _ _ := trivial
  mkWs _ _ _ _ _ _ := Tri.mono Tri.triv fun _ _ => trivial
  buf0 _ _ _ := fun _ _ _ _ => rfl
  epoch ws sz w hw _ := by
    show (((finws p ws).foldl R.step w) j) = 0
    generalize finws p ws = l
    induction l generalizing w with
    | nil => exact hw
    | cons i l ih =>
      refine ih _ ?_
      by_cases hij : j = i
      · subst hij; exact hstep w hw
      · unfold step
        split
        · exact hw
        · rw [Function.update_of_ne hij]; exact hw
  accel ws sz e b w hw _ hb := by
    show Tri _ (R.accel cfg (finws p ws) e b w) _
    unfold accel
    have hb1 : BufZero E j ws (Function.update b (e % (cfg.K + 1)) (flat (finws p ws) w)) := by
      intro hj k t ht
      by_cases hk : k = e % (cfg.K + 1)
      · subst hk
        rw [Function.update_self, flat_idxOf hj w ht, hw, co_zero ht]
      · rw [Function.update_of_ne hk]; exact hb hj k t ht
    split
    · dsimp only
      split
      · refine Tri.bind Tri.triv fun z _ => ?_
        cases z with
        | none => exact ⟨hb1, hw⟩
        | some z =>
          refine ⟨hb1, ?_⟩
          dsimp only
          split
          · unfold scat
            split
            · rename_i hj
              refine (ofCo_congr _ _ fun t ht => ?_).trans ofCo_zero
              unfold comb
              exact Finset.sum_eq_zero fun k _ => by rw [hb1 hj k t ht, zero_mul]
            · rfl
          · exact hw
      · exact ⟨hb1, hw⟩
    · exact ⟨hb, hw⟩
  stop _ _ _ _ _ _ _ := trivial

/-- The coefficient is zero at the end of the run. -/
theorem run_zero_feature {srt : Argsort XR} (cfg : Solver XR) (j : Fin p) (hG : ∀ w, R.G w j = 0)
    (hpx : ∀ s, 0 < s → R.px 0 s = 0) (hL : 0 ≤ R.L j) {v : Fin p → E} {m : ℕ}
    (h : R.run srt cfg = .ok (v, m)) : v j = 0 := by
  have H := (R.hoare_zero (srt := srt) cfg (ws0CD cfg p) j (fun w hw => by
    unfold step
    split
    · exact hw
    · rename_i h0
      rw [Function.update_self, hG, hw, smul_zero, sub_zero]
      exact hpx _ (one_div_pos.mpr (lt_of_le_of_ne hL (Ne.symm h0))))).outer cfg.maxIterations (fun _ => 0) rfl
  exact (Tri.elim_ok H h).1

end RProb

variable {n p T : ℕ}

theorem proxOf_zero (pen : Pen) (hv : pen.Valid) (s : ℝ) (hs : 0 < s) : proxOf pen 0 s = 0 := by
  have soft : ∀ t : ℝ, 0 ≤ t → softR 0 t = 0 := fun t ht => by
    unfold softR; rw [if_neg (by linarith), if_neg (by linarith)]
  cases pen with
  | l1 α => exact soft _ (mul_nonneg hv hs.le)
  | enet α ρ =>
    show enetProxR α ρ 0 s = 0
    unfold enetProxR
    rw [soft _ (mul_nonneg (mul_nonneg hv.2.1 hv.1) hs.le), zero_div]
  | mcp α γ =>
    show mcpProxR α γ 0 s = 0
    unfold mcpProxR
    rw [if_pos (by rw [abs_zero]; exact mul_nonneg hv.1 hs.le)]
  | l05 α =>
    show prox05R 0 (s * α) = 0
    unfold prox05R
    have : 0 < s * α := mul_pos hs hv
    rw [if_pos (by rw [abs_zero]; positivity)]

theorem bproxOf_zero (pen : BPen) (hv : pen.Valid) (s : ℝ) (hs : 0 < s) : bproxOf pen (0 : Euc T) s = 0 := by
  have soft : ∀ t : ℝ, 0 < t → blockSoftR (0 : Euc T) t = 0 := fun t ht => by
    unfold blockSoftR; rw [if_pos (by rw [norm_zero]; exact ht)]
  cases pen with
  | l21 α => exact soft _ (mul_pos hv hs)
  | enet α ρ =>
    show blockEnetProxR α ρ 0 s = 0
    unfold blockEnetProxR
    rw [soft _ (mul_pos (mul_pos hv.1 hs) hv.2.1), smul_zero]
  | mcp α γ =>
    show blockMcpProxR α γ 0 s = 0
    unfold blockMcpProxR
    rw [if_pos (by rw [norm_zero]; exact mul_nonneg hv.1 hs.le)]

theorem gradOf_zero_col (X : Fin n → Fin p → ℝ) (y u : Fin n → ℝ) (k : LossKind) (j : Fin p) (h : ∀ i, X i j = 0) :
    gradOf X y k u j = 0 := by
  cases k with
  | quadratic =>
    show quadGrad X y u j = 0
    unfold quadGrad
    simp [h]
  | logistic =>
    show logGrad X y u j = 0
    unfold logGrad
    simp [h]

theorem mtGrad_zero_col (X : Fin n → Fin p → ℝ) (Y U : Fin n → Fin T → ℝ) (j : Fin p) (h : ∀ i, X i j = 0) :
    mtGrad X Y U j = 0 := by
  funext t
  unfold mtGrad
  simp [h]

end Sglm
