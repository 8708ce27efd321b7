import Verif.Proofs.LinSys
import Mathlib.LinearAlgebra.Matrix.PosDef

/-!
# Properties C21, C22: the linear solver used by the acceleration
-/

namespace Sglm
open Scalar

/-- The leading principal minor of order `k`. -/
noncomputable def leadMinor {n : ℕ} (A : Fin n → Fin n → ℝ) (k : ℕ) (hk : k ≤ n) : ℝ :=
  ((Matrix.of A).submatrix (Fin.castLE hk) (Fin.castLE hk)).det

theorem leadInj_of_minor {n : ℕ} (A : Fin n → Fin n → ℝ) {k : ℕ} (hk : k ≤ n)
    (h : leadMinor A k hk ≠ 0) : Lin.LeadInj (extM A) k := by
  intro y hy c hc
  by_contra hne
  apply h
  unfold leadMinor
  rw [← Matrix.exists_mulVec_eq_zero_iff]
  refine ⟨fun i => y i, fun h0 => hne (congrFun h0 ⟨c, hc⟩), ?_⟩
  funext r
  have := hy r r.isLt
  rw [Finset.sum_range] at this
  rw [Pi.zero_apply, ← this]
  simp only [Matrix.mulVec, dotProduct, Matrix.submatrix_apply, Matrix.of_apply]
  apply Finset.sum_congr rfl
  intro c _
  congr 1
  exact (extM_fin A (Fin.castLE hk r) (Fin.castLE hk c)).symm

theorem leadInj_iff_det {n : ℕ} (A : Fin n → Fin n → ℝ) :
    Lin.LeadInj (extM A) n ↔ (Matrix.of A).det ≠ 0 := by
  constructor
  · intro h h0
    obtain ⟨v, hv, hAv⟩ := Matrix.exists_mulVec_eq_zero_iff.mpr h0
    apply hv
    have := h (extV v) (fun r hr => by
      rw [Finset.sum_range]
      have := congrFun hAv ⟨r, hr⟩
      simp only [Matrix.mulVec, dotProduct, Pi.zero_apply, Matrix.of_apply] at this
      rw [← this]
      apply Finset.sum_congr rfl
      intro c _
      rw [extV_fin]
      congr 1
      exact extM_fin A ⟨r, hr⟩ c)
    funext c
    rw [Pi.zero_apply, ← this c c.isLt, extV_fin]
  · intro h
    apply leadInj_of_minor A le_rfl
    unfold leadMinor
    simpa using h

theorem trailPSD_of_posSemidef {n : ℕ} {A : Fin n → Fin n → ℝ} (hA : (Matrix.of A).PosSemidef) :
    Lin.TrailPSD n 0 (extM A) := by
  refine ⟨fun r hr c hc _ _ => ?_, fun y _ => ?_⟩
  · have h1 := extM_fin A ⟨r, hr⟩ ⟨c, hc⟩
    have h2 := extM_fin A ⟨c, hc⟩ ⟨r, hr⟩
    simp only at h1 h2
    rw [h1, h2]
    have := hA.isHermitian.apply ⟨r, hr⟩ ⟨c, hc⟩
    simpa using this.symm
  · have h := hA.dotProduct_mulVec_nonneg (fun i : Fin n => y i)
    refine le_of_le_of_eq h ?_
    rw [Finset.sum_range]
    simp only [dotProduct, Matrix.mulVec, Pi.star_apply, star_trivial, Matrix.of_apply]
    apply Finset.sum_congr rfl
    intro r _
    rw [Finset.sum_range]
    congr 1
    apply Finset.sum_congr rfl
    intro c _
    rw [extM_fin]

theorem mulVec_of_sums {n : ℕ} {A : Fin n → Fin n → ℝ} {b : Fin n → ℝ} {v : ℕ → ℝ}
    (h : ∀ r < n, ∑ c ∈ Finset.range n, extM A r c * v c = extV b r) :
    (Matrix.of A).mulVec (fun i => v i) = b := by
  funext r
  have := h r r.isLt
  rw [Finset.sum_range, extV_fin] at this
  rw [← this]
  simp only [Matrix.mulVec, dotProduct, Matrix.of_apply]
  apply Finset.sum_congr rfl
  intro c _
  rw [extM_fin]

/-- **C21, full statement** (false, see `C21_false`): whenever `solve_lin_sys(A, b)` answers `Ok(x)`,
`A x = b`. -/
def C21_full : Prop :=
  ∀ (n : ℕ) (A : Fin n → Fin n → ℝ) (b : Fin n → ℝ) (x : List XR),
    solveLinSys (mat A) (vec b) = .ok (some x) → ∃ v : Fin n → ℝ, x = vec v ∧ (Matrix.of A).mulVec v = b

/-- **C21** holds for positive semidefinite matrices (the only ones built by the acceleration) and
whenever no elimination pivot vanishes, i.e. the leading minors of order `< n` are non-zero. -/
theorem C21_lin_sys_sound_partial {n : ℕ} (A : Fin n → Fin n → ℝ) (b : Fin n → ℝ) (x : List XR)
    (hA : (Matrix.of A).PosSemidef ∨ ∀ k (hk : k < n), leadMinor A k hk.le ≠ 0)
    (h : solveLinSys (mat A) (vec b) = .ok (some x)) :
    ∃ v : Fin n → ℝ, x = vec v ∧ (Matrix.of A).mulVec v = b := by
  rw [mat_eq_matN, vec_eq_vecN] at h
  rcases Nat.eq_zero_or_pos n with h0 | hn
  · subst h0
    simp [solveLinSys, augment, subM, bind, Except.bind, pure, Except.pure] at h
  rcases hA with hA | hA
  · rcases Lin.psd_sound (extM A) (extV b) hn le_rfl le_rfl (trailPSD_of_posSemidef hA) with
      ⟨v, h1, h2⟩ | ⟨h1, -⟩
    · rw [h1] at h
      exact ⟨_, by rw [← Option.some.inj (Except.ok.inj h), vecN_eq_vec], mulVec_of_sums h2⟩
    · rw [h1] at h; simp at h
  · obtain ⟨v, h1, h2⟩ := Lin.minors_sound' (extM A) (extV b) hn le_rfl le_rfl
      (fun k hk => leadInj_of_minor A hk.le (hA k hk)) h
    exact ⟨_, by rw [h1, vecN_eq_vec], mulVec_of_sums h2⟩

/-- Witness against the full C21: with a zero leading pivot the answer is wrong. -/
theorem C21_witness :
    solveLinSys (mat ![![0, 1], ![1, 1]]) (vec ![1, 2]) = .ok (some (vec ![1, 2])) := by
  rw [mat_eq_matN, vec_eq_vecN, Lin.solveLinSys_eq _ _ (by norm_num) le_rfl le_rfl]
  have e : Lin.ech 2 (Lin.aug 2 (extM ![![0, 1], ![1, 1]]) (extV ![1, 2])) =
      Lin.aug 2 (extM ![![0, 1], ![1, 1]]) (extV ![1, 2]) := by
    simp [Lin.ech, Lin.fwd, Lin.aug, extM, extV]
  rw [e]
  have h00 : Lin.red 2 (Lin.aug 2 (extM ![![0, 1], ![1, 1]]) (extV ![1, 2])) 0 0 = -1 := by
    simp [Lin.red, Lin.bwd, Lin.aug, extM, extV]
  have h02 : Lin.red 2 (Lin.aug 2 (extM ![![0, 1], ![1, 1]]) (extV ![1, 2])) 0 2 = -1 := by
    simp [Lin.red, Lin.bwd, Lin.aug, extM, extV]; norm_num
  have h11 : Lin.red 2 (Lin.aug 2 (extM ![![0, 1], ![1, 1]]) (extV ![1, 2])) 1 1 = 1 := by
    simp [Lin.red, Lin.bwd, Lin.aug, extM, extV]
  have h12 : Lin.red 2 (Lin.aug 2 (extM ![![0, 1], ![1, 1]]) (extV ![1, 2])) 1 2 = 2 := by
    simp [Lin.red, Lin.bwd, Lin.aug, extM, extV]
  rw [if_pos (by
    intro i hi
    interval_cases i
    · rw [h00]; norm_num
    · rw [h11]; norm_num)]
  congr 2
  apply vecN_congr
  intro i hi
  interval_cases i
  · rw [h00, h02]; simp [extV]
  · rw [h11, h12]; simp [extV]

/-- The full C21 fails: `[[0, 1], [1, 1]] x = [1, 2]` has the solution `[1, 1]` but the answer is
`Ok([1, 2])`. -/
theorem C21_false : ¬ C21_full := by
  intro h
  obtain ⟨v, hv, hA⟩ := h 2 _ _ _ C21_witness
  have h0 : v = ![1, 2] := by
    have := List.ofFn_injective hv
    funext i
    exact (XR.fin.inj (congrFun this i)).symm
  subst h0
  have := congrFun hA 0
  simp [Matrix.mulVec, dotProduct, Fin.sum_univ_two] at this

/-- **C22**: all leading minors non-zero gives `Ok`; positive semidefinite and singular gives `Err`.
(`n = 0` is excluded: `size - 1` underflows.) -/
theorem C22_lin_sys_complete {n : ℕ} (hn : 0 < n) (A : Fin n → Fin n → ℝ) (b : Fin n → ℝ) :
    ((∀ k (hk : k ≤ n), leadMinor A k hk ≠ 0) →
      ∃ v : Fin n → ℝ, solveLinSys (mat A) (vec b) = .ok (some (vec v))) ∧
    ((Matrix.of A).PosSemidef → (Matrix.of A).det = 0 → solveLinSys (mat A) (vec b) = .ok none) ∧
    ((Matrix.of A).PosSemidef → (Matrix.of A).det ≠ 0 →
      ∃ v : Fin n → ℝ, solveLinSys (mat A) (vec b) = .ok (some (vec v))) := by
  rw [mat_eq_matN, vec_eq_vecN]
  refine ⟨fun h => ?_, fun h h0 => ?_, fun h h0 => ?_⟩
  · obtain ⟨v, hv, -⟩ := Lin.minors_sound (extM A) (extV b) hn le_rfl le_rfl
      (fun k hk => leadInj_of_minor A hk (h k hk))
    exact ⟨_, by rw [hv, vecN_eq_vec]⟩
  · rcases Lin.psd_sound (extM A) (extV b) hn le_rfl le_rfl (trailPSD_of_posSemidef h) with
      ⟨v, h1, h2⟩ | ⟨h1, -⟩
    · exfalso
      -- the answer for `A` would make `A` injective
      obtain ⟨hU, hS⟩ := Lin.psd_upper (extM A) (extV b) (trailPSD_of_posSemidef h)
      obtain ⟨h3, h4⟩ := Lin.outcome _ _ hU hS
      rw [Lin.solveLinSys_eq _ _ hn le_rfl le_rfl] at h1
      split at h1
      · rename_i hp
        refine (leadInj_iff_det A).mp ?_ h0
        exact (h4 fun i hi => by rw [← h3 i hi]; exact hp i hi).2
      · simp at h1
    · exact h1
  · rcases Lin.psd_sound (extM A) (extV b) hn le_rfl le_rfl (trailPSD_of_posSemidef h) with
      ⟨v, h1, h2⟩ | ⟨h1, h2⟩
    · exact ⟨_, by rw [h1, vecN_eq_vec]⟩
    · exact absurd ((leadInj_iff_det A).mpr h0) h2

/-- The hypotheses of C21/C22 are satisfiable: a positive definite and a singular semidefinite
example. -/
example : (Matrix.of ![![2, 1], ![1, 2]] : Matrix (Fin 2) (Fin 2) ℝ).PosSemidef ∧
    (Matrix.of ![![2, 1], ![1, 2]] : Matrix (Fin 2) (Fin 2) ℝ).det ≠ 0 ∧
    (∀ k (hk : k ≤ 2), leadMinor (![![2, 1], ![1, 2]] : Fin 2 → Fin 2 → ℝ) k hk ≠ 0) := by
  refine ⟨?_, ?_, ?_⟩
  · refine Matrix.PosSemidef.of_dotProduct_mulVec_nonneg ?_ ?_
    · ext i j; fin_cases i <;> fin_cases j <;> simp
    · intro x
      simp [Matrix.mulVec, dotProduct, Fin.sum_univ_two]
      nlinarith [sq_nonneg (x 0 + x 1), sq_nonneg (x 0), sq_nonneg (x 1)]
  · rw [Matrix.det_fin_two]; simp; norm_num
  · intro k hk
    interval_cases k
    · simp [leadMinor]
    · simp [leadMinor]
    · simp only [leadMinor]; rw [Matrix.det_fin_two]; simp; norm_num

example : (Matrix.of ![![1, 1], ![1, 1]] : Matrix (Fin 2) (Fin 2) ℝ).PosSemidef ∧
    (Matrix.of ![![1, 1], ![1, 1]] : Matrix (Fin 2) (Fin 2) ℝ).det = 0 := by
  refine ⟨?_, ?_⟩
  · refine Matrix.PosSemidef.of_dotProduct_mulVec_nonneg ?_ ?_
    · ext i j; fin_cases i <;> fin_cases j <;> simp
    · intro x
      simp [Matrix.mulVec, dotProduct, Fin.sum_univ_two]
      nlinarith [sq_nonneg (x 0 + x 1)]
  · rw [Matrix.det_fin_two]; simp

end Sglm
