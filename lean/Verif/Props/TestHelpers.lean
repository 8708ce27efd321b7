import Verif.Model.TestHelpers
import Verif.Proofs.PySim
import Verif.Proofs.MatN

/-!
# C94: The random data generators

`generate_random_data` and `generate_random_data_mtl` seed the generator anew for the features, the coefficients and the noise.
So the noise is the first feature, and in the multi-task case (for samples below the number of features) it is the
coefficients.
-/

namespace Sglm
open Scalar Spec
variable {n p T : ℕ}

theorem fillRandomVector_fin (z : ℕ → ℝ) (c : ℕ) : fillRandomVector (fun k => XR.fin (z k)) c = vec fun i : Fin c => z i := by
  unfold fillRandomVector vec
  rw [List.ofFn_eq_map, ← List.map_coe_finRange_eq_range, List.map_map]
  rfl

theorem fromShapeVecF_fin (z : ℕ → ℝ) :
    Mat.fromShapeVecF n p (fillRandomVector (fun k => XR.fin (z k)) (n * p)) = .ok (mat fun (i : Fin n) (j : Fin p) => z (j * n + i)) := by
  unfold Mat.fromShapeVecF
  rw [if_pos (by simp [fillRandomVector]), mapM_range (fun i : Fin n => vec fun j : Fin p => z (j * n + i))]
  · rfl
  intro i
  show _ = Except.ok (List.ofFn _)
  apply mapM_range
  intro j
  have h : (j : ℕ) * n + i < n * p := by
    have := j.isLt; have := i.isLt
    nlinarith
  unfold fillRandomVector getM
  rw [List.getElem?_map, List.getElem?_range h]
  rfl

theorem fromShapeVec_fin (z : ℕ → ℝ) :
    Mat.fromShapeVec n T (fillRandomVector (fun k => XR.fin (z k)) (n * T)) = .ok (mat fun (i : Fin n) (t : Fin T) => z (i * T + t)) := by
  unfold Mat.fromShapeVec
  rw [if_pos (by simp [fillRandomVector])]
  unfold mat vec
  congr 2
  rw [List.ofFn_eq_map, ← List.map_coe_finRange_eq_range, List.map_map]
  apply List.map_congr_left
  intro i _
  apply List.ext_getElem
  · simp [fillRandomVector]
    have := i.isLt
    rw [← Nat.sub_mul]
    nlinarith [Nat.sub_add_cancel this.le, Nat.sub_pos_of_lt this]
  · intro k h1 h2
    simp [fillRandomVector]

theorem dotVec_mat (X : Fin n → Fin p → ℝ) (w : Fin p → ℝ) : (mat X).dotVec (vec w) = .ok (vec (fit X w)) := by
  unfold Mat.dotVec
  rw [if_pos (by simp)]
  unfold mat vec
  dsimp only
  rw [List.map_ofFn]
  congr 2
  funext i
  exact dot_vec (X i) w

theorem dotMat_mat (X : Fin n → Fin p → ℝ) (W : Fin p → Fin T → ℝ) : (mat X).dotMat (mat W) = .ok (mat (fitMT X W)) := by
  unfold Mat.dotMat
  rw [if_pos (by rw [mat_ncols, mat_nrows]), tM_mat]
  show Except.ok _ = _
  congr 1
  unfold mat vec
  dsimp only
  congr 1
  rw [List.map_ofFn]
  congr 1
  funext i
  show (List.ofFn _).map _ = _
  rw [List.map_ofFn]
  congr 1
  funext t
  exact mmdot_vec (X i) (fun j => W j t)

/-- The property: any features can be generated with any targets (the noise takes all values, whatever the features). -/
def C94_full : Prop := ∀ (n p : ℕ), 0 < n → 0 < p → ∀ (X : Fin n → Fin p → ℝ) (y : Fin n → ℝ),
  ∃ z : ℕ → ℝ, generateRandomData (fun k => XR.fin (z k)) n p = .ok (mat X, vec y)

/-- What is true: any features are possible, and the data have the shapes asked for; the targets are those of a linear model
whose coefficients are drawn at random, plus one more unit of the first coefficient in place of noise. -/
theorem C94_data_partial (z : ℕ → ℝ) (hp : 0 < p) : ∃ (X : Fin n → Fin p → ℝ) (w : Fin p → ℝ) (y : Fin n → ℝ),
    generateRandomData (fun k => XR.fin (z k)) n p = .ok (mat X, vec y) ∧ (∀ i j, X i j = z (j * n + i)) ∧ (∀ j, w j = z j) ∧
      ∀ i, y i = ∑ j, X i j * w j + X i ⟨0, hp⟩ := by
  refine ⟨fun i j => z (j * n + i), fun j => z j, fun i => fit (fun (i : Fin n) (j : Fin p) => z (j * n + i)) (fun j => z j) i + z i,
    ?_, fun _ _ => rfl, fun _ => rfl, fun i => ?_⟩
  · unfold generateRandomData
    simp only [fromShapeVecF_fin, fillRandomVector_fin z p, fillRandomVector_fin z n, bind, Except.bind, dotVec_mat, bop_add_vec]
    rfl
  · show fit _ _ i + z i = _ + z (0 * n + i)
    rw [zero_mul, zero_add]
    rfl

/-- The targets are an exact linear function of the features: nothing is left to be explained by noise. -/
theorem C94_noiseless (z : ℕ → ℝ) (hp : 0 < p) : ∃ (X : Fin n → Fin p → ℝ) (w : Fin p → ℝ),
    generateRandomData (fun k => XR.fin (z k)) n p = .ok (mat X, vec fun i => ∑ j, X i j * w j) := by
  obtain ⟨X, w, y, h, -, -, hy⟩ := C94_data_partial (n := n) z hp
  refine ⟨X, fun j => w j + if j = ⟨0, hp⟩ then 1 else 0, ?_⟩
  rw [h]
  congr 3
  funext i
  rw [hy]
  simp only [mul_add, Finset.sum_add_distrib, mul_ite, mul_one, mul_zero, Finset.sum_ite_eq', Finset.mem_univ, if_true]

/-- Any features can be generated. -/
theorem C94_any_features (X : Fin n → Fin p → ℝ) : ∃ (z : ℕ → ℝ) (y : Fin n → ℝ),
    generateRandomData (fun k => XR.fin (z k)) n p = .ok (mat X, vec y) := by
  have hX : ∀ (i : Fin n) (j : Fin p), (if h : ((j * n + i : ℕ) % n < n) ∧ ((j * n + i : ℕ) / n < p) then
      X ⟨(j * n + i) % n, h.1⟩ ⟨(j * n + i) / n, h.2⟩ else 0) = X i j := fun i j => by
    have h1 : ((j : ℕ) * n + i) % n = i := by rw [Nat.mul_add_mod', Nat.mod_eq_of_lt i.isLt]
    have h2 : ((j : ℕ) * n + i) / n = j := by
      rw [mul_comm, Nat.mul_add_div (Nat.pos_of_ne_zero (by rintro rfl; exact i.elim0)), Nat.div_eq_of_lt i.isLt, add_zero]
    have h3 : (((j : ℕ) * n + i) % n < n) ∧ (((j : ℕ) * n + i) / n < p) := by rw [h1, h2]; exact ⟨i.isLt, j.isLt⟩
    rw [dif_pos h3]
    congr 1 <;> apply Fin.ext <;> assumption
  set z : ℕ → ℝ := fun k => if h : k % n < n ∧ k / n < p then X ⟨k % n, h.1⟩ ⟨k / n, h.2⟩ else 0 with hz
  have hX' : (fun (i : Fin n) (j : Fin p) => z (j * n + i)) = X := by funext i j; exact hX i j
  refine ⟨z, fun i => fit X (fun j => z j) i + z i, ?_⟩
  unfold generateRandomData
  simp only [fromShapeVecF_fin, hX', fillRandomVector_fin z p, fillRandomVector_fin z n, bind, Except.bind, dotVec_mat, bop_add_vec]
  rfl

/-- The noise is not random given the features: a feature which is zero cannot come with a target which is not. -/
theorem C94_false : ¬ C94_full := by
  intro h
  obtain ⟨z, hz⟩ := h 1 1 one_pos one_pos (fun _ _ => 0) (fun _ => 1)
  obtain ⟨X, w, h1⟩ := C94_noiseless (n := 1) (p := 1) z one_pos
  rw [h1] at hz
  injection hz with hz
  injection hz with hX hy
  have e1 : X 0 0 = 0 := by
    have := congrArg (fun A : Mat XR => A.get2 0 0) hX
    simpa [mat, Mat.get2, getM, vec, bind, Except.bind] using this
  have e2 : X 0 0 * w 0 = 1 := by simpa [vec] using hy
  rw [e1] at e2
  norm_num at e2

/-- Several tasks: the noise of sample `i` is row `i` of the coefficients, as far as there is one. -/
theorem C94_tasks (z : ℕ → ℝ) : ∃ (X : Fin n → Fin p → ℝ) (W : Fin p → Fin T → ℝ) (Y : Fin n → Fin T → ℝ),
    generateRandomDataMtl (fun k => XR.fin (z k)) n p T = .ok (mat X, mat Y) ∧ (∀ i j, X i j = z (j * n + i)) ∧
      (∀ j t, W j t = z (j * T + t)) ∧
      ∀ (i : Fin n) (j : Fin p), (i : ℕ) = j → ∀ t, Y i t = ∑ k, X i k * W k t + W j t := by
  refine ⟨fun i j => z (j * n + i), fun j t => z (j * T + t),
    fun i t => fitMT (fun (i : Fin n) (j : Fin p) => z (j * n + i)) (fun (j : Fin p) (t : Fin T) => z (j * T + t)) i t + z (i * T + t),
    ?_, fun _ _ => rfl, fun _ _ => rfl, fun i j hij t => ?_⟩
  · unfold generateRandomDataMtl
    simp only [fromShapeVecF_fin, fromShapeVec_fin, bind, Except.bind, dotMat_mat]
    unfold bopMat
    rw [if_pos (by simp)]
    show Except.ok (mat _, Mat.mk _ _) = _
    congr 2
    unfold mat
    dsimp only
    congr 1
    apply List.ext_getElem
    · simp
    · intro i h1 h2
      simp only [List.getElem_zipWith, List.getElem_ofFn]
      exact zipWith_vec _ _ Scalar.add (fun a b => a + b) fun t => XR.s_add _ _
  · show fitMT _ _ i t + z (i * T + t) = _ + z (j * T + t)
    rw [hij]
    rfl

/-- In any arithmetic, the noise is bit for bit the first column of the features. -/
theorem C94_bits {F : Type} [Scalar F] (rng : ℕ → F) (hp : 0 < p) (X : Mat F) (y : List F) (h : generateRandomData rng n p = .ok (X, y)) :
    ∃ (e : List F) (w : List F) (Xw : List F), X.colM 0 = .ok e ∧ X.dotVec w = .ok Xw ∧ bop add Xw e = .ok y := by
  unfold generateRandomData Mat.fromShapeVecF at h
  dsimp only at h
  rw [if_pos (by simp [fillRandomVector])] at h
  have hr : (List.range n).mapM (fun i => (List.range p).mapM (fun j => getM (fillRandomVector rng (n * p)) (j * n + i))) =
      (.ok ((List.range n).map fun i => (List.range p).map fun j => rng (j * n + i)) : M _) := by
    apply mapM_ok'
    intro i hi
    apply mapM_ok'
    intro j hj
    rw [List.mem_range] at hi hj
    have : j * n + i < n * p := by nlinarith
    unfold fillRandomVector getM
    rw [List.getElem?_map, List.getElem?_range this]
    rfl
  rw [hr] at h
  simp only [bind, Except.bind, pure, Except.pure] at h
  split at h
  · cases h
  rename_i Xw hXw
  split at h
  · cases h
  rename_i y' hy
  injection h with h
  injection h with h1 h2
  subst h1 h2
  refine ⟨_, _, _, ?_, hXw, hy⟩
  unfold Mat.colM
  rw [if_pos hp]
  dsimp only
  rw [show fillRandomVector rng n = (((List.range n).map fun i => (List.range p).map fun j => rng (j * n + i)).map fun r => r.headD (rng 0)) from ?_]
  · apply mapM_ok'
    intro r hr
    obtain ⟨i, -, rfl⟩ := List.mem_map.mp hr
    obtain ⟨m, rfl⟩ := Nat.exists_eq_succ_of_ne_zero hp.ne'
    simp [getM, List.range_succ_eq_map]
  · unfold fillRandomVector
    rw [List.map_map]
    apply List.map_congr_left
    intro i _
    obtain ⟨m, rfl⟩ := Nat.exists_eq_succ_of_ne_zero hp.ne'
    simp [List.range_succ_eq_map]

/-! ## Examples -/

-- 2 samples, 2 features, draws 1, 2, 3, 4: features (1, 3), (2, 4), targets 1 + 6 + 1 and 2 + 8 + 2
example : generateRandomData (fun k => XR.fin ((k : ℝ) + 1)) 2 2 = .ok (mat ![![1, 3], ![2, 4]], vec ![8, 12]) := by
  obtain ⟨X, w, y, h, hX, hw, hy⟩ := C94_data_partial (n := 2) (p := 2) (fun k => (k : ℝ) + 1) two_pos
  rw [h]
  have e1 : X = ![![1, 3], ![2, 4]] := by
    funext i j
    rw [hX]
    fin_cases i <;> fin_cases j <;> norm_num
  have e2 : y = ![8, 12] := by
    funext i
    rw [hy, Fin.sum_univ_two, hw, hw, e1]
    fin_cases i <;> norm_num
  rw [e1, e2]

-- one sample, one feature, two tasks, draws 1, 2: targets 1 * 1 + 1 and 1 * 2 + 2
example : generateRandomDataMtl (fun k => XR.fin ((k : ℝ) + 1)) 1 1 2 = .ok (mat ![![1]], mat ![![2, 4]]) := by
  obtain ⟨X, W, Y, h, hX, hW, hY⟩ := C94_tasks (n := 1) (p := 1) (T := 2) fun k => (k : ℝ) + 1
  rw [h]
  have e1 : X = ![![1]] := by
    funext i j
    rw [hX]
    fin_cases i; fin_cases j; norm_num
  have e2 : Y = ![![2, 4]] := by
    funext i t
    rw [hY i 0 (by simp), Fin.sum_univ_one, hW, e1]
    fin_cases i; fin_cases t <;> norm_num
  rw [e1, e2]

example : ∃ (z : ℕ → ℝ) (y : Fin 2 → ℝ), generateRandomData (fun k => XR.fin (z k)) 2 2 = .ok (mat ![![1, 0], ![-2, 4]], vec y) := C94_any_features _

end Sglm
