import Verif.Proofs.AccelPanic
import Verif.Proofs.LinSys
import Verif.Proofs.Sem

/-!
# The extrapolation on real data

The linear system of the extrapolation is positive semidefinite, so when it is solved the weights are finite
numbers with a positive sum, and the extrapolated point is finite.
-/

namespace Sglm
open Scalar Spec

/-- Product of the transposed difference matrix with itself. -/
noncomputable def gram (K : ℕ) (b : ℕ → ℕ → ℝ) (a c : ℕ) : ℝ :=
  ∑ k ∈ Finset.range K, (b (k + 1) a - b k a) * (b (k + 1) c - b k c)

/-- Combination of the first `K` stored iterates with weights proportional to `z`. -/
noncomputable def comb (K : ℕ) (b : ℕ → ℕ → ℝ) (z : ℕ → ℝ) (i : ℕ) : ℝ :=
  ∑ k ∈ Finset.range K, b k i * (z k / ∑ l ∈ Finset.range K, z l)

/-- The real number behind a finite value. -/
def XR.toReal : XR → ℝ
  | .fin a => a
  | _ => 0

/-- Weights read from a list of finite values. -/
noncomputable def realsOf (l : List XR) (i : ℕ) : ℝ := XR.toReal (l.getD i XR.nan)

theorem realsOf_vecN {n : ℕ} (f : ℕ → ℝ) {i : ℕ} (hi : i < n) : realsOf (vecN n f) i = f i := by
  unfold realsOf vecN
  rw [List.getD_eq_getElem?_getD, List.getElem?_map, List.getElem?_range hi]
  rfl

theorem replicate_one_vecN (K : ℕ) : List.replicate K (one : XR) = vecN K (fun _ => 1) := by
  unfold vecN
  rw [List.map_const']
  simp

theorem matN_rows (n m : ℕ) (b : ℕ → ℕ → ℝ) : (matN n m b).rows = (List.range n).map (fun i => vecN m (b i)) := rfl

theorem bop_sub_vecN (m : ℕ) (f g : ℕ → ℝ) :
    bop Scalar.sub (vecN m f) (vecN m g) = .ok (vecN m (fun i => f i - g i)) := by
  rw [vecN_eq_vec, vecN_eq_vec, bop_sub_vec, vecN_eq_vec]

theorem bop_add_vecN (m : ℕ) (f g : ℕ → ℝ) :
    bop Scalar.add (vecN m f) (vecN m g) = .ok (vecN m (fun i => f i + g i)) := by
  rw [vecN_eq_vec, vecN_eq_vec, bop_add_vec, vecN_eq_vec]

theorem mapM_map_range {α β : Type} {f : α → M β} (g : ℕ → α) (h : ℕ → β) (n : ℕ)
    (hf : ∀ i < n, f (g i) = .ok (h i)) :
    ((List.range n).map g).mapM f = .ok ((List.range n).map h) := by
  rw [List.mapM_map]
  have := mapM_range (f := f ∘ g) (k := n) (fun i => h i) (fun i => hf i i.isLt)
  rw [this]
  congr 1
  apply List.ext_getElem (by simp)
  intro i h1 h2
  simp

theorem diffMatrix_eq (K m : ℕ) (b : ℕ → ℕ → ℝ) :
    diffMatrix (matN (K + 1) m b) K m = .ok (matN K m (fun k i => b (k + 1) i - b k i)) := by
  unfold diffMatrix
  have hz : ((matN (K + 1) m b).rows.take K).zip ((matN (K + 1) m b).rows.drop 1) =
      (List.range K).map (fun k => (vecN m (b k), vecN m (b (k + 1)))) := by
    rw [matN_rows]
    apply List.ext_getElem (by simp)
    intro i h1 h2
    have hi : i < K := by simpa using h2
    simp
  rw [hz, mapM_map_range _ (fun k => vecN m (fun i => b (k + 1) i - b k i)) K
    (fun k _ => bop_sub_vecN _ _ _)]
  show Mat.fromShapeVec K m _ = _
  rw [fromShapeVec_flatten _ (by simp)]
  · rfl
  · intro x hx
    rw [List.mem_map] at hx
    obtain ⟨k, -, rfl⟩ := hx
    simp

theorem tMulMat_matN (n m l : ℕ) (U V : ℕ → ℕ → ℝ) :
    tMulMat (matN n m U) (matN n l V) = .ok (matN m l (fun a c => ∑ k ∈ Finset.range n, U k a * V k c)) := by
  rw [matN_eq_mat, matN_eq_mat, tMulMat_mat, matN_eq_mat]
  congr 2
  funext a c
  rw [Finset.sum_range]

theorem quad_gram (K m : ℕ) (b : ℕ → ℕ → ℝ) (y : ℕ → ℝ) :
    ∑ r ∈ Finset.range m, y r * ∑ c ∈ Finset.range m, gram K b r c * y c =
      ∑ k ∈ Finset.range K, (∑ r ∈ Finset.range m, (b (k + 1) r - b k r) * y r) ^ 2 := by
  unfold gram
  simp_rw [pow_two, Finset.sum_mul_sum, Finset.mul_sum, Finset.sum_mul, Finset.mul_sum]
  rw [Finset.sum_comm]
  simp_rw [Finset.sum_comm (s := Finset.range m) (t := Finset.range K)]
  refine Finset.sum_congr rfl fun k _ => ?_
  rw [Finset.sum_comm]
  refine Finset.sum_congr rfl fun r _ => Finset.sum_congr rfl fun c _ => ?_
  ring

theorem gram_psd (K m : ℕ) (b : ℕ → ℕ → ℝ) : Lin.TrailPSD m 0 (gram K b) := by
  constructor
  · intro r _ c _ _ _
    unfold gram
    exact Finset.sum_congr rfl fun k _ => mul_comm _ _
  · intro y _
    rw [quad_gram]
    exact Finset.sum_nonneg fun k _ => sq_nonneg _

/-- When the system of the extrapolation has a solution, its entries have a positive sum. -/
theorem gram_sum_pos (K : ℕ) (hK : 0 < K) (b : ℕ → ℕ → ℝ) (z : ℕ → ℝ)
    (hz : ∀ r < K, ∑ c ∈ Finset.range K, gram K b r c * z c = 1) : 0 < ∑ k ∈ Finset.range K, z k := by
  have h1 : ∑ r ∈ Finset.range K, z r * ∑ c ∈ Finset.range K, gram K b r c * z c =
      ∑ k ∈ Finset.range K, z k :=
    Finset.sum_congr rfl fun r hr => by rw [hz r (Finset.mem_range.mp hr), mul_one]
  rw [← h1, quad_gram]
  refine lt_of_le_of_ne (Finset.sum_nonneg fun k _ => sq_nonneg _) fun h0 => ?_
  have h2 := (Finset.sum_eq_zero_iff_of_nonneg fun k _ => sq_nonneg _).mp h0.symm
  have h3 := hz 0 hK
  have h4 : ∑ c ∈ Finset.range K, gram K b 0 c * z c = ∑ k ∈ Finset.range K,
      (b (k + 1) 0 - b k 0) * ∑ r ∈ Finset.range K, (b (k + 1) r - b k r) * z r := by
    unfold gram
    simp_rw [Finset.sum_mul, Finset.mul_sum]
    rw [Finset.sum_comm]
    refine Finset.sum_congr rfl fun r _ => Finset.sum_congr rfl fun c _ => ?_
    ring
  rw [h4, Finset.sum_eq_zero] at h3
  · exact zero_ne_one h3
  · intro k hk
    rw [pow_eq_zero_iff two_ne_zero |>.mp (h2 k hk), mul_zero]

/-- Outcomes of the linear system of the extrapolation. -/
theorem solve_gram (K m : ℕ) (b : ℕ → ℕ → ℝ) :
    (∃ e, solveLinSys (matN m m (gram K b)) (List.replicate K one) = .error e ∧ ¬ (0 < K ∧ K ≤ m)) ∨
    solveLinSys (matN m m (gram K b)) (List.replicate K one) = .ok none ∨
    ∃ z : ℕ → ℝ, solveLinSys (matN m m (gram K b)) (List.replicate K one) = .ok (some (vecN K z)) ∧
      0 < ∑ k ∈ Finset.range K, z k := by
  by_cases hK : 0 < K
  · by_cases hm : K ≤ m
    · right
      rw [replicate_one_vecN]
      rcases Lin.psd_sound (N := m) (m := m) (gram K b) (fun _ => 1) hK hm hm (gram_psd K K b) with
        ⟨z, h1, h2⟩ | ⟨h1, -⟩
      · exact Or.inr ⟨z, h1, gram_sum_pos K hK b z h2⟩
      · exact Or.inl h1
    · left
      refine ⟨.index, ?_, fun h => hm h.2⟩
      unfold solveLinSys
      have : Shaped (matN m m (gram K b)) m m := by
        refine ⟨by simp [matN], rfl, fun x hx => ?_⟩
        rw [matN_rows, List.mem_map] at hx
        obtain ⟨i, -, rfl⟩ := hx
        simp
      rw [augment_panics this (by simp; omega)]
      rfl
  · left
    have : K = 0 := by omega
    subst this
    refine ⟨.underflow, rfl, fun h => lt_irrefl _ h.1⟩

theorem extrapolate_eq (K m : ℕ) (b : ℕ → ℕ → ℝ) (z : ℕ → ℝ) (hz : ∑ k ∈ Finset.range K, z k ≠ 0) :
    extrapolate (matN (K + 1) m b) (vecN K z) K m = .ok (vecN m (comb K b z)) := by
  unfold extrapolate
  have hs : Scalar.sum (vecN K z) = XR.fin (∑ k ∈ Finset.range K, z k) := by
    rw [vecN_eq_vec, sum_vec, Finset.sum_range]
  have hr : (((matN (K + 1) m b).rows.take K).zip ((vecN K z).map (fun x => x /. Scalar.sum (vecN K z)))).map
      (fun rc => rc.1.map (fun x => x *. rc.2)) =
      (List.range K).map (fun k => vecN m (fun i => b k i * (z k / ∑ l ∈ Finset.range K, z l))) := by
    rw [matN_rows, hs]
    apply List.ext_getElem (by simp)
    intro k h1 h2
    have hk : k < K := by simpa using h2
    simp only [List.getElem_map, List.getElem_zip, List.getElem_take, List.getElem_range]
    unfold vecN
    simp only [List.map_map, List.getElem_map, List.getElem_range, XR.s_div _ _ hz]
    apply List.map_congr_left
    intro i _
    simp
  dsimp only
  rw [hr, List.foldlM_map]
  have key : ∀ n, (List.range n).foldlM (fun acc k => bop Scalar.add acc
      (vecN m (fun i => b k i * (z k / ∑ l ∈ Finset.range K, z l)))) (List.replicate m (zero : XR)) =
      .ok (vecN m (fun i => ∑ k ∈ Finset.range n, b k i * (z k / ∑ l ∈ Finset.range K, z l))) := by
    intro n
    induction n with
    | zero =>
      show Except.ok _ = _
      congr 1
      unfold vecN
      simp
    | succ n ih =>
      rw [List.range_succ, List.foldlM_append, ih]
      show (bop _ _ _ >>= pure) = _
      rw [bop_add_vecN]
      simp only [Finset.sum_range_succ]
      rfl
  exact key K

end Sglm
