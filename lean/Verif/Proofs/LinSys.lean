import Verif.Proofs.MatN
import Verif.Model.Utils
import Mathlib.Algebra.BigOperators.Intervals
import Mathlib.LinearAlgebra.Matrix.ToLinearEquiv
import Mathlib.LinearAlgebra.Matrix.Block
import Mathlib.Tactic.FieldSimp
import Mathlib.Tactic.Linarith
import Mathlib.Tactic.LinearCombination

/-!
# Gaussian elimination in exact arithmetic
-/

namespace Sglm
open Scalar

namespace Lin

/-- Subtract from row `dst` the multiple of row `i` which cancels column `i`, on the columns `ks`. -/
noncomputable def elim (f : ℕ → ℕ → ℝ) (dst i : ℕ) (ks : List ℕ) : ℕ → ℕ → ℝ :=
  fun r c => if r = dst ∧ c ∈ ks then f r c - f dst i / f i i * f i c else f r c

theorem elimRow_eq {n m : ℕ} (f : ℕ → ℕ → ℝ) {dst i : ℕ} (ks : List ℕ) (hd : dst < n) (hi : i < n)
    (him : i < m) (hne : dst ≠ i) (hks : ∀ k ∈ ks, k < m) (hnd : ks.Nodup) (hp : f i i ≠ 0) :
    elimRow (matN n m f) dst i ks = .ok (matN n m (elim f dst i ks)) := by
  unfold elimRow
  rw [get2_matN f hd him, get2_matN f hi him]
  simp only [bind, Except.bind, XR.s_div _ _ hp]
  generalize hfac : f dst i / f i i = fac
  have key : ∀ (l done : List ℕ), done ++ l = ks →
      l.foldlM (fun s k => do
        let x ← s.get2 dst k
        let y ← s.get2 i k
        s.set2 dst k (x -. XR.fin fac *. y))
        (matN n m (fun r c => if r = dst ∧ c ∈ done then f r c - fac * f i c else f r c)) =
      .ok (matN n m (fun r c => if r = dst ∧ c ∈ ks then f r c - fac * f i c else f r c)) := by
    intro l
    induction l with
    | nil => intro done h; rw [List.append_nil] at h; subst h; rfl
    | cons k l ih =>
      intro done h
      have hk : k ∈ ks := by rw [← h]; simp
      have hkn : k ∉ done := by
        rw [← h] at hnd
        intro hmem
        exact (List.disjoint_of_nodup_append hnd) hmem List.mem_cons_self
      rw [List.foldlM_cons, get2_matN _ hd (hks k hk), get2_matN _ hi (hks k hk)]
      simp only [bind, Except.bind]
      rw [if_neg (by simp [hkn]), if_neg (by simp [hne.symm]), XR.s_mul, XR.s_sub,
        set2_matN _ _ hd (hks k hk)]
      simp only
      rw [← ih (done ++ [k]) (by simpa using h)]
      congr 1
      apply matN_congr
      intro r _ c _
      by_cases hr : r = dst
      · subst hr
        by_cases hc : c = k
        · subst hc; simp
        · simp [hc]
      · simp [hr]
  have := key ks [] rfl
  simp only [List.not_mem_nil, and_false, if_false] at this
  unfold elim
  rw [hfac]
  exact this

/-- Forward elimination of column `i`. -/
noncomputable def fwd (n : ℕ) (f : ℕ → ℕ → ℝ) (i : ℕ) : ℕ → ℕ → ℝ :=
  if f i i = 0 then f
  else fun r c => if i < r ∧ r < n ∧ i ≤ c then f r c - f r i / f i i * f i c else f r c

/-- Backward elimination of column `i`. -/
noncomputable def bwd (f : ℕ → ℕ → ℝ) (i : ℕ) : ℕ → ℕ → ℝ :=
  if f i i = 0 then f
  else fun r c => if r < i then f r c - f r i / f i i * f i c else f r c

theorem fwd_eq {n : ℕ} (f : ℕ → ℕ → ℝ) {i : ℕ} (hi : i < n - 1) :
    (List.range' i (n - 1 - i)).foldlM (fun s j => do
      let p ← s.get2 i i
      if p ==. zero then pure s
      else elimRow s (j + 1) i (List.range' i (n + 1 - i))) (matN n (n + 1) f) =
    .ok (matN n (n + 1) (fwd n f i)) := by
  by_cases hp : f i i = 0
  · have h0 : fwd n f i = f := by unfold fwd; rw [if_pos hp]
    rw [h0]
    have h : ∀ (l : List ℕ), l.foldlM (fun s j => do
        let p ← s.get2 i i
        if p ==. zero then pure s
        else elimRow s (j + 1) i (List.range' i (n + 1 - i))) (matN n (n + 1) f) =
        .ok (matN n (n + 1) f) := by
      intro l
      induction l with
      | nil => rfl
      | cons j l ih =>
        rw [List.foldlM_cons, get2_matN f (by omega) (by omega)]
        simp only [bind, Except.bind, hp, XR.s_zero, XR.s_beq, decide_true, if_true, pure, Except.pure]
        exact ih
    exact h _
  · have key : ∀ (d k : ℕ), k + d = n - 1 - i →
        (List.range' (i + k) d).foldlM (fun s j => do
          let p ← s.get2 i i
          if p ==. zero then pure s
          else elimRow s (j + 1) i (List.range' i (n + 1 - i)))
          (matN n (n + 1) (fun r c => if i < r ∧ r ≤ i + k ∧ i ≤ c then
            f r c - f r i / f i i * f i c else f r c)) =
        .ok (matN n (n + 1) (fwd n f i)) := by
      intro d
      induction d with
      | zero =>
        intro k hk
        show Except.ok _ = _
        congr 1
        apply matN_congr
        intro r hr c hc
        unfold fwd
        rw [if_neg hp]
        by_cases h : i < r ∧ r < n ∧ i ≤ c
        · rw [if_pos h, if_pos ⟨h.1, by omega, h.2.2⟩]
        · rw [if_neg h, if_neg (fun h' => h ⟨h'.1, hr, h'.2.2⟩)]
      | succ d ih =>
        intro k hk
        rw [List.range'_succ, List.foldlM_cons, get2_matN _ (by omega) (by omega)]
        simp only [bind, Except.bind, lt_irrefl, false_and, if_false, XR.s_zero, XR.s_beq, hp, decide_false,
          Bool.false_eq_true]
        rw [elimRow_eq _ _ (by omega) (by omega) (by omega) (by omega)
          (by intro x hx; rw [List.mem_range'_1] at hx; omega) List.nodup_range' (by simpa using hp)]
        simp only
        rw [show i + k + 1 = i + (k + 1) by omega, ← ih (k + 1) (by omega)]
        congr 1
        apply matN_congr
        intro r hr c hc
        unfold elim
        simp only [lt_irrefl, false_and, if_false, List.mem_range'_1]
        by_cases h1 : r = i + (k + 1)
        · subst h1
          by_cases h2 : i ≤ c
          · simp only [h2, true_and, and_true]
            rw [if_pos (by omega), if_neg (by omega), if_neg (by omega), if_pos (by omega)]
          · simp only [h2, false_and, and_false, if_false]
        · simp only [h1, false_and, if_false]
          by_cases h2 : i < r ∧ r ≤ i + k ∧ i ≤ c
          · rw [if_pos h2, if_pos ⟨h2.1, by omega, h2.2.2⟩]
          · rw [if_neg h2, if_neg (by omega)]
    have := key (n - 1 - i) 0 (by omega)
    rw [Nat.add_zero] at this
    rw [← this]
    congr 1
    apply matN_congr
    intro r hr c hc
    rw [if_neg (by omega)]

theorem echelon_eq {n : ℕ} (f : ℕ → ℕ → ℝ) :
    echelon n (n - 1) (matN n (n + 1) f) = .ok (matN n (n + 1) ((List.range (n - 1)).foldl (fwd n) f)) := by
  unfold echelon
  refine (foldlM_ok (matN n (n + 1)) _ (fwd n) _ (fun _ => True) ?_ f trivial).1
  intro t _ i hi
  refine ⟨?_, trivial⟩
  have hi : i < n - 1 := List.mem_range.mp hi
  exact fwd_eq t hi

theorem bwd_eq {n : ℕ} (f : ℕ → ℕ → ℝ) {i : ℕ} (hi : i < n) (hp : f i i ≠ 0) :
    (List.range' 1 i).reverse.foldlM (fun s j =>
      elimRow s (j - 1) i (List.range (n + 1)).reverse) (matN n (n + 1) f) =
    .ok (matN n (n + 1) (bwd f i)) := by
  have key : ∀ k, k ≤ i → 
      (List.range' 1 k).reverse.foldlM (fun s j =>
        elimRow s (j - 1) i (List.range (n + 1)).reverse)
        (matN n (n + 1) (fun r c => if k ≤ r ∧ r < i then f r c - f r i / f i i * f i c else f r c)) =
      .ok (matN n (n + 1) (bwd f i)) := by
    intro k
    induction k with
    | zero =>
      intro _
      show Except.ok _ = _
      congr 1
      unfold bwd
      rw [if_neg hp]
      simp
    | succ k ih =>
      intro hk
      rw [show List.range' 1 (k + 1) = List.range' 1 k ++ [k + 1] by
        rw [List.range'_concat]; simp [Nat.add_comm], List.reverse_append, List.reverse_singleton,
        List.singleton_append, List.foldlM_cons, Nat.add_sub_cancel]
      rw [elimRow_eq _ _ (by omega) (by omega) (by omega) (by omega)
        (by intro x hx; simpa using hx) (by rw [List.nodup_reverse]; exact List.nodup_range)
        (by simpa using hp)]
      simp only [bind, Except.bind]
      rw [← ih (by omega)]
      congr 1
      apply matN_congr
      intro r hr c hc
      unfold elim
      simp only [lt_irrefl, and_false, if_false, List.mem_reverse, List.mem_range]
      by_cases h1 : r = k
      · subst h1
        rw [if_pos ⟨rfl, hc⟩, if_neg (by omega), if_neg (by omega), if_pos (by omega)]
      · rw [if_neg (by simp [h1])]
        by_cases h2 : k + 1 ≤ r ∧ r < i
        · rw [if_pos h2, if_pos (by omega)]
        · rw [if_neg h2, if_neg (by omega)]
  have := key i le_rfl
  rw [← this]
  congr 1
  apply matN_congr
  intro r hr c hc
  rw [if_neg (by omega)]

theorem backElim_eq {n : ℕ} (f : ℕ → ℕ → ℝ) :
    backElim n (matN n (n + 1) f) =
      .ok (matN n (n + 1) ((List.range' 1 (n - 1)).reverse.foldl bwd f)) := by
  unfold backElim
  refine (foldlM_ok (matN n (n + 1)) _ bwd _ (fun _ => True) ?_ f trivial).1
  intro t _ i hi
  refine ⟨?_, trivial⟩
  rw [List.mem_reverse, List.mem_range'_1] at hi
  rw [get2_matN t (by omega) (by omega)]
  simp only [bind, Except.bind, XR.s_zero, XR.s_beq]
  by_cases hp : t i i = 0
  · simp only [hp, decide_true, if_true]
    unfold bwd
    rw [if_pos hp]; rfl
  · simp only [hp, decide_false, Bool.false_eq_true, if_false]
    exact bwd_eq t (by omega) hp

theorem augment_eq {N m n : ℕ} (A : ℕ → ℕ → ℝ) (b : ℕ → ℝ) (hN : n ≤ N) (hm : n ≤ m) :
    augment (matN N m A) (vecN n b) = .ok (matN n (n + 1) (fun i j => if j = n then b i else A i j)) := by
  unfold augment
  simp only [vecN_length]
  have h : (List.range n).mapM (fun i => (List.range (n + 1)).mapM (fun j =>
      if j = n then getM (vecN n b) i else (matN N m A).get2 i j)) =
      .ok ((List.range n).map (fun i => vecN (n + 1) (fun j => if j = n then b i else A i j))) := by
    apply mapM_ok'
    intro i hi
    rw [List.mem_range] at hi
    unfold vecN
    apply mapM_ok'
    intro j hj
    rw [List.mem_range] at hj
    by_cases h : j = n
    · simp only [h, if_true]
      exact getM_map_range _ hi
    · simp only [h, if_false]
      exact get2_matN A (by omega) (by omega)
  rw [h]
  rfl

theorem readSolution_eq {n : ℕ} (f : ℕ → ℕ → ℝ) :
    readSolution n (matN n (n + 1) f) =
      .ok (if ∀ i < n, f i i ≠ 0 then some (vecN n (fun i => f i n / f i i)) else none) := by
  unfold readSolution
  have key : ∀ k ≤ n, (List.range k).foldlM (fun acc i =>
      match acc with
      | none => pure none
      | some x => do
        let p ← (matN n (n + 1) f).get2 i i
        if p ==. zero then pure none
        else do
          let r ← (matN n (n + 1) f).get2 i n
          pure (some (x ++ [r /. p]))) (some []) =
      (.ok (if ∀ i < k, f i i ≠ 0 then some (vecN k (fun i => f i n / f i i)) else none) :
        M (Option (List XR))) := by
    intro k
    induction k with
    | zero => intro _; simp [vecN]; rfl
    | succ k ih =>
      intro hk
      rw [List.range_succ, List.foldlM_append, ih (by omega)]
      simp only [bind, Except.bind, List.foldlM_cons, List.foldlM_nil]
      by_cases h : ∀ i < k, f i i ≠ 0
      · rw [if_pos h]
        simp only
        rw [get2_matN f (by omega) (by omega), get2_matN f (by omega) (by omega)]
        simp only [XR.s_zero, XR.s_beq]
        by_cases hp : f k k = 0
        · rw [if_neg (c := ∀ i < k + 1, f i i ≠ 0) (fun h' => h' k (by omega) hp)]
          simp [hp, pure, Except.pure]
        · rw [if_pos (c := ∀ i < k + 1, f i i ≠ 0) (fun i hi => by
            rcases Nat.lt_succ_iff_lt_or_eq.mp hi with h1 | h1
            · exact h i h1
            · subst h1; exact hp)]
          simp only [hp, decide_false, Bool.false_eq_true, if_false, pure, Except.pure, XR.s_div _ _ hp]
          congr 2
          unfold vecN
          rw [List.range_succ, List.map_append]
          rfl
      · rw [if_neg h, if_neg (c := ∀ i < k + 1, f i i ≠ 0) (fun h' => h fun i hi => h' i (by omega))]
        rfl
  refine Eq.trans ?_ (key n le_rfl)
  congr 1
  funext acc i
  cases acc <;> rfl

/-- The augmented matrix. -/
noncomputable def aug (n : ℕ) (A : ℕ → ℕ → ℝ) (b : ℕ → ℝ) : ℕ → ℕ → ℝ := fun i j => if j = n then b i else A i j

/-- The echelon form. -/
noncomputable def ech (n : ℕ) (f : ℕ → ℕ → ℝ) : ℕ → ℕ → ℝ := (List.range (n - 1)).foldl (fwd n) f

/-- The reduced form. -/
noncomputable def red (n : ℕ) (f : ℕ → ℕ → ℝ) : ℕ → ℕ → ℝ := (List.range' 1 (n - 1)).reverse.foldl bwd f

theorem solveLinSys_eq {N m n : ℕ} (A : ℕ → ℕ → ℝ) (b : ℕ → ℝ) (hn : 0 < n) (hN : n ≤ N) (hm : n ≤ m) :
    solveLinSys (matN N m A) (vecN n b) = .ok (
      if ∀ i < n, red n (ech n (aug n A b)) i i ≠ 0 then
        some (vecN n (fun i => red n (ech n (aug n A b)) i n / red n (ech n (aug n A b)) i i))
      else none) := by
  unfold solveLinSys
  rw [augment_eq A b hN hm, vecN_length]
  simp only [bind, Except.bind, subM, if_pos (show 1 ≤ n from hn)]
  rw [show (fun i j => if j = n then b i else A i j) = aug n A b from rfl, echelon_eq]
  simp only
  rw [backElim_eq]
  exact readSolution_eq _

/-! ## Solutions -/

/-- Row `r` of the augmented matrix applied to `y`. -/
noncomputable def row (n : ℕ) (f : ℕ → ℕ → ℝ) (y : ℕ → ℝ) (r : ℕ) : ℝ := ∑ c ∈ Finset.range (n + 1), f r c * y c

/-- No entry below the diagonal. -/
def Upper (n : ℕ) (f : ℕ → ℕ → ℝ) : Prop := ∀ r < n, ∀ c < r, f r c = 0

/-- No entry below the diagonal in the first `k` columns. -/
def UpperTo (n k : ℕ) (f : ℕ → ℕ → ℝ) : Prop := ∀ r < n, ∀ c < r, c < k → f r c = 0

theorem row_sub (n : ℕ) (f : ℕ → ℕ → ℝ) (y : ℕ → ℝ) (g : ℕ → ℝ) (r i : ℕ) (a : ℝ)
    (h : ∀ c < n + 1, g c = f r c - a * f i c) :
    ∑ c ∈ Finset.range (n + 1), g c * y c = row n f y r - a * row n f y i := by
  unfold row
  rw [Finset.mul_sum, ← Finset.sum_sub_distrib]
  apply Finset.sum_congr rfl
  intro c hc
  rw [h c (Finset.mem_range.mp hc)]; ring

/-- Rows of the next forward stage: a multiple of row `i` is subtracted. -/
theorem row_fwd {n i : ℕ} (f : ℕ → ℕ → ℝ) (hU : UpperTo n i f) (hi : i < n) (y : ℕ → ℝ) {r : ℕ} (hr : r < n) :
    row n (fwd n f i) y r =
      row n f y r - (if i < r ∧ f i i ≠ 0 then f r i / f i i else 0) * row n f y i := by
  unfold fwd
  by_cases hp : f i i = 0
  · simp [hp]
  · rw [if_neg hp]
    by_cases h : i < r
    · rw [if_pos ⟨h, hp⟩]
      refine row_sub n f y _ r i _ fun c hc => ?_
      beta_reduce
      by_cases hic : i ≤ c
      · rw [if_pos ⟨h, hr, hic⟩]
      · rw [if_neg (fun h' => hic h'.2.2), hU i hi c (by omega) (by omega), mul_zero, sub_zero]
    · rw [if_neg (fun h' => h h'.1), zero_mul, sub_zero]
      unfold row
      apply Finset.sum_congr rfl
      intro c _
      beta_reduce
      rw [if_neg (fun h' => h h'.1)]

/-- The next forward stage clears column `i`, if a zero pivot has only zeros below it. -/
theorem upperTo_fwd {n i : ℕ} (f : ℕ → ℕ → ℝ) (hU : UpperTo n i f)
    (h0 : f i i = 0 → ∀ r < n, i < r → f r i = 0) : UpperTo n (i + 1) (fwd n f i) := by
  intro r hr c hc hci
  unfold fwd
  by_cases hp : f i i = 0
  · rw [if_pos hp]
    rcases Nat.lt_succ_iff_lt_or_eq.mp hci with h | h
    · exact hU r hr c hc h
    · subst h; exact h0 hp r hr hc
  · rw [if_neg hp]
    rcases Nat.lt_succ_iff_lt_or_eq.mp hci with h | h
    · rw [if_neg (by omega)]; exact hU r hr c hc h
    · subst h
      rw [if_pos ⟨hc, hr, le_rfl⟩]
      field_simp
      ring

/-- Prefixes of the system have the same solutions. -/
def SamePrefix (n : ℕ) (f g : ℕ → ℕ → ℝ) : Prop :=
  ∀ k ≤ n, ∀ y : ℕ → ℝ, (∀ r < k, row n f y r = 0) ↔ (∀ r < k, row n g y r = 0)

theorem samePrefix_fwd {n i : ℕ} (f : ℕ → ℕ → ℝ) (hU : UpperTo n i f) (hi : i < n) :
    SamePrefix n f (fwd n f i) := by
  intro k hk y
  constructor
  · intro h r hr
    rw [row_fwd f hU hi y (by omega), h r hr]
    by_cases h' : i < r
    · rw [h i (by omega)]; ring
    · rw [if_neg (fun h'' => h' h''.1)]; ring
  · intro h r hr
    have h1 := h r hr
    rw [row_fwd f hU hi y (by omega)] at h1
    by_cases h' : i < r
    · have h2 := h i (by omega)
      rw [row_fwd f hU hi y hi, if_neg (fun h'' => lt_irrefl _ h''.1)] at h2
      rw [zero_mul, sub_zero] at h2
      rw [h2, mul_zero, sub_zero] at h1
      exact h1
    · rw [if_neg (fun h'' => h' h''.1), zero_mul, sub_zero] at h1
      exact h1

/-- Entries of the next forward stage in the rows up to `i` do not change. -/
theorem fwd_le {n i : ℕ} (f : ℕ → ℕ → ℝ) {r : ℕ} (hr : r ≤ i) (c : ℕ) : fwd n f i r c = f r c := by
  unfold fwd
  split
  · rfl
  · beta_reduce; rw [if_neg (by omega)]

/-- Running all forward stages, with an invariant which implies that zero pivots have zeros below. -/
theorem ech_inv' {n : ℕ} (f : ℕ → ℕ → ℝ) (J : ℕ → (ℕ → ℕ → ℝ) → Prop) (hJ0 : J 0 f)
    (h0 : ∀ i < n - 1, ∀ g, UpperTo n i g → SamePrefix n f g → J i g → g i i = 0 → ∀ r < n, i < r → g r i = 0)
    (hstep : ∀ i < n - 1, ∀ g, UpperTo n i g → SamePrefix n f g → J i g → J (i + 1) (fwd n g i)) :
    Upper n (ech n f) ∧ SamePrefix n f (ech n f) ∧ J (n - 1) (ech n f) ∧ UpperTo n (n - 1) (ech n f) := by
  have key : ∀ k ≤ n - 1, UpperTo n k ((List.range k).foldl (fwd n) f) ∧
      SamePrefix n f ((List.range k).foldl (fwd n) f) ∧ J k ((List.range k).foldl (fwd n) f) := by
    intro k
    induction k with
    | zero => exact fun _ => ⟨fun _ _ _ _ h => absurd h (Nat.not_lt_zero _), fun _ _ _ => Iff.rfl, hJ0⟩
    | succ k ih =>
      intro hk
      obtain ⟨h1, h2, h3⟩ := ih (by omega)
      rw [List.range_succ, List.foldl_append, List.foldl_cons, List.foldl_nil]
      refine ⟨upperTo_fwd _ h1 (h0 k (by omega) _ h1 h2 h3), ?_, hstep k (by omega) _ h1 h2 h3⟩
      intro j hj y
      exact (h2 j hj y).trans (samePrefix_fwd _ h1 (by omega) j hj y)
  obtain ⟨h1, h2, h3⟩ := key (n - 1) le_rfl
  refine ⟨fun r hr c hc => h1 r hr c hc (by omega), h2, h3, h1⟩

theorem ech_inv {n : ℕ} (f : ℕ → ℕ → ℝ) (J : ℕ → (ℕ → ℕ → ℝ) → Prop) (hJ0 : J 0 f)
    (h0 : ∀ i < n, ∀ g, UpperTo n i g → SamePrefix n f g → J i g → g i i = 0 → ∀ r < n, i < r → g r i = 0)
    (hstep : ∀ i < n, ∀ g, UpperTo n i g → SamePrefix n f g → J i g → J (i + 1) (fwd n g i)) :
    Upper n (ech n f) ∧ SamePrefix n f (ech n f) ∧ J (n - 1) (ech n f) ∧ UpperTo n (n - 1) (ech n f) :=
  ech_inv' f J hJ0 (fun i hi => h0 i (by omega)) (fun i hi => hstep i (by omega))

/-! ## Backward elimination -/

/-- In the columns from `k` on the matrix is diagonal. -/
def DiagFrom (n k : ℕ) (f : ℕ → ℕ → ℝ) : Prop := ∀ c < n, k ≤ c → ∀ r < n, r ≠ c → f r c = 0

theorem red_spec {n : ℕ} (f : ℕ → ℕ → ℝ) (hU : Upper n f) :
    (∀ i < n, red n f i i = f i i) ∧
    ((∀ i < n, f i i ≠ 0) →
      (∀ c < n, ∀ r < n, r ≠ c → red n f r c = 0) ∧
      ∀ y : ℕ → ℝ, (∀ r < n, row n f y r = 0) ↔ (∀ r < n, row n (red n f) y r = 0)) := by
  -- state after the stages n-1, ..., n-k
  have key : ∀ k, k ≤ n - 1 → ∀ g, 
      g = ((List.range' 1 (n - 1)).reverse.take k).foldl bwd f →
      Upper n g ∧ (∀ i < n, g i i = f i i) ∧
      ((∀ i < n, f i i ≠ 0) → DiagFrom n (n - k) g ∧
        ∀ y : ℕ → ℝ, (∀ r < n, row n f y r = 0) ↔ (∀ r < n, row n g y r = 0)) := by
    intro k
    induction k with
    | zero =>
      intro _ g hg
      subst hg
      exact ⟨hU, fun _ _ => rfl, fun _ => ⟨fun c hc h => by omega, fun _ => Iff.rfl⟩⟩
    | succ k ih =>
      intro hk g hg
      obtain ⟨h1, h2, h3⟩ := ih (by omega) _ rfl
      have hi : (List.range' 1 (n - 1)).reverse[k]? = some (n - 1 - k) := by
        rw [List.getElem?_reverse (by simpa using hk)]
        rw [List.getElem?_range' (by simp; omega)]
        simp; omega
      rw [List.take_add_one, hi, Option.toList_some, List.foldl_append, List.foldl_cons, List.foldl_nil] at hg
      set t := List.foldl bwd f (List.take k (List.range' 1 (n - 1)).reverse) with ht
      set i := n - 1 - k with hidef
      have hin : i < n := by omega
      have hge : ∀ r c, i ≤ r → g r c = t r c := by
        intro r c hr
        rw [hg]; unfold bwd
        split
        · rfl
        · beta_reduce; rw [if_neg (by omega)]
      have hlt : ∀ r c, r < i → t i i ≠ 0 → g r c = t r c - t r i / t i i * t i c := by
        intro r c hr hp
        rw [hg]; unfold bwd
        rw [if_neg hp, if_pos hr]
      have hz : ∀ r c, r < i → t i i = 0 → g r c = t r c := by
        intro r c hr hp
        rw [hg]; unfold bwd
        rw [if_pos hp]
      refine ⟨?_, ?_, ?_⟩
      · intro r hr c hc
        by_cases h : r < i
        · by_cases hp : t i i = 0
          · rw [hz r c h hp]; exact h1 r hr c hc
          · rw [hlt r c h hp, h1 r hr c hc, h1 i hin c (by omega)]; ring
        · rw [hge r c (by omega)]; exact h1 r hr c hc
      · intro r hr
        by_cases h : r < i
        · by_cases hp : t i i = 0
          · rw [hz r r h hp]; exact h2 r hr
          · rw [hlt r r h hp, h1 i hin r h, mul_zero, sub_zero]; exact h2 r hr
        · rw [hge r r (by omega)]; exact h2 r hr
      · intro hne
        obtain ⟨h4, h5⟩ := h3 hne
        have hp : t i i ≠ 0 := by rw [h2 i hin]; exact hne i hin
        refine ⟨?_, ?_⟩
        · intro c hc hkc r hr hrc
          by_cases h : r < i
          · rw [hlt r c h hp]
            by_cases hci : c = i
            · subst hci
              field_simp; ring
            · rw [h4 c hc (by omega) r hr hrc, h4 c hc (by omega) i hin (Ne.symm hci)]; ring
          · rw [hge r c (by omega)]
            by_cases hci : c = i
            · subst hci; exact h1 r hr _ (by omega)
            · exact h4 c hc (by omega) r hr hrc
        · intro y
          rw [h5 y]
          have hrow : ∀ r < n, row n g y r = row n t y r - (if r < i then t r i / t i i else 0) * row n t y i := by
            intro r hr
            refine row_sub n t y _ r i _ fun c _ => ?_
            by_cases h : r < i
            · rw [if_pos h]; exact hlt r c h hp
            · rw [if_neg h, zero_mul, sub_zero]; exact hge r c (by omega)
          constructor
          · intro h r hr
            rw [hrow r hr, h r hr, h i hin]; ring
          · intro h r hr
            have e1 := h r hr
            have e2 := h i hin
            rw [hrow r hr] at e1
            rw [hrow i hin, if_neg (lt_irrefl _), zero_mul, sub_zero] at e2
            rw [e2, mul_zero, sub_zero] at e1
            exact e1
  have hfull : (List.range' 1 (n - 1)).reverse.take (n - 1) = (List.range' 1 (n - 1)).reverse := by
    apply List.take_of_length_le; simp
  obtain ⟨h1, h2, h3⟩ := key (n - 1) le_rfl _ rfl
  rw [hfull] at h1 h2 h3
  refine ⟨h2, fun hne => ⟨?_, (h3 hne).2⟩⟩
  intro c hc r hr hrc
  rcases Nat.eq_zero_or_pos c with h | h
  · subst h; exact h1 r hr 0 (by omega)
  · exact (h3 hne).1 c hc (by omega) r hr hrc

/-- Outcome of the solver when the echelon form is upper triangular. -/
theorem outcome {n : ℕ} (A : ℕ → ℕ → ℝ) (b : ℕ → ℝ) (hU : Upper n (ech n (aug n A b)))
    (hS : SamePrefix n (aug n A b) (ech n (aug n A b))) :
    (∀ i < n, red n (ech n (aug n A b)) i i = ech n (aug n A b) i i) ∧
    ((∀ i < n, ech n (aug n A b) i i ≠ 0) →
      (∀ r < n, ∑ c ∈ Finset.range n, A r c *
        (red n (ech n (aug n A b)) c n / red n (ech n (aug n A b)) c c) = b r) ∧
      (∀ y : ℕ → ℝ, (∀ r < n, ∑ c ∈ Finset.range n, A r c * y c = 0) → ∀ c < n, y c = 0)) := by
  set e := ech n (aug n A b) with he
  obtain ⟨h1, h2⟩ := red_spec e hU
  refine ⟨h1, fun hne => ?_⟩
  obtain ⟨h3, h4⟩ := h2 hne
  have haug : ∀ (y : ℕ → ℝ) r, row n (aug n A b) y r = (∑ c ∈ Finset.range n, A r c * y c) + b r * y n := by
    intro y r
    unfold row
    rw [Finset.sum_range_succ]
    congr 1
    · apply Finset.sum_congr rfl
      intro c hc
      have : c ≠ n := ne_of_lt (Finset.mem_range.mp hc)
      unfold aug; rw [if_neg this]
    · unfold aug; rw [if_pos rfl]
  have hred : ∀ (y : ℕ → ℝ), ∀ r < n, row n (red n e) y r = red n e r r * y r + red n e r n * y n := by
    intro y r hr
    unfold row
    rw [Finset.sum_range_succ]
    congr 1
    rw [Finset.sum_eq_single r]
    · intro c hc hcr
      rw [h3 c (Finset.mem_range.mp hc) r hr (Ne.symm hcr), zero_mul]
    · intro h; exact absurd (Finset.mem_range.mpr hr) h
  have hequiv : ∀ y : ℕ → ℝ, (∀ r < n, (∑ c ∈ Finset.range n, A r c * y c) + b r * y n = 0) ↔
      (∀ r < n, red n e r r * y r + red n e r n * y n = 0) := by
    intro y
    have := (hS n le_rfl y).trans (h4 y)
    constructor
    · intro h r hr
      rw [← hred y r hr]
      exact this.mp (fun r hr => by rw [haug]; exact h r hr) r hr
    · intro h r hr
      rw [← haug]
      exact this.mpr (fun r hr => by rw [hred y r hr]; exact h r hr) r hr
  have hd : ∀ i < n, red n e i i ≠ 0 := fun i hi => by rw [h1 i hi]; exact hne i hi
  constructor
  · intro r hr
    have := (hequiv (fun c => if c = n then -1 else red n e c n / red n e c c)).mpr (fun r hr => by
      have hd' := hd r hr
      rw [if_neg (ne_of_lt hr), if_pos rfl]
      field_simp
      ring) r hr
    rw [if_pos rfl] at this
    have e1 : ∑ c ∈ Finset.range n, A r c * (red n e c n / red n e c c) =
        ∑ c ∈ Finset.range n, A r c * (if c = n then -1 else red n e c n / red n e c c) := by
      apply Finset.sum_congr rfl
      intro c hc
      rw [if_neg (ne_of_lt (Finset.mem_range.mp hc))]
    rw [e1]
    linarith
  · intro y hy c hc
    have := (hequiv (fun c => if c = n then 0 else y c)).mp (fun r hr => by
      rw [if_pos rfl, mul_zero, add_zero, ← hy r hr]
      apply Finset.sum_congr rfl
      intro c hc
      rw [if_neg (ne_of_lt (Finset.mem_range.mp hc))]) c hc
    rw [if_neg (ne_of_lt hc), if_pos rfl, mul_zero, add_zero] at this
    exact (mul_eq_zero.mp this).resolve_left (hd c hc)

/-! ## Matrices all of whose leading blocks are nonsingular -/

/-- Only the zero vector is in the kernel of the leading `k × k` block. -/
def LeadInj (A : ℕ → ℕ → ℝ) (k : ℕ) : Prop :=
  ∀ y : ℕ → ℝ, (∀ r < k, ∑ c ∈ Finset.range k, A r c * y c = 0) → ∀ c < k, y c = 0

theorem pivot_ne {n i : ℕ} (A : ℕ → ℕ → ℝ) (b : ℕ → ℝ) (g : ℕ → ℕ → ℝ) (hi : i < n) (hU : UpperTo n i g)
    (hS : SamePrefix n (aug n A b) g) (hA : LeadInj A (i + 1)) : g i i ≠ 0 := by
  intro h0
  let M : Matrix (Fin (i + 1)) (Fin (i + 1)) ℝ := fun r c => g r c
  have hdet : M.det = 0 := by
    apply Matrix.det_eq_zero_of_row_eq_zero (Fin.last i)
    intro c
    show g i c = 0
    rcases Nat.lt_or_ge c i with h | h
    · exact hU i hi c h h
    · have : (c : ℕ) = i := by have := c.isLt; omega
      rw [this]; exact h0
  obtain ⟨v, hv, hMv⟩ := Matrix.exists_mulVec_eq_zero_iff.mpr hdet
  let y : ℕ → ℝ := extV v
  have hsplit : ∀ (f : ℕ → ℕ → ℝ) r, row n f y r = ∑ c ∈ Finset.range (i + 1), f r c * y c := by
    intro f r
    unfold row
    symm
    apply Finset.sum_subset
    · intro c hc; rw [Finset.mem_range] at *; omega
    · intro c _ hc
      rw [Finset.mem_range] at hc
      show f r c * extV v c = 0
      unfold extV
      rw [dif_neg hc, mul_zero]
  have hgy : ∀ r < i + 1, row n g y r = 0 := by
    intro r hr
    rw [hsplit, Finset.sum_range]
    have := congrFun hMv ⟨r, hr⟩
    simp only [Matrix.mulVec, dotProduct, Pi.zero_apply, M] at this
    rw [← this]
    apply Finset.sum_congr rfl
    intro c _
    rw [show y c = v c from extV_fin v c]
  have hfy := (hS (i + 1) (by omega) y).mpr hgy
  have hz := hA y (fun r hr => by
    have := hfy r hr
    rw [hsplit] at this
    rw [← this]
    apply Finset.sum_congr rfl
    intro c hc
    unfold aug
    rw [if_neg (by have := Finset.mem_range.mp hc; omega)])
  apply hv
  funext c
  have := hz c c.isLt
  rw [show y c = v c from extV_fin v c] at this
  exact this

/-- Soundness only needs the minors before the last one. -/
theorem minors_sound' {N m n : ℕ} (A : ℕ → ℕ → ℝ) (b : ℕ → ℝ) (hn : 0 < n) (hN : n ≤ N) (hm : n ≤ m)
    (hA : ∀ k < n, LeadInj A k) {x : List XR} (hx : solveLinSys (matN N m A) (vecN n b) = .ok (some x)) :
    ∃ v : ℕ → ℝ, x = vecN n v ∧ ∀ r < n, ∑ c ∈ Finset.range n, A r c * v c = b r := by
  obtain ⟨h1, h2, -, -⟩ := ech_inv' (n := n) (aug n A b) (fun _ _ => True) trivial
    (fun i hi g hU hS _ h0 => absurd h0 (pivot_ne A b g (by omega) hU hS (hA _ (by omega))))
    (fun _ _ _ _ _ _ => trivial)
  obtain ⟨h3, h4⟩ := outcome A b h1 h2
  rw [solveLinSys_eq A b hn hN hm] at hx
  split at hx
  · rename_i hp
    refine ⟨_, (Option.some.inj (Except.ok.inj hx)).symm, (h4 fun i hi => ?_).1⟩
    rw [← h3 i hi]; exact hp i hi
  · simp at hx

theorem minors_sound {N m n : ℕ} (A : ℕ → ℕ → ℝ) (b : ℕ → ℝ) (hn : 0 < n) (hN : n ≤ N) (hm : n ≤ m)
    (hA : ∀ k ≤ n, LeadInj A k) :
    ∃ x : ℕ → ℝ, solveLinSys (matN N m A) (vecN n b) = .ok (some (vecN n x)) ∧
      ∀ r < n, ∑ c ∈ Finset.range n, A r c * x c = b r := by
  obtain ⟨h1, h2, -, -⟩ := ech_inv (n := n) (aug n A b) (fun _ _ => True) trivial
    (fun i hi g hU hS _ h0 => absurd h0 (pivot_ne A b g hi hU hS (hA _ hi))) (fun _ _ _ _ _ _ => trivial)
  obtain ⟨h3, h4⟩ := outcome A b h1 h2
  have hp : ∀ i < n, ech n (aug n A b) i i ≠ 0 := fun i hi =>
    pivot_ne A b _ hi (fun r hr c hc _ => h1 r hr c hc) h2 (hA _ hi)
  refine ⟨_, ?_, (h4 hp).1⟩
  rw [solveLinSys_eq A b hn hN hm, if_pos (fun i hi => by rw [h3 i hi]; exact hp i hi)]

/-! ## Positive semidefinite matrices -/

/-- The trailing block from row and column `i` on is symmetric positive semidefinite. -/
def TrailPSD (n i : ℕ) (g : ℕ → ℕ → ℝ) : Prop :=
  (∀ r < n, ∀ c < n, i ≤ r → i ≤ c → g r c = g c r) ∧
  ∀ y : ℕ → ℝ, (∀ c < i, y c = 0) →
    0 ≤ ∑ r ∈ Finset.range n, y r * ∑ c ∈ Finset.range n, g r c * y c

theorem sum_update {n i : ℕ} (hi : i < n) (a y : ℕ → ℝ) (t : ℝ) (hy : y i = 0) :
    ∑ c ∈ Finset.range n, a c * Function.update y i t c = (∑ c ∈ Finset.range n, a c * y c) + a i * t := by
  have h : ∀ c, a c * Function.update y i t c = a c * y c + if c = i then a i * t else 0 := by
    intro c
    by_cases h : c = i
    · subst h; simp [hy]
    · simp [h]
  simp only [h, Finset.sum_add_distrib]
  rw [Finset.sum_ite_eq' (Finset.range n) i, if_pos (Finset.mem_range.mpr hi)]

theorem quad_update {n i : ℕ} (hi : i < n) (g : ℕ → ℕ → ℝ) (y : ℕ → ℝ) (t : ℝ) (hy : y i = 0)
    (hs : ∑ r ∈ Finset.range n, g r i * y r = ∑ c ∈ Finset.range n, g i c * y c) :
    ∑ r ∈ Finset.range n, Function.update y i t r *
      ∑ c ∈ Finset.range n, g r c * Function.update y i t c =
    (∑ r ∈ Finset.range n, y r * ∑ c ∈ Finset.range n, g r c * y c) +
      2 * t * (∑ c ∈ Finset.range n, g i c * y c) + g i i * t ^ 2 := by
  simp only [sum_update hi _ y t hy, mul_comm (Function.update y i t _)]
  have : ∑ c ∈ Finset.range n, (∑ c_1 ∈ Finset.range n, g c c_1 * y c_1 + g c i * t) * y c =
      (∑ r ∈ Finset.range n, y r * ∑ c ∈ Finset.range n, g r c * y c) +
      t * ∑ r ∈ Finset.range n, g r i * y r := by
    rw [Finset.mul_sum, ← Finset.sum_add_distrib]
    apply Finset.sum_congr rfl
    intro c _; ring
  rw [this, hs]; ring

theorem trail_symm_sum {n i : ℕ} {g : ℕ → ℕ → ℝ} (hJ : TrailPSD n i g) (hi : i < n) {y : ℕ → ℝ}
    (hy : ∀ c < i, y c = 0) :
    ∑ r ∈ Finset.range n, g r i * y r = ∑ c ∈ Finset.range n, g i c * y c := by
  apply Finset.sum_congr rfl
  intro c hc
  rcases Nat.lt_or_ge c i with h | h
  · rw [hy c h, mul_zero, mul_zero]
  · rw [hJ.1 c (Finset.mem_range.mp hc) i hi h le_rfl]

theorem quad_single {n r : ℕ} (hr : r < n) (g : ℕ → ℕ → ℝ) (a : ℝ) :
    ∑ c ∈ Finset.range n, Function.update (fun _ : ℕ => (0 : ℝ)) r a c *
      ∑ c' ∈ Finset.range n, g c c' * Function.update (fun _ : ℕ => (0 : ℝ)) r a c' = g r r * a ^ 2 := by
  have := quad_update hr g (fun _ => 0) a rfl (by simp)
  simpa using this

theorem trail_zero_pivot {n i : ℕ} {g : ℕ → ℕ → ℝ} (hJ : TrailPSD n i g) (hi : i < n) (h0 : g i i = 0)
    {r : ℕ} (hr : r < n) (hir : i < r) : g r i = 0 := by
  have hy : ∀ c ≤ i, Function.update (fun _ : ℕ => (0 : ℝ)) r 1 c = 0 := fun c hc => by
    rw [Function.update_of_ne (by omega)]
  have key : ∀ t : ℝ, 0 ≤ g r r + 2 * t * g i r := by
    intro t
    have h1 := hJ.2 (Function.update (Function.update (fun _ => 0) r 1) i t) (fun c hc => by
      rw [Function.update_of_ne (by omega)]; exact hy c (by omega))
    rw [quad_update hi g _ t (hy i le_rfl)
      (trail_symm_sum hJ hi (fun c hc => hy c (by omega))), quad_single hr, h0,
      sum_update hr (g i) (fun _ => 0) 1 rfl] at h1
    simpa using h1
  rw [hJ.1 r hr i hi (by omega) le_rfl]
  by_contra hne
  have := key (-(g r r + 1) / (2 * g i r))
  have e : 2 * (-(g r r + 1) / (2 * g i r)) * g i r = -(g r r + 1) := by field_simp
  rw [e] at this
  linarith

theorem trail_fwd {n i : ℕ} {g : ℕ → ℕ → ℝ} (hJ : TrailPSD n i g) (hi : i < n) :
    TrailPSD n (i + 1) (fwd n g i) := by
  unfold fwd
  by_cases hp : g i i = 0
  · rw [if_pos hp]
    exact ⟨fun r hr c hc h1 h2 => hJ.1 r hr c hc (by omega) (by omega),
      fun y hy => hJ.2 y fun c hc => hy c (by omega)⟩
  · rw [if_neg hp]
    constructor
    · intro r hr c hc h1 h2
      beta_reduce
      rw [if_pos ⟨h1, hr, by omega⟩, if_pos ⟨h2, hc, by omega⟩, hJ.1 r hr c hc (by omega) (by omega),
        hJ.1 r hr i hi (by omega) le_rfl, hJ.1 c hc i hi (by omega) le_rfl]
      ring
    · intro y hy
      have hyi : y i = 0 := hy i (by omega)
      have hy' : ∀ c < i, y c = 0 := fun c hc => hy c (by omega)
      have hs := trail_symm_sum hJ hi hy'
      set S := ∑ c ∈ Finset.range n, g i c * y c with hS
      have h1 := hJ.2 (Function.update y i (-S / g i i)) (fun c hc => by
        rw [Function.update_of_ne (by omega)]; exact hy' c hc)
      rw [quad_update hi g y _ hyi hs, ← hS] at h1
      have e : ∑ r ∈ Finset.range n, y r * ∑ c ∈ Finset.range n,
          (if i < r ∧ r < n ∧ i ≤ c then g r c - g r i / g i i * g i c else g r c) * y c =
          (∑ r ∈ Finset.range n, y r * ∑ c ∈ Finset.range n, g r c * y c) - S / g i i * S := by
        have e1 : ∀ r ∈ Finset.range n, y r * ∑ c ∈ Finset.range n,
            (if i < r ∧ r < n ∧ i ≤ c then g r c - g r i / g i i * g i c else g r c) * y c =
            y r * ∑ c ∈ Finset.range n, g r c * y c - S / g i i * (g r i * y r) := by
          intro r hr
          rw [Finset.mem_range] at hr
          by_cases hir : i < r
          · have e2 : ∑ c ∈ Finset.range n,
                (if i < r ∧ r < n ∧ i ≤ c then g r c - g r i / g i i * g i c else g r c) * y c =
                (∑ c ∈ Finset.range n, g r c * y c) - g r i / g i i * S := by
              rw [hS, Finset.mul_sum, ← Finset.sum_sub_distrib]
              apply Finset.sum_congr rfl
              intro c _
              by_cases hc : i ≤ c
              · rw [if_pos ⟨hir, hr, hc⟩]; ring
              · rw [hy' c (by omega)]; ring
            rw [e2]; ring
          · rw [hy r (by omega)]; ring
        rw [Finset.sum_congr rfl e1, Finset.sum_sub_distrib, ← Finset.mul_sum, hs]
      rw [e]
      have e3 : 2 * (-S / g i i) * S + g i i * (-S / g i i) ^ 2 = - (S / g i i * S) := by
        field_simp; ring
      linarith

theorem psd_upper {n : ℕ} (A : ℕ → ℕ → ℝ) (b : ℕ → ℝ) (hA : TrailPSD n 0 A) :
    Upper n (ech n (aug n A b)) ∧ SamePrefix n (aug n A b) (ech n (aug n A b)) := by
  have hag : ∀ r, ∀ c < n, aug n A b r c = A r c := fun r c hc => by
    unfold aug; rw [if_neg (ne_of_lt hc)]
  have h0 : TrailPSD n 0 (aug n A b) := by
    refine ⟨fun r hr c hc h1 h2 => ?_, fun y hy => ?_⟩
    · rw [hag r c hc, hag c r hr]; exact hA.1 r hr c hc h1 h2
    · have := hA.2 y hy
      refine le_of_le_of_eq this ?_
      apply Finset.sum_congr rfl
      intro r _
      congr 1
      apply Finset.sum_congr rfl
      intro c hc
      rw [hag r c (Finset.mem_range.mp hc)]
  obtain ⟨h1, h2, -, -⟩ := ech_inv (n := n) (aug n A b) (TrailPSD n) h0
    (fun i hi g _ _ hJ hz r hr hir => trail_zero_pivot hJ hi hz hr hir)
    (fun i hi g _ _ hJ => trail_fwd hJ hi)
  exact ⟨h1, h2⟩

/-- On positive semidefinite matrices the solver answers `some` exactly when the matrix is
nonsingular, and then the answer solves the system. -/
theorem psd_unique {N m n : ℕ} (A : ℕ → ℕ → ℝ) (b : ℕ → ℝ) (hn : 0 < n) (hN : n ≤ N) (hm : n ≤ m)
    (hA : TrailPSD n 0 A) :
    (∃ x : ℕ → ℝ, solveLinSys (matN N m A) (vecN n b) = .ok (some (vecN n x)) ∧
      (∀ r < n, ∑ c ∈ Finset.range n, A r c * x c = b r) ∧ LeadInj A n) ∨
    (solveLinSys (matN N m A) (vecN n b) = .ok none ∧ ¬ LeadInj A n) := by
  obtain ⟨h1, h2⟩ := psd_upper A b hA
  obtain ⟨h3, h4⟩ := outcome A b h1 h2
  rw [solveLinSys_eq A b hn hN hm]
  by_cases hp : ∀ i < n, ech n (aug n A b) i i ≠ 0
  · left
    refine ⟨_, ?_, (h4 hp).1, (h4 hp).2⟩
    rw [if_pos (fun i hi => by rw [h3 i hi]; exact hp i hi)]
  · right
    rw [if_neg (fun h => hp fun i hi => by rw [← h3 i hi]; exact h i hi)]
    refine ⟨rfl, fun hinj => ?_⟩
    push Not at hp
    obtain ⟨i, hi, hi0⟩ := hp
    -- the first `i + 1` rows of the echelon form have a common kernel vector; take all `n` rows
    let M : Matrix (Fin n) (Fin n) ℝ := fun r c => ech n (aug n A b) r c
    have hdet : M.det = 0 := by
      have hM : M.IsUpperTriangular := fun r c hrc => h1 r r.isLt c hrc
      rw [Matrix.det_of_isUpperTriangular hM]
      exact Finset.prod_eq_zero (Finset.mem_univ ⟨i, hi⟩) hi0
    obtain ⟨v, hv, hMv⟩ := Matrix.exists_mulVec_eq_zero_iff.mpr hdet
    have hext : extV v n = 0 := by unfold extV; rw [dif_neg (lt_irrefl _)]
    have hrow : ∀ (f : ℕ → ℕ → ℝ) r, row n f (extV v) r = ∑ c ∈ Finset.range n, f r c * extV v c := by
      intro f r
      unfold row
      rw [Finset.sum_range_succ, hext, mul_zero, add_zero]
    have hz := (h2 n le_rfl (extV v)).mpr (fun r hr => by
      rw [hrow, Finset.sum_range]
      have := congrFun hMv ⟨r, hr⟩
      simp only [Matrix.mulVec, dotProduct, Pi.zero_apply, M] at this
      rw [← this]
      apply Finset.sum_congr rfl
      intro c _
      rw [extV_fin])
    have := hinj (extV v) (fun r hr => by
      have := hz r hr
      rw [hrow] at this
      rw [← this]
      apply Finset.sum_congr rfl
      intro c hc
      unfold aug
      rw [if_neg (ne_of_lt (Finset.mem_range.mp hc))])
    apply hv
    funext c
    rw [Pi.zero_apply, ← this c c.isLt, extV_fin]

theorem psd_sound {N m n : ℕ} (A : ℕ → ℕ → ℝ) (b : ℕ → ℝ) (hn : 0 < n) (hN : n ≤ N) (hm : n ≤ m)
    (hA : TrailPSD n 0 A) :
    (∃ x : ℕ → ℝ, solveLinSys (matN N m A) (vecN n b) = .ok (some (vecN n x)) ∧
      ∀ r < n, ∑ c ∈ Finset.range n, A r c * x c = b r) ∨
    (solveLinSys (matN N m A) (vecN n b) = .ok none ∧ ¬ LeadInj A n) := by
  rcases psd_unique A b hn hN hm hA with ⟨x, h1, h2, -⟩ | h
  · exact Or.inl ⟨x, h1, h2⟩
  · exact Or.inr h

end Lin
end Sglm
