import Verif.Proofs.Approx
import Verif.Proofs.FloatArr
import Verif.Proofs.Sem
import Verif.Proofs.SafeInst
import Verif.Proofs.Problem

/-!
# Datafits in floating point
-/

set_option linter.unusedSectionVars false

namespace Sglm
open Scalar Spec

section
variable {F DM DF : Type} [Scalar F] [LawfulCmp F] [DesignMatrix F DM] [Datafit F DM DF] {n p : ℕ}

/-- The datafit computes gradient `g`, step constants `L` and updates of the fit up to `C e`, while magnitudes are below
`B`. -/
structure FitApx (e B C : ℝ) (ds : Dataset DM F) (df : DF) (A : Fin n → Fin p → ℝ) (g : (Fin n → ℝ) → Fin p → ℝ)
    (L : Fin p → ℝ) : Prop where
  safe : SafeFit ds df n p
  step : ∃ l : Fin p → F, Datafit.stepSize (DM := DM) df = List.ofFn l ∧
    ∀ j, Apx e (l j) (L j) C ∧ (L j = 0 → Den (l j) 0)
  grad : ∀ (u : Fin n → F) (U : Fin n → ℝ) d, 1 ≤ d → C * d * e ≤ 1 → (∀ i, |U i| ≤ B) → (∀ i, Apx e (u i) (U i) d) →
    ∀ j : Fin p, Ok (Datafit.gradientJ df ds (List.ofFn u) j) (fun x => Apx e x (g U j) (C * d))
  upd : ∀ (u : Fin n → F) (U : Fin n → ℝ) d c (y : F) (s : ℝ), 1 ≤ d → 1 ≤ c → C * (d + c) * e ≤ 1 →
    (∀ i, |U i| ≤ B) → |s| ≤ B → (∀ i, Apx e (u i) (U i) d) → Apx e y s c →
    ∀ j : Fin p, Ok (DesignMatrix.updateModelFit ds.designMatrix (List.ofFn u) y j) (fun v =>
      ∃ u' : Fin n → F, v = List.ofFn u' ∧ ∀ i, Apx e (u' i) (U i + s * A i j) (d + C * c))

end

/-! ## Sums along lists -/

namespace Consts
variable {F : Type} [Scalar F] [LawfulCmp F] {e B K : ℝ} {N : ℕ} (k : Consts e B K N) (P : Precise F e)
include k P

/-- Sums of products along a list. -/
theorem fold {ι : Type} {x v : ι → F} {r s : ι → ℝ} {b c : ℝ} (hc : 1 ≤ c) (hb : b ≤ B) :
    ∀ (l : List ι) (_ : ∀ i ∈ l, Apx e (x i) (r i) c ∧ Apx e (v i) (s i) c ∧ |r i| ≤ b ∧ |s i| ≤ b)
      (acc : F) (a d : ℝ), Apx e acc a d → 0 ≤ d → |a| + l.length * b ^ 2 ≤ B →
      (K * (K * c) + K * (d + l.length * (K * (K * c)))) * e ≤ 1 →
      Apx e (l.foldl (fun acc i => acc +. x i *. v i) acc) (a + (l.map fun i => r i * s i).sum)
        (d + l.length * (K * (K * c)))
  | [], _, acc, a, d, ha, _, _, _ => by simpa using ha
  | i :: l, h, acc, a, d, ha, hd, hB, hs => by
    obtain ⟨h1, h2, h3, h4⟩ := h i List.mem_cons_self
    have hK1 := k.K1
    have he := k.e0
    have hKc : 0 ≤ K * (K * c) := by positivity
    have hl : (0 : ℝ) ≤ (l.length : ℝ) := Nat.cast_nonneg _
    have hb0 : 0 ≤ b := (abs_nonneg _).trans h3
    have hlen : ((i :: l).length : ℝ) = l.length + 1 := by simp
    rw [hlen] at hB hs ⊢
    have hrs : |r i * s i| ≤ b ^ 2 := by
      rw [abs_mul, pow_two]; exact mul_le_mul h3 h4 (abs_nonneg _) hb0
    have hlb : 0 ≤ l.length * b ^ 2 := by positivity
    have hlk : 0 ≤ l.length * (K * (K * c)) := by positivity
    have s1 : K * (K * c) * e ≤ 1 := by
      refine le_trans (mul_le_mul_of_nonneg_right ?_ he.le) hs
      nlinarith [mul_nonneg (by linarith : 0 ≤ K) hd, mul_nonneg (by linarith : 0 ≤ K) hlk, mul_nonneg (by linarith : 0 ≤ K) hKc]
    have s0 : K * c * e ≤ 1 := by
      refine le_trans (mul_le_mul_of_nonneg_right ?_ he.le) s1
      exact le_mul_of_one_le_left (by positivity) hK1
    have m := k.mul P h1 h2 hc (h3.trans hb) (h4.trans hb) s0
    have a1 : |a + r i * s i| ≤ B := by
      have := abs_add_le a (r i * s i)
      linarith
    have step := k.add_drift P ha m (one_le_mul_of_one_le_of_one_le hK1 hc) hd a1 (by
      refine le_trans (mul_le_mul_of_nonneg_right ?_ he.le) hs
      have : K * d ≤ K * (d + (l.length + 1) * (K * (K * c))) :=
        mul_le_mul_of_nonneg_left (by nlinarith) (by linarith)
      linarith)
    have ih := fold hc hb l (fun j hj => h j (List.mem_cons_of_mem _ hj)) (acc +. x i *. v i) (a + r i * s i)
      (d + K * (K * c)) step (by linarith) (by
        have := abs_add_le a (r i * s i)
        linarith) (by
        refine le_trans (le_of_eq ?_) hs
        ring)
    rw [List.foldl_cons, List.map_cons, List.sum_cons]
    have e1 : a + (r i * s i + (l.map fun i => r i * s i).sum) = a + r i * s i + (l.map fun i => r i * s i).sum := by ring
    have e2 : d + (l.length + 1) * (K * (K * c)) = d + K * (K * c) + l.length * (K * (K * c)) := by ring
    rw [e1, e2]
    exact ih

omit k in
/-- Sums of zeros. -/
theorem fold_zero {ι : Type} {x v : ι → F} {r s : ι → ℝ} :
    ∀ (l : List ι) (_ : ∀ i ∈ l, Den (x i) (r i) ∧ Den (v i) (s i) ∧ r i * s i = 0) (acc : F), Den acc 0 →
      Den (l.foldl (fun acc i => acc +. x i *. v i) acc) 0
  | [], _, acc, h => h
  | i :: l, h, acc, ha => by
    obtain ⟨h1, h2, h3⟩ := h i List.mem_cons_self
    refine fold_zero l (fun j hj => h j (List.mem_cons_of_mem _ hj)) _ ?_
    have hm := P.mul_zero _ _ _ _ h1 h2 h3
    have hadd := P.add _ _ _ _ ha hm
    have he := P.pos
    obtain ⟨t, ht⟩ := hadd.1 (by rw [add_zero, abs_zero]; positivity)
    have := hadd.2 t ht
    rw [add_zero, abs_zero, mul_zero, sub_zero] at this
    rw [abs_eq_zero.mp (le_antisymm this (abs_nonneg _))] at ht
    exact ht

/-- Repeated additions to entries of a vector. -/
theorem fold_update {ι : Type} {n : ℕ} {x : ι → F} {r : ι → ℝ} (pos : ι → Fin n) {y : F} {s b c : ℝ} (hc : 1 ≤ c)
    (hb : b ≤ B) (hy : Apx e y s c) (hs : |s| ≤ b) :
    ∀ (l : List ι) (_ : ∀ i ∈ l, Apx e (x i) (r i) c ∧ |r i| ≤ b) (u : Fin n → F) (U : Fin n → ℝ) (d : ℝ),
      (∀ i, Apx e (u i) (U i) d) → 0 ≤ d → (∀ i, |U i| + l.length * b ^ 2 ≤ B) →
      (K * (K * c) + K * (d + l.length * (K * (K * c)))) * e ≤ 1 →
      ∀ i, Apx e (l.foldl (fun u j => Function.update u (pos j) (u (pos j) +. y *. x j)) u i)
        (U i + (l.map fun j => if pos j = i then s * r j else 0).sum) (d + l.length * (K * (K * c)))
  | [], _, u, U, d, hu, _, _, _, i => by simpa using hu i
  | a :: l, h, u, U, d, hu, hd, hB, hsm, i => by
    obtain ⟨h1, h3⟩ := h a List.mem_cons_self
    have hK1 := k.K1
    have he := k.e0
    have hKc : 0 ≤ K * (K * c) := by positivity
    have hl : (0 : ℝ) ≤ (l.length : ℝ) := Nat.cast_nonneg _
    have hb0 : 0 ≤ b := (abs_nonneg _).trans h3
    have hlen : ((a :: l).length : ℝ) = l.length + 1 := by simp
    rw [hlen] at hB hsm ⊢
    have hrs : |s * r a| ≤ b ^ 2 := by
      rw [abs_mul, pow_two]; exact mul_le_mul hs h3 (abs_nonneg _) hb0
    have hlb : 0 ≤ l.length * b ^ 2 := by positivity
    have hlk : 0 ≤ l.length * (K * (K * c)) := by positivity
    have s1 : K * (K * c) * e ≤ 1 := by
      refine le_trans (mul_le_mul_of_nonneg_right ?_ he.le) hsm
      nlinarith [mul_nonneg (by linarith : 0 ≤ K) hd, mul_nonneg (by linarith : 0 ≤ K) hlk, mul_nonneg (by linarith : 0 ≤ K) hKc]
    have s0 : K * c * e ≤ 1 := by
      refine le_trans (mul_le_mul_of_nonneg_right ?_ he.le) s1
      exact le_mul_of_one_le_left (by positivity) hK1
    have m := k.mul P hy h1 hc (hs.trans hb) (h3.trans hb) s0
    have hm1 := one_le_mul_of_one_le_of_one_le hK1 hc
    have step : ∀ i, Apx e (Function.update u (pos a) (u (pos a) +. y *. x a) i)
        (Function.update U (pos a) (U (pos a) + s * r a) i) (d + K * (K * c)) := by
      intro i
      by_cases hi : i = pos a
      · subst hi
        rw [Function.update_self, Function.update_self]
        refine k.add_drift P (hu _) m hm1 hd ?_ ?_
        · have := abs_add_le (U (pos a)) (s * r a)
          linarith [hB (pos a)]
        · refine le_trans (mul_le_mul_of_nonneg_right ?_ he.le) hsm
          have : K * d ≤ K * (d + (l.length + 1) * (K * (K * c))) :=
            mul_le_mul_of_nonneg_left (by nlinarith) (by linarith)
          linarith
      · rw [Function.update_of_ne hi, Function.update_of_ne hi]
        exact (hu i).mono he.le (by linarith)
    have ih := fold_update pos hc hb hy hs l (fun j hj => h j (List.mem_cons_of_mem _ hj)) _ _ _ step (by linarith) (by
        intro i
        by_cases hi : i = pos a
        · subst hi
          rw [Function.update_self]
          have := abs_add_le (U (pos a)) (s * r a)
          linarith [hB (pos a)]
        · rw [Function.update_of_ne hi]
          have := hB i
          have : 0 ≤ b ^ 2 := by positivity
          linarith) (by
        refine le_trans (le_of_eq ?_) hsm
        ring) i
    rw [List.foldl_cons, List.map_cons, List.sum_cons]
    have e2 : d + (l.length + 1) * (K * (K * c)) = d + K * (K * c) + l.length * (K * (K * c)) := by ring
    rw [e2]
    have e3 : U i + ((if pos a = i then s * r a else 0) + (l.map fun j => if pos j = i then s * r j else 0).sum) =
        Function.update U (pos a) (U (pos a) + s * r a) i + (l.map fun j => if pos j = i then s * r j else 0).sum := by
      by_cases hi : pos a = i
      · subst hi; rw [Function.update_self, if_pos rfl]; ring
      · rw [Function.update_of_ne (Ne.symm hi), if_neg hi]; ring
    rw [e3]
    exact ih

end Consts

/-! ## Least squares -/

section
variable {n p : ℕ}

theorem quadStep_zero (hn : 0 < n) (X : Fin n → Fin p → ℝ) (j : Fin p) (h : quadStep X j = 0) (i : Fin n) : X i j = 0 := by
  unfold quadStep at h
  have hn' : (n : ℝ) ≠ 0 := by positivity
  have h1 := (div_eq_zero_iff.mp h).resolve_right hn'
  have h2 := (Finset.sum_eq_zero_iff_of_nonneg fun i _ => mul_self_nonneg (X i j)).mp h1 i (Finset.mem_univ i)
  exact mul_self_eq_zero.mp h2

theorem cscStep_zero (hn : 0 < n) (A : CSCData n p) (j : Fin p) (h : cscStep A j = 0) (k : Fin A.nnz)
    (hk : k ∈ colList A j) : A.data k = 0 := by
  unfold cscStep colSq at h
  have hn' : (n : ℝ) ≠ 0 := by positivity
  have h1 := (div_eq_zero_iff.mp h).resolve_right hn'
  have h2 : ∀ x ∈ (colList A j).map (fun k => A.data k * A.data k), 0 ≤ x := by
    intro x hx
    obtain ⟨k, -, rfl⟩ := List.mem_map.mp hx
    exact mul_self_nonneg _
  have h3 : A.data k * A.data k ≤ 0 := by
    rw [← h1]
    exact List.single_le_sum h2 _ (List.mem_map.mpr ⟨k, hk, rfl⟩)
  nlinarith [mul_self_nonneg (A.data k), mul_self_eq_zero.mp (le_antisymm h3 (mul_self_nonneg _))]

theorem abs_sum_le_card {m : ℕ} (f : Fin m → ℝ) (b : ℝ) (h : ∀ i, |f i| ≤ b) : |∑ i, f i| ≤ m * b := by
  refine (Finset.abs_sum_le_sum_abs _ _).trans ((Finset.sum_le_sum fun i _ => h i).trans (le_of_eq ?_))
  rw [Finset.sum_const, Finset.card_univ, Fintype.card_fin, nsmul_eq_mul]

theorem abs_mul_le {a b c : ℝ} (ha : |a| ≤ c) (hb : |b| ≤ c) : |a * b| ≤ c ^ 2 := by
  rw [abs_mul, pow_two]; exact mul_le_mul ha hb (abs_nonneg _) ((abs_nonneg _).trans ha)

theorem le_sum_abs {ι : Type} [Fintype ι] (f : ι → ℝ) (i : ι) : |f i| ≤ ∑ i, |f i| :=
  Finset.single_le_sum (f := fun i => |f i|) (fun _ _ => abs_nonneg _) (Finset.mem_univ i)

/-- Bounds for the magnitudes of a computation. -/
structure Mags (B B1 B2 : ℝ) (m : ℕ) : Prop where
  one : 1 ≤ B1
  base : B ≤ B1
  le : B1 ≤ B2
  sums : 2 * ((m + 1) * B1 ^ 2) ≤ B2

theorem mags_exists (B S : ℝ) (hB : 1 ≤ B) (hS : 0 ≤ S) (m : ℕ) : ∃ B1 B2, Mags B B1 B2 m ∧ S ≤ B1 := by
  refine ⟨B + S, 2 * ((m + 1) * (B + S) ^ 2), ⟨by linarith, by linarith, ?_, le_rfl⟩, by linarith⟩
  have hm : (0 : ℝ) ≤ m := Nat.cast_nonneg m
  nlinarith [mul_nonneg hm (sq_nonneg (B + S))]

namespace Mags
variable {B B1 B2 : ℝ} {m : ℕ} (h : Mags B B1 B2 m)
include h

theorem mul_le : m * B1 ^ 2 ≤ B2 := by
  have hm : (0 : ℝ) ≤ m := Nat.cast_nonneg m
  nlinarith [h.sums, mul_nonneg hm (sq_nonneg B1), sq_nonneg B1]

theorem add_le : B1 + m * B1 ^ 2 ≤ B2 := by
  have hm : (0 : ℝ) ≤ m := Nat.cast_nonneg m
  nlinarith [h.sums, h.one, mul_nonneg hm (sq_nonneg B1), sq_nonneg B1]

theorem two_le : 2 * (m * B1 ^ 2) ≤ B2 := by
  nlinarith [h.sums, sq_nonneg B1]

theorem one2 : 1 ≤ B2 := h.one.trans h.le

end Mags

theorem Consts.mk' {e B K : ℝ} {N : ℕ} (he : 0 < e) (hB : 1 ≤ B) (hK : K = 10 * (N + 1) ^ 2 * (B + 1) ^ 3) :
    Consts e B K N := ⟨he, hB, hK.ge⟩

theorem one_le_K {B K : ℝ} {N : ℕ} (hB : 1 ≤ B) (hK : K = 10 * (N + 1) ^ 2 * (B + 1) ^ 3) : 1 ≤ K := by
  subst hK
  have h1 : (1 : ℝ) ≤ (N + 1) ^ 2 := one_le_pow₀ (by linarith [(Nat.cast_nonneg N : (0 : ℝ) ≤ N)])
  have h2 : (1 : ℝ) ≤ (B + 1) ^ 3 := one_le_pow₀ (by linarith)
  nlinarith

section
variable {F : Type} [Scalar F] [LawfulCmp F] {e B B1 B2 K c1 : ℝ}

theorem shaped_matOf (x : Fin n → Fin p → F) : Shaped (matOf x) n p := by
  refine ⟨?_, ?_, ?_⟩ <;> simp [matOf]

theorem shaped_oneOf (y : Fin n → F) : ShapedTargets (Targets.one (List.ofFn y)) n 1 :=
  ⟨one_nSamplesOf y, rfl, by rw [one_asMultiOf]; exact shaped_matOf _⟩

theorem shaped_toCSCOf (A : CSCData n p) (x : Fin A.nnz → F) : ShapedCSC (A.toCSCOf x) n p := by
  refine ⟨by simp [CSCData.toCSCOf], ?_, ?_⟩
  · intro j a b ha hb k hk1 hk2
    unfold CSCData.toCSCOf at ha hb ⊢
    simp only [List.length_ofFn] at *
    rw [List.getElem?_eq_some_iff] at ha hb
    obtain ⟨h1, h2⟩ := ha
    obtain ⟨h3, h4⟩ := hb
    rw [List.getElem_ofFn] at h2 h4
    have := A.ptr_le ⟨j + 1, by simpa using h3⟩
    omega
  · intro i hi
    unfold CSCData.toCSCOf at hi
    rw [List.mem_ofFn] at hi
    obtain ⟨k, rfl⟩ := hi
    exact ⟨by positivity, by exact_mod_cast (A.row k).isLt⟩

/-- The number of samples is not zero in floating point. -/
theorem nat_ne_zero (hn : 0 < n) {N : ℕ} (kk : Consts e B2 K N) (hc1 : 1 ≤ c1) (hs : K * (K * c1) * e ≤ 1)
    (ha : Apx e (Scalar.ofNat n : F) n (K * c1)) {t : ℝ} (ht : Den (Scalar.ofNat n : F) t) : t ≠ 0 := by
  have h1 := ha.abs_le ht
  obtain ⟨-, -, h2⟩ := kk.small (one_le_mul_of_one_le_of_one_le kk.K1 hc1) hs
  rintro rfl
  have hn1 : (1 : ℝ) ≤ n := by exact_mod_cast hn
  rw [zero_sub, abs_neg, abs_of_nonneg (by linarith)] at h1
  linarith

/-- Least squares, dense design. -/
theorem quad_dense_core (hn : 0 < n) (X : Fin n → Fin p → ℝ) (y : Fin n → ℝ) (P : Precise F e) (kk : Consts e B2 K n)
    (hm : Mags B B1 B2 n) (bX : ∀ i j, |X i j| ≤ B1) (by_ : ∀ i, |y i| ≤ B1) (bn : (n : ℝ) ≤ B1) (hc1 : c1 = B2 + 1)
    (x : Fin n → Fin p → F) (y' : Fin n → F) (hx : ∀ i j, Stores e (x i j) (X i j)) (hy : ∀ i, Stores e (y' i) (y i))
    (hCe : K * (K * (K * c1)) * e ≤ 1) (df0 : Quadratic F) :
    ∃ df, Datafit.init df0 (⟨matOf x, Targets.one (List.ofFn y')⟩ : Dataset (Mat F) F) = .ok df ∧
      FitApx e B (K * (K * (K * c1))) (⟨matOf x, Targets.one (List.ofFn y')⟩ : Dataset (Mat F) F) df X (quadGrad X y)
        (quadStep X) := by
  have he := P.pos
  have hn1 : (1 : ℝ) ≤ n := by exact_mod_cast hn
  have B12 := hm.le
  have B11 := hm.one
  have hK1 := kk.K1
  have hK0 : 0 ≤ K := by linarith
  have hc11 : 1 ≤ c1 := by linarith
  have k1 : c1 ≤ K * c1 := le_mul_of_one_le_left (by linarith) hK1
  have k2 : K * c1 ≤ K * (K * c1) := le_mul_of_one_le_left (by linarith) hK1
  have k3 : K * (K * c1) ≤ K * (K * (K * c1)) := le_mul_of_one_le_left (by linarith) hK1
  have ax : ∀ i j, Apx e (x i j) (X i j) c1 := fun i j => (hx i j).apx he.le ((bX i j).trans B12) hc1.ge
  have ay : ∀ i, Apx e (y' i) (y i) c1 := fun i => (hy i).apx he.le ((by_ i).trans B12) hc1.ge
  have smul : ∀ {a b : ℝ}, a ≤ b → b * e ≤ 1 → a * e ≤ 1 := fun h h2 =>
    le_trans (mul_le_mul_of_nonneg_right h he.le) h2
  have s1 : K * c1 * e ≤ 1 := smul (by linarith) hCe
  have s2 : K * (K * c1) * e ≤ 1 := smul (by linarith) hCe
  have anat : Apx e (Scalar.ofNat n : F) n (K * c1) := kk.nat P n (by linarith) hc11 s1
  have axty : ∀ j, Apx e (dot (List.ofFn fun i => x i j) (List.ofFn y')) (∑ i, X i j * y i) (K * c1) := fun j =>
    kk.dot P le_rfl (fun i => ax i j) ay hc11 (fun i => (bX i j).trans B12) (fun i => (by_ i).trans B12) s1
  have hninv : 1 / B2 ≤ |(n : ℝ)| := by
    rw [abs_of_nonneg (by linarith), div_le_iff₀ (by linarith)]; nlinarith
  have hinit : Datafit.init df0 (⟨matOf x, Targets.one (List.ofFn y')⟩ : Dataset (Mat F) F) =
      .ok (⟨List.ofFn fun j => dot (List.ofFn fun i => x i j) (List.ofFn fun i => x i j) /. Scalar.ofNat n,
        List.ofFn fun j => dot (List.ofFn fun i => x i j) (List.ofFn y')⟩ : Quadratic F) := by
    show Quadratic.initDense _ = _
    unfold Quadratic.initDense
    simp only [single_oneOf, bind, Except.bind, tMulVec_matOf, one_nSamplesOf, colSqNorms_matOf, pure, Except.pure]
  have hsafe := quad_dense_safe (shaped_matOf x) (shaped_oneOf y') df0
  rw [hinit] at hsafe
  refine ⟨_, hinit, hsafe,
    ⟨_, rfl, fun j => ⟨?_, fun h0 => ?_⟩⟩, ?_, ?_⟩
  · have d1 := kk.dot P le_rfl (fun i => ax i j) (fun i => ax i j) hc11 (fun i => (bX i j).trans B12)
      (fun i => (bX i j).trans B12) s1
    exact (kk.div P d1 anat (by linarith) ((abs_sum_le_card _ _ fun i => abs_mul_le (bX i j) (bX i j)).trans hm.mul_le)
      hninv s2).mono he.le k3
  · have hz := quadStep_zero hn X j h0
    obtain ⟨t, ht, -⟩ := id anat
    exact P.div_zero _ _ t (P.dot_zero n _ _ (fun _ => 0) (fun _ => 0) (fun i => (hx i j).zero (hz i))
      (fun i => (hx i j).zero (hz i)) (fun i => by simp)) ht (nat_ne_zero hn kk hc11 s2 anat ht)
  · intro u U d hd hs hU hu j
    have hcd : 1 ≤ c1 * d := one_le_mul_of_one_le_of_one_le hc11 hd
    have hs' : K * (K * (K * (c1 * d))) * e ≤ 1 := by refine le_trans (le_of_eq ?_) hs; ring
    have q1 : c1 * d ≤ K * (c1 * d) := le_mul_of_one_le_left (by linarith) hK1
    have q2 : K * (c1 * d) ≤ K * (K * (c1 * d)) := le_mul_of_one_le_left (by linarith) hK1
    have q3 : K * (K * (c1 * d)) ≤ K * (K * (K * (c1 * d))) := le_mul_of_one_le_left (by linarith) hK1
    have hcc : c1 ≤ c1 * d := le_mul_of_one_le_right (by linarith) hd
    have hKcc : K * c1 ≤ K * (c1 * d) := mul_le_mul_of_nonneg_left hcc hK0
    have hU' : ∀ i, |U i| ≤ B1 := fun i => (hU i).trans hm.base
    have d1 := kk.dot P le_rfl (fun i => (ax i j).mono he.le hcc)
      (fun i => (hu i).mono he.le (le_mul_of_one_le_left (by linarith) hc11)) hcd
      (fun i => (bX i j).trans B12) (fun i => (hU' i).trans B12) (smul (by linarith) hs')
    have b1 : |∑ i, X i j * U i - ∑ i, X i j * y i| ≤ B2 := by
      have a1 := abs_sum_le_card (fun i => X i j * U i) _ fun i => abs_mul_le (bX i j) (hU' i)
      have a2 := abs_sum_le_card (fun i => X i j * y i) _ fun i => abs_mul_le (bX i j) (by_ i)
      have a3 := abs_sub (∑ i, X i j * U i) (∑ i, X i j * y i)
      linarith [hm.two_le]
    have d2 := kk.sub P d1 ((axty j).mono he.le hKcc) (by linarith) b1 (smul (by linarith) hs')
    have d3 := kk.div P d2 (anat.mono he.le (by linarith)) (by linarith) b1 hninv hs'
    show Ok (Quadratic.gradDense _ _ _ _) _
    unfold Quadratic.gradDense
    simp only [colM_matOf, bind, Except.bind, dotM_ofFn, getM_ofFn, pure, Except.pure, one_nSamplesOf]
    show Apx e _ _ _
    refine d3.mono he.le (le_of_eq (by ring))
  · intro u U d c z s hd hc hs hU hsB hu hz j
    show Ok (Mat.updateModelFit _ _ _ _) _
    unfold Mat.updateModelFit
    rw [colM_matOf]
    simp only [bind, Except.bind]
    rw [scaledAdd_ofFn]
    refine ⟨_, rfl, fun i => ?_⟩
    have hcc : 1 ≤ c1 * c := one_le_mul_of_one_le_of_one_le hc11 hc
    have hC1 : 1 ≤ K * (K * (K * c1)) := by linarith
    have hsc : K * (K * (K * c1)) * c * e ≤ 1 := smul (by nlinarith) hs
    have hsd : K * d * e ≤ 1 := by
      refine smul ?_ hs
      have : K * d ≤ K * (K * (K * c1)) * d := mul_le_mul_of_nonneg_right (by
        calc K ≤ K * c1 := le_mul_of_one_le_right hK0 hc11
          _ ≤ _ := by linarith) (by linarith)
      nlinarith
    have q1 : c1 * c ≤ K * (c1 * c) := le_mul_of_one_le_left (by linarith) hK1
    have q2 : K * (c1 * c) ≤ K * (K * (c1 * c)) := le_mul_of_one_le_left (by linarith) hK1
    have q3 : K * (K * (c1 * c)) ≤ K * (K * (K * (c1 * c))) := le_mul_of_one_le_left (by linarith) hK1
    have q4 : K * (K * (K * (c1 * c))) = K * (K * (K * c1)) * c := by ring
    have hsB' := hsB.trans hm.base
    have m1 := kk.mul P (hz.mono he.le (le_mul_of_one_le_left (by linarith) hc11))
      ((ax i j).mono he.le (le_mul_of_one_le_right (by linarith) hc)) hcc (hsB'.trans B12) ((bX i j).trans B12)
      (smul (by linarith) hsc)
    have b1 : |U i + s * X i j| ≤ B2 := by
      have a1 := abs_add_le (U i) (s * X i j)
      have a2 := abs_mul_le hsB' (bX i j)
      have a3 := (hU i).trans hm.base
      have a4 := hm.add_le
      have : B1 ^ 2 ≤ n * B1 ^ 2 := le_mul_of_one_le_left (sq_nonneg _) hn1
      linarith
    refine (kk.add_drift P (hu i) m1 (by linarith) (by linarith) b1 ?_).mono he.le (by linarith)
    refine smul ?_ hs
    have r1 : K * d ≤ K * (K * (K * c1)) * d := mul_le_mul_of_nonneg_right (by
        calc K ≤ K * c1 := le_mul_of_one_le_right hK0 hc11
          _ ≤ _ := by linarith) (by linarith)
    rw [mul_add]
    linarith

/-- Least squares, sparse design. -/
theorem quad_csc_core (hn : 0 < n) (A : CSCData n p) (y : Fin n → ℝ) (P : Precise F e) (kk : Consts e B2 K A.nnz)
    (hm : Mags B B1 B2 A.nnz) (bA : ∀ k, |A.data k| ≤ B1) (by_ : ∀ i, |y i| ≤ B1) (bn : (n : ℝ) ≤ B1) (hc1 : c1 = B2 + 1)
    (x : Fin A.nnz → F) (y' : Fin n → F) (hx : ∀ k, Stores e (x k) (A.data k)) (hy : ∀ i, Stores e (y' i) (y i)) {C : ℝ}
    (hC : C = (A.nnz + 1) * (K * (K * (K * (K * (K * c1))))))
    (hCe : C * e ≤ 1) (df0 : Quadratic F) :
    ∃ df, Datafit.init df0 (⟨A.toCSCOf x, Targets.one (List.ofFn y')⟩ : Dataset (CSC F) F) = .ok df ∧
      FitApx e B C (⟨A.toCSCOf x, Targets.one (List.ofFn y')⟩ : Dataset (CSC F) F) df A.dense
        (quadGrad A.dense y) (cscStep A) := by
  have he := P.pos
  have hn1 : (1 : ℝ) ≤ n := by exact_mod_cast hn
  have B12 := hm.le
  have B11 := hm.one
  have hK1 := kk.K1
  have hK0 : 0 ≤ K := by linarith
  have hc11 : 1 ≤ c1 := by linarith
  have hN0 : (0 : ℝ) ≤ A.nnz := Nat.cast_nonneg _
  have smul : ∀ {a b : ℝ}, a ≤ b → b * e ≤ 1 → a * e ≤ 1 := fun h h2 =>
    le_trans (mul_le_mul_of_nonneg_right h he.le) h2
  -- powers of `K` times a constant
  have kp : ∀ c : ℝ, 0 ≤ c → c ≤ K * c := fun c hc => le_mul_of_one_le_left hc hK1
  have nn : ∀ c : ℝ, 0 ≤ c → 0 ≤ K * c := fun c hc => mul_nonneg hK0 hc
  have len : ∀ j : Fin p, ((colList A j).length : ℝ) ≤ A.nnz := fun j => by
    have := List.length_filter_le (fun k => decide (A.InCol j k)) (List.finRange A.nnz)
    rw [List.length_finRange] at this
    exact_mod_cast this
  have ax : ∀ k, Apx e (x k) (A.data k) c1 := fun k => (hx k).apx he.le ((bA k).trans B12) hc1.ge
  have ay : ∀ i, Apx e (y' i) (y i) c1 := fun i => (hy i).apx he.le ((by_ i).trans B12) hc1.ge
  -- sums along columns
  have sums : ∀ (v : Fin A.nnz → F) (s : Fin A.nnz → ℝ) (c : ℝ), c1 ≤ c →
      (A.nnz + 1) * (K * (K * (K * c))) * e ≤ 1 →
      (∀ k, Apx e (v k) (s k) c) → (∀ k, |s k| ≤ B1) → ∀ j,
      Apx e (colFold A x v j) ((colList A j).map fun k => A.data k * s k).sum ((A.nnz + 1) * (K * (K * c))) := by
    intro v s c hcc hsm hv hs j
    have hc : 1 ≤ c := by linarith
    have hl := len j
    have p2 := nn _ (nn c (by linarith))
    have f := kk.fold P hc B12 (colList A j) (x := x) (v := v) (r := A.data) (s := s)
      (fun k _ => ⟨(ax k).mono he.le hcc, hv k, bA k, hs k⟩) zero 0 0 (Den.apx he.le den_zero le_rfl) le_rfl (by
        rw [abs_zero, zero_add]
        exact (mul_le_mul_of_nonneg_right hl (sq_nonneg _)).trans hm.mul_le) (smul (by
          have h1 : (A.nnz : ℝ) * (K * (K * (K * c))) + K * (K * (K * c)) = (A.nnz + 1) * (K * (K * (K * c))) := by ring
          have h2 := kp _ p2
          have h3 : K * (0 + (colList A j).length * (K * (K * c))) ≤ A.nnz * (K * (K * (K * c))) := by
            rw [zero_add]
            calc K * ((colList A j).length * (K * (K * c))) = (colList A j).length * (K * (K * (K * c))) := by ring
              _ ≤ _ := mul_le_mul_of_nonneg_right hl (nn _ p2)
          linarith) hsm)
    rw [zero_add, zero_add] at f
    refine f.mono he.le (mul_le_mul_of_nonneg_right (by linarith) p2)
  have hC' : C * e ≤ 1 := hCe
  rw [hC] at hC'
  have p0 : (0 : ℝ) ≤ c1 := by linarith
  have p1 := nn _ p0
  have p2 := nn _ p1
  have p3 := nn _ p2
  have p4 := nn _ p3
  have p5 := nn _ p4
  have up : ∀ {c d : ℝ}, 0 ≤ c → c ≤ d → c ≤ (A.nnz + 1) * d := fun hc h => by nlinarith
  have l0 := kp _ p0
  have l1 := kp _ p1
  have l2 := kp _ p2
  have l3 := kp _ p3
  have l4 := kp _ p4
  have mN : ∀ {c d : ℝ}, c ≤ d → (A.nnz + 1) * c ≤ (A.nnz + 1) * d := fun h => mul_le_mul_of_nonneg_left h (by linarith)
  have anat : Apx e (Scalar.ofNat n : F) n (K * c1) := kk.nat P n (by linarith) hc11 (smul (up p1 (by linarith)) hC')
  have axty : ∀ j, Apx e (colFold A x (fun k => y' (A.row k)) j) (∑ i, A.dense i j * y i) ((A.nnz + 1) * (K * (K * c1))) := fun j => by
    have := sums (fun k => y' (A.row k)) (fun k => y (A.row k)) c1 le_rfl (smul (mN (by linarith)) hC')
      (fun k => ay _) (fun k => by_ _) j
    rwa [sum_colList] at this
  have hninv : 1 / B2 ≤ |(n : ℝ)| := by
    rw [abs_of_nonneg (by linarith), div_le_iff₀ (by linarith)]; nlinarith
  have bsum : ∀ (s : Fin A.nnz → ℝ) (_ : ∀ k, |s k| ≤ B1) (j : Fin p),
      |((colList A j).map fun k => A.data k * s k).sum| ≤ A.nnz * B1 ^ 2 := by
    intro s hs j
    unfold colList
    rw [sum_filter_list]
    refine abs_sum_le_card _ _ fun k => ?_
    split
    · exact abs_mul_le (bA k) (hs k)
    · rw [abs_zero]; positivity
  have hinit : Datafit.init df0 (⟨A.toCSCOf x, Targets.one (List.ofFn y')⟩ : Dataset (CSC F) F) =
      .ok (⟨List.ofFn fun j => colFold A x x j /. Scalar.ofNat n,
        List.ofFn fun j => colFold A x (fun k => y' (A.row k)) j⟩ : Quadratic F) := by
    show Quadratic.initCSC _ = _
    unfold Quadratic.initCSC
    have hnf : DesignMatrix.nFeatures (A.toCSCOf x) = .ok p := nFeatures_toCSCOf A x
    simp only [single_oneOf, one_nSamplesOf]
    rw [show (A.toCSCOf x).nFeatures = .ok p from hnf]
    simp only [bind, Except.bind]
    rw [mapM_range (fun j => (colFold A x x j /. Scalar.ofNat n, colFold A x (fun k => y' (A.row k)) j))]
    · simp only [pure, Except.pure, List.map_ofFn]
      rfl
    · intro j
      rw [colRange_toCSCOf]
      dsimp only
      have := foldlM_col A j (fun s : F × F => s) (fun acc idx => do
          let d ← (A.toCSCOf x).dataAt idx
          let i ← (A.toCSCOf x).rowAt idx
          let yi ← getM (List.ofFn y') i
          pure (acc.1 +. d *. d, acc.2 +. d *. yi))
        (fun s k => (s.1 +. x k *. x k, s.2 +. x k *. y' (A.row k))) (by
          intro t k
          simp only [dataAt_toCSCOf, rowAt_toCSCOf, bind, Except.bind, getM_ofFn]
          rfl) (zero, zero)
      simp only [bind, Except.bind] at this
      rw [this]
      simp only [foldl_pair (colList A j) (fun a k => a +. x k *. x k) (fun b k => b +. x k *. y' (A.row k))]
      rfl
  have hsafe := quad_csc_safe (shaped_toCSCOf A x) (shaped_oneOf y') df0
  rw [hinit] at hsafe
  refine ⟨_, hinit, hsafe, ⟨_, rfl, fun j => ⟨?_, fun h0 => ?_⟩⟩, ?_, ?_⟩
  · have d1 := sums x A.data c1 le_rfl (smul (mN (by linarith)) hC') ax bA j
    have d2 := kk.div P d1 (anat.mono he.le (up p1 (by linarith))) (by nlinarith)
      ((bsum A.data bA j).trans hm.mul_le) hninv (smul (by
        calc K * ((A.nnz + 1) * (K * (K * c1))) = (A.nnz + 1) * (K * (K * (K * c1))) := by ring
          _ ≤ _ := mN (by linarith)) hC')
    refine d2.mono he.le ?_
    rw [hC]
    calc K * ((A.nnz + 1) * (K * (K * c1))) = (A.nnz + 1) * (K * (K * (K * c1))) := by ring
      _ ≤ _ := mN (by linarith)
  · have hz := cscStep_zero hn A j h0
    obtain ⟨t, ht, -⟩ := id anat
    refine P.div_zero _ _ t (Consts.fold_zero P (r := fun _ => 0) (s := fun _ => 0) (colList A j)
      (fun k hk => ⟨(hx k).zero (hz k hk), (hx k).zero (hz k hk), by simp⟩) zero den_zero) ht
      (nat_ne_zero hn kk hc11 (smul (up p2 (by linarith)) hC') anat ht)
  · intro u U d hd hs hU hu j
    have hcd : 1 ≤ c1 * d := one_le_mul_of_one_le_of_one_le hc11 hd
    have hcc : c1 ≤ c1 * d := le_mul_of_one_le_right (by linarith) hd
    have q0 : 0 ≤ c1 * d := by linarith
    have q1 := nn _ q0
    have q2 := nn _ q1
    have q3 := nn _ q2
    have q4 := nn _ q3
    have m0 := kp _ q0
    have m1 := kp _ q1
    have m2 := kp _ q2
    have m3 := kp _ q3
    have m4 := kp _ q4
    have eC : C * d = (A.nnz + 1) * (K * (K * (K * (K * (K * (c1 * d)))))) := by rw [hC]; ring
    rw [eC] at hs
    have hU' : ∀ i, |U i| ≤ B1 := fun i => (hU i).trans hm.base
    have d1 := sums (fun k => u (A.row k)) (fun k => U (A.row k)) (c1 * d) hcc (smul (mN (by linarith)) hs)
      (fun k => (hu _).mono he.le (le_mul_of_one_le_left (by linarith) hc11)) (fun k => hU' _) j
    have b1 : |∑ i, A.dense i j * U i - ∑ i, A.dense i j * y i| ≤ B2 := by
      have a1 := bsum (fun k => U (A.row k)) (fun k => hU' _) j
      have a2 := bsum (fun k => y (A.row k)) (fun k => by_ _) j
      rw [sum_colList] at a1 a2
      have a3 := abs_sub (∑ i, A.dense i j * U i) (∑ i, A.dense i j * y i)
      linarith [hm.two_le]
    rw [sum_colList] at d1
    have hge : 1 ≤ (A.nnz + 1) * (K * (K * (c1 * d))) := by nlinarith
    have e1 : K * ((A.nnz + 1) * (K * (K * (c1 * d)))) = (A.nnz + 1) * (K * (K * (K * (c1 * d)))) := by ring
    have e2 : K * (K * ((A.nnz + 1) * (K * (K * (c1 * d))))) = (A.nnz + 1) * (K * (K * (K * (K * (c1 * d))))) := by ring
    have hge2 : 1 ≤ K * ((A.nnz + 1) * (K * (K * (c1 * d)))) := one_le_mul_of_one_le_of_one_le hK1 hge
    have d2 := kk.sub P d1 ((axty j).mono he.le (mN (mul_le_mul_of_nonneg_left (mul_le_mul_of_nonneg_left hcc hK0) hK0))) hge b1
      (smul (by rw [e1]; exact mN (by linarith)) hs)
    have d3 := kk.div P d2 (anat.mono he.le (by
        rw [e1]
        refine up p1 ?_
        have : K * c1 ≤ K * (c1 * d) := mul_le_mul_of_nonneg_left hcc hK0
        linarith)) hge2 b1 hninv (smul (by rw [e2]; exact mN (by linarith)) hs)
    show Ok (Quadratic.gradCSC _ _ _ _) _
    unfold Quadratic.gradCSC
    simp only [one_nSamplesOf, colRange_toCSCOf, bind, Except.bind, getM_ofFn]
    have := foldlM_col A j (fun s : F => s) (fun acc idx => do
        let d ← (A.toCSCOf x).dataAt idx
        let i ← (A.toCSCOf x).rowAt idx
        let xw ← getM (List.ofFn u) i
        pure (acc +. d *. xw))
      (fun s k => s +. x k *. u (A.row k)) (by
        intro t k
        simp only [dataAt_toCSCOf, rowAt_toCSCOf, bind, Except.bind, getM_ofFn]
        rfl) zero
    simp only [bind, Except.bind] at this
    rw [this]
    show Apx e _ _ _
    refine d3.mono he.le ?_
    rw [eC, e2]
    exact mN (by linarith)
  · intro u U d c z s hd hc hs hU hsB hu hz j
    have := updateCSC_of A x u z j
    rw [show DesignMatrix.updateModelFit (A.toCSCOf x) (List.ofFn u) z j = _ from this]
    refine ⟨_, rfl, fun i => ?_⟩
    have hcc : 1 ≤ c1 * c := one_le_mul_of_one_le_of_one_le hc11 hc
    have q0 : 0 ≤ c1 * c := by linarith
    have q1 := nn _ q0
    have q2 := nn _ q1
    have q3 := nn _ q2
    have q4 := nn _ q3
    have m1 := kp _ q1
    have m2 := kp _ q2
    have m3 := kp _ q3
    have m4 := kp _ q4
    have eC : C * c = (A.nnz + 1) * (K * (K * (K * (K * (K * (c1 * c)))))) := by rw [hC]; ring
    have hsB' := hsB.trans hm.base
    have hKC : K * d ≤ C * d := mul_le_mul_of_nonneg_right (by
      rw [hC]
      refine up hK0 ?_
      have : K ≤ K * c1 := le_mul_of_one_le_right hK0 hc11
      linarith) (by linarith)
    have hl := len j
    have f := kk.fold_update P (fun k => A.row k) hcc B12
      (hz.mono he.le (le_mul_of_one_le_left (by linarith) hc11)) hsB' (colList A j) (x := x) (r := A.data)
      (fun k _ => ⟨(ax k).mono he.le (le_mul_of_one_le_right (by linarith) hc), bA k⟩) u U d hu (by linarith)
      (fun i => by
        have h1 := (hU i).trans hm.base
        have h2 : ((colList A j).length : ℝ) * B1 ^ 2 ≤ A.nnz * B1 ^ 2 := mul_le_mul_of_nonneg_right hl (sq_nonneg _)
        linarith [hm.add_le]) (smul (by
          rw [mul_add C, eC]
          have h3 : K * ((colList A j).length * (K * (K * (c1 * c)))) ≤ A.nnz * (K * (K * (K * (c1 * c)))) := by
            calc K * ((colList A j).length * (K * (K * (c1 * c)))) = (colList A j).length * (K * (K * (K * (c1 * c)))) := by ring
              _ ≤ _ := mul_le_mul_of_nonneg_right hl q3
          have h4 : (A.nnz + 1) * (K * (K * (K * (c1 * c)))) ≤ (A.nnz + 1) * (K * (K * (K * (K * (K * (c1 * c)))))) := mN (by linarith)
          rw [mul_add K]
          linarith) hs) i
    rw [sum_col_indicator] at f
    refine f.mono he.le ?_
    rw [eC]
    have h3 : (colList A j).length * (K * (K * (c1 * c))) ≤ (A.nnz + 1) * (K * (K * (c1 * c))) :=
      mul_le_mul_of_nonneg_right (by linarith) q2
    have h4 : (A.nnz + 1) * (K * (K * (c1 * c))) ≤ (A.nnz + 1) * (K * (K * (K * (K * (K * (c1 * c)))))) := mN (by linarith)
    linarith

end

end
end Sglm
