import Verif.Proofs.FloatRun

/-!
# Objective values in floating point

Bounds for the computed objective, and what follows from a finite computed objective.
-/

set_option linter.unusedSectionVars false

namespace Sglm
open Scalar Spec
variable {n p : ℕ}

namespace Consts
variable {F : Type} [Scalar F] [LawfulCmp F] {e B K : ℝ} {N : ℕ} (k : Consts e B K N) (P : Precise F e)
include k P

/-- Sums along a list. -/
theorem fsum {ι : Type} {x : ι → F} {r : ι → ℝ} {b c : ℝ} (hc : 1 ≤ c) :
    ∀ (l : List ι) (_ : ∀ i ∈ l, Apx e (x i) (r i) c ∧ |r i| ≤ b)
      (acc : F) (a d : ℝ), Apx e acc a d → 0 ≤ d → |a| + l.length * b ≤ B →
      (K * c + K * (d + l.length * (K * c))) * e ≤ 1 →
      Apx e (l.foldl (fun acc i => acc +. x i) acc) (a + (l.map r).sum) (d + l.length * (K * c))
  | [], _, acc, a, d, ha, _, _, _ => by simpa using ha
  | i :: l, h, acc, a, d, ha, hd, hB, hs => by
    obtain ⟨h1, h3⟩ := h i List.mem_cons_self
    have hK1 := k.K1
    have he := k.e0
    have hKc : 0 ≤ K * c := by positivity
    have hl : (0 : ℝ) ≤ (l.length : ℝ) := Nat.cast_nonneg _
    have hb0 : 0 ≤ b := (abs_nonneg _).trans h3
    have hlen : ((i :: l).length : ℝ) = l.length + 1 := by simp
    rw [hlen] at hB hs ⊢
    have hlb : 0 ≤ l.length * b := by positivity
    have hlk : 0 ≤ l.length * (K * c) := by positivity
    have a1 : |a + r i| ≤ B := by
      have := abs_add_le a (r i)
      linarith
    have step := k.add_drift P ha h1 hc hd a1 (by
      refine le_trans (mul_le_mul_of_nonneg_right ?_ he.le) hs
      have : K * d ≤ K * (d + (l.length + 1) * (K * c)) :=
        mul_le_mul_of_nonneg_left (by nlinarith) (by linarith)
      linarith)
    have ih := fsum hc l (fun j hj => h j (List.mem_cons_of_mem _ hj)) (acc +. x i) (a + r i)
      (d + K * c) step (by linarith) (by
        have := abs_add_le a (r i)
        linarith) (by
        refine le_trans (le_of_eq ?_) hs
        ring)
    rw [List.foldl_cons, List.map_cons, List.sum_cons]
    have e1 : a + (r i + (l.map r).sum) = a + r i + (l.map r).sum := by ring
    have e2 : d + (l.length + 1) * (K * c) = d + K * c + l.length * (K * c) := by ring
    rw [e1, e2]
    exact ih

/-- Repeated additions of terms to entries of a vector. -/
theorem fold_terms {ι : Type} {n : ℕ} {x : ι → F} {r : ι → ℝ} (pos : ι → Fin n) {b c : ℝ} (hc : 1 ≤ c) :
    ∀ (l : List ι) (_ : ∀ i ∈ l, Apx e (x i) (r i) c ∧ |r i| ≤ b) (u : Fin n → F) (U : Fin n → ℝ) (d : ℝ),
      (∀ i, Apx e (u i) (U i) d) → 0 ≤ d → (∀ i, |U i| + l.length * b ≤ B) →
      (K * c + K * (d + l.length * (K * c))) * e ≤ 1 →
      ∀ i, Apx e (l.foldl (fun u j => Function.update u (pos j) (u (pos j) +. x j)) u i)
        (U i + (l.map fun j => if pos j = i then r j else 0).sum) (d + l.length * (K * c))
  | [], _, u, U, d, hu, _, _, _, i => by simpa using hu i
  | a :: l, h, u, U, d, hu, hd, hB, hsm, i => by
    obtain ⟨h1, h3⟩ := h a List.mem_cons_self
    have hK1 := k.K1
    have he := k.e0
    have hKc : 0 ≤ K * c := by positivity
    have hl : (0 : ℝ) ≤ (l.length : ℝ) := Nat.cast_nonneg _
    have hb0 : 0 ≤ b := (abs_nonneg _).trans h3
    have hlen : ((a :: l).length : ℝ) = l.length + 1 := by simp
    rw [hlen] at hB hsm ⊢
    have hlb : 0 ≤ l.length * b := by positivity
    have hlk : 0 ≤ l.length * (K * c) := by positivity
    have step : ∀ i, Apx e (Function.update u (pos a) (u (pos a) +. x a) i)
        (Function.update U (pos a) (U (pos a) + r a) i) (d + K * c) := by
      intro i
      by_cases hi : i = pos a
      · subst hi
        rw [Function.update_self, Function.update_self]
        refine k.add_drift P (hu _) h1 hc hd ?_ ?_
        · have := abs_add_le (U (pos a)) (r a)
          linarith [hB (pos a)]
        · refine le_trans (mul_le_mul_of_nonneg_right ?_ he.le) hsm
          have : K * d ≤ K * (d + (l.length + 1) * (K * c)) :=
            mul_le_mul_of_nonneg_left (by nlinarith) (by linarith)
          linarith
      · rw [Function.update_of_ne hi, Function.update_of_ne hi]
        exact (hu i).mono he.le (by linarith)
    have ih := fold_terms pos hc l (fun j hj => h j (List.mem_cons_of_mem _ hj)) _ _ _ step (by linarith) (by
        intro i
        by_cases hi : i = pos a
        · subst hi
          rw [Function.update_self]
          have := abs_add_le (U (pos a)) (r a)
          linarith [hB (pos a)]
        · rw [Function.update_of_ne hi]
          have := hB i
          linarith) (by
        refine le_trans (le_of_eq ?_) hsm
        ring) i
    rw [List.foldl_cons, List.map_cons, List.sum_cons]
    have e2 : d + (l.length + 1) * (K * c) = d + K * c + l.length * (K * c) := by ring
    rw [e2]
    have e3 : U i + ((if pos a = i then r a else 0) + (l.map fun j => if pos j = i then r j else 0).sum) =
        Function.update U (pos a) (U (pos a) + r a) i + (l.map fun j => if pos j = i then r j else 0).sum := by
      by_cases hi : pos a = i
      · subst hi; rw [Function.update_self, if_pos rfl]; ring
      · rw [Function.update_of_ne (Ne.symm hi), if_neg hi]; ring
    rw [e3]
    exact ih

end Consts

/-! ## What finite results say about the operands -/

section
variable {F : Type} [Scalar F] [LawfulCmp F] {e : ℝ}

theorem nonneg_of_den {x : F} {r : ℝ} (h : Den x r) (hr : 0 ≤ r) : NonNeg x := by
  intro k hk
  rw [show LawfulCmp.key x = _ from h] at hk
  injection hk with hk
  rw [← hk]
  exact_mod_cast hr

theorem Spec.NonNeg.den {x : F} {r : ℝ} (h : NonNeg x) (hr : Den x r) : 0 ≤ r := by
  have := h _ hr
  exact_mod_cast this

theorem nonneg_zero : NonNeg (zero : F) := nonneg_of_den den_zero le_rfl

theorem iterSum_nonneg (S : Propagates F) : ∀ (l : List F) (acc : F), NonNeg acc → (∀ x ∈ l, NonNeg x) →
    NonNeg (l.foldl Scalar.add acc)
  | [], _, h, _ => h
  | x :: l, _, h, hl => iterSum_nonneg S l _ (S.add_nonneg _ _ h (hl x List.mem_cons_self))
      fun y hy => hl y (List.mem_cons_of_mem _ hy)

/-- A rounded sum of non-negative numbers bounds its terms. -/
theorem add_back (P : Precise F e) (S : Propagates F) (he : e ≤ 1 / 2) {x y : F} (hx : NonNeg x) (hy : NonNeg y) {t : ℝ}
    (h : Den (x +. y) t) : ∃ r s, Den x r ∧ Den y s ∧ 0 ≤ r ∧ 0 ≤ s ∧ r + s ≤ 2 * t := by
  obtain ⟨r, s, h1, h2⟩ := S.add_fin x y t h
  have hr := hx.den h1
  have hs := hy.den h2
  refine ⟨r, s, h1, h2, hr, hs, ?_⟩
  have h3 := (P.add x y r s h1 h2).2 t h
  rw [abs_of_nonneg (by linarith : 0 ≤ r + s)] at h3
  have h4 := (abs_le.mp h3).1
  nlinarith

/-- A rounded product of non-negative numbers bounds the product. -/
theorem mul_back (P : Precise F e) (S : Propagates F) (he : e ≤ 1 / 2) {x y : F} (hx : NonNeg x) (hy : NonNeg y) {t : ℝ}
    (h : Den (x *. y) t) : ∃ r s, Den x r ∧ Den y s ∧ 0 ≤ r ∧ 0 ≤ s ∧ r * s ≤ 2 * t + 1 := by
  obtain ⟨r, s, h1, h2⟩ := S.mul_fin x y t h
  have hr := hx.den h1
  have hs := hy.den h2
  refine ⟨r, s, h1, h2, hr, hs, ?_⟩
  have h3 := (P.mul x y r s h1 h2).2 t h
  have h5 : 0 ≤ r * s := mul_nonneg hr hs
  rw [abs_of_nonneg h5] at h3
  have h4 := (abs_le.mp h3).1
  have := P.pos
  nlinarith

/-- A finite sum of non-negative numbers bounds them. -/
theorem sum_back (P : Precise F e) (S : Propagates F) (he : e ≤ 1 / 2) :
    ∀ (l : List F) (acc : F), NonNeg acc → (∀ x ∈ l, NonNeg x) → ∀ t, Den (l.foldl Scalar.add acc) t →
      (∃ a, Den acc a ∧ a ≤ 2 ^ l.length * t) ∧ ∀ x ∈ l, ∃ r, Den x r ∧ r ≤ 2 ^ l.length * t
  | [], _, _, _, t, h => ⟨⟨t, h, by simp⟩, by simp⟩
  | x :: l, acc, ha, hl, t, h => by
    have hx := hl x List.mem_cons_self
    have hl' : ∀ y ∈ l, NonNeg y := fun y hy => hl y (List.mem_cons_of_mem _ hy)
    have hs := S.add_nonneg _ _ ha hx
    obtain ⟨⟨a, h1, h2⟩, h3⟩ := sum_back P S he l (acc +. x) hs hl' t h
    obtain ⟨r, s, k1, k2, k3, k4, k5⟩ := add_back P S he ha hx h1
    have ht : 0 ≤ 2 ^ l.length * t := (hs.den h1).trans h2
    have e1 : (2 : ℝ) ^ (x :: l).length * t = 2 * (2 ^ l.length * t) := by
      rw [List.length_cons, pow_succ]; ring
    rw [e1]
    refine ⟨⟨r, k1, by linarith⟩, fun y hy => ?_⟩
    rcases List.mem_cons.mp hy with rfl | hy
    · exact ⟨s, k2, by linarith⟩
    · obtain ⟨r', h5, h6⟩ := h3 y hy
      exact ⟨r', h5, by linarith⟩

/-- A finite `ℓ₁` norm bounds the entries. -/
theorem l1_back (P : Precise F e) (S : Propagates F) (he : e ≤ 1 / 2) (w : Fin p → F) {t : ℝ}
    (h : Den (iterSum ((List.ofFn w).map Scalar.abs)) t) :
    0 ≤ t ∧ ∃ v : Fin p → ℝ, (∀ j, Den (w j) (v j)) ∧ ∀ j, |v j| ≤ 2 ^ p * t := by
  have hnn : ∀ x ∈ (List.ofFn w).map Scalar.abs, NonNeg x := by
    intro x hx
    obtain ⟨y, -, rfl⟩ := List.mem_map.mp hx
    exact S.abs_nonneg y
  have h1 := sum_back P S he _ _ nonneg_zero hnn t h
  have h2 : ∀ j, ∃ v, Den (w j) v ∧ |v| ≤ 2 ^ p * t := by
    intro j
    obtain ⟨r, h3, h4⟩ := h1.2 (Scalar.abs (w j)) (List.mem_map.mpr ⟨w j, List.mem_ofFn.mpr ⟨j, rfl⟩, rfl⟩)
    obtain ⟨v, hv⟩ := S.abs_fin _ _ h3
    refine ⟨v, hv, ?_⟩
    rw [(P.abs _ _ hv).unique h3]
    simpa using h4
  choose v h3 h4 using h2
  exact ⟨(iterSum_nonneg S _ _ nonneg_zero hnn).den h, v, h3, h4⟩

end

/-! ## Contract -/

/-- Values of the objective in floating point. -/
structure PenVal {F P : Type} [Scalar F] [LawfulCmp F] [Penalty F P] (p : ℕ) (e m Bv C : ℝ) (pn : P) (φ : ℝ → ℝ) : Prop where
  nonneg : ∀ w : Fin p → F, Ok (Penalty.value pn (List.ofFn w)) NonNeg
  val : ∀ (w : Fin p → F) (v : Fin p → ℝ), (∀ j, Den (w j) (v j)) → (∀ j, |v j| ≤ Bv) →
    Ok (Penalty.value pn (List.ofFn w)) (fun x => Apx e x (∑ j, φ (v j)) C)
  back : ∀ w : Fin p → F, Ok (Penalty.value pn (List.ofFn w)) (fun x => ∀ t, Den x t → t ≤ m →
    ∃ v : Fin p → ℝ, (∀ j, Den (w j) (v j)) ∧ ∀ j, |v j| ≤ Bv)

structure FitVal {F DM DF : Type} [Scalar F] [LawfulCmp F] [DesignMatrix F DM] [Datafit F DM DF] (e Bv Bu C : ℝ)
    (ds : Dataset DM F) (df : DF) (A : Fin n → Fin p → ℝ) (f : (Fin n → ℝ) → ℝ) : Prop where
  nonneg : ∀ u : Fin n → F, Ok (Datafit.value df ds (List.ofFn u)) NonNeg
  val : ∀ (u : Fin n → F) (U : Fin n → ℝ) d, 1 ≤ d → C * d * e ≤ 1 → (∀ i, |U i| ≤ Bu) → (∀ i, Apx e (u i) (U i) d) →
    Ok (Datafit.value df ds (List.ofFn u)) (fun x => Apx e x (f U) (C * d))
  extra : ∀ (l : List (Fin p)) (w : Fin p → F) (v : Fin p → ℝ), l.Nodup → (∀ j, Den (w j) (v j)) → (∀ j, |v j| ≤ Bv) →
    (∀ j ∉ l, v j = 0) → Ok (DesignMatrix.extrapolatedFit ds.designMatrix (l.map Fin.val) (List.ofFn w) n) (fun r =>
      ∃ u : Fin n → F, r = List.ofFn u ∧ ∀ i, Apx e (u i) (fit A v i) C)

section
variable {F : Type} [Scalar F] [LawfulCmp F] {e B K : ℝ}

/-- A stored positive number is at least half of it. -/
theorem stores_half {x : F} {r : ℝ} (hr : 0 < r) (h : Stores e x r) (he : 2 * (r + 1) / r * e ≤ 1) :
    ∃ t, Den x t ∧ r / 2 ≤ t := by
  obtain ⟨t, h1, h2⟩ := h.near
  refine ⟨t, h1, ?_⟩
  rw [abs_of_pos hr] at h2
  have h3 := (abs_le.mp h2).1
  rw [div_mul_eq_mul_div, div_le_one hr] at he
  linarith

theorem l1sum_apx {N : ℕ} (kk : Consts e B K N) (Pr : Precise F e) {Bv : ℝ} (hB : p * Bv ≤ B) (hs : (K * 1 + K * (p * (K * 1))) * e ≤ 1)
    (w : Fin p → F) (v : Fin p → ℝ) (hw : ∀ j, Den (w j) (v j)) (hv : ∀ j, |v j| ≤ Bv) :
    Apx e (iterSum ((List.ofFn w).map Scalar.abs)) (∑ j, |v j|) (p * (K * 1)) := by
  have h := kk.fsum Pr (x := fun j => Scalar.abs (w j)) (r := fun j => |v j|) (b := Bv) le_rfl (List.finRange p)
    (fun j _ => ⟨Den.apx kk.e0' (Pr.abs _ _ (hw j)) zero_le_one, by rw [abs_abs]; exact hv j⟩) zero 0 0 (Den.apx kk.e0' den_zero le_rfl)
    le_rfl (by simpa using hB) (by simpa using hs)
  unfold iterSum
  rw [List.map_ofFn, List.ofFn_eq_map, List.foldl_map]
  simpa [List.length_finRange, ← List.ofFn_eq_map, List.sum_ofFn] using h

theorem l1_val {α m Bv : ℝ} (hα : 0 < α) {a : F} (Pr : Precise F e) (S : Propagates F) (kk : Consts e B K 0) (hαB : α ≤ B)
    (hB : p * Bv ≤ B) (hBv : 2 ^ p * (2 * (2 * m + 1) / α) ≤ Bv) (ha : Stores e a α) {C : ℝ}
    (hC : K * (p * K + K + B + 1) + 2 * (α + 1) / α ≤ C) (hCe : C * e ≤ 1) :
    PenVal p e m Bv C (L1.mk a) (fun z => α * |z|) := by
  have he := Pr.pos
  have hK := kk.K1
  have hB1 := kk.B1
  have hp0 : (0 : ℝ) ≤ p := Nat.cast_nonneg p
  have hq : 0 < 2 * (α + 1) / α := by positivity
  have hc0 : 0 ≤ p * K + K + B + 1 := by positivity
  obtain ⟨a', ha1, ha2⟩ := stores_half hα ha (by
    refine le_trans (mul_le_mul_of_nonneg_right ?_ he.le) hCe
    have : 0 ≤ K * (p * K + K + B + 1) := by positivity
    linarith)
  have hce : K * (p * K + K + B + 1) * e ≤ 1 := le_trans (mul_le_mul_of_nonneg_right (by linarith) he.le) hCe
  have hpK : 0 ≤ p * K := by positivity
  have hep : e ≤ 1 / 2 := by
    have h1 : 2 * e ≤ K * (p * K + K + B + 1) * e := by
      refine mul_le_mul_of_nonneg_right ?_ he.le
      nlinarith
    linarith
  refine ⟨fun w => ?_, fun w v hw hv => ?_, fun w t ht htm => ?_⟩
  · show NonNeg (a *. iterSum ((List.ofFn w).map Scalar.abs))
    refine S.mul_nonneg _ _ (nonneg_of_den ha1 (by linarith)) (iterSum_nonneg S _ _ nonneg_zero fun x hx => ?_)
    obtain ⟨y, -, rfl⟩ := List.mem_map.mp hx
    exact S.abs_nonneg y
  · show Apx e (a *. iterSum ((List.ofFn w).map Scalar.abs)) (∑ j, α * |v j|) C
    have h1 := l1sum_apx kk Pr hB (by
      refine le_trans (mul_le_mul_of_nonneg_right ?_ he.le) hce
      nlinarith) w v hw hv
    have h2 : |(∑ j, |v j|)| ≤ B := (abs_sum_le_card _ Bv fun j => by rw [abs_abs]; exact hv j).trans hB
    have h3 := kk.mul Pr (ha.apx he.le (B := B) (by rw [abs_of_pos hα]; exact hαB) (c := p * K + K + B + 1) (by linarith))
      (h1.mono he.le (by linarith : p * (K * 1) ≤ p * K + K + B + 1)) (by linarith) (by rw [abs_of_pos hα]; exact hαB) h2 hce
    rw [Finset.mul_sum] at h3
    exact h3.mono he.le (by linarith)
  · have ht' : Den (a *. iterSum ((List.ofFn w).map Scalar.abs)) t := ht
    obtain ⟨r, s, h1, h2, h3, h4, h5⟩ := mul_back Pr S hep (nonneg_of_den ha1 (by linarith))
      (iterSum_nonneg S _ _ nonneg_zero fun x hx => by
        obtain ⟨y, -, rfl⟩ := List.mem_map.mp hx
        exact S.abs_nonneg y) ht'
    obtain ⟨-, v, h6, h7⟩ := l1_back Pr S hep w h2
    refine ⟨v, h6, fun j => (h7 j).trans (le_trans ?_ hBv)⟩
    refine mul_le_mul_of_nonneg_left ?_ (by positivity)
    rw [h1.unique ha1] at h5
    rw [le_div_iff₀ hα]
    nlinarith

theorem dot_apx {N : ℕ} (hN : p ≤ N) (kk : Consts e B K N) (Pr : Precise F e) (hs : K * 1 * e ≤ 1) (w : Fin p → F) (v : Fin p → ℝ)
    (hw : ∀ j, Den (w j) (v j)) (hv : ∀ j, |v j| ≤ B) :
    Apx e (Scalar.dot (List.ofFn w) (List.ofFn w)) (∑ j, v j * v j) (K * 1) :=
  kk.dot Pr hN (fun j => Den.apx kk.e0' (hw j) zero_le_one) (fun j => Den.apx kk.e0' (hw j) zero_le_one) le_rfl hv hv hs

/-- Magnitudes for the value of the elastic net. -/
theorem enet_mags {Bv ρ : ℝ} (hBv : 1 ≤ Bv) (hρ0 : 0 ≤ ρ) (hρ1 : ρ ≤ 1) (hB : 2 * ((p + 1) * Bv ^ 2) ≤ B) (v : Fin p → ℝ)
    (hv : ∀ j, |v j| ≤ Bv) : 2 ≤ B ∧ Bv ≤ B ∧ p * Bv ≤ B ∧ |∑ j, (|v j|)| ≤ B ∧ |∑ j, v j * v j| ≤ B ∧
      |ρ * (∑ j, |v j|)| ≤ B ∧ |ρ * (∑ j, |v j|) + 1 / 2 * (1 - ρ) * ∑ j, v j * v j| ≤ B := by
  have hp0 : (0 : ℝ) ≤ p := Nat.cast_nonneg p
  have h2 : Bv ≤ Bv ^ 2 := by nlinarith
  have h1 : 1 ≤ Bv ^ 2 := by linarith
  have h3 : 0 ≤ p * Bv ^ 2 := by positivity
  have h4 : p * Bv ≤ p * Bv ^ 2 := mul_le_mul_of_nonneg_left h2 hp0
  have a1 : |∑ j, (|v j|)| ≤ p * Bv := abs_sum_le_card _ Bv fun j => by rw [abs_abs]; exact hv j
  have a2 : |∑ j, v j * v j| ≤ p * Bv ^ 2 := abs_sum_le_card _ _ fun j => abs_mul_le (hv j) (hv j)
  have a3 : |ρ * (∑ j, |v j|)| ≤ p * Bv := by
    rw [abs_mul, abs_of_nonneg hρ0]
    have := abs_nonneg (∑ j, |v j|)
    nlinarith
  have a4 : |1 / 2 * (1 - ρ) * ∑ j, v j * v j| ≤ p * Bv ^ 2 := by
    rw [abs_mul, abs_of_nonneg (by linarith : 0 ≤ 1 / 2 * (1 - ρ))]
    have := abs_nonneg (∑ j, v j * v j)
    nlinarith
  have a5 := abs_add_le (ρ * (∑ j, |v j|)) (1 / 2 * (1 - ρ) * ∑ j, v j * v j)
  refine ⟨by linarith, by linarith, by linarith, by linarith, by linarith, by linarith, by linarith⟩

theorem half_factor {z1 z3 q2 : ℝ} (he : 0 < e) (he2 : e ≤ 1 / 64) (h0 : 0 ≤ z1) (h1 : z1 ≤ 5 / 8) (o3 : |q2 - (1 - z1)| ≤ e * |1 - z1|)
    (o4 : |z3 - 1 / 2 * q2| ≤ e * (|1 / 2 * q2| + 1)) : 1 / 8 ≤ z3 := by
  rw [abs_of_nonneg (by linarith : 0 ≤ 1 - z1)] at o3
  have o5 := abs_le.mp o3
  have h5 : e * (1 - z1) ≤ 1 / 64 * (1 - z1) := mul_le_mul_of_nonneg_right he2 (by linarith)
  have hq2 : 5 / 16 ≤ q2 := by linarith
  have hq3 : q2 ≤ 9 / 8 := by linarith
  rw [abs_of_nonneg (by linarith : 0 ≤ 1 / 2 * q2)] at o4
  have h6 : e * (1 / 2 * q2 + 1) ≤ 1 / 64 * (1 / 2 * q2 + 1) := mul_le_mul_of_nonneg_right he2 (by linarith)
  have o6 := abs_le.mp o4
  linarith

/-- A finite value of the elastic net bounds the coefficients. -/
theorem enet_back {α ρ m : ℝ} (hα : 0 < α) (Pr : Precise F e) (S : Propagates F) (hm : 0 ≤ m) {a r : F} {a' r' : ℝ}
    (ha : Den a a') (haα : α / 2 ≤ a') (hr : Den r r') (hr0 : 0 ≤ r') (hr1 : r' ≤ 1) (hrρ : |r' - ρ| ≤ 1 / 8) (he : 64 * (p + 1) * e ≤ 1)
    (w : Fin p → F) {t : ℝ}
    (ht : Den (a *. (r *. iterSum ((List.ofFn w).map Scalar.abs) +. lit 1 2 *. (one -. r) *. dot (List.ofFn w) (List.ofFn w))) t)
    (htm : t ≤ m) :
    ∃ v : Fin p → ℝ, (∀ j, Den (w j) (v j)) ∧ ∀ j, |v j| ≤ 2 ^ p * (8 * (4 * (2 * (2 * m + 1) / α) + 1)) + (64 * (4 * (2 * (2 * m + 1) / α) + 1) + 3) := by
  have hep := Pr.pos
  have hp0 : (0 : ℝ) ≤ p := Nat.cast_nonneg p
  have hpe : 0 ≤ p * e := by positivity
  have he2 : e ≤ 1 / 64 := by linarith
  have hS : NonNeg (iterSum ((List.ofFn w).map Scalar.abs)) := iterSum_nonneg S _ _ nonneg_zero fun x hx => by
    obtain ⟨y, -, rfl⟩ := List.mem_map.mp hx
    exact S.abs_nonneg y
  have hq0 : NonNeg (one -. r) := S.sub_nonneg _ _ _ _ Pr.one hr hr1
  have hh : NonNeg (lit 1 2 : F) := nonneg_of_den Pr.half (by norm_num)
  have hq : NonNeg (lit 1 2 *. (one -. r)) := S.mul_nonneg _ _ hh hq0
  have hrn : NonNeg r := nonneg_of_den hr hr0
  have hd := S.dot_nonneg (List.ofFn w)
  obtain ⟨x1, x2, h1, h2, h3, h4, h5⟩ := mul_back Pr S (by linarith) (nonneg_of_den ha (by linarith))
    (S.add_nonneg _ _ (S.mul_nonneg _ _ hrn hS) (S.mul_nonneg _ _ hq hd)) ht
  have hx1 := h1.unique ha
  subst hx1
  have hx2 : x2 ≤ 2 * (2 * m + 1) / α := by
    rw [le_div_iff₀ hα]; nlinarith
  have hM0 : 0 ≤ 2 * (2 * m + 1) / α := by positivity
  obtain ⟨M, hM⟩ : ∃ M, M = 2 * (2 * m + 1) / α := ⟨_, rfl⟩
  rw [← hM] at hx2 hM0 ⊢
  obtain ⟨y1, y2, k1, k2, k3, k4, k5⟩ := add_back Pr S (by linarith) (S.mul_nonneg _ _ hrn hS) (S.mul_nonneg _ _ hq hd) h2
  obtain ⟨z1, z2, l1, l2, l3, l4, l5⟩ := mul_back Pr S (by linarith) hrn hS k1
  obtain ⟨z3, z4, n1, n2, n3, n4, n5⟩ := mul_back Pr S (by linarith) hq hd k2
  have hz1 := l1.unique hr
  subst hz1
  obtain ⟨hz0, v, hv1, hv2⟩ := l1_back Pr S (by linarith) w l2
  refine ⟨v, hv1, fun j => ?_⟩
  have hpow : (0 : ℝ) < 2 ^ p := by positivity
  have hbig : 0 ≤ 2 ^ p * (8 * (4 * M + 1)) := by positivity
  have hr2 := abs_le.mp hrρ
  by_cases hρ : 1 / 2 ≤ ρ
  · have hz2 : z2 ≤ 8 * (4 * M + 1) := by
      have := mul_le_mul_of_nonneg_right (by linarith : 1 / 4 ≤ z1) l4
      linarith
    have := mul_le_mul_of_nonneg_left hz2 hpow.le
    have := hv2 j
    linarith
  · have hρ' : z1 ≤ 5 / 8 := by linarith
    -- the factor of the squared norm
    have hz3 : 1 / 8 ≤ z3 := by
      obtain ⟨q1, q2, o1, o2, -, -, -⟩ := mul_back Pr S (by linarith) hh hq0 n1
      have o3 := (Pr.sub _ _ _ _ Pr.one l1).2 _ o2
      have o4 := (Pr.mul _ _ _ _ o1 o2).2 _ n1
      rw [o1.unique Pr.half] at o4
      exact half_factor hep he2 hr0 hρ' o3 o4
    have hz4 : z4 ≤ 8 * (4 * M + 1) := by
      have := mul_le_mul_of_nonneg_right hz3 n4
      linarith
    have hdot := (Pr.dot p w w v v hv1 hv1 (by linarith)).2 z4 n2
    have habs : ∀ i, |v i * v i| = v i * v i := fun i => abs_of_nonneg (mul_self_nonneg _)
    simp only [habs] at hdot
    have hss : 0 ≤ ∑ i, v i * v i := Finset.sum_nonneg fun i _ => mul_self_nonneg _
    have hd2 := (abs_le.mp hdot).1
    have hpe2 : p * e ≤ 1 / 8 := by linarith
    have hsum : ∑ i, v i * v i ≤ 2 * z4 + 1 := by
      have := mul_le_mul_of_nonneg_right hpe2 (by linarith : 0 ≤ ∑ i, v i * v i + 1)
      linarith
    have hj : v j * v j ≤ ∑ i, v i * v i := Finset.single_le_sum (f := fun i => v i * v i) (fun i _ => mul_self_nonneg _) (Finset.mem_univ j)
    have hvj : |v j| ≤ 1 + v j * v j := by
      rw [← abs_mul_abs_self]
      nlinarith [sq_nonneg (|v j| - 1 / 2)]
    linarith

theorem enet_val {α ρ m Bv : ℝ} (hα : 0 < α) (hρ0 : 0 ≤ ρ) (hρ1 : ρ ≤ 1) (hm : 0 ≤ m) {a r : F} (Pr : Precise F e) (S : Propagates F)
    (kk : Consts e B K p) (hαB : α ≤ B) (hBv1 : 1 ≤ Bv) (hB : 2 * ((p + 1) * Bv ^ 2) ≤ B)
    (hBv : 2 ^ p * (8 * (4 * (2 * (2 * m + 1) / α) + 1)) + (64 * (4 * (2 * (2 * m + 1) / α) + 1) + 3) ≤ Bv) (ha : Stores e a α)
    (hr : Stores e r ρ) (hr' : ∃ t, Den r t ∧ 0 ≤ t ∧ t ≤ 1) {C c : ℝ} (hc : c = p * K + K + B + 2)
    (hC : K * (K * (K * (K * (K * c)))) + 2 * (α + 1) / α + 64 * (p + 1) ≤ C) (hCe : C * e ≤ 1) :
    PenVal p e m Bv C (L1PlusL2.mk a r) (Spec.enet α ρ) := by
  have he := Pr.pos
  have hK := kk.K1
  have hB1 := kk.B1
  have hp0 : (0 : ℝ) ≤ p := Nat.cast_nonneg p
  have hpK : 0 ≤ p * K := by positivity
  have hc1 : 1 ≤ c := by rw [hc]; linarith
  have hq : 0 < 2 * (α + 1) / α := by positivity
  have c1 := one_le_mul_of_one_le_of_one_le hK hc1
  have c2 := one_le_mul_of_one_le_of_one_le hK c1
  have c3 := one_le_mul_of_one_le_of_one_le hK c2
  have c4 := one_le_mul_of_one_le_of_one_le hK c3
  have g : ∀ {z : ℝ}, 1 ≤ z → z ≤ K * z := fun hz => le_mul_of_one_le_left (by linarith) hK
  have c5 := g c4
  obtain ⟨a', ha1, ha2⟩ := stores_half hα ha (by
    refine le_trans (mul_le_mul_of_nonneg_right ?_ he.le) hCe
    linarith)
  have s5 : K * (K * (K * (K * (K * c)))) * e ≤ 1 := le_trans (mul_le_mul_of_nonneg_right (by linarith) he.le) hCe
  have s4 : K * (K * (K * (K * c))) * e ≤ 1 := le_trans (mul_le_mul_of_nonneg_right (g c4) he.le) s5
  have s3 : K * (K * (K * c)) * e ≤ 1 := le_trans (mul_le_mul_of_nonneg_right (g c3) he.le) s4
  have s2 : K * (K * c) * e ≤ 1 := le_trans (mul_le_mul_of_nonneg_right (g c2) he.le) s3
  have s1 : K * c * e ≤ 1 := le_trans (mul_le_mul_of_nonneg_right (g c1) he.le) s2
  have hpe : 64 * (p + 1) * e ≤ 1 := le_trans (mul_le_mul_of_nonneg_right (by linarith) he.le) hCe
  have hpe0 : 0 ≤ p * e := by positivity
  obtain ⟨r', hr1, hr2, hr3⟩ := hr'
  have hrρ : |r' - ρ| ≤ 1 / 8 := by
    obtain ⟨t, ht1, ht2⟩ := hr.near
    rw [hr1.unique ht1]
    rw [abs_of_nonneg hρ0] at ht2
    refine ht2.trans ?_
    nlinarith
  have hS : ∀ w : Fin p → F, NonNeg (iterSum ((List.ofFn w).map Scalar.abs)) := fun w => iterSum_nonneg S _ _ nonneg_zero fun x hx => by
    obtain ⟨y, -, rfl⟩ := List.mem_map.mp hx
    exact S.abs_nonneg y
  refine ⟨fun w => ?_, fun w v hw hv => ?_, fun w t ht htm => ?_⟩
  · show NonNeg (a *. (r *. iterSum ((List.ofFn w).map Scalar.abs) +. lit 1 2 *. (one -. r) *. dot (List.ofFn w) (List.ofFn w)))
    refine S.mul_nonneg _ _ (nonneg_of_den ha1 (by linarith)) (S.add_nonneg _ _ (S.mul_nonneg _ _ (nonneg_of_den hr1 hr2) (hS w))
      (S.mul_nonneg _ _ (S.mul_nonneg _ _ (nonneg_of_den Pr.half (by norm_num)) (S.sub_nonneg _ _ _ _ Pr.one hr1 hr3)) (S.dot_nonneg _)))
  · show Apx e (a *. (r *. iterSum ((List.ofFn w).map Scalar.abs) +. lit 1 2 *. (one -. r) *. dot (List.ofFn w) (List.ofFn w)))
      (∑ j, Spec.enet α ρ (v j)) C
    obtain ⟨m0, m1, m2, m3, m4, m5, m6⟩ := enet_mags hBv1 hρ0 hρ1 hB v hv
    have hcK : K ≤ K * c := le_mul_of_one_le_right (by linarith) hc1
    have t1 := l1sum_apx kk Pr m2 (by
      refine le_trans (mul_le_mul_of_nonneg_right ?_ he.le) s1
      have : K * (p * K) ≤ K * (c - 1) := mul_le_mul_of_nonneg_left (by rw [hc]; linarith) (by linarith)
      linarith) w v hw hv
    have t2 : Apx e r ρ c := hr.apx he.le (B := B) (by rw [abs_of_nonneg hρ0]; linarith) (by rw [hc]; linarith)
    have t3 := kk.mul Pr t2 (t1.mono he.le (by rw [hc]; linarith)) hc1 (by rw [abs_of_nonneg hρ0]; linarith) m3 s1
    have t4 := kk.sub Pr (Den.apx he.le Pr.one (by linarith)) t2 hc1 (by rw [abs_of_nonneg (by linarith)]; linarith) s1
    have t5 := kk.mul Pr (Den.apx he.le Pr.half (by linarith)) t4 c1 (by rw [abs_of_nonneg (by norm_num)]; linarith)
      (by rw [abs_of_nonneg (by linarith)]; linarith) s2
    have t6 := dot_apx le_rfl kk Pr (le_trans (mul_le_mul_of_nonneg_right (by linarith) he.le) s1) w v hw fun j => (hv j).trans m1
    have t7 := kk.mul Pr t5 (t6.mono he.le (by linarith [g c1])) c2 (by rw [abs_of_nonneg (by linarith)]; linarith) m4 s3
    have t8 := kk.add Pr (t3.mono he.le (by linarith [g c1, g c2])) t7 c3 m6 s4
    have t9 := kk.mul Pr (ha.apx he.le (B := B) (by rw [abs_of_pos hα]; exact hαB) (c := K * (K * (K * (K * c)))) (by
      have : B + 1 ≤ c := by rw [hc]; linarith
      linarith [g hc1, g c1, g c2, g c3])) t8 c4 (by rw [abs_of_pos hα]; exact hαB) m6 s5
    have e1 : ∑ j, Spec.enet α ρ (v j) = α * (ρ * (∑ j, |v j|) + 1 / 2 * (1 - ρ) * ∑ j, v j * v j) := by
      unfold Spec.enet
      rw [← Finset.mul_sum, Finset.sum_add_distrib, Finset.mul_sum, Finset.mul_sum]
      congr 2
      refine Finset.sum_congr rfl fun j _ => ?_
      rw [Real.norm_eq_abs, sq_abs]; ring
    rw [e1]
    exact t9.mono he.le (by linarith)
  · obtain ⟨v, h1, h2⟩ := enet_back hα Pr S hm ha1 ha2 hr1 hr2 hr3 hrρ (by linarith) w
      (show Den (a *. (r *. iterSum ((List.ofFn w).map Scalar.abs) +. lit 1 2 *. (one -. r) *. dot (List.ofFn w) (List.ofFn w))) t from ht) htm
    exact ⟨v, h1, fun j => (h2 j).trans hBv⟩

end

end Sglm
