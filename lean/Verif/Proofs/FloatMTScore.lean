import Verif.Spec.MTCheck
import Verif.Proofs.FloatCheck
import Verif.Proofs.BSem

/-!
# Explicit error bounds for Euclidean norms and for the scores of the L21 penalty
-/

namespace Sglm
open Scalar Spec
variable {n p T : ℕ} {F : Type} [Scalar F] [LawfulCmp F] {e η : ℝ}

theorem sqrt_close {q ρ a b : ℝ} (hρ : 0 ≤ ρ) (ha : 0 ≤ a) (ha1 : a ≤ 1) (hb : 0 ≤ b) (h : |q - ρ ^ 2| ≤ a * ρ ^ 2 + b ^ 2) :
    |Real.sqrt q - ρ| ≤ a * ρ + b := by
  rw [abs_le] at h ⊢
  have haρ : 0 ≤ a * ρ := mul_nonneg ha hρ
  constructor
  · by_cases hc : (1 - a) * ρ - b ≤ 0
    · linarith [Real.sqrt_nonneg q]
    · push Not at hc
      have h1 : ((1 - a) * ρ - b) ^ 2 ≤ q := by
        have h2 : (1 - a) ^ 2 * ρ ^ 2 ≤ (1 - a) * ρ ^ 2 := by
          refine mul_le_mul_of_nonneg_right ?_ (sq_nonneg ρ)
          nlinarith
        have h3 : b * b ≤ (1 - a) * ρ * b := mul_le_mul_of_nonneg_right (by linarith) hb
        nlinarith
      have := Real.le_sqrt_of_sq_le h1
      linarith
  · have h1 : q ≤ ((1 + a) * ρ + b) ^ 2 := by
      have h2 : (1 + a) * ρ ^ 2 ≤ (1 + a) ^ 2 * ρ ^ 2 := by
        refine mul_le_mul_of_nonneg_right ?_ (sq_nonneg ρ)
        nlinarith
      have h3 : 0 ≤ (1 + a) * ρ * b := by positivity
      nlinarith
    have := Real.sqrt_le_sqrt h1
    rw [Real.sqrt_sq (by positivity)] at this
    linarith

omit [Scalar F] [LawfulCmp F] in
theorem euc_sq (r : Fin T → ℝ) : ‖(WithLp.toLp 2 r : Euc T)‖ ^ 2 = ∑ t, r t * r t := by
  rw [EuclideanSpace.norm_sq_eq]
  exact Finset.sum_congr rfl fun t _ => by rw [Real.norm_eq_abs, sq_abs, pow_two]

theorem euc_le_sum (r : Fin T → ℝ) : ‖(WithLp.toLp 2 r : Euc T)‖ ≤ ∑ t, |r t| := by
  refine abs_le_of_sq_le_sq' ?_ (Finset.sum_nonneg fun t _ => abs_nonneg _) |>.2
  rw [euc_sq, pow_two, Finset.sum_mul]
  refine Finset.sum_le_sum fun t _ => ?_
  rw [← abs_mul_abs_self]
  exact mul_le_mul_of_nonneg_left (Finset.single_le_sum (f := fun t => |r t|) (fun t _ => abs_nonneg _) (Finset.mem_univ t)) (abs_nonneg _)

theorem abs_le_euc (V : Euc T) (t : Fin T) : |V.ofLp t| ≤ ‖V‖ := by
  have := PiLp.norm_apply_le V t
  rwa [Real.norm_eq_abs] at this

/-- The square root of a computed sum of squares. -/
theorem sqrt_err (P : Precise F e) (L : PreciseNorm F e η) {x : F} {q ρ a b : ℝ} (hx : Den x q) (hq : 0 ≤ q) (hρ : 0 ≤ ρ) (ha : 0 ≤ a)
    (ha1 : 2 * a ≤ 1) (he : 16 * e ≤ 1) (hb : 0 ≤ b) (h : |q - ρ ^ 2| ≤ a * ρ ^ 2 + b ^ 2) :
    ∃ N, Den (Scalar.sqrt x) N ∧ |N - ρ| ≤ (a + 2 * e) * ρ + 2 * b := by
  have he0 := P.pos
  obtain ⟨N, h1, h2⟩ := L.sqrt x q hx hq
  have h3 := sqrt_close hρ ha (by linarith) hb h
  refine ⟨N, h1, ?_⟩
  have h4 := abs_le.mp h3
  have haρ : a * ρ ≤ 1 / 2 * ρ := mul_le_mul_of_nonneg_right (by linarith) hρ
  have h5 : Real.sqrt q ≤ 3 / 2 * ρ + b := by linarith
  have h6 := mul_le_mul_of_nonneg_left h5 he0.le
  have h7 : e * b ≤ 1 / 16 * b := mul_le_mul_of_nonneg_right (by linarith) hb
  have h8 : 0 ≤ e * ρ := mul_nonneg he0.le hρ
  have e1 : N - ρ = (N - Real.sqrt q) + (Real.sqrt q - ρ) := by ring
  rw [e1]
  refine (abs_add_le _ _).trans ?_
  linarith

/-- The computed norm of a vector. -/
theorem norm2_err (P : Precise F e) (L : PreciseNorm F e η) (x : Fin T → F) (r : Fin T → ℝ) (hx : ∀ t, Den (x t) (r t))
    (hT : 8 * (T * e) ≤ 1) (he : 16 * e ≤ 1) (hr : ‖(WithLp.toLp 2 r : Euc T)‖ ^ 2 ≤ 1 / η) {b : ℝ} (hb : 0 ≤ b) (hb2 : T * η ≤ b ^ 2) :
    ∃ N, Den (norm2 (List.ofFn x)) N ∧
      |N - ‖(WithLp.toLp 2 r : Euc T)‖| ≤ (T + 2) * e * ‖(WithLp.toLp 2 r : Euc T)‖ + 2 * b := by
  have he0 := P.pos
  have hT0 : (0 : ℝ) ≤ T * e := mul_nonneg (Nat.cast_nonneg T) he0.le
  obtain ⟨h1, h2⟩ := L.dot T x x r r hx hx (by linarith)
  have e1 : ∑ t, |r t * r t| = ∑ t, r t * r t := Finset.sum_congr rfl fun t _ => abs_mul_self _
  rw [e1, ← euc_sq] at h1 h2
  obtain ⟨q, hq⟩ := h1 hr
  have hq0 : 0 ≤ q := by
    have := L.dot_nonneg (List.ofFn x) _ hq
    exact_mod_cast this
  obtain ⟨N, h3, h4⟩ := sqrt_err P L hq hq0 (norm_nonneg _) hT0 (by linarith) he hb ((h2 q hq).trans (by
    rw [mul_add, ← mul_assoc]
    linarith))
  refine ⟨N, h3, h4.trans (le_of_eq ?_)⟩
  ring

/-- A sum of squares computed one after the other. -/
theorem foldSq_err (P : Precise F e) (L : PreciseNorm F e η) {ι : Type} (c : ι → F) (r : ι → ℝ) (he16 : 16 * e ≤ 1) :
    ∀ l : List ι, (∀ k ∈ l, Den (c k) (r k)) → 8 * (l.length * e) ≤ 1 → 4 * ((l.map fun k => r k * r k).sum + 1) * η ≤ 1 →
      ∃ q, Den (l.foldl (fun s k => s +. sq (c k)) zero) q ∧ 0 ≤ (l.map fun k => r k * r k).sum ∧
        |q - (l.map fun k => r k * r k).sum| ≤ 3 * (l.length * e) * (l.map fun k => r k * r k).sum + 2 * (l.length * η) := by
  intro l
  have he := P.pos
  have hη := L.pos
  have hηe : η ≤ e := L.small.trans (by
    have h1 : e ^ 4 = e * e ^ 3 := by ring
    rw [h1]
    exact mul_le_of_le_one_right he.le (pow_le_one₀ he.le (by linarith)))
  induction l using List.reverseRecOn with
  | nil => intro _ _ _; exact ⟨0, den_zero, by simp, by simp⟩
  | append_singleton l k ih =>
    intro hd hl hA
    rw [List.map_append, List.sum_append, List.map_singleton, List.sum_singleton] at hA
    rw [List.map_append, List.sum_append, List.map_singleton, List.sum_singleton, List.foldl_append]
    rw [List.length_append, List.length_singleton] at hl ⊢
    push_cast at hl ⊢
    have hk0 : 0 ≤ r k * r k := mul_self_nonneg _
    have hkη : 0 ≤ r k * r k * η := mul_nonneg hk0 hη.le
    obtain ⟨q, h1, h2, h3⟩ := ih (fun k hk => hd k (List.mem_append_left _ hk)) (by linarith) (by linarith)
    obtain ⟨A, hAe⟩ : ∃ A, A = (l.map fun k => r k * r k).sum := ⟨_, rfl⟩
    obtain ⟨m, hm⟩ : ∃ m : ℝ, m = l.length := ⟨_, rfl⟩
    obtain ⟨B, hB⟩ : ∃ B, B = r k * r k := ⟨_, rfl⟩
    have hm0 : 0 ≤ m := by rw [hm]; positivity
    rw [← hAe] at hA h2 h3 ⊢
    rw [← hm] at hl h3 ⊢
    rw [← hB] at hA hk0 hkη
    have hAη : 0 ≤ A * η := mul_nonneg h2 hη.le
    have hmul := L.mul _ _ _ _ (hd k (List.mem_append_right _ (List.mem_singleton.mpr rfl)))
      (hd k (List.mem_append_right _ (List.mem_singleton.mpr rfl)))
    rw [← hB, abs_of_nonneg hk0] at hmul
    obtain ⟨s, hs⟩ := hmul.1 (by rw [le_div_iff₀ hη]; linarith)
    have hs2 := hmul.2 s hs
    have hme : m * e ≤ 1 / 8 := by linarith
    have hmη : m * η ≤ m * e := mul_le_mul_of_nonneg_left hηe hm0
    have hme0 : 0 ≤ m * e := mul_nonneg hm0 he.le
    have hmη0 : 0 ≤ m * η := mul_nonneg hm0 hη.le
    have hmeA : m * e * A ≤ 1 / 8 * A := mul_le_mul_of_nonneg_right hme h2
    have heB : e * B ≤ 1 / 16 * B := mul_le_mul_of_nonneg_right (by linarith) hk0
    have hqb := abs_le_add_sub q A
    have hsb := abs_le_add_sub s B
    rw [abs_of_nonneg h2] at hqb
    rw [abs_of_nonneg hk0] at hsb
    have hqs : |q + s| ≤ 11 / 8 * A + 17 / 16 * B + 2 * (m * η) + η := by
      have := abs_add_le q s
      linarith
    obtain ⟨t, ht⟩ := L.add _ _ _ _ h1 hs (by
      rw [le_div_iff₀ hη]
      have := mul_le_mul_of_nonneg_right (hqs.trans (by linarith : _ ≤ 2 * (A + B + 1))) hη.le
      linarith)
    have ht2 := (P.add _ _ _ _ h1 hs).2 t ht
    refine ⟨t, ht, by linarith, ?_⟩
    have h5 := mul_le_mul_of_nonneg_left hqs he.le
    have h6 : e * (m * η) ≤ 1 / 8 * η := by
      have := mul_le_mul_of_nonneg_right hme hη.le
      linarith
    have h7 : e * η ≤ 1 / 16 * η := mul_le_mul_of_nonneg_right (by linarith) hη.le
    have heA0 : 0 ≤ e * A := mul_nonneg he.le h2
    have heB0 : 0 ≤ e * B := mul_nonneg he.le hk0
    have hmeB0 : 0 ≤ m * e * B := mul_nonneg hme0 hk0
    rw [← hB]
    have e1 : t - (A + B) = (t - (q + s)) + (q - A) + (s - B) := by ring
    rw [e1]
    refine (abs_add_le _ _).trans ((add_le_add (abs_add_le _ _) le_rfl).trans ?_)
    linarith

theorem foldSq_nonneg (L : PreciseNorm F e η) {ι : Type} (c : ι → F) :
    ∀ l : List ι, NonNeg (l.foldl (fun s k => s +. sq (c k)) zero) := by
  intro l
  induction l using List.reverseRecOn with
  | nil =>
    intro k hk
    have h : LawfulCmp.key (zero : F) = some ((0 : ℝ) : EReal) := den_zero
    change LawfulCmp.key (zero : F) = some k at hk
    rw [h] at hk
    rw [← Option.some.inj hk]
    exact le_rfl
  | append_singleton l k ih =>
    rw [List.foldl_append]
    exact L.add_nonneg _ _ ih (L.sq_nonneg _)

/-- One term of the score of a nonzero row. -/
theorem l21_term (P : Precise F e) (L : PreciseNorm F e η) {w g N a : F} {v t ν ρ α k : ℝ} (hw : Den w v) (hg : Den g t) (hN : Den N ν)
    (ha : Den a α) (hα : 0 ≤ α) (hρ : 0 < ρ) (hv : |v| ≤ ρ) (hk : 0 ≤ k) (hNe : |ν - ρ| ≤ k * e * ρ) (hke : 8 * (k * e) ≤ 1)
    (he16 : 16 * e ≤ 1) (hηρ : η ≤ e * ρ) (hm : α * ρ * η ≤ 1) (hs : 4 * ((|t| + α + 1) * e) ≤ 1) :
    ∃ c, Den (g +. a *. w /. N) c ∧ |c - (t + α / ρ * v)| ≤ e * (|t| + (α + 1) * (2 * k + 7)) := by
  have he := P.pos
  have hη := L.pos
  have ht0 := abs_nonneg t
  have h1e : ∀ q b : ℝ, |q| ≤ b → b * e ≤ 1 → |q| ≤ 1 / e := fun q b h1 h2 => by
    rw [le_div_iff₀ he]; exact (mul_le_mul_of_nonneg_right h1 he.le).trans h2
  have hav : |α * v| ≤ α * ρ := by
    rw [abs_mul, abs_of_nonneg hα]
    exact mul_le_mul_of_nonneg_left hv hα
  have hmul := L.mul _ _ _ _ ha hw
  obtain ⟨m, hm1⟩ := hmul.1 (by
    rw [le_div_iff₀ hη]
    exact (mul_le_mul_of_nonneg_right hav hη.le).trans hm)
  have hm2 : |m - α * v| ≤ e * (α + 1) * ρ := (hmul.2 m hm1).trans (by
    have := mul_le_mul_of_nonneg_left hav he.le
    linarith)
  have hν := abs_le.mp hNe
  have hkρ : k * e * ρ ≤ 1 / 8 * ρ := mul_le_mul_of_nonneg_right (by linarith) hρ.le
  have hν1 : 7 / 8 * ρ ≤ ν := by linarith
  have hν0 : 0 < ν := by linarith
  have hα1 : 0 ≤ e * (α + 1) := mul_nonneg he.le (by linarith)
  have hke0 : 0 ≤ k * e := mul_nonneg hk he.le
  have hkα : 0 ≤ k * e * (α + 1) := mul_nonneg hke0 (by linarith)
  have hkα' : k * e * (α + 1) ≤ 1 / 8 * (α + 1) := mul_le_mul_of_nonneg_right (by linarith) (by linarith)
  have heα' : e * (α + 1) ≤ 1 / 16 * (α + 1) := mul_le_mul_of_nonneg_right (by linarith) (by linarith)
  have hq : |m / ν - α / ρ * v| ≤ 2 * (e * (α + 1)) + 2 * (k * e * (α + 1)) := by
    have e1 : m / ν - α / ρ * v = (m - α * v) / ν + α * v * (ρ - ν) / (ν * ρ) := by
      field_simp
      ring
    rw [e1]
    have b1 : |(m - α * v) / ν| ≤ 2 * (e * (α + 1)) := by
      rw [abs_div, abs_of_pos hν0, div_le_iff₀ hν0]
      have := mul_le_mul_of_nonneg_left hν1 hα1
      have := mul_nonneg hα1 hρ.le
      linarith
    have b2 : |α * v * (ρ - ν) / (ν * ρ)| ≤ 2 * (k * e * (α + 1)) := by
      rw [abs_div, abs_mul, abs_of_pos (mul_pos hν0 hρ), div_le_iff₀ (mul_pos hν0 hρ), abs_sub_comm ρ ν]
      have a1 := mul_le_mul hav hNe (abs_nonneg _) (mul_nonneg hα hρ.le)
      have a2 : α * ρ * (k * e * ρ) ≤ k * e * (α + 1) * (ρ * ρ) := by
        have := mul_nonneg hke0 (mul_nonneg hρ.le hρ.le)
        linarith
      have a3 := mul_le_mul_of_nonneg_left (mul_le_mul_of_nonneg_right hν1 hρ.le) hkα
      have := mul_nonneg hkα (mul_nonneg hρ.le hρ.le)
      linarith
    exact (abs_add_le _ _).trans (add_le_add b1 b2)
  have hαv : |α / ρ * v| ≤ α := by
    rw [abs_mul, abs_div, abs_of_nonneg hα, abs_of_pos hρ, div_mul_eq_mul_div, div_le_iff₀ hρ]
    exact mul_le_mul_of_nonneg_left hv hα
  have hqb : |m / ν| ≤ 2 * (α + 1) - 1 / 2 := by
    have := abs_le_add_sub (m / ν) (α / ρ * v)
    linarith
  have hte : 0 ≤ |t| * e := mul_nonneg ht0 he.le
  have hdiv := P.div _ _ _ _ hm1 hN hν0.ne'
  obtain ⟨Q, hQ⟩ := hdiv.1 (h1e _ (2 * (α + 1)) (by linarith) (by linarith))
  have hQ2 := hdiv.2 Q hQ
  have hQ3 : |Q - α / ρ * v| ≤ e * (α + 1) * (2 * k + 5) := by
    have a1 := mul_le_mul_of_nonneg_left (by linarith : |m / ν| + 1 ≤ 3 * (α + 1)) he.le
    have e1 : Q - α / ρ * v = (Q - m / ν) + (m / ν - α / ρ * v) := by ring
    rw [e1]
    refine (abs_add_le _ _).trans ?_
    linarith
  have hQb : |Q| ≤ 2 * (α + 1) := by
    have := abs_le_add_sub Q (α / ρ * v)
    linarith
  have hadd := P.add _ _ _ _ hg hQ
  have htQ : |t + Q| ≤ |t| + 2 * (α + 1) := (abs_add_le _ _).trans (by linarith)
  obtain ⟨c, hc⟩ := hadd.1 (h1e _ _ htQ (by linarith))
  refine ⟨c, hc, ?_⟩
  have hc2 := hadd.2 c hc
  have h3 := mul_le_mul_of_nonneg_left htQ he.le
  have e1 : c - (t + α / ρ * v) = (c - (t + Q)) + (Q - α / ρ * v) := by ring
  rw [e1]
  refine (abs_add_le _ _).trans ?_
  linarith

theorem anyNonzero_den {w : Fin T → F} {V : Euc T} (hw : ∀ t, Den (w t) (V.ofLp t)) : anyNonzero (List.ofFn w) = true ↔ V ≠ 0 := by
  unfold anyNonzero
  rw [List.any_eq_true]
  constructor
  · rintro ⟨q, hq, h⟩ rfl
    obtain ⟨t, rfl⟩ := List.mem_ofFn.mp hq
    have := (den_beq (hw t) den_zero).mpr rfl
    rw [this] at h
    cases h
  · intro h
    by_contra hc
    refine h ?_
    ext t
    by_contra h0
    refine hc ⟨w t, List.mem_ofFn.mpr ⟨t, rfl⟩, ?_⟩
    have : ¬ (w t ==. zero) = true := fun hb => h0 ((den_beq (hw t) den_zero).mp hb)
    simp only [this, Bool.not_false]

/-- **The score of a row.** -/
theorem l21_score_err (P : Precise F e) (L : PreciseNorm F e η) {a : F} {α : ℝ} (ha : Den a α) (hα : 0 ≤ α) (w : Fin T → F) (V : Euc T)
    (hw : ∀ t, Den (w t) (V.ofLp t)) (g : Fin T → F) (G : Euc T) (hg : ∀ t, Den (g t) (G.ofLp t)) (hT : 64 * ((T + 4) * e) ≤ 1)
    (hs : 8 * ((∑ t, |G.ofLp t| + (T + 1) * (α + 1)) * e) ≤ 1) (hrow : RowOK e η α V) :
    ∃ q, (L21.mk a).dist (List.ofFn w) (List.ofFn g) = .ok q ∧ ∃ κ, Den q κ ∧
      |κ - l21Score α V G| ≤ (8 * T + 24) * (e * (∑ t, |G.ofLp t| + (T + 1) * (α + 1))) := by
  have he := P.pos
  have hη := L.pos
  have hT0 : (0 : ℝ) ≤ T := Nat.cast_nonneg T
  have hTe : 0 ≤ T * e := mul_nonneg hT0 he.le
  have he16 : 16 * e ≤ 1 := by linarith
  obtain ⟨U, hU⟩ : ∃ U, U = ∑ t, |G.ofLp t| + (T + 1) * (α + 1) := ⟨_, rfl⟩
  rw [← hU] at hs ⊢
  have hG1 : ‖G‖ ≤ ∑ t, |G.ofLp t| := euc_le_sum G.ofLp
  have hG0 := norm_nonneg G
  have hTα : 0 ≤ T * (α + 1) := mul_nonneg hT0 (by linarith)
  have hU1 : 1 ≤ U := by linarith
  have hUe : 0 ≤ e * U := mul_nonneg he.le (by linarith)
  have hTUe : 0 ≤ T * (e * U) := mul_nonneg hT0 hUe
  have heU : e ≤ e * U := le_mul_of_one_le_right he.le hU1
  have hUe2 : (U * e) ^ 2 ≤ 1 / 64 := by
    have h1 : (U * e) ^ 2 ≤ (1 / 8) ^ 2 := pow_le_pow_left₀ (by linarith) (by linarith) 2
    linarith
  have he2 : 0 ≤ e ^ 2 := by positivity
  have he21 : e ^ 2 ≤ 1 / 256 := by
    have h1 : e ^ 2 ≤ (1 / 16) ^ 2 := pow_le_pow_left₀ he.le (by linarith) 2
    linarith
  have hη4 : η ≤ e ^ 2 * e ^ 2 := L.small.trans (le_of_eq (by ring))
  have hU2η : U ^ 2 * η ≤ 1 / 64 * (1 / 256) := by
    have h1 := mul_le_mul_of_nonneg_left hη4 (pow_two_nonneg U)
    have h2 : U ^ 2 * (e ^ 2 * e ^ 2) = (U * e) ^ 2 * e ^ 2 := by ring
    rw [h2] at h1
    exact h1.trans (mul_le_mul hUe2 he21 he2 (by norm_num))
  have hη1 : η ≤ e ^ 2 * (1 / 256) := hη4.trans (mul_le_mul_of_nonneg_left he21 he2)
  have hTη : 2 * (T * η) ≤ e ^ 2 := by
    have h1 : η ≤ e * e ^ 2 := hη4.trans (by
      have h2 : e ^ 2 ≤ e := by
        have : e ^ 2 = e * e := by ring
        rw [this]; exact mul_le_of_le_one_left he.le (by linarith)
      exact mul_le_mul_of_nonneg_right h2 he2)
    have h2 := mul_le_mul_of_nonneg_left h1 hT0
    have h3 := mul_le_mul_of_nonneg_right (by linarith : T * e ≤ 1 / 64) he2
    linarith
  unfold L21.dist l21Score
  by_cases h0 : V = 0
  · rw [if_neg (fun h => (anyNonzero_den hw).mp h h0), if_pos h0]
    have hGn : ‖(WithLp.toLp 2 G.ofLp : Euc T)‖ = ‖G‖ := rfl
    obtain ⟨N, h1, h2⟩ := norm2_err P L g G.ofLp hg (by linarith) he16 (by
      rw [hGn, le_div_iff₀ hη]
      have : ‖G‖ ^ 2 ≤ U ^ 2 := pow_le_pow_left₀ hG0 (by linarith) 2
      have := mul_le_mul_of_nonneg_right this hη.le
      linarith) he.le (by linarith [mul_nonneg hT0 hη.le])
    rw [hGn] at h2
    have hGU : ‖G‖ ≤ U := by linarith
    have hTG : (T + 2) * e * ‖G‖ ≤ (T + 2) * (e * U) := by
      have := mul_le_mul_of_nonneg_left hGU (by positivity : 0 ≤ (T + 2) * e)
      linarith
    have hTU : (T + 2) * (e * U) ≤ 1 / 64 * U := by
      have := mul_le_mul_of_nonneg_right (by linarith : (T + 2) * e ≤ 1 / 64) (by linarith : 0 ≤ U)
      linarith
    have hNb := abs_le_add_sub N ‖G‖
    rw [abs_of_nonneg hG0] at hNb
    have hNα : |N - α| ≤ 3 * U := (abs_sub _ _).trans (by rw [abs_of_nonneg hα]; linarith)
    have hsub := P.sub _ _ _ _ h1 ha
    obtain ⟨κ, hκ⟩ := hsub.1 (by
      rw [le_div_iff₀ he]
      have := mul_le_mul_of_nonneg_right hNα he.le
      linarith)
    have hκ2 := hsub.2 κ hκ
    refine ⟨_, rfl, _, den_fmax den_zero hκ, (abs_max_sub _ _).trans ?_⟩
    have h3 := mul_le_mul_of_nonneg_left hNα he.le
    have e1 : κ - (‖G‖ - α) = (κ - (N - α)) + (N - ‖G‖) := by ring
    rw [e1]
    refine (abs_add_le _ _).trans ?_
    linarith
  · rw [if_pos ((anyNonzero_den hw).mpr h0), if_neg h0]
    obtain ⟨hr1, hr2⟩ := hrow.resolve_left h0
    have hρ : 0 < ‖V‖ := norm_pos_iff.mpr h0
    obtain ⟨ρ, hρe⟩ : ∃ ρ, ρ = ‖V‖ := ⟨_, rfl⟩
    have hT1 : (1 : ℝ) ≤ T := by
      have : T ≠ 0 := by
        rintro rfl
        exact h0 (by ext t; exact t.elim0)
      exact_mod_cast Nat.one_le_iff_ne_zero.mpr this
    have hVn : ‖(WithLp.toLp 2 V.ofLp : Euc T)‖ = ‖V‖ := rfl
    rw [← hρe] at hr1 hr2 hρ
    have hρη : ρ ^ 2 * η ≤ (α + 1) * (ρ + 1) ^ 2 * η := by
      refine mul_le_mul_of_nonneg_right ?_ hη.le
      have h1 : ρ ^ 2 ≤ (ρ + 1) ^ 2 := pow_le_pow_left₀ hρ.le (by linarith) 2
      have h2 := mul_nonneg hα (pow_two_nonneg (ρ + 1))
      linarith
    have hαη : α * ρ * η ≤ (α + 1) * (ρ + 1) ^ 2 * η := by
      refine mul_le_mul_of_nonneg_right ?_ hη.le
      have h1 : ρ ≤ (ρ + 1) ^ 2 := by nlinarith
      have h2 := mul_le_mul_of_nonneg_left h1 hα
      have h3 := pow_two_nonneg (ρ + 1)
      linarith
    have hηρ : η ≤ e * ρ := by
      have h1 : η ≤ (e * ρ) ^ 2 := (le_mul_of_one_le_left hη.le hT1).trans hr1
      by_contra hc
      push Not at hc
      have h2 : (e * ρ) ^ 2 ≤ η * η := by
        have := mul_le_mul hc.le hc.le (mul_nonneg he.le hρ.le) hη.le
        linarith
      have h3 : η * η < η := mul_lt_of_lt_one_left hη (by linarith)
      linarith
    obtain ⟨N, h1, h2⟩ := norm2_err P L w V.ofLp hw (by linarith) he16 (by
      rw [hVn, le_div_iff₀ hη, ← hρe]
      linarith) (b := e * ρ) (mul_nonneg he.le hρ.le) hr1
    rw [hVn, ← hρe] at h2
    have hterm : ∀ t, ∃ c, Den (g t +. a *. w t /. norm2 (List.ofFn w)) c ∧
        |c - (G.ofLp t + α / ρ * V.ofLp t)| ≤ e * (|G.ofLp t| + (α + 1) * (2 * (T + 4) + 7)) := fun t => by
      refine l21_term P L (hw t) (hg t) h1 ha hα hρ (hρe ▸ abs_le_euc V t) (by linarith) (h2.trans (le_of_eq (by ring)))
        (by linarith) he16 hηρ (by linarith) ?_
      have := Finset.single_le_sum (f := fun t => |G.ofLp t|) (fun t _ => abs_nonneg _) (Finset.mem_univ t)
      have h3 := mul_le_mul_of_nonneg_right (by simp only at this; linarith : |G.ofLp t| + α + 1 ≤ U) he.le
      linarith
    choose c hc1 hc2 using hterm
    have hfold : ((List.ofFn g).zip (List.ofFn w)).foldl (fun s gw => s +. sq (gw.1 +. a *. gw.2 /. norm2 (List.ofFn w))) zero =
        (List.finRange T).foldl (fun s t => s +. sq (g t +. a *. w t /. norm2 (List.ofFn w))) zero := by
      rw [List.ofFn_eq_map, List.ofFn_eq_map, List.zip_map', List.foldl_map]
    simp only
    rw [hfold]
    have hsum : ((List.finRange T).map fun t => c t * c t).sum = ‖(WithLp.toLp 2 c : Euc T)‖ ^ 2 := by
      rw [euc_sq, ← List.ofFn_eq_map, List.sum_ofFn]
    have hck : ‖(WithLp.toLp 2 c : Euc T) - (G + (α / ρ) • V)‖ ≤ (2 * T + 15) * (e * U) := by
      refine (euc_le_sum fun t => c t - (G.ofLp t + α / ρ * V.ofLp t)).trans ?_
      refine (Finset.sum_le_sum fun t _ => hc2 t).trans ?_
      rw [← Finset.mul_sum, Finset.sum_add_distrib, Finset.sum_const, Finset.card_univ, Fintype.card_fin, nsmul_eq_mul]
      have h3 : ∑ t, |G.ofLp t| + T * ((α + 1) * (2 * (T + 4) + 7)) ≤ (2 * T + 15) * U := by
        have h5 : ∑ t, |G.ofLp t| ≤ U - T * (α + 1) := by linarith
        have h6 : 0 ≤ (2 * T + 14) * (U - T * (α + 1)) := mul_nonneg (by linarith) (by linarith [(Finset.sum_nonneg fun t _ => abs_nonneg _ : 0 ≤ ∑ t, |G.ofLp t|)])
        linarith
      have := mul_le_mul_of_nonneg_left h3 he.le
      linarith
    have hVρ : ‖(α / ρ) • V‖ = α := by
      rw [norm_smul, Real.norm_eq_abs, abs_of_nonneg (div_nonneg hα hρ.le), ← hρe, div_mul_cancel₀ _ hρ.ne']
    obtain ⟨C, hC⟩ : ∃ C, C = ‖(WithLp.toLp 2 c : Euc T)‖ := ⟨_, rfl⟩
    have hC0 : 0 ≤ C := hC ▸ norm_nonneg _
    have hCs : |C - ‖G + (α / ρ) • V‖| ≤ (2 * T + 15) * (e * U) := by
      rw [hC]
      exact (abs_norm_sub_norm_le _ _).trans hck
    have hTU : (2 * T + 15) * (e * U) ≤ 1 / 2 * U := by
      have := mul_le_mul_of_nonneg_right (by linarith : (2 * T + 15) * e ≤ 1 / 2) (by linarith : 0 ≤ U)
      linarith
    have hCU : C ≤ 2 * U := by
      have h3 := abs_le.mp hCs
      have h4 := norm_add_le G ((α / ρ) • V)
      rw [hVρ] at h4
      linarith
    obtain ⟨q, hq1, -, hq3⟩ := foldSq_err P L (fun t => g t +. a *. w t /. norm2 (List.ofFn w)) c he16 (List.finRange T)
      (fun t _ => hc1 t) (by rw [List.length_finRange]; linarith) (by
        rw [hsum, ← hC]
        have : C ^ 2 ≤ (2 * U) ^ 2 := pow_le_pow_left₀ hC0 hCU 2
        have := mul_le_mul_of_nonneg_right this hη.le
        linarith)
    rw [hsum, ← hC, List.length_finRange] at hq3
    have hq0 : 0 ≤ q := by
      have := foldSq_nonneg L (fun t => g t +. a *. w t /. norm2 (List.ofFn w)) (List.finRange T) _ hq1
      exact_mod_cast this
    obtain ⟨κ, hκ1, hκ2⟩ := sqrt_err P L hq1 hq0 hC0 (a := 3 * (T * e)) (b := e) (by linarith) (by linarith) he16 he.le (by linarith)
    refine ⟨_, rfl, κ, hκ1, ?_⟩
    rw [← hρe]
    have e1 : κ - ‖G + (α / ρ) • V‖ = (κ - C) + (C - ‖G + (α / ρ) • V‖) := by ring
    rw [e1]
    refine (abs_add_le _ _).trans ?_
    have h5 := mul_le_mul_of_nonneg_left hCU (by linarith : 0 ≤ 3 * (T * e) + 2 * e)
    linarith

end Sglm
