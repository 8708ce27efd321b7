import Verif.Proofs.Perturbed

/-!
# Runs of a loop whose parts are accurate up to `ρ`
-/

set_option linter.unusedSectionVars false

namespace Sglm
open Scalar Spec

section
variable {E : Type} [NormedAddCommGroup E] [InnerProductSpace ℝ E] {p : ℕ} {F S B : Type}

/-- The parts of a loop realise coordinate descent on `R` up to `ρ`.  `abs` is the real point of a state, `Inv k` holds
of states reached after `k` epochs and extrapolations, `plain` marks epochs without extrapolation and `c` bounds the
objective; working sets have at least `m₀` features.  `Out` holds of states whose scores are accurate, in particular of
those after an epoch without extrapolation. -/
structure Pert (sk : Skel F S B) (R : RProb E p) (Sd : E → Set E) (ρ τ c : ℝ) (T m₀ : ℕ) (plain : ℕ → Prop)
    (abs : S → Fin p → E) (Inv : ℕ → S → Prop) (Out : S → Prop) (BInv : List (Fin p) → B → Prop) : Prop where
  zero : ∀ k s, k ≤ T → Inv k s → ∀ j, R.L j = 0 → abs s j = 0
  lev : ∀ k s, k ≤ T → Inv k s → R.F (abs s) ≤ c
  viol : ∀ k s, k ≤ T → Inv k s → Out s → Tri (fun _ => False) (sk.viol s) (fun r =>
    (sk.done r.2 = true → ∀ j, R.sc (abs s j) (R.G (abs s) j) ≤ τ + ρ) ∧
    ((∀ j, R.sc (abs s j) (R.G (abs s) j) ≤ τ - ρ) → sk.done r.2 = true))
  mkWs : ∀ k s kkt km, k ≤ T → Inv k s → Out s → sk.viol s = .ok (kkt, km) → Tri (fun _ => False) (sk.mkWs kkt s) (fun r =>
    ∃ l : List (Fin p), r.1 = l.map Fin.val ∧ r.2 = l.length ∧ l.Nodup ∧ m₀ ≤ l.length ∧ (∀ j ∉ l, abs s j = 0) ∧
      ∀ j ∉ l, ∃ i ∈ l, abs s i = 0 ∧
        R.sc (abs s j) (R.G (abs s) j) ≤ R.sc (abs s i) (R.G (abs s) i) + ρ)
  buf0 : ∀ l : List (Fin p), l.Nodup → m₀ ≤ l.length → BInv l (sk.buf0 l.length)
  epoch : ∀ k s (l : List (Fin p)), k < T → Inv k s → l.Nodup → Tri (fun _ => False) (sk.epoch (l.map Fin.val) s) (fun t =>
    Inv (k + 1) t ∧ PEpoch R Sd ρ l (abs s) (abs t) ∧ ((∀ j ∉ l, abs s j = 0) → Out t))
  accel : ∀ k s (l : List (Fin p)) e bf, k < T → 0 < k → Inv k s → l.Nodup → m₀ ≤ l.length → BInv l bf → (∀ j ∉ l, abs s j = 0) →
    Tri (fun _ => False) (sk.accel (l.map Fin.val) e bf s) (fun r =>
      BInv l r.1 ∧ Inv (k + 1) r.2 ∧ R.F (abs r.2) ≤ R.F (abs s) + ρ ∧ (∀ j ∉ l, abs r.2 j = 0) ∧
        (plain e → abs r.2 = abs s ∧ (Out s → Out r.2)))
  stop : ∀ k s (l : List (Fin p)) km e, k ≤ T → Inv k s → l.Nodup → Tri (fun _ => False) (sk.stop (l.map Fin.val) l.length km e s)
    (fun r => r = true → 0 < e ∧ e % 10 = 0)

/-- No extrapolation in the epochs which may be the last one of an iteration, for epochs `e, …, e + r - 1`. -/
def PlainTail (plain : ℕ → Prop) (r e : ℕ) : Prop :=
  ∀ i, e ≤ i → i < e + r → (i + 1 = e + r ∨ (0 < i ∧ i % 10 = 0)) → plain i

namespace Pert
variable {sk : Skel F S B} {R : RProb E p} {f : (Fin p → E) → ℝ} {Sd : E → Set E} {a b ρ τ c : ℝ} {T m₀ : ℕ} {plain : ℕ → Prop}
  {abs : S → Fin p → E} {Inv : ℕ → S → Prop} {Out : S → Prop} {BInv : List (Fin p) → B → Prop}

/-- Growth of the objective per epoch. -/
def Grow (R : RProb E p) (Sd : E → Set E) (ρ ν : ℝ) : Prop :=
  0 ≤ ν ∧ ∀ (l : List (Fin p)), l.Nodup → ∀ w w' : Fin p → E, PEpoch R Sd ρ l w w' → R.F w' + ρ ≤ R.F w + ν

theorem inner_spec (P : Pert sk R Sd ρ τ c T m₀ plain abs Inv Out BInv) {ν : ℝ} (hρ : 0 ≤ ρ) (hν : Grow R Sd ρ ν)
    (l : List (Fin p)) (hl : l.Nodup) (hm : m₀ ≤ l.length) (km : F) :
    ∀ (r e k : ℕ) (bf : B) (s : S), k + 2 * r ≤ T → Inv k s → BInv l bf → (∀ j ∉ l, abs s j = 0) →
      Tri (fun _ => False) (sk.inner (l.map Fin.val) l.length km r e bf s) (fun t =>
        (∃ k', k' ≤ k + 2 * r ∧ Inv k' t) ∧ (∀ j ∉ l, abs t j = 0) ∧ R.F (abs t) ≤ R.F (abs s) + r * ν ∧
        (0 < r → ∃ s1, PEpoch R Sd ρ l (abs s) s1 ∧ R.F s1 ≤ R.F (abs s) + ν ∧ R.F (abs t) ≤ R.F s1 + r * ν) ∧
        (0 < r → PlainTail plain r e → ∃ s', (∀ j, R.L j = 0 → s' j = 0) ∧ R.F s' ≤ R.F (abs s) + r * ν ∧
          PEpoch R Sd ρ l s' (abs t)) ∧
        (r = 0 → t = s) ∧ (0 < r → PlainTail plain r e → Out t))
  | 0, e, k, bf, s, hk, hs, hb, hoff =>
    ⟨⟨k, by omega, hs⟩, hoff, by simp, fun h => absurd h (lt_irrefl _), fun h => absurd h (lt_irrefl _), fun _ => rfl, fun h => absurd h (lt_irrefl _)⟩
  | r + 1, e, k, bf, s, hk, hs, hb, hoff => by
    have hν0 := hν.1
    unfold Skel.inner
    refine Tri.bind (P.epoch k s l (by omega) hs hl) fun s1 ⟨h1, h2, hO1⟩ => ?_
    have hoff1 : ∀ j ∉ l, abs s1 j = 0 := fun j hj => by rw [h2.off hj, hoff j hj]
    refine Tri.bind (P.accel (k + 1) s1 l e bf (by omega) (by omega) h1 hl hm hb hoff1) fun ⟨b2, s2⟩ ⟨g1, g2, g3, g4, g5⟩ => ?_
    dsimp only at g1 g2 g3 g4 g5
    have hz := P.zero k s (by omega) hs
    have hgr := hν.2 l hl _ _ h2
    have hpr : (0 : ℝ) ≤ r * ν := by positivity
    refine Tri.bind (P.stop (k + 1 + 1) s2 l km e (by omega) g2 hl) fun st hst => ?_
    split
    · rename_i hs2
      refine ⟨⟨k + 1 + 1, by omega, g2⟩, g4, ?_, fun _ => ⟨abs s1, h2, ?_, ?_⟩, fun _ hp => ⟨abs s, hz, ?_, ?_⟩, fun h => by omega,
        fun _ hp => (g5 (hp e le_rfl (by omega) (Or.inr (hst hs2)))).2 (hO1 hoff)⟩
      · push_cast; linarith
      · linarith
      · push_cast
        linarith [show ρ ≤ ν by have := hν.2 [] List.nodup_nil _ _ (PEpoch.nil (abs s)); linarith]
      · push_cast; linarith
      · rw [(g5 (hp e le_rfl (by omega) (Or.inr (hst hs2)))).1]; exact h2
    · have hρν : ρ ≤ ν := by have := hν.2 [] List.nodup_nil _ _ (PEpoch.nil (abs s)); linarith
      refine Tri.mono (inner_spec P hρ hν l hl hm km r (e + 1) (k + 1 + 1) b2 s2 (by omega) g2 g1 g4)
        fun t ⟨⟨k', q0, q1⟩, q2, q3, q4, q5, q6, q7⟩ => ?_
      refine ⟨⟨k', by omega, q1⟩, q2, ?_, fun _ => ⟨abs s1, h2, ?_, ?_⟩, fun _ hp => ?_, fun h => by omega, fun _ hp => ?_⟩
      · push_cast; linarith
      · linarith
      · push_cast; linarith
      · rcases Nat.eq_zero_or_pos r with hr | hr
        · refine ⟨abs s, hz, ?_, ?_⟩
          · push_cast; linarith
          · rw [q6 hr, (g5 (hp e le_rfl (by omega) (Or.inl (by omega)))).1]; exact h2
        · obtain ⟨s', k1, k2, k3⟩ := q5 hr fun i hi hi2 hi3 => hp i (by omega) (by omega) (by
            rcases hi3 with h | h
            · exact Or.inl (by omega)
            · exact Or.inr h)
          refine ⟨s', k1, ?_, k3⟩
          push_cast; linarith
      · rcases Nat.eq_zero_or_pos r with hr | hr
        · rw [q6 hr]
          exact (g5 (hp e le_rfl (by omega) (Or.inl (by omega)))).2 (hO1 hoff)
        · exact q7 hr fun i hi hi2 hi3 => hp i (by omega) (by omega) (by
            rcases hi3 with h | h
            · exact Or.inl (by omega)
            · exact Or.inr h)

/-- What one iteration achieves. -/
def IterOK (R : RProb E p) (Sd : E → Set E) (ρ ν : ℝ) (plain : ℕ → Prop) (me : ℕ) (s t : Fin p → E) : Prop :=
  ∃ l : List (Fin p), l.Nodup ∧ (∀ j ∉ l, s j = 0) ∧
    (∀ j ∉ l, ∃ i ∈ l, s i = 0 ∧ R.sc (s j) (R.G s j) ≤ R.sc (s i) (R.G s i) + ρ) ∧
    (∀ j ∉ l, t j = 0) ∧ R.F t ≤ R.F s + me * ν ∧
    (0 < me → ∃ s1, PEpoch R Sd ρ l s s1 ∧ R.F s1 ≤ R.F s + ν ∧ R.F t ≤ R.F s1 + me * ν) ∧
    (0 < me → PlainTail plain me 0 → ∃ s', (∀ j, R.L j = 0 → s' j = 0) ∧ R.F s' ≤ R.F s + me * ν ∧ PEpoch R Sd ρ l s' t)

omit [InnerProductSpace ℝ E] [NormedAddCommGroup E] in
theorem out_next {me : ℕ} {s t : S} (hO : (∀ s, Out s) ∨ PlainTail plain me 0) (hs : Out s) (h0 : me = 0 → t = s)
    (h1 : 0 < me → PlainTail plain me 0 → Out t) : Out t := by
  rcases hO with hO | hO
  · exact hO t
  · rcases Nat.eq_zero_or_pos me with h | h
    · rw [h0 h]; exact hs
    · exact h1 h hO

/-- Every run of the loop returns; on exit before the limit the scores are small. -/
theorem outer_ok (P : Pert sk R Sd ρ τ c T m₀ plain abs Inv Out BInv) {ν : ℝ} (hρ : 0 ≤ ρ) (hν : Grow R Sd ρ ν)
    (hO : (∀ s, Out s) ∨ PlainTail plain sk.maxEpochs 0) :
    ∀ (m k : ℕ) (s : S), k + 2 * sk.maxEpochs * m ≤ T → Inv k s → Out s →
      Tri (fun _ => False) (sk.outer m s) (fun q => (∃ k', k' ≤ k + 2 * sk.maxEpochs * m ∧ Inv k' q.1) ∧ Out q.1 ∧
        q.2 ≤ m ∧
        R.F (abs q.1) ≤ R.F (abs s) + m * (sk.maxEpochs * ν) ∧
        (q.2 < m → ∀ j, R.sc (abs q.1 j) (R.G (abs q.1) j) ≤ τ + ρ))
  | 0, k, s, hk, hs, hos => ⟨⟨k, by omega, hs⟩, hos, le_rfl, by simp, fun h => absurd h (lt_irrefl _)⟩
  | m + 1, k, s, hk, hs, hos => by
    have hν0 := hν.1
    have hexp : 2 * sk.maxEpochs * (m + 1) = 2 * sk.maxEpochs * m + 2 * sk.maxEpochs := by ring
    unfold Skel.outer
    refine Tri.bind_eq (P.viol k s (by omega) hs hos) fun ⟨kkt, km⟩ hv ⟨h1, h2⟩ => ?_
    dsimp only at h1 h2 ⊢
    have hp0 : (0 : ℝ) ≤ ((m + 1 : ℕ) : ℝ) * (sk.maxEpochs * ν) := by positivity
    split
    · rename_i hd
      exact ⟨⟨k, by omega, hs⟩, hos, Nat.zero_le _, by linarith, fun _ => h1 hd⟩
    · refine Tri.bind (P.mkWs k s kkt km (by omega) hs hos hv) fun ⟨ws, sz⟩ ⟨l, e1, e2, hl, hm, hoff, hbest⟩ => ?_
      dsimp only at e1 e2
      subst e1 e2
      refine Tri.bind (P.inner_spec hρ hν l hl hm km sk.maxEpochs 0 k _ s (by omega) hs (P.buf0 l hl hm) hoff)
        fun t ⟨⟨k', a1, a2⟩, _, a3, _, _, a7, a8⟩ => ?_
      refine Tri.bind (outer_ok P hρ hν hO m k' t (by omega) a2 (out_next hO hos a7 a8)) fun ⟨v, i⟩ ⟨⟨k'', b1, b2⟩, b0, b3, b4, b5⟩ => ?_
      refine ⟨⟨k'', by omega, b2⟩, b0, Nat.succ_le_succ b3, ?_, fun h => b5 (Nat.lt_of_succ_lt_succ h)⟩
      show R.F (abs v) ≤ _
      push_cast
      linarith

/-- Every iteration reaches the target or decreases the objective by `δ`. -/
theorem outer_count (P : Pert sk R Sd ρ τ c T m₀ plain abs Inv Out BInv) {ν : ℝ} (hρ : 0 ≤ ρ) (hν : Grow R Sd ρ ν) {δ : ℝ}
    (hit : ∀ k s t, k ≤ T → Inv k s → IterOK R Sd ρ ν plain sk.maxEpochs (abs s) t →
      (∀ j, R.sc (t j) (R.G t j) ≤ τ - ρ) ∨ R.F t ≤ R.F (abs s) - δ) (hO : (∀ s, Out s) ∨ PlainTail plain sk.maxEpochs 0) :
    ∀ (m k : ℕ) (s : S), k + 2 * sk.maxEpochs * m ≤ T → Inv k s → Out s →
      Tri (fun _ => False) (sk.outer m s) (fun q => (∃ k', k' ≤ k + 2 * sk.maxEpochs * m ∧ Inv k' q.1) ∧ q.2 ≤ m ∧
        ((∃ kkt km, sk.viol q.1 = .ok (kkt, km) ∧ sk.done km = true) ∨ (m : ℝ) * δ ≤ R.F (abs s) - R.F (abs q.1)))
  | 0, k, s, hk, hs, _ => ⟨⟨k, by omega, hs⟩, le_rfl, Or.inr (by simp)⟩
  | m + 1, k, s, hk, hs, hos => by
    have hexp : 2 * sk.maxEpochs * (m + 1) = 2 * sk.maxEpochs * m + 2 * sk.maxEpochs := by ring
    unfold Skel.outer
    refine Tri.bind_eq (P.viol k s (by omega) hs hos) fun ⟨kkt, km⟩ hv ⟨h1, h2⟩ => ?_
    dsimp only at h1 h2 ⊢
    split
    · rename_i hd
      exact ⟨⟨k, by omega, hs⟩, Nat.zero_le _, Or.inl ⟨kkt, km, hv, hd⟩⟩
    · refine Tri.bind (P.mkWs k s kkt km (by omega) hs hos hv) fun ⟨ws, sz⟩ ⟨l, e1, e2, hl, hm, hoff, hbest⟩ => ?_
      dsimp only at e1 e2
      subst e1 e2
      refine Tri.bind (P.inner_spec hρ hν l hl hm km sk.maxEpochs 0 k _ s (by omega) hs (P.buf0 l hl hm) hoff)
        fun t ⟨⟨k', a1, a2⟩, a3, a4, a5, a6, a7, a8⟩ => ?_
      have hot := out_next hO hos a7 a8
      have hi := hit k s (abs t) (by omega) hs ⟨l, hl, hoff, hbest, a3, a4, a5, a6⟩
      refine Tri.bind_eq (outer_count P hρ hν hit hO m k' t (by omega) a2 hot) fun ⟨v, i⟩ ho ⟨⟨k'', b1, b2⟩, b3, b4⟩ => ?_
      refine ⟨⟨k'', by omega, b2⟩, Nat.succ_le_succ b3, ?_⟩
      show (∃ kkt km, sk.viol v = .ok (kkt, km) ∧ sk.done km = true) ∨ _ ≤ _ - R.F (abs v)
      dsimp only at b4
      rcases hi with hi | hi
      · -- the target is reached at `t`, so that the test succeeds there
        left
        obtain ⟨⟨kkt', km'⟩, v1, v2⟩ := Tri.exists_ok (P.viol k' t (by omega) a2 hot)
        have hd := v2.2 hi
        rw [Skel.outer_done _ m t _ _ v1 hd] at ho
        injection ho with ho
        injection ho with ho1 _
        rw [← ho1]
        exact ⟨kkt', km', v1, hd⟩
      · refine b4.imp_right fun b4 => ?_
        push_cast
        linarith

omit [InnerProductSpace ℝ E] in
theorem pdist_le {R : (Fin p → E) → ℝ} {c B : ℝ} (hB : ∀ w, R w ≤ c → ∑ j, ‖w j‖ ≤ B) {u v : Fin p → E}
    (hu : R u ≤ c) (hv : R v ≤ c) : ∑ j, ‖u j - v j‖ ≤ 2 * B := by
  have h1 : ∑ j, ‖u j - v j‖ ≤ ∑ j, (‖u j‖ + ‖v j‖) := Finset.sum_le_sum fun j _ => norm_sub_le _ _
  rw [Finset.sum_add_distrib] at h1
  linarith [hB u hu, hB v hv]

/-- **Termination in spite of errors.** -/
theorem terminates (H : R.Cvx f a b) (hτ : 0 < τ) : ∃ (N : ℕ) (ρ₀ ν₀ : ℝ), 0 < ρ₀ ∧ 0 < ν₀ ∧
    ∀ {F S B : Type} {sk : Skel F S B} {ρ ν : ℝ} {T m₀ : ℕ} {plain : ℕ → Prop} {abs : S → Fin p → E} {Inv : ℕ → S → Prop}
      {Out : S → Prop} {BInv : List (Fin p) → B → Prop}, Pert sk R (subdiff (pen2 a b)) ρ τ c T m₀ plain abs Inv Out BInv → 0 ≤ ρ → ρ ≤ ρ₀ → Grow R (subdiff (pen2 a b)) ρ ν →
      sk.maxEpochs * ν ≤ ν₀ → 0 < sk.maxEpochs → PlainTail plain sk.maxEpochs 0 →
      ∀ k s, k + 2 * sk.maxEpochs * N ≤ T → Inv k s → Out s →
      Tri (fun _ => False) (sk.outer N s) (fun q => (∃ k', k' ≤ k + 2 * sk.maxEpochs * N ∧ Inv k' q.1) ∧
        ∃ kkt km, sk.viol q.1 = .ok (kkt, km) ∧ sk.done km = true) := by
  obtain ⟨B, hB0, hB⟩ := H.level (c + 1)
  have hL : 0 ≤ ∑ i, R.L i := Finset.sum_nonneg fun i _ => H.nonneg i
  set Λ := ∑ i, R.L i with hΛ
  obtain ⟨σ, hσ, hσ1, hσ2⟩ : ∃ σ, 0 < σ ∧ σ ≤ τ / 4 ∧ 2 * Λ * (σ * (2 * B)) ≤ (τ / 4) ^ 2 / 2 := by
    have hq : 0 < (τ / 4) ^ 2 / 2 := by positivity
    refine ⟨min (τ / 4) ((τ / 4) ^ 2 / 2 / (4 * Λ * B + 1)), by positivity, min_le_left _ _, ?_⟩
    have h1 : min (τ / 4) ((τ / 4) ^ 2 / 2 / (4 * Λ * B + 1)) * (4 * Λ * B) ≤
        (τ / 4) ^ 2 / 2 / (4 * Λ * B + 1) * (4 * Λ * B) :=
      mul_le_mul_of_nonneg_right (min_le_right _ _) (by positivity)
    have h2 : (τ / 4) ^ 2 / 2 / (4 * Λ * B + 1) * (4 * Λ * B) ≤ (τ / 4) ^ 2 / 2 := by
      rw [div_mul_eq_mul_div, div_le_iff₀ (by positivity)]
      nlinarith
    linarith
  obtain ⟨δ, ρ₀, hδ, hρ₀, hsmall⟩ := H.psmall_scores σ hσ
  -- the growth of the objective allowed in one iteration
  obtain ⟨ν₀, hν₀, n1, n2, n3⟩ : ∃ ν₀ : ℝ, 0 < ν₀ ∧ ν₀ ≤ 1 ∧ ν₀ ≤ δ / 2 ∧ 2 * Λ * ν₀ ≤ (τ / 4) ^ 2 / 2 := by
    have hq : 0 < (τ / 4) ^ 2 / 2 := by positivity
    refine ⟨min 1 (min (δ / 2) ((τ / 4) ^ 2 / 2 / (2 * Λ + 1))), by positivity, min_le_left _ _,
      (min_le_right _ _).trans (min_le_left _ _), ?_⟩
    have h1 : min 1 (min (δ / 2) ((τ / 4) ^ 2 / 2 / (2 * Λ + 1))) ≤ (τ / 4) ^ 2 / 2 / (2 * Λ + 1) :=
      (min_le_right _ _).trans (min_le_right _ _)
    have h2 := mul_le_mul_of_nonneg_left h1 (by positivity : 0 ≤ 2 * Λ)
    have h3 : 2 * Λ * ((τ / 4) ^ 2 / 2 / (2 * Λ + 1)) ≤ (τ / 4) ^ 2 / 2 := by
      rw [mul_div_assoc', div_le_iff₀ (by positivity)]
      nlinarith
    linarith
  obtain ⟨N, hN⟩ := exists_nat_gt (c / (δ / 2))
  refine ⟨N, min ρ₀ (τ / 4), ν₀, by positivity, hν₀, ?_⟩
  intro F S B' sk ρ ν T m₀ plain abs Inv Out BInv P hρ hρ0 hν hmν hme hpl k s hk hs hos
  have hν0 := hν.1
  have r1 : ρ ≤ ρ₀ := hρ0.trans (min_le_left _ _)
  have r2 : ρ ≤ τ / 4 := hρ0.trans (min_le_right _ _)
  have hνm : ν ≤ sk.maxEpochs * ν := by
    have : (1 : ℝ) ≤ sk.maxEpochs := by exact_mod_cast hme
    nlinarith
  refine Tri.mono (P.outer_count hρ hν (δ := δ / 2) ?_ (Or.inr hpl) N k s hk hs hos) fun ⟨v, i⟩ ⟨⟨k', b1, b2⟩, b3, b4⟩ => ?_
  · rintro k s t hk hs ⟨l, hl, h1, h2, h4, h6, h5, h7⟩
    have hz := P.zero k s hk hs
    have hF := P.lev k s hk hs
    obtain ⟨s1, e1, e3, e2⟩ := h5 hme
    by_cases hd : R.F (abs s) - R.F t < δ / 2
    · refine Or.inl fun j => ?_
      have hs1 := (hsmall ρ hρ r1 l hl (abs s) s1 hz e1 (by linarith)).2 h1 h2
      obtain ⟨s', k1, k2, k3⟩ := h7 hme hpl
      by_cases hj : j ∈ l
      · have := (hsmall ρ hρ r1 l hl s' t k1 k3 (by linarith)).1 j hj
        linarith
      · have e1' : s1 j = 0 := by rw [e1.off hj, h1 j hj]
        have a1 := hs1 j
        rw [e1'] at a1
        have a2 := H.sc_lips 0 (R.G t j) (R.G s1 j)
        have a3 : ‖R.G t j - R.G s1 j‖ ≤ τ / 4 := by
          by_cases h0 : R.L j = 0
          · rw [H.grad_zero _ j h0, H.grad_zero _ j h0, sub_self, norm_zero]; positivity
          · have hLj : 0 < R.L j := lt_of_le_of_ne (H.nonneg j) (Ne.symm h0)
            have b1 := H.gap hs1 t j
            have b2 := pdist_le (R := R.F) hB (u := s1) (v := t) (by linarith) (by linarith)
            have b3 := mul_le_mul_of_nonneg_left b2 hσ.le
            have b4 : ‖R.G t j - R.G s1 j‖ ^ 2 / (2 * R.L j) ≤ σ * (2 * B) + ν₀ := by linarith
            rw [div_le_iff₀ (by positivity)] at b4
            have b5 : (σ * (2 * B) + ν₀) * (2 * R.L j) ≤ (σ * (2 * B) + ν₀) * (2 * Λ) :=
              mul_le_mul_of_nonneg_left (by linarith [H.L_le j]) (by positivity)
            exact le_of_sq_le_sq (by nlinarith) (by positivity)
        rw [h4 j hj]
        linarith
    · exact Or.inr (by linarith)
  · refine ⟨⟨k', b1, b2⟩, ?_⟩
    rcases b4 with b4 | b4
    · exact b4
    · exfalso
      rw [div_lt_iff₀ (by positivity)] at hN
      have h2 := H.F_nonneg (abs v)
      have h3 := P.lev k s (by omega) hs
      dsimp only at b4
      linarith

/-- The growth of the objective is quadratically small. -/
theorem grow_exists (H : R.Cvx f a b) : ∃ m : ℝ, 0 ≤ m ∧ ∀ ρ, 0 ≤ ρ → Grow R (subdiff (pen2 a b)) ρ (m * ρ ^ 2 + ρ) := by
  obtain ⟨κ, m, hκ, hm, hdec⟩ := H.pdecrease
  refine ⟨m, hm, fun ρ hρ => ⟨by positivity, fun l hl w w' h => ?_⟩⟩
  have := hdec ρ l hl w w' h
  have h2 : 0 ≤ κ * (∑ i, ‖w' i - w i‖) ^ 2 := by positivity
  linarith

end Pert
end
end Sglm
