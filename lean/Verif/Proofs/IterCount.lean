import Verif.Proofs.IterBound

/-!
# Counting the iterations which start far from stationarity

The scores which the solver uses may be wrong (block MCP, block elastic net); `d` is the right score.  The number of
iterations at whose start a right score exceeds `τ` is bounded, whatever the stopping test does.
-/

namespace Sglm
open Scalar Spec

namespace Skel
variable {F S B : Type}

/-- The point reached after `m` iterations. -/
def point (sk : Skel F S B) (s : S) (m : ℕ) : S :=
  match sk.outer m s with
  | .ok q => q.1
  | .error _ => s

/-- The last of `N + 1` iterations. -/
theorem outer_last (sk : Skel F S B) {N : ℕ} {s v : S} (h : sk.outer (N + 1) s = .ok (v, N + 1)) :
    ∃ u, sk.outer N s = .ok (u, N) ∧ sk.Iter u v := by
  rw [outer_add] at h
  cases h1 : sk.outer N s with
  | error e => rw [h1] at h; cases h
  | ok q =>
    obtain ⟨u, k⟩ := q
    rw [h1] at h
    have hk := (outer_exit sk N s u k h1).1
    have h : (sk.outer 1 u >>= fun r => pure (r.1, k + r.2) : M (S × ℕ)) = .ok (v, N + 1) := h
    cases h2 : sk.outer 1 u with
    | error e => rw [h2] at h; cases h
    | ok r =>
      obtain ⟨w, k'⟩ := r
      rw [h2] at h
      injection h with h
      injection h with h3 h4
      dsimp only at h3 h4
      have hk' := (outer_exit sk 1 u w k' h2).1
      have e1 : k = N := by omega
      have e2 : k' = 1 := by omega
      subst e1 e2 h3
      refine ⟨u, rfl, ?_⟩
      rw [Skel.outer] at h2
      cases hv : sk.viol u with
      | error e => rw [hv] at h2; cases h2
      | ok q =>
        obtain ⟨kkt, km⟩ := q
        rw [hv] at h2
        dsimp only [bind, Except.bind] at h2
        split at h2
        · injection h2 with h2; injection h2 with h5 h6
          cases h6
        · rename_i hd
          have hd : sk.done km = false := by simpa using hd
          cases hw : sk.mkWs kkt u with
          | error e => rw [hw] at h2; cases h2
          | ok x =>
            obtain ⟨ws, sz⟩ := x
            rw [hw] at h2
            dsimp only at h2
            cases hi : sk.inner ws sz km sk.maxEpochs 0 (sk.buf0 sz) u with
            | error e => rw [hi] at h2; cases h2
            | ok t =>
              rw [hi] at h2
              have h2 : Except.ok (t, 1) = (Except.ok (w, 1) : M (S × ℕ)) := h2
              injection h2 with h2
              injection h2 with h5 h6
              subst h5
              exact ⟨kkt, km, ws, sz, hv, hd, hw, hi⟩

/-- Counting the iterations which start at a bad point. -/
theorem count_bad (sk : Skel F S B) (Inv Bad : S → Prop) [DecidablePred Bad] (Φ : S → ℝ) (c : ℝ)
    (hiter : ∀ s t, Inv s → sk.Iter s t → Inv t ∧ Φ t ≤ Φ s - if Bad s then c else 0) {s : S} (hs : Inv s) :
    ∀ (N : ℕ) (v : S), sk.outer N s = .ok (v, N) →
      Inv v ∧ (∀ m ≤ N, sk.outer m s = .ok (sk.point s m, m)) ∧
      c * ((Finset.range N).filter fun m => Bad (sk.point s m)).card + Φ v ≤ Φ s
  | 0, v, h => by
    have e : v = s := by injection h with h; injection h with h; exact h.symm
    subst e
    refine ⟨hs, fun m hm => ?_, by simp⟩
    obtain rfl : m = 0 := by omega
    rfl
  | N + 1, v, h => by
    obtain ⟨u, h1, h2⟩ := outer_last sk h
    obtain ⟨h3, h4, h5⟩ := count_bad sk Inv Bad Φ c hiter hs N u h1
    obtain ⟨h6, h7⟩ := hiter u v h3 h2
    refine ⟨h6, fun m hm => ?_, ?_⟩
    · rcases Nat.lt_or_ge m (N + 1) with hlt | hge
      · exact h4 m (by omega)
      · obtain rfl : m = N + 1 := by omega
        unfold point
        rw [h]
    · have hu : sk.point s N = u := by
        unfold point
        rw [h1]
      rw [Finset.range_add_one, Finset.filter_insert, hu]
      split_ifs with hb
      · rw [if_pos hb] at h7
        rw [Finset.card_insert_of_notMem (by simp)]
        push_cast
        linarith
      · rw [if_neg hb] at h7
        linarith

end Skel

variable {E : Type} [NormedAddCommGroup E] [InnerProductSpace ℝ E] {p : ℕ}

/-- The same problem with other scores. -/
def RProb.withScore (R : RProb E p) (d : E → E → ℝ) : RProb E p := { R with sc := d }

namespace RProb
open RProb.Cvx Coord
variable [Coord E] {R : RProb E p}

/-- What one iteration achieves, with the size of the working set. -/
theorem iter_spec_len (hE : ∀ l : List (Fin p), l.Nodup → ∀ w : Fin p → E, R.F (l.foldl R.step w) ≤ R.F w)
    {srt : Argsort XR} (hs : ArgsortSpec srt) (cfg : Solver XR) (hw0 : 0 < cfg.wsStartSize)
    (hme : 0 < cfg.maxEpochs) {s t : Fin p → E} (hz : ZeroOK R s)
    (hit : (R.skel srt cfg (ws0CD cfg p)).Iter s t) :
    ∃ l : List (Fin p), l.Nodup ∧ (∀ j ∉ l, s j = 0) ∧
      (∀ j ∉ l, ∃ i ∈ l, s i = 0 ∧ R.sc (s j) (R.G s j) ≤ R.sc (s i) (R.G s i)) ∧
      ZeroOK R t ∧ (∀ j ∉ l, t j = 0) ∧ R.F t ≤ R.F (l.foldl R.step s) ∧ R.F t ≤ R.F s ∧
      (PlainEnd cfg cfg.maxEpochs 0 → ∃ s', ZeroOK R s' ∧ R.F s' ≤ R.F s ∧ t = l.foldl R.step s') ∧
      (p ≤ cfg.wsStartSize → ∀ j, j ∈ l) := by
  obtain ⟨kkt, km, ws, sz, h1, -, h3, h4⟩ := hit
  have : R.scores s (List.finRange p) = kkt := by
    injection h1 with h1; exact congrArg Prod.fst h1
  subst this
  obtain ⟨ws', h5, ⟨l, h6, h7, h11, h12⟩, h8⟩ := R.pick_ok hs (Nat.min_le_right cfg.wsStartSize p) s
  have h3 : pickWs srt (R.scores s (List.finRange p)) p (nz s) (min cfg.wsStartSize p) = .ok (ws, sz) := h3
  rw [h5] at h3
  injection h3 with h3
  injection h3 with h9 h10
  subst h9
  subst h6
  have best : (∀ j ∉ l, s j = 0) ∧
      ∀ j ∉ l, ∃ i ∈ l, s i = 0 ∧ R.sc (s j) (R.G s j) ≤ R.sc (s i) (R.G s i) := by
    rcases Nat.eq_zero_or_pos p with hp | hp
    · subst hp
      exact ⟨fun j => j.elim0, fun j => j.elim0⟩
    · exact ws_best (by omega) h8
  have key := Tri.elim_ok (inner_spec_of hE (srt := srt) cfg (ws0CD cfg p) l h7 sz km cfg.maxEpochs 0
    ((R.skel srt cfg (ws0CD cfg p)).buf0 sz) s hz (fun _ _ _ _ _ _ => rfl) best.1) h4
  obtain ⟨k1, k2, k3, k4, k5, -⟩ := key
  refine ⟨l, h7, best.1, best.2, k1, k2, k4 hme, k3, k5 hme, fun hp j => ?_⟩
  rw [List.length_map] at h12
  have h13 : l.toFinset.card = Fintype.card (Fin p) := by
    rw [Fintype.card_fin]
    refine le_antisymm ((Finset.card_le_univ _).trans (by rw [Fintype.card_fin])) ?_
    rw [List.toFinset_card_of_nodup h7]
    omega
  have := Finset.card_eq_iff_eq_univ _ |>.mp h13
  rw [← List.mem_toFinset, this]
  exact Finset.mem_univ j

/-- **The number of iterations which start at a point violating the optimality conditions by more than `τ`** is at most
`4 p (2 Λ + b)² F(0) / (μ τ²)`, whatever the stopping test, provided that the scores order zero features correctly or
that all features are always selected. -/
theorem run_count {d : E → E → ℝ} {f : (Fin p → E) → ℝ} {φ : E → ℝ} {m b : ℝ} (H : (R.withScore d).Weak f φ m b)
    {μ Λ τ : ℝ} (hμ0 : 0 < μ) (hμ : ∀ j, R.L j ≠ 0 → μ + m ≤ R.L j) (hΛ : ∀ j, R.L j ≤ Λ) (hτ : 0 < τ)
    {srt : Argsort XR} (hs : ArgsortSpec srt) (cfg : Solver XR) (hw : 0 < cfg.wsStartSize)
    (hc : (∀ g g', τ < d 0 g → R.sc 0 g ≤ R.sc 0 g' → τ < d 0 g') ∨ p ≤ cfg.wsStartSize)
    (hme : 0 < cfg.maxEpochs) (hpl : PlainEnd cfg cfg.maxEpochs 0) (N : ℕ) (v : Fin p → E)
    (hrun : (R.skel srt cfg (ws0CD cfg p)).outer N (fun _ => 0) = .ok (v, N)) :
    ∃ u : ℕ → Fin p → E, (∀ i ≤ N, (R.skel srt cfg (ws0CD cfg p)).outer i (fun _ => 0) = .ok (u i, i)) ∧
      ∃ B : Finset ℕ, (∀ i < N, i ∉ B → ∀ j, d (u i j) (R.G (u i) j) ≤ τ) ∧
        B.card * (μ * τ ^ 2) ≤ 4 * p * (2 * Λ + b) ^ 2 * R.F fun _ => 0 := by
  classical
  have hE : ∀ l : List (Fin p), l.Nodup → ∀ w : Fin p → E, R.F (l.foldl R.step w) ≤ R.F w := fun l hl w => by
    have h1 : R.F (l.foldl R.step w) ≤ R.F w - μ / 2 * ∑ j, ‖l.foldl R.step w j - w j‖ ^ 2 := H.epoch_dec hμ l hl w
    have h2 : 0 ≤ μ / 2 * ∑ j, ‖l.foldl R.step w j - w j‖ ^ 2 :=
      mul_nonneg (by positivity) (Finset.sum_nonneg fun i _ => by positivity)
    linarith
  obtain ⟨A, hA⟩ : ∃ A, A = 2 * p * (2 * Λ + b) ^ 2 := ⟨_, rfl⟩
  have hA0 : 0 ≤ A := by rw [hA]; positivity
  let St : (Fin p → E) → Prop := fun w => ∀ j, w j ≠ 0 → d (w j) (R.G w j) ≤ τ
  let Bad : (Fin p → E) → Prop := fun w => ∃ j, τ < d (w j) (R.G w j)
  -- potential: `A F + [not settled] μ τ² / 2`
  have iter : ∀ s t, ZeroOK R s → (R.skel srt cfg (ws0CD cfg p)).Iter s t → ZeroOK R t ∧
      A * R.F t + (if St t then 0 else μ * τ ^ 2 / 2) ≤
        A * R.F s + (if St s then 0 else μ * τ ^ 2 / 2) - if Bad s then μ * τ ^ 2 / 2 else 0 := by
    intro s t hz hit
    obtain ⟨l, hl, h1, h2, h3, h4, h5, h6, h7, h8⟩ := iter_spec_len hE hs cfg hw hme hz hit
    obtain ⟨s', k1, k2, k3⟩ := h7 hpl
    refine ⟨h3, ?_⟩
    have hpos : 0 < μ * τ ^ 2 := by positivity
    have h6' := mul_le_mul_of_nonneg_left h6 hA0
    have hb := H.hb
    by_cases hdec : μ * τ ^ 2 ≤ A * (R.F s - R.F t)
    · split_ifs <;> linarith
    · have hst : St t := by
        intro j hj
        have hjl : j ∈ l := by
          by_contra hc
          exact hj (h4 j hc)
        have a1 : A * (R.F s' - R.F (l.foldl R.step s')) ≤ A * (R.F s - R.F t) := by
          rw [← k3]
          exact mul_le_mul_of_nonneg_left (by linarith) hA0
        have a2 : (2 * Λ + b) * ∑ i, ‖l.foldl R.step s' i - s' i‖ < τ :=
          H.small_move hμ0 hμ hΛ hτ l hl s' (by rw [← hA]; exact lt_of_le_of_lt a1 (not_le.mp hdec))
        have a3 : d (l.foldl R.step s' j) (R.G (l.foldl R.step s') j) ≤ 2 * Λ * ∑ i, ‖l.foldl R.step s' i - s' i‖ :=
          H.score_after hΛ l hl s' k1 hjl
        rw [← k3] at a2 a3
        have a4 : 2 * Λ * ∑ i, ‖t i - s' i‖ ≤ (2 * Λ + b) * ∑ i, ‖t i - s' i‖ :=
          mul_le_mul_of_nonneg_right (by linarith) (Finset.sum_nonneg fun i _ => norm_nonneg _)
        linarith
      rw [if_pos hst]
      by_cases hss : St s
      · rw [if_pos hss, if_neg, sub_zero]
        · linarith
        · -- a zero feature with a large score is in the working set
          rintro ⟨j, hj⟩
          have hj0 : s j = 0 := by
            by_contra hc
            linarith [hss j hc]
          rw [hj0] at hj
          obtain ⟨i, hi, hi0, hi2⟩ : ∃ i ∈ l, s i = 0 ∧ τ < d 0 (R.G s i) := by
            by_cases hjl : j ∈ l
            · exact ⟨j, hjl, hj0, hj⟩
            · obtain ⟨i, a1, a2, a3⟩ := h2 j hjl
              rw [hj0, a2] at a3
              rcases hc with hc | hc
              · exact ⟨i, a1, a2, hc _ _ hj a3⟩
              · exact absurd (h8 hc j) hjl
          apply hdec
          by_contra hcc
          have a1 : A * (R.F s - R.F (l.foldl R.step s)) ≤ A * (R.F s - R.F t) :=
            mul_le_mul_of_nonneg_left (by linarith) hA0
          have a2 : (2 * Λ + b) * ∑ i, ‖l.foldl R.step s i - s i‖ < τ :=
            H.small_move hμ0 hμ hΛ hτ l hl s (by rw [← hA]; exact lt_of_le_of_lt a1 (not_le.mp hcc))
          have a3 : d 0 (R.G s i) ≤ (2 * Λ + b) * ∑ i, ‖l.foldl R.step s i - s i‖ := H.score_before hΛ l hl s hi hi0
          linarith
      · rw [if_neg hss]
        split_ifs <;> linarith
  obtain ⟨c1, c2, c3⟩ := Skel.count_bad (R.skel srt cfg (ws0CD cfg p)) (ZeroOK R) Bad
    (fun w => A * R.F w + (if St w then 0 else μ * τ ^ 2 / 2)) (μ * τ ^ 2 / 2) iter (s := fun _ => 0) (fun _ _ => rfl) N v hrun
  refine ⟨(R.skel srt cfg (ws0CD cfg p)).point fun _ => 0, c2,
    (Finset.range N).filter fun i => Bad ((R.skel srt cfg (ws0CD cfg p)).point (fun _ => 0) i), fun i hi hB j => ?_, ?_⟩
  · by_contra hc
    exact hB (Finset.mem_filter.mpr ⟨Finset.mem_range.mpr hi, j, not_le.mp hc⟩)
  · have h0 : St (fun _ : Fin p => (0 : E)) := fun j hj => absurd rfl hj
    rw [if_pos h0] at c3
    have h2 : 0 ≤ A * R.F v := mul_nonneg hA0 (H.F_nonneg v)
    have h3 : 0 ≤ (if St v then 0 else μ * τ ^ 2 / 2) := by split_ifs <;> positivity
    have h4 : 4 * p * (2 * Λ + b) ^ 2 * (R.F fun _ => 0) = 2 * (A * R.F fun _ => 0) := by rw [hA]; ring
    rw [h4]
    linarith

end RProb
end Sglm
