import Verif.Proofs.PertRun

/-!
# Runs of a loop whose parts keep an invariant
-/

set_option linter.unusedSectionVars false

namespace Sglm
open Scalar Spec

section
variable {E : Type} [NormedAddCommGroup E] [InnerProductSpace ℝ E] {p : ℕ} {F S B : Type}

/-- The parts of a loop keep the invariant `Inv k` of states reached after `k` epochs and extrapolations, and the test of the outer
loop is accurate up to `ρ`.  `abs` is the real point of a state; working sets have at least `m₀` features. -/
structure Keep (sk : Skel F S B) (R : RProb E p) (ρ τ : ℝ) (T m₀ : ℕ) (abs : S → Fin p → E) (Inv : ℕ → S → Prop)
    (BInv : List (Fin p) → B → Prop) : Prop where
  viol : ∀ k s, k ≤ T → Inv k s → Tri (fun _ => False) (sk.viol s) (fun r =>
    sk.done r.2 = true → ∀ j, R.sc (abs s j) (R.G (abs s) j) ≤ τ + ρ)
  mkWs : ∀ k s kkt km, k ≤ T → Inv k s → sk.viol s = .ok (kkt, km) → Tri (fun _ => False) (sk.mkWs kkt s) (fun r =>
    ∃ l : List (Fin p), r.1 = l.map Fin.val ∧ r.2 = l.length ∧ l.Nodup ∧ m₀ ≤ l.length ∧ ∀ j ∉ l, abs s j = 0)
  buf0 : ∀ l : List (Fin p), l.Nodup → m₀ ≤ l.length → BInv l (sk.buf0 l.length)
  epoch : ∀ k s (l : List (Fin p)), k < T → Inv k s → l.Nodup → Tri (fun _ => False) (sk.epoch (l.map Fin.val) s) (fun t =>
    Inv (k + 1) t ∧ ∀ j ∉ l, abs t j = abs s j)
  accel : ∀ k s (l : List (Fin p)) e bf, k < T → 0 < k → Inv k s → l.Nodup → m₀ ≤ l.length → BInv l bf → (∀ j ∉ l, abs s j = 0) →
    Tri (fun _ => False) (sk.accel (l.map Fin.val) e bf s) (fun r => BInv l r.1 ∧ Inv (k + 1) r.2 ∧ ∀ j ∉ l, abs r.2 j = 0)
  stop : ∀ k s (l : List (Fin p)) km e, k ≤ T → Inv k s → l.Nodup → Tri (fun _ => False) (sk.stop (l.map Fin.val) l.length km e s)
    (fun _ => True)

namespace Keep
variable {sk : Skel F S B} {R : RProb E p} {ρ τ : ℝ} {T m₀ : ℕ} {abs : S → Fin p → E} {Inv : ℕ → S → Prop}
  {BInv : List (Fin p) → B → Prop}

theorem inner_ok (P : Keep sk R ρ τ T m₀ abs Inv BInv) (l : List (Fin p)) (hl : l.Nodup) (hm : m₀ ≤ l.length) (km : F) :
    ∀ (r e k : ℕ) (bf : B) (s : S), k + 2 * r ≤ T → Inv k s → BInv l bf → (∀ j ∉ l, abs s j = 0) →
      Tri (fun _ => False) (sk.inner (l.map Fin.val) l.length km r e bf s) (fun t => ∃ k', k' ≤ k + 2 * r ∧ Inv k' t)
  | 0, e, k, bf, s, hk, hs, hb, hoff => ⟨k, by omega, hs⟩
  | r + 1, e, k, bf, s, hk, hs, hb, hoff => by
    unfold Skel.inner
    refine Tri.bind (P.epoch k s l (by omega) hs hl) fun s1 ⟨h1, h2⟩ => ?_
    refine Tri.bind (P.accel (k + 1) s1 l e bf (by omega) (by omega) h1 hl hm hb fun j hj => by rw [h2 j hj, hoff j hj])
      fun ⟨b2, s2⟩ ⟨g1, g2, g3⟩ => ?_
    dsimp only at g1 g2 g3
    refine Tri.bind (P.stop (k + 1 + 1) s2 l km e (by omega) g2 hl) fun st _ => ?_
    split
    · exact ⟨k + 1 + 1, by omega, g2⟩
    · refine Tri.mono (inner_ok P l hl hm km r (e + 1) (k + 1 + 1) b2 s2 (by omega) g2 g1 g3) fun t ⟨k', q1, q2⟩ => ?_
      exact ⟨k', by omega, q2⟩

/-- Every run of the loop returns; on exit before the limit the scores are small. -/
theorem outer_ok (P : Keep sk R ρ τ T m₀ abs Inv BInv) :
    ∀ (m k : ℕ) (s : S), k + 2 * sk.maxEpochs * m ≤ T → Inv k s →
      Tri (fun _ => False) (sk.outer m s) (fun q => (∃ k', k' ≤ k + 2 * sk.maxEpochs * m ∧ Inv k' q.1) ∧ q.2 ≤ m ∧
        (q.2 < m → ∀ j, R.sc (abs q.1 j) (R.G (abs q.1) j) ≤ τ + ρ))
  | 0, k, s, hk, hs => ⟨⟨k, by omega, hs⟩, le_rfl, fun h => absurd h (lt_irrefl _)⟩
  | m + 1, k, s, hk, hs => by
    have hexp : 2 * sk.maxEpochs * (m + 1) = 2 * sk.maxEpochs * m + 2 * sk.maxEpochs := by ring
    unfold Skel.outer
    refine Tri.bind_eq (P.viol k s (by omega) hs) fun ⟨kkt, km⟩ hv h1 => ?_
    dsimp only at h1 ⊢
    split
    · rename_i hd
      exact ⟨⟨k, by omega, hs⟩, Nat.zero_le _, fun _ => h1 hd⟩
    · refine Tri.bind (P.mkWs k s kkt km (by omega) hs hv) fun ⟨ws, sz⟩ ⟨l, e1, e2, hl, hm, hoff⟩ => ?_
      dsimp only at e1 e2
      subst e1 e2
      refine Tri.bind (P.inner_ok l hl hm km sk.maxEpochs 0 k _ s (by omega) hs (P.buf0 l hl hm) hoff) fun t ⟨k', a1, a2⟩ => ?_
      refine Tri.bind (outer_ok P m k' t (by omega) a2) fun ⟨v, i⟩ ⟨⟨k'', b1, b2⟩, b3, b5⟩ => ?_
      exact ⟨⟨k'', by omega, b2⟩, Nat.succ_le_succ b3, fun h => b5 (Nat.lt_of_succ_lt_succ h)⟩

end Keep
end
end Sglm
