import Verif.Proofs.Problem

/-!
# Runs of two problems which correspond row by row

`e` maps rows of one problem to rows of the other and multiplies the coordinates by `σ = ±1`.
-/

namespace Sglm
open Scalar Spec

namespace RProb
open Coord
variable {E E' : Type} [AddCommGroup E] [Module ℝ E] [Coord E] [AddCommGroup E'] [Module ℝ E'] [Coord E'] {p : ℕ}

structure RMap (R : RProb E p) (R' : RProb E' p) (e : E → E') (σ : ℝ) : Prop where
  sig : σ * σ = 1
  dim : dim E' = dim E
  co : ∀ x, ∀ c, co (e x) (c % Coord.dim E) = σ * co x (c % Coord.dim E)
  ofCo : ∀ f, e (ofCo f) = ofCo (fun t => σ * f t)
  zero : ∀ x, e x = 0 ↔ x = 0
  F : ∀ w, R'.F (fun j => e (w j)) = R.F w
  step : ∀ w j, R'.step (fun j => e (w j)) j = fun i => e (R.step w j i)
  sc : ∀ w j, R'.sc (e (w j)) (R'.G (fun j => e (w j)) j) = R.sc (w j) (R.G w j)
  m0 : R'.m0 = R.m0

variable {R : RProb E p} {R' : RProb E' p} {e : E → E'} {σ : ℝ}

theorem RMap.viol (h : RMap R R' e σ) (w : Fin p → E) (l : List (Fin p)) :
    R'.viol (fun j => e (w j)) l = R.viol w l := by
  have h1 : R'.scores (fun j => e (w j)) l = R.scores w l := by
    unfold scores
    exact List.map_congr_left fun j _ => by rw [h.sc]
  unfold RProb.viol
  rw [h1, h.m0]

theorem RMap.nz (h : RMap R R' e σ) (w : Fin p → E) (j : ℕ) :
    nz (fun j => e (w j)) j = nz w j := by
  unfold RProb.nz
  split
  · rw [Bool.eq_iff_iff, nzB_iff, nzB_iff]
    exact not_congr (h.zero _)
  · rfl

theorem RMap.flat (h : RMap R R' e σ) (w : Fin p → E) (l : List (Fin p)) (c : ℕ) :
    flat l (fun j => e (w j)) c = σ * flat l w c := by
  unfold RProb.flat
  rw [h.dim]
  split
  · exact h.co _ _
  · rw [mul_zero]

theorem RMap.scat (h : RMap R R' e σ) (l : List (Fin p)) (pt : ℕ → ℝ) :
    (scat l (fun c => σ * pt c) : Fin p → E') = fun j => e (scat l pt j) := by
  funext j
  unfold RProb.scat
  rw [h.dim]
  split
  · exact (h.ofCo _).symm
  · exact ((h.zero 0).mpr rfl).symm

theorem gram_scale {σ : ℝ} (hσ : σ * σ = 1) (K : ℕ) (b b' : ℕ → ℕ → ℝ) (h : ∀ k c, b' k c = σ * b k c) :
    gram K b' = gram K b := by
  funext a c
  unfold gram
  refine Finset.sum_congr rfl fun k _ => ?_
  rw [h, h, h, h]
  linear_combination (b (k + 1) a - b k a) * (b (k + 1) c - b k c) * hσ

theorem comb_scale {σ : ℝ} (K : ℕ) (b b' : ℕ → ℕ → ℝ) (h : ∀ k c, b' k c = σ * b k c) (z : ℕ → ℝ) :
    comb K b' z = fun c => σ * comb K b z c := by
  funext c
  unfold comb
  rw [Finset.mul_sum]
  refine Finset.sum_congr rfl fun k _ => ?_
  rw [h]; ring

theorem RMap.accel (h : RMap R R' e σ) (cfg : Solver XR) (l : List (Fin p)) (ep : ℕ) (b b' : ℕ → ℕ → ℝ)
    (hb : ∀ k c, b' k c = σ * b k c) (w : Fin p → E) :
    RelM (fun q q' => (∀ k c, q'.1 k c = σ * q.1 k c) ∧ q'.2 = fun j => e (q.2 j))
      (R.accel cfg l ep b w) (R'.accel cfg l ep b' (fun j => e (w j))) := by
  unfold RProb.accel
  split
  · dsimp only
    have hb1 : ∀ k c, Function.update b' (ep % (cfg.K + 1)) (RProb.flat l fun j => e (w j)) k c =
        σ * Function.update b (ep % (cfg.K + 1)) (RProb.flat l w) k c := by
      intro k c
      by_cases hk : k = ep % (cfg.K + 1)
      · subst hk; rw [Function.update_self, Function.update_self, h.flat]
      · rw [Function.update_of_ne hk, Function.update_of_ne hk, hb]
    split
    · rw [gram_scale h.sig _ _ _ hb1, h.dim]
      cases solveLinSys (matN (l.length * Coord.dim E) (l.length * Coord.dim E)
        (gram cfg.K (Function.update b (ep % (cfg.K + 1)) (RProb.flat l w)))) (List.replicate cfg.K one) with
      | error e => rfl
      | ok z =>
        cases z with
        | none => exact ⟨hb1, rfl⟩
        | some z =>
          dsimp only [bind, Except.bind]
          refine ⟨hb1, ?_⟩
          dsimp only
          rw [comb_scale _ _ _ hb1, h.scat, h.F, h.F]
          split <;> rfl
    · exact ⟨hb1, rfl⟩
  · exact ⟨hb, rfl⟩

theorem RMap.epoch (h : RMap R R' e σ) : ∀ (l : List (Fin p)) (w : Fin p → E),
    l.foldl R'.step (fun j => e (w j)) = fun j => e (l.foldl R.step w j)
  | [], _ => rfl
  | j :: l, w => by
    rw [List.foldl_cons, List.foldl_cons, h.step]
    exact RMap.epoch h l (R.step w j)

theorem RMap.sim (h : RMap R R' e σ) (srt : Argsort XR) (cfg : Solver XR) (ws0 : ℕ) :
    Skel.Sim (R.skel srt cfg ws0) (R'.skel srt cfg ws0) (fun w w' => w' = fun j => e (w j)) (fun _ _ => True)
      (fun _ _ b b' => ∀ k c, b' k c = σ * b k c) where
  viol w w' hw := by subst hw; exact congrArg Except.ok (h.viol w _).symm
  done _ := rfl
  mkWs w w' kkt km hw hv := by
    subst hw
    have : RProb.nz (fun j => e (w j)) = RProb.nz w := funext fun j => h.nz w j
    show pickWs srt kkt p (RProb.nz w) ws0 = pickWs srt kkt p (RProb.nz fun j => e (w j)) ws0
    rw [this]
  ws _ _ _ _ _ _ _ _ _ _ := trivial
  buf0 _ _ _ _ _ := (mul_zero σ).symm
  epoch ws _ w w' hw _ := by subst hw; exact h.epoch _ w
  accel ws _ ep b b' w w' hw _ hb := by subst hw; exact h.accel cfg _ ep b b' hb w
  stop ws sz km ep w w' hw _ := by
    subst hw
    show Except.ok (_ && if sz = p then ((R.viol w (finws p ws)).2 <=. cfg.tolerance) else _) =
      Except.ok (_ && if sz = p then ((R'.viol (fun j => e (w j)) (finws p ws)).2 <=. cfg.tolerance) else _)
    rw [h.viol]
  maxEpochs := rfl

/-- The runs correspond. -/
theorem RMap.run (h : RMap R R' e σ) (srt : Argsort XR) (cfg : Solver XR) :
    R'.run srt cfg = (fun q => ((fun j => e (q.1 j)), q.2)) <$> R.run srt cfg := by
  have h0 := (h.sim srt cfg (ws0CD cfg p)).outer cfg.maxIterations (fun _ => 0) (fun _ => 0)
    (funext fun _ => ((h.zero 0).mpr rfl).symm)
  unfold RProb.run
  revert h0
  cases (R.skel srt cfg (ws0CD cfg p)).outer cfg.maxIterations (fun _ => 0) with
  | error e =>
    cases (R'.skel srt cfg (ws0CD cfg p)).outer cfg.maxIterations (fun _ => 0) with
    | error e' => intro h0; exact congrArg _ (Eq.symm h0)
    | ok q => intro h0; exact h0.elim
  | ok q =>
    cases (R'.skel srt cfg (ws0CD cfg p)).outer cfg.maxIterations (fun _ => 0) with
    | error e' => intro h0; exact h0.elim
    | ok q' =>
      intro h0
      obtain ⟨h1, h2⟩ := h0
      exact congrArg Except.ok (Prod.ext h1 h2.symm)

/-- Negation of all rows. -/
theorem RMap.ofNeg {R R' : RProb E p} (hco : ∀ (x : E) c, Coord.co (-x) (c % Coord.dim E) = -Coord.co x (c % Coord.dim E))
    (hF : ∀ w, R'.F (fun j => -(w j)) = R.F w)
    (hG : ∀ w j, R'.G (fun j => -(w j)) j = -R.G w j) (hL : R'.L = R.L)
    (hpx : ∀ v s, 0 < s → R'.px (-v) s = -R.px v s) (hsc : ∀ a b, R'.sc (-a) (-b) = R.sc a b) (hm : R'.m0 = R.m0)
    (hpos : ∀ j, 0 ≤ R.L j) : RMap R R' (fun x => -x) (-1) where
  sig := by norm_num
  dim := rfl
  co x c := by rw [hco]; ring
  ofCo f := by
    have := ofCo_smul (E := E) (-1) f
    rw [this, neg_smul, one_smul]
  zero x := neg_eq_zero
  F := hF
  step w j := by
    funext i
    unfold RProb.step
    rw [hL]
    split
    · rfl
    · rename_i h0
      have hs : 0 < 1 / R.L j := one_div_pos.mpr (lt_of_le_of_ne (hpos j) (Ne.symm h0))
      by_cases hi : i = j
      · subst hi
        rw [Function.update_self, Function.update_self, hG, ← hpx _ _ hs]
        congr 1
        rw [smul_neg, neg_sub, sub_neg_eq_add, add_comm, ← sub_eq_add_neg]
      · rw [Function.update_of_ne hi, Function.update_of_ne hi]
  sc w j := by rw [hG, hsc]
  m0 := hm

end RProb
end Sglm
