import Verif.Proofs.SimJoint
import Verif.Spec.Extrapolation
import Verif.Props.Sync

/-!
# C57: the extrapolated point

Exact arithmetic; every penalty, both losses, both storage formats, any working set, any buffer.
-/

namespace Sglm
open Scalar Spec
variable {n p T : ℕ}

namespace RProb
variable {E : Type} [AddCommGroup E] [Module ℝ E] [Coord E] {p : ℕ} (R : RProb E p)
open Coord

/-- The acceleration step stores the iterate and, every `K + 1` epochs, may move to an affine combination. -/
theorem accel_affine (cfg : Solver XR) (hu : cfg.useAcceleration = true) (l : List (Fin p)) (e : ℕ) (b : ℕ → ℕ → ℝ)
    (w : Fin p → E) (r : (ℕ → ℕ → ℝ) × (Fin p → E)) (hr : R.accel cfg l e b w = .ok r) :
    r.1 = Function.update b (e % (cfg.K + 1)) (flat l w) ∧
      (r.2 = w ∨ e % (cfg.K + 1) = cfg.K ∧ R.F r.2 < R.F w ∧ ∃ c : ℕ → ℝ, ∑ k ∈ Finset.range cfg.K, c k = 1 ∧
        r.2 = scat l (fun i => ∑ k ∈ Finset.range cfg.K, c k * r.1 k i)) := by
  unfold accel at hr
  rw [if_pos hu] at hr
  dsimp only at hr
  split at hr
  · rename_i he
    rcases solve_gram cfg.K (l.length * dim E)
        (Function.update b (e % (cfg.K + 1)) (flat l w)) with ⟨e', h1, h2⟩ | h1 | ⟨z, h1, h2⟩
    · rw [h1] at hr; cases hr
    · rw [h1] at hr
      injection hr with hr
      subst hr
      exact ⟨rfl, Or.inl rfl⟩
    · rw [h1] at hr
      injection hr with hr
      subst hr
      refine ⟨rfl, ?_⟩
      dsimp only
      split
      · rename_i hlt
        refine Or.inr ⟨he, hlt, fun k => z k / ∑ l ∈ Finset.range cfg.K, z l, ?_, ?_⟩
        · rw [← Finset.sum_div, div_self h2.ne']
        · congr 1
          funext i
          unfold comb
          have hs : ∑ l ∈ Finset.range cfg.K, realsOf (vecN cfg.K z) l = ∑ l ∈ Finset.range cfg.K, z l :=
            Finset.sum_congr rfl fun k hk => realsOf_vecN z (Finset.mem_range.mp hk)
          refine Finset.sum_congr rfl fun k hk => ?_
          rw [hs, realsOf_vecN z (Finset.mem_range.mp hk), mul_comm]
      · exact Or.inl rfl
  · injection hr with hr
    subst hr
    exact ⟨rfl, Or.inl rfl⟩

theorem accel_off (cfg : Solver XR) (hu : cfg.useAcceleration = false) (l : List (Fin p)) (e : ℕ) (b : ℕ → ℕ → ℝ)
    (w : Fin p → E) : R.accel cfg l e b w = .ok (b, w) := by
  unfold accel
  rw [hu]; rfl

end RProb

theorem idx_ofFn {m : ℕ} (ws : Fin m → Fin p) : idx ws = (List.ofFn ws).map Fin.val := by
  unfold idx; rw [List.map_ofFn]; rfl

/-- The position of a feature in its working set. -/
theorem idxOf_ofFn {m : ℕ} {ws : Fin m → Fin p} (hw : Function.Injective ws) (i : Fin m) :
    (List.ofFn ws).idxOf (ws i) = i := by
  have h := (List.nodup_ofFn.mpr hw).idxOf_getElem i (by rw [List.length_ofFn]; exact i.isLt)
  rw [List.getElem_ofFn] at h
  exact h

/-- The extrapolated point is an affine combination of the first `K` of the last `K + 1` iterates on the working set,
zero elsewhere, tried every `K + 1` epochs, and replaces the iterate only if its objective is smaller.  `w₁` is the
result of the epoch without acceleration. -/
theorem C57_affine_partial (hn : 0 < n) (D : Design n p) (y : Fin n → ℝ) (k : LossKind) (pen : Pen) (hv : pen.Valid)
    (cfg : Solver XR) (hu : cfg.useAcceleration = true) (m : ℕ) (ws : Fin m → Fin p) (hw : Function.Injective ws)
    (e : ℕ) (buf : Fin (cfg.K + 1) → Fin m → ℝ) (w : Fin p → ℝ) (B : Mat XR) (st' : CDState XR)
    (hr : epoch1 cfg D y k pen (idx ws) e (mat buf) ⟨vec w, vec (fit D.matrix w)⟩ = .ok (B, st')) :
    ∃ (w₁ w' : Fin p → ℝ) (buf' : Fin (cfg.K + 1) → Fin m → ℝ),
      epoch1 (cfg.setUseAcceleration false) D y k pen (idx ws) e (mat buf) ⟨vec w, vec (fit D.matrix w)⟩ =
        .ok (mat buf, ⟨vec w₁, vec (fit D.matrix w₁)⟩) ∧
      B = mat buf' ∧ st' = ⟨vec w', vec (fit D.matrix w')⟩ ∧
      buf' = Function.update buf ⟨e % (cfg.K + 1), Nat.mod_lt _ (Nat.succ_pos _)⟩ (fun i => w₁ (ws i)) ∧
      (w' = w₁ ∨ e % (cfg.K + 1) = cfg.K ∧ objective1 D y k pen w' < objective1 D y k pen w₁ ∧
        ∃ c, Extrapolated ws buf' c w') := by
  have e2 : mat buf = matN (cfg.K + 1) (List.ofFn ws).length (extM buf) := by rw [mat_eq_matN, List.length_ofFn]
  have h0 : epoch1 (cfg.setUseAcceleration false) D y k pen (idx ws) e (mat buf) ⟨vec w, vec (fit D.matrix w)⟩ =
      .ok (mat buf, ⟨vec ((List.ofFn ws).foldl (prob1 D y k pen).step w),
        vec (fit D.matrix ((List.ofFn ws).foldl (prob1 D y k pen).step w))⟩) := by
    have := epoch1_eq hn D y k pen hv (cfg.setUseAcceleration false) _ (List.nodup_ofFn.mpr hw) e (extM buf) w
    rw [RProb.accel_off _ _ rfl] at this
    rw [idx_ofFn, e2]
    exact this
  rw [idx_ofFn, e2, epoch1_eq hn D y k pen hv cfg _ (List.nodup_ofFn.mpr hw)] at hr
  generalize hw1 : (List.ofFn ws).foldl (prob1 D y k pen).step w = w₁ at h0 hr
  cases ha : (prob1 D y k pen).accel cfg (List.ofFn ws) e (extM buf) w₁ with
  | error e => rw [ha] at hr; cases hr
  | ok r =>
    rw [ha] at hr
    injection hr with hr
    injection hr with hB hs
    obtain ⟨h1, h2⟩ := RProb.accel_affine _ cfg hu _ _ _ _ r ha
    have hb : ∀ (k : Fin (cfg.K + 1)) (i : Fin m), r.1 k i = Function.update buf
        ⟨e % (cfg.K + 1), Nat.mod_lt _ (Nat.succ_pos _)⟩ (fun i => w₁ (ws i)) k i := by
      intro k i
      rw [h1]
      by_cases hk : k = ⟨e % (cfg.K + 1), Nat.mod_lt _ (Nat.succ_pos _)⟩
      · subst hk
        rw [Function.update_self, Function.update_self]
        show (match (List.ofFn ws)[(i : ℕ) / 1]? with | some j => w₁ j | none => 0) = _
        rw [Nat.div_one, List.getElem?_eq_getElem (by rw [List.length_ofFn]; exact i.isLt)]
        simp
      · rw [Function.update_of_ne hk, Function.update_of_ne (fun h => hk (Fin.ext h)), extM_fin]
    refine ⟨w₁, r.2, _, h0, ?_, hs.symm, rfl, ?_⟩
    · rw [← hB, matN_eq_mat, List.length_ofFn]
      congr 1
      funext k i
      exact hb k i
    · rcases h2 with h2 | ⟨h3, h4, c, h5, h6⟩
      · exact Or.inl h2
      · refine Or.inr ⟨h3, h4, fun k => c k, ?_, ?_, ?_⟩
        · rw [← h5, Finset.sum_range]
        · intro i
          rw [h6]
          unfold RProb.scat
          rw [if_pos (List.mem_ofFn.mpr ⟨i, rfl⟩), idxOf_ofFn hw]
          show ∑ k ∈ Finset.range cfg.K, c k * r.1 k (i * 1 + 0) = _
          rw [Finset.sum_range, Nat.mul_one, Nat.add_zero]
          refine Finset.sum_congr rfl fun k _ => ?_
          have := hb k.castSucc i
          rw [smul_eq_mul, ← this]
          rfl
        · intro j hj
          rw [h6]
          unfold RProb.scat
          rw [if_neg fun h => ?_]
          obtain ⟨i, hi⟩ := List.mem_ofFn.mp h
          exact hj i hi

/-- Values of the stored multi-task iterates. -/
theorem extM_flatIterates {K m : ℕ} (buf : Fin (K + 1) → Fin m → Euc T) (k : Fin (K + 1)) (i : Fin m) (t : Fin T) :
    extM (flatIterates buf) k (i * T + t) = (buf k i).ofLp t := by
  have hlt : (i : ℕ) * T + t < m * T :=
    lt_of_lt_of_le (Nat.add_lt_add_left t.isLt _) (by
      rw [← Nat.succ_mul]; exact Nat.mul_le_mul_right _ i.isLt)
  have h := extM_fin (flatIterates buf) k ⟨i * T + t, hlt⟩
  rw [show ((⟨i * T + t, hlt⟩ : Fin (m * T)) : ℕ) = i * T + t from rfl] at h
  rw [h]
  unfold flatIterates
  have hT : 0 < T := lt_of_le_of_lt (Nat.zero_le _) t.isLt
  have h1 : (⟨i * T + t, hlt⟩ : Fin (m * T)).divNat = i := by
    apply Fin.ext
    show ((i : ℕ) * T + t) / T = i
    rw [Nat.mul_comm, Nat.mul_add_div hT, Nat.div_eq_of_lt t.isLt, Nat.add_zero]
  have h2 : (⟨i * T + t, hlt⟩ : Fin (m * T)).modNat = t := by
    apply Fin.ext
    show ((i : ℕ) * T + t) % T = t
    rw [Nat.mul_comm, Nat.mul_add_mod, Nat.mod_eq_of_lt t.isLt]
  rw [h1, h2]

/-- The same for multi-task problems. -/
theorem C57_affine_mt_partial (hn : 0 < n) (D : Design n p) (Y : Fin n → Fin T → ℝ) (pen : BPen) (hv : pen.Valid)
    (cfg : Solver XR) (hu : cfg.useAcceleration = true) (m : ℕ) (ws : Fin m → Fin p) (hw : Function.Injective ws)
    (e : ℕ) (buf : Fin (cfg.K + 1) → Fin m → Euc T) (W : Fin p → Euc T) (B : Mat XR) (st' : BCDState XR)
    (hr : epochMT cfg D Y pen (idx ws) e (mat (flatIterates buf))
      ⟨emat W, mat (fitMT D.matrix fun j => (W j).ofLp)⟩ = .ok (B, st')) :
    ∃ (W₁ W' : Fin p → Euc T) (buf' : Fin (cfg.K + 1) → Fin m → Euc T),
      epochMT (cfg.setUseAcceleration false) D Y pen (idx ws) e (mat (flatIterates buf))
          ⟨emat W, mat (fitMT D.matrix fun j => (W j).ofLp)⟩ =
        .ok (mat (flatIterates buf), ⟨emat W₁, mat (fitMT D.matrix fun j => (W₁ j).ofLp)⟩) ∧
      B = mat (flatIterates buf') ∧ st' = ⟨emat W', mat (fitMT D.matrix fun j => (W' j).ofLp)⟩ ∧
      buf' = Function.update buf ⟨e % (cfg.K + 1), Nat.mod_lt _ (Nat.succ_pos _)⟩ (fun i => W₁ (ws i)) ∧
      (W' = W₁ ∨ e % (cfg.K + 1) = cfg.K ∧ objectiveMT D Y pen W' < objectiveMT D Y pen W₁ ∧
        ∃ c, Extrapolated ws buf' c W') := by
  have e2 : mat (flatIterates buf) = matN (cfg.K + 1) ((List.ofFn ws).length * T) (extM (flatIterates buf)) := by
    rw [mat_eq_matN, List.length_ofFn]
  have h0 : epochMT (cfg.setUseAcceleration false) D Y pen (idx ws) e (mat (flatIterates buf))
        ⟨emat W, mat (fitMT D.matrix fun j => (W j).ofLp)⟩ =
      .ok (mat (flatIterates buf), ⟨emat ((List.ofFn ws).foldl (probMT D Y pen).step W),
        mat (MT.fitE D.matrix ((List.ofFn ws).foldl (probMT D Y pen).step W))⟩) := by
    have := epochMT_eq hn D Y pen hv (cfg.setUseAcceleration false) _ (List.nodup_ofFn.mpr hw) e
      (extM (flatIterates buf)) W
    rw [RProb.accel_off _ _ rfl] at this
    rw [idx_ofFn, e2]
    exact this
  rw [idx_ofFn, e2, epochMT_eq hn D Y pen hv cfg _ (List.nodup_ofFn.mpr hw)] at hr
  generalize hw1 : (List.ofFn ws).foldl (probMT D Y pen).step W = W₁ at h0 hr
  cases ha : (probMT D Y pen).accel cfg (List.ofFn ws) e (extM (flatIterates buf)) W₁ with
  | error e => rw [ha] at hr; cases hr
  | ok r =>
    rw [ha] at hr
    injection hr with hr
    injection hr with hB hs
    obtain ⟨h1, h2⟩ := RProb.accel_affine _ cfg hu _ _ _ _ r ha
    have hb : ∀ (k : Fin (cfg.K + 1)) (i : Fin m) (t : Fin T), r.1 k (i * T + t) = (Function.update buf
        ⟨e % (cfg.K + 1), Nat.mod_lt _ (Nat.succ_pos _)⟩ (fun i => W₁ (ws i)) k i).ofLp t := by
      intro k i t
      have hT : 0 < T := lt_of_le_of_lt (Nat.zero_le _) t.isLt
      rw [h1]
      by_cases hk : k = ⟨e % (cfg.K + 1), Nat.mod_lt _ (Nat.succ_pos _)⟩
      · subst hk
        rw [Function.update_self, Function.update_self]
        show (match (List.ofFn ws)[((i : ℕ) * T + t) / T]? with
          | some j => extV (W₁ j).ofLp (((i : ℕ) * T + t) % T) | none => 0) = _
        rw [Nat.mul_comm, Nat.mul_add_div hT, Nat.div_eq_of_lt t.isLt, Nat.add_zero, Nat.mul_add_mod,
          Nat.mod_eq_of_lt t.isLt, List.getElem?_eq_getElem (by rw [List.length_ofFn]; exact i.isLt)]
        simp
      · rw [Function.update_of_ne hk, Function.update_of_ne (fun h => hk (Fin.ext h)), extM_flatIterates]
    refine ⟨W₁, r.2, _, h0, ?_, hs.symm, rfl, ?_⟩
    · rw [← hB, matN_eq_mat, List.length_ofFn]
      congr 1
      funext k c
      have := hb k c.divNat c.modNat
      rw [← show ((c : ℕ) = (c.divNat : ℕ) * T + c.modNat) from by
        show (c : ℕ) = (c : ℕ) / T * T + (c : ℕ) % T
        exact (Nat.div_add_mod' _ _).symm] at this
      exact this
    · rcases h2 with h2 | ⟨h3, h4, c, h5, h6⟩
      · exact Or.inl h2
      · refine Or.inr ⟨h3, h4, fun k => c k, ?_, ?_, ?_⟩
        · rw [← h5, Finset.sum_range]
        · intro i
          rw [h6]
          unfold RProb.scat
          rw [if_pos (List.mem_ofFn.mpr ⟨i, rfl⟩), idxOf_ofFn hw]
          ext t
          show ∑ k ∈ Finset.range cfg.K, c k * r.1 k (i * T + t) = _
          rw [Finset.sum_range, WithLp.ofLp_sum, Finset.sum_apply]
          refine Finset.sum_congr rfl fun k _ => ?_
          have := hb k.castSucc i t
          rw [PiLp.smul_apply, smul_eq_mul, ← this]
          rfl
        · intro j hj
          rw [h6]
          unfold RProb.scat
          rw [if_neg fun h => ?_]
          obtain ⟨i, hi⟩ := List.mem_ofFn.mp h
          exact hj i hi

/-- The full statement: accepted extrapolations use Anderson's weights. -/
def C57_full : Prop := ∀ (n p : ℕ) (_ : 0 < n) (D : Design n p) (y : Fin n → ℝ) (k : LossKind) (pen : Pen)
    (_ : pen.Valid) (cfg : Solver XR) (_ : cfg.useAcceleration = true) (m : ℕ) (ws : Fin m → Fin p)
    (_ : Function.Injective ws) (e : ℕ) (buf : Fin (cfg.K + 1) → Fin m → ℝ) (w : Fin p → ℝ) (B : Mat XR)
    (st' : CDState XR)
    (_ : epoch1 cfg D y k pen (idx ws) e (mat buf) ⟨vec w, vec (fit D.matrix w)⟩ = .ok (B, st')),
    ∃ (w₁ w' : Fin p → ℝ) (buf' : Fin (cfg.K + 1) → Fin m → ℝ),
      epoch1 (cfg.setUseAcceleration false) D y k pen (idx ws) e (mat buf) ⟨vec w, vec (fit D.matrix w)⟩ =
        .ok (mat buf, ⟨vec w₁, vec (fit D.matrix w₁)⟩) ∧
      B = mat buf' ∧ st' = ⟨vec w', vec (fit D.matrix w')⟩ ∧
      buf' = Function.update buf ⟨e % (cfg.K + 1), Nat.mod_lt _ (Nat.succ_pos _)⟩ (fun i => w₁ (ws i)) ∧
      (w' = w₁ ∨ e % (cfg.K + 1) = cfg.K ∧ objective1 D y k pen w' < objective1 D y k pen w₁ ∧
        ∃ c, AndersonWeights buf' c ∧ Extrapolated ws buf' c w')

/-- The weights come from the leading block of `UᵀU` (features) instead of `UUᵀ` (iterates), `U` the matrix of
differences.  Iterates `(0,0)`, `(1,0)`, `(2,1)` with `K = 2`: the answer is `(1,0)`, Anderson's weights give `(0,0)`. -/
theorem C57_false : ¬ C57_full := by
  intro hf
  let D : Design 1 2 := .dense fun _ _ => 0
  let cfg : Solver XR := ⟨10, 50, 1000, XR.fin 0, 2, true, true⟩
  let ws : Fin 2 → Fin 2 := id
  let buf : Fin (cfg.K + 1) → Fin 2 → ℝ := ![![0, 0], ![1, 0], ![0, 0]]
  let w : Fin 2 → ℝ := ![2, 1]
  have hv : (Pen.l1 1).Valid := zero_le_one
  have e2 : mat buf = matN (cfg.K + 1) (List.ofFn ws).length (extM buf) := by rw [mat_eq_matN, List.length_ofFn]
  have hL : ∀ j, (prob1 D (fun _ => 0) .quadratic (.l1 1)).L j = 0 := by
    intro j
    show (∑ i : Fin 1, (0 : ℝ) * 0) / ((1 : ℕ) : ℝ) = 0
    simp
  have hst : ∀ l : List (Fin 2), l.foldl (prob1 D (fun _ => 0) .quadratic (.l1 1)).step w = w := by
    intro l
    induction l with
    | nil => rfl
    | cons j l ih =>
      rw [List.foldl_cons, show (prob1 D (fun _ => 0) .quadratic (.l1 1)).step w j = w from if_pos (hL j)]
      exact ih
  have s2 : ∀ f : ℕ → ℝ, ∑ c ∈ Finset.range 2, f c = f 0 + f 1 := fun f => by simp [Finset.sum_range_succ]
  let b1 : ℕ → ℕ → ℝ := Function.update (extM buf) 2 (RProb.flat (List.ofFn ws) w)
  have b00 : b1 0 0 = 0 := extM_fin buf 0 0
  have b01 : b1 0 1 = 0 := extM_fin buf 0 1
  have b10 : b1 1 0 = 1 := extM_fin buf 1 0
  have b11 : b1 1 1 = 0 := extM_fin buf 1 1
  have b20 : b1 2 0 = 2 := rfl
  have b21 : b1 2 1 = 1 := rfl
  have g00 : gram 2 b1 0 0 = 2 := by
    unfold gram; rw [s2, b00, b10, b20]; norm_num
  have g01 : gram 2 b1 0 1 = 1 := by
    unfold gram; rw [s2, b00, b10, b20, b01, b11, b21]; norm_num
  have g10 : gram 2 b1 1 0 = 1 := by
    unfold gram; rw [s2, b00, b10, b20, b01, b11, b21]; norm_num
  have g11 : gram 2 b1 1 1 = 1 := by
    unfold gram; rw [s2, b01, b11, b21]; norm_num
  have hsol : ∃ z : ℕ → ℝ, solveLinSys (matN 2 2 (gram 2 b1)) (List.replicate 2 one) = .ok (some (vecN 2 z)) ∧
      z 0 = 0 ∧ z 1 = 1 := by
    rw [replicate_one_vecN]
    rcases Lin.psd_sound (N := 2) (m := 2) (gram 2 b1) (fun _ => 1) two_pos le_rfl le_rfl (gram_psd 2 2 b1) with
      ⟨z, h1, h2⟩ | ⟨-, h⟩
    · refine ⟨z, h1, ?_⟩
      have q0 := h2 0 (by norm_num)
      have q1 := h2 1 (by norm_num)
      rw [s2, g00, g01] at q0
      rw [s2, g10, g11] at q1
      constructor <;> linarith
    · exfalso
      apply h
      intro x hx
      have q0 := hx 0 (by norm_num)
      have q1 := hx 1 (by norm_num)
      rw [s2, g00, g01] at q0
      rw [s2, g10, g11] at q1
      intro r hr
      interval_cases r <;> linarith
  obtain ⟨z, hz, z0, z1⟩ := hsol
  have hacc : (prob1 D (fun _ => 0) .quadratic (.l1 1)).accel cfg (List.ofFn ws) 2 (extM buf) w =
      .ok (b1, ![1, 0]) := by
    unfold RProb.accel
    rw [if_pos rfl]
    dsimp only
    have hc : 2 % (cfg.K + 1) = cfg.K := rfl
    rw [if_pos hc, show 2 % (cfg.K + 1) = 2 from rfl]
    rw [show (List.ofFn ws).length * Coord.dim ℝ = 2 by rw [List.length_ofFn]; rfl]
    have hz' : solveLinSys (matN 2 2 (gram cfg.K (Function.update (extM buf) 2 (RProb.flat (List.ofFn ws) w))))
        (List.replicate cfg.K one) = .ok (some (vecN 2 z)) := hz
    rw [hz']
    have hwa : (RProb.scat (List.ofFn ws) (comb 2 b1 (realsOf (vecN 2 z))) : Fin 2 → ℝ) = ![1, 0] := by
      have hc : ∀ i, comb 2 b1 (realsOf (vecN 2 z)) i = b1 1 i := by
        intro i
        unfold comb
        rw [s2, s2, realsOf_vecN z two_pos, realsOf_vecN z one_lt_two, z0, z1]
        norm_num
      funext j
      unfold RProb.scat
      rw [if_pos (show j ∈ List.ofFn ws from List.mem_ofFn.mpr ⟨j, rfl⟩), show (List.ofFn ws).idxOf j = j from
        idxOf_ofFn (ws := ws) Function.injective_id j]
      show comb 2 b1 (realsOf (vecN 2 z)) (j * 1 + 0) = _
      rw [hc, Nat.mul_one, Nat.add_zero]
      fin_cases j
      · exact b10
      · exact b11
    have hlt : objective1 D (fun _ => 0) .quadratic (.l1 1) ![1, 0] < objective1 D (fun _ => 0) .quadratic (.l1 1) w := by
      have h0 : ∀ v : Fin 2 → ℝ, fit D.matrix v = fun _ => 0 := by
        intro v; funext i; simp [fit, D, Design.matrix]
      unfold objective1
      rw [h0, h0]
      simp [Fin.sum_univ_two, Pen.fn, w]
    show Except.ok (b1, if objective1 D (fun _ => 0) .quadratic (.l1 1)
      (RProb.scat (List.ofFn ws) (comb 2 b1 (realsOf (vecN 2 z)))) <
      objective1 D (fun _ => 0) .quadratic (.l1 1) w then
        (RProb.scat (List.ofFn ws) (comb 2 b1 (realsOf (vecN 2 z)))) else w) = _
    rw [hwa, if_pos hlt]
  have hep : epoch1 cfg D (fun _ => 0) .quadratic (.l1 1) (idx ws) 2 (mat buf) ⟨vec w, vec (fit D.matrix w)⟩ =
      .ok (matN 3 2 b1, ⟨vec ![1, 0], vec (fit D.matrix ![1, 0])⟩) := by
    rw [idx_ofFn, e2, epoch1_eq one_pos D _ .quadratic (.l1 1) hv cfg _ (List.nodup_ofFn.mpr Function.injective_id),
      hst, hacc]
    rfl
  obtain ⟨w₁, w', buf', h1, -, h3, h4, h5⟩ := hf 1 2 one_pos D (fun _ => 0) .quadratic (.l1 1) hv cfg rfl 2 ws
    Function.injective_id 2 buf w _ _ hep
  have hw1 : w₁ = w := by
    have h0 := epoch1_eq one_pos D (fun _ => 0) .quadratic (.l1 1) hv (cfg.setUseAcceleration false) (List.ofFn ws)
      (List.nodup_ofFn.mpr Function.injective_id) 2 (extM buf) w
    rw [RProb.accel_off _ _ rfl, hst, ← idx_ofFn] at h0
    rw [e2] at h1
    have h2 := h1.symm.trans h0
    injection h2 with h2
    injection h2 with _ h2
    injection h2 with h2 _
    exact vec_injective h2
  have hw' : w' = ![1, 0] := by
    injection h3 with h3 _
    exact (vec_injective h3).symm
  rw [hw1, hw'] at h5
  rcases h5 with h5 | ⟨-, -, c, hA, hE⟩
  · have := congrFun h5 0
    simp [w] at this
  · have hb0 : buf' 0 = ![0, 0] := by
      rw [h4, Function.update_of_ne (by decide)]; rfl
    have hb1 : buf' 1 = ![1, 0] := by
      rw [h4, Function.update_of_ne (by decide)]; rfl
    have hb2 : buf' 2 = ![2, 1] := by
      rw [h4, show (⟨2 % (cfg.K + 1), Nat.mod_lt _ (Nat.succ_pos _)⟩ : Fin (cfg.K + 1)) = 2 from rfl,
        Function.update_self, hw1]
      rfl
    have hr : ∀ c : Fin 2 → ℝ, Spec.residual (K := 2) buf' c = (c 0 + c 1) ^ 2 + (c 1) ^ 2 := by
      intro c
      unfold Spec.residual
      rw [Fin.sum_univ_two, Fin.sum_univ_two, Fin.sum_univ_two]
      show ‖c 0 • (buf' 1 0 - buf' 0 0) + c 1 • (buf' 2 0 - buf' 1 0)‖ ^ 2 +
        ‖c 0 • (buf' 1 1 - buf' 0 1) + c 1 • (buf' 2 1 - buf' 1 1)‖ ^ 2 = _
      rw [hb0, hb1, hb2]
      simp only [Real.norm_eq_abs, sq_abs, smul_eq_mul]
      simp
      ring
    have h6 := hA (![1, 0] : Fin 2 → ℝ) (by
      show ∑ k : Fin 2, (![1, 0] : Fin 2 → ℝ) k = 1
      simp)
    rw [hr, hr] at h6
    have h7 : (c : Fin 2 → ℝ) 0 + (c : Fin 2 → ℝ) 1 = 1 := by
      have := hE.sum_one
      rw [← this]
      exact (Fin.sum_univ_two _).symm
    have h8 : (1 : ℝ) = (c : Fin 2 → ℝ) 0 * 0 + (c : Fin 2 → ℝ) 1 * 1 := by
      have h9 := hE.inside 0
      have h10 : ∑ k : Fin 2, c k • buf' k.castSucc 0 = c (0 : Fin 2) • buf' 0 0 + c (1 : Fin 2) • buf' 1 0 :=
        Fin.sum_univ_two _
      rw [hb0, hb1] at h10
      exact h9.trans h10
    rw [h7] at h6
    simp at h6
    rw [h6] at h8
    norm_num at h8

/-! ## C58: `K = 1` -/

/-- With `K = 1` acceleration changes nothing: the only candidate is the previous iterate. -/
theorem C58_single {srt : Argsort XR} (hs : ArgsortSpec srt) (hn : 0 < n) (hp : 0 < p) (D : Design n p)
    (hD : D.Canonical) (y : Fin n → ℝ) (k : LossKind) (hy : k.LabelsOK y) (pen : Pen) (hv : pen.Valid)
    (hst : pen.StepOK D k) (cfg : Solver XR) (hK : cfg.K = 1) (hws : 0 < cfg.wsStartSize) :
    solve1 srt cfg D y k pen = solve1 srt (cfg.setUseAcceleration false) D y k pen := by
  by_cases hu : cfg.useAcceleration = true
  · rw [solve1_eq hs hn D y k pen hv, solve1_eq hs hn D y k pen hv,
      (prob1_mm hn D hD y k hy pen hv hst).run_one hs cfg hK hu hws hp one_pos]
  · have : cfg.setUseAcceleration false = cfg := by
      cases cfg
      simp only [Bool.not_eq_true] at hu
      subst hu
      rfl
    rw [this]

/-- The same for multi-task problems. -/
theorem C58_multi {srt : Argsort XR} (hs : ArgsortSpec srt) (hn : 0 < n) (hp : 0 < p) (hT : 0 < T) (D : Design n p)
    (hD : D.Canonical) (Y : Fin n → Fin T → ℝ) (pen : BPen) (hv : pen.Valid)
    (hst : pen.StepOK D) (cfg : Solver XR) (hK : cfg.K = 1) (hws : 0 < cfg.wsStartSize) :
    solveMT srt cfg D Y pen = solveMT srt (cfg.setUseAcceleration false) D Y pen := by
  by_cases hu : cfg.useAcceleration = true
  · rw [solveMT_eq hs hn D Y pen hv, solveMT_eq hs hn D Y pen hv,
      (probMT_mm hn D hD Y pen hv hst).run_one hs cfg hK hu hws hp hT]
  · have : cfg.setUseAcceleration false = cfg := by
      cases cfg
      simp only [Bool.not_eq_true] at hu
      subst hu
      rfl
    rw [this]

/-! ## Examples -/

section
/-- An epoch with `K = 2` at which extrapolation is tried. -/
example : ∃ (w₁ w' : Fin 2 → ℝ) (buf' : Fin 3 → Fin 2 → ℝ) (B : Mat XR) (st' : CDState XR),
    epoch1 ⟨10, 50, 1000, XR.fin 0, 2, true, true⟩ (.dense ![![1, 2], ![-1, 1]]) (fun i => 10 * i) .quadratic (.l1 1)
      (idx (![1, 0] : Fin 2 → Fin 2)) 2 (mat ![![1, 7], ![2, 5], ![0, 0]])
      ⟨vec (fun _ : Fin 2 => 1), vec (fit ![![1, 2], ![-1, 1]] fun _ => 1)⟩ = .ok (B, st') ∧
    B = mat buf' ∧ buf' 0 = ![1, 7] ∧ st'.w = vec w' ∧
    (w' = w₁ ∨ ∃ c, Extrapolated (K := 2) (![1, 0] : Fin 2 → Fin 2) buf' c w') := by
  obtain ⟨B, st', h⟩ := C27_epoch_ok two_pos (.dense ![![1, 2], ![-1, 1]]) (fun i => 10 * i) .quadratic (.l1 1)
    zero_le_one ⟨10, 50, 1000, XR.fin 0, 2, true, true⟩ 2 ![1, 0] (by decide) 2
    (![![1, 7], ![2, 5], ![0, 0]] : Fin 3 → Fin 2 → ℝ)
    ⟨vec (fun _ : Fin 2 => 1), vec (fit ![![1, 2], ![-1, 1]] fun _ => 1)⟩ ⟨_, rfl, rfl⟩ (fun _ => by decide)
  obtain ⟨w₁, w', buf', -, h2, h3, h4, h5⟩ := C57_affine_partial two_pos (.dense ![![1, 2], ![-1, 1]])
    (fun i => 10 * i) .quadratic (.l1 1) zero_le_one ⟨10, 50, 1000, XR.fin 0, 2, true, true⟩ rfl 2 ![1, 0] (by decide) 2
    (![![1, 7], ![2, 5], ![0, 0]] : Fin 3 → Fin 2 → ℝ) (fun _ => 1) B st' h
  refine ⟨w₁, w', buf', B, st', h, h2, ?_, by rw [h3], ?_⟩
  · rw [h4]; exact Function.update_of_ne (by decide) _ _
  · rcases h5 with h5 | ⟨-, -, h5⟩
    · exact Or.inl h5
    · exact Or.inr h5

/-- Three stored multi-task iterates. -/
noncomputable def exIterates : Fin 3 → Fin 2 → Euc 2 := fun k i => WithLp.toLp 2 fun t => (k : ℝ) + (i : ℝ) * (t : ℝ)

/-- A multi-task epoch with `K = 2` at which extrapolation is tried. -/
example : ∃ (W₁ W' : Fin 2 → Euc 2) (buf' : Fin 3 → Fin 2 → Euc 2) (B : Mat XR) (st' : BCDState XR),
    epochMT ⟨10, 50, 1000, XR.fin 0, 2, true, true⟩ (.dense ![![1, 2], ![-1, 1]]) (fun i (t : Fin 2) => i + t)
      (.l21 1) (idx (![1, 0] : Fin 2 → Fin 2)) 2 (mat (flatIterates (K := 2) exIterates))
      ⟨emat (fun _ : Fin 2 => (0 : Euc 2)), mat (fitMT ![![1, 2], ![-1, 1]] fun _ => (0 : Euc 2).ofLp)⟩ = .ok (B, st') ∧
    st'.W = emat W' ∧ buf' 1 = exIterates 1 ∧
      (W' = W₁ ∨ ∃ c, Extrapolated (K := 2) (![1, 0] : Fin 2 → Fin 2) buf' c W') := by
  obtain ⟨B, st', h⟩ := C27_epoch_ok_mt two_pos (.dense ![![1, 2], ![-1, 1]]) (fun i (t : Fin 2) => (i : ℝ) + t)
    (.l21 1) one_pos ⟨10, 50, 1000, XR.fin 0, 2, true, true⟩ 2 ![1, 0] (by decide) 2 (flatIterates (K := 2) exIterates)
    (fun _ => 0) (fun _ => by decide)
  obtain ⟨W₁, W', buf', -, -, h3, h4, h5⟩ := C57_affine_mt_partial two_pos (.dense ![![1, 2], ![-1, 1]])
    (fun i (t : Fin 2) => (i : ℝ) + t) (.l21 1) one_pos ⟨10, 50, 1000, XR.fin 0, 2, true, true⟩ rfl 2 ![1, 0]
    (by decide) 2 exIterates (fun _ => 0) B st' h
  refine ⟨W₁, W', buf', B, st', h, by rw [h3], ?_, ?_⟩
  · rw [h4]; exact Function.update_of_ne (by decide) _ _
  · rcases h5 with h5 | ⟨-, -, h5⟩
    · exact Or.inl h5
    · exact Or.inr h5

example : solve1 argsortIns ⟨10, 50, 1000, XR.fin 0, 1, true, true⟩ (.dense ![![1, 2], ![-1, 1]]) (fun i => 10 * i)
      .quadratic (.enet 1 (1 / 2)) =
    solve1 argsortIns ⟨10, 50, 1000, XR.fin 0, 1, false, true⟩ (.dense ![![1, 2], ![-1, 1]]) (fun i => 10 * i)
      .quadratic (.enet 1 (1 / 2)) :=
  C58_single argsortIns_spec two_pos two_pos (.dense ![![1, 2], ![-1, 1]]) trivial _ .quadratic trivial (.enet 1 (1 / 2))
    ⟨zero_le_one, by norm_num, by norm_num⟩ trivial ⟨10, 50, 1000, XR.fin 0, 1, true, true⟩ rfl (by decide)

example : solveMT argsortIns ⟨10, 50, 1000, XR.fin 0, 1, true, true⟩ (.dense ![![1, 2], ![-1, 1]])
      (fun i (t : Fin 2) => i + t) (.l21 1) =
    solveMT argsortIns ⟨10, 50, 1000, XR.fin 0, 1, false, true⟩ (.dense ![![1, 2], ![-1, 1]])
      (fun i (t : Fin 2) => i + t) (.l21 1) :=
  C58_multi argsortIns_spec two_pos two_pos two_pos (.dense ![![1, 2], ![-1, 1]]) trivial _ (.l21 1) one_pos trivial
    ⟨10, 50, 1000, XR.fin 0, 1, true, true⟩ rfl (by decide)

end

end Sglm
