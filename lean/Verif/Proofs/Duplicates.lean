import Verif.Spec.Duplicates
import Verif.Proofs.RunPanic
import Verif.Proofs.Converge

/-!
# Auxiliary lemmas: sparse arrays in which positions are stored more than once
-/

namespace Sglm
open Scalar Spec
variable {n p : ℕ}

theorem colSq_stored (A : CSCData n p) (j : Fin p) : colSq A j = storedSq A j := by
  unfold colSq colList storedSq
  rw [sum_filter_list]
  exact Finset.sum_congr rfl fun k _ => by rw [pow_two]

theorem dense_filter (A : CSCData n p) (i : Fin n) (j : Fin p) :
    A.dense i j = ∑ k ∈ Finset.univ.filter fun k => A.InCol j k ∧ A.row k = i, A.data k := by
  unfold CSCData.dense
  rw [Finset.sum_filter]

theorem storedSq_rows (A : CSCData n p) (j : Fin p) :
    storedSq A j = ∑ i, ∑ k ∈ Finset.univ.filter fun k => A.InCol j k ∧ A.row k = i, A.data k ^ 2 := by
  unfold storedSq
  simp only [Finset.sum_filter]
  rw [Finset.sum_comm]
  refine Finset.sum_congr rfl fun k _ => ?_
  by_cases h : A.InCol j k <;> simp [h]

theorem storedBound_times {A : CSCData n p} {r : ℕ} (h : StoredTimes r A) : StoredBound r A := by
  intro j
  rw [storedSq_rows, Finset.mul_sum]
  refine Finset.sum_le_sum fun i _ => ?_
  rw [dense_filter]
  refine (sq_sum_le_card_mul_sum_sq).trans (mul_le_mul_of_nonneg_right ?_ (Finset.sum_nonneg fun k _ => sq_nonneg _))
  exact_mod_cast h i j

theorem sq_sum_opposite {ι : Type} [DecidableEq ι] (s : Finset ι) (d : ι → ℝ) (h : ∀ k ∈ s, ∀ k' ∈ s, k ≠ k' → d k * d k' ≤ 0) :
    (∑ k ∈ s, d k) ^ 2 ≤ ∑ k ∈ s, d k ^ 2 := by
  induction s using Finset.induction_on with
  | empty => simp
  | insert a s ha ih =>
    rw [Finset.sum_insert ha, Finset.sum_insert ha]
    have h1 := ih fun k hk k' hk' => h k (Finset.mem_insert_of_mem hk) k' (Finset.mem_insert_of_mem hk')
    have h2 : d a * ∑ k ∈ s, d k ≤ 0 := by
      rw [Finset.mul_sum]
      exact Finset.sum_nonpos fun k hk => h a (Finset.mem_insert_self _ _) k (Finset.mem_insert_of_mem hk) fun e => ha (e ▸ hk)
    nlinarith

theorem storedBound_opposite {A : CSCData n p} (h : StoredOpposite A) : StoredBound 1 A := by
  intro j
  rw [storedSq_rows, one_mul]
  refine Finset.sum_le_sum fun i _ => ?_
  rw [dense_filter]
  refine sq_sum_opposite _ _ fun k hk k' hk' hne => ?_
  rw [Finset.mem_filter] at hk hk'
  exact h j k k' hk.2.1 hk'.2.1 (hk.2.2.trans hk'.2.2.symm) hne

/-- The true constants and those used by the solver. -/
theorem steps_bound {A : CSCData n p} {c : ℝ} (h : StoredBound c A) (k : LossKind) (j : Fin p) :
    stepsOf (.dense A.dense) k j ≤ c * stepsOf (.csc A) k j := by
  have e : ∑ i, A.dense i j * A.dense i j ≤ c * colSq A j := by
    rw [colSq_stored]
    exact (le_of_eq (Finset.sum_congr rfl fun i _ => (pow_two _).symm)).trans (h j)
  cases k
  · show (∑ i, A.dense i j * A.dense i j) / (n : ℝ) ≤ c * (colSq A j / n)
    rw [← mul_div_assoc]
    exact div_le_div_of_nonneg_right e (Nat.cast_nonneg n)
  · show (∑ i, A.dense i j * A.dense i j) / (4 * (n : ℝ)) ≤ c * (colSq A j / (4 * n))
    rw [← mul_div_assoc]
    exact div_le_div_of_nonneg_right e (by positivity)

theorem dup_major (hn : 0 < n) {A : CSCData n p} {c : ℝ} (h : StoredBound c A) (y : Fin n → ℝ) (k : LossKind) (hy : k.LabelsOK y)
    (w : Fin p → ℝ) (j : Fin p) (v : ℝ) :
    k.loss y (fit A.dense (Function.update w j v)) ≤
      k.loss y (fit A.dense w) + gradOf A.dense y k (fit A.dense w) j * (v - w j) + c * stepsOf (.csc A) k j * (v - w j) ^ 2 / 2 := by
  refine (loss_major hn A.dense y k hy w j v).trans ?_
  have := mul_le_mul_of_nonneg_right (steps_bound h k j) (sq_nonneg (v - w j))
  linarith

/-- With opposite signs the constants are large enough. -/
theorem dup_cvx (hn : 0 < n) {A : CSCData n p} (h : StoredBound 1 A) (y : Fin n → ℝ) (k : LossKind) (hy : k.LabelsOK y) (pen : Pen)
    (hv : pen.Valid) (hc : pen.Convex) (hα : 0 < pen.fn 1) :
    ∃ a b, (prob1 (.csc A) y k pen).Cvx (fun w => k.loss y (fit A.dense w)) a b := by
  obtain ⟨a, b, ha, hb, hab, hp⟩ := pen_fn_eq pen hv hc hα
  refine ⟨a, b, ?_, ha, hb, hab, stepsOf_nonneg _ k, ?_, ?_, ?_, ?_, ?_⟩
  · intro w
    rw [← hp]
    rfl
  · intro w j v
    refine (dup_major hn h y k hy w j v).trans (le_of_eq ?_)
    show _ = k.loss y (fit A.dense w) + (v - w j) * gradOf A.dense y k (fit A.dense w) j + stepsOf (.csc A) k j * ‖v - w j‖ ^ 2 / 2
    rw [Real.norm_eq_abs, sq_abs]
    ring
  · intro w w'
    refine le_trans (le_of_eq ?_) (loss_convex hn A.dense y k w w')
    congr 1
    exact Finset.sum_congr rfl fun j _ => mul_comm _ _
  · intro w
    cases k with
    | quadratic => exact quadLoss_nonneg y (fit A.dense w)
    | logistic => exact logLoss_nonneg y (fit A.dense w)
  · intro j v h0
    have hL : 0 < stepsOf (.csc A) k j := lt_of_le_of_ne (stepsOf_nonneg _ k j) (Ne.symm h0)
    rw [← hp]
    exact proxOf_subdiff pen hv hc v (one_div_pos.mpr hL)
  · intro x g
    rw [← hp]
    exact scoreOf_dist pen hv hc x g

/-- The same constants suffice in several tasks. -/
theorem dup_cvx_mt (hn : 0 < n) {T : ℕ} {A : CSCData n p} (h : StoredBound 1 A) (Y : Fin n → Fin T → ℝ) (α : ℝ) (hα : 0 < α) :
    (probMT (.csc A) Y (.l21 α)).Cvx (fun W => mtLoss Y (fitMT A.dense (fun j => (W j).ofLp))) α 0 := by
  have hp : (BPen.l21 α).fn = pen2 (E := Euc T) α 0 := by
    funext z; show α * ‖z‖ = α * ‖z‖ + 0 * ‖z‖ ^ 2 / 2; ring
  have M := probMT_mm hn (.dense A.dense) trivial Y (.l21 α) hα trivial
  refine ⟨?_, hα.le, le_rfl, by linarith, stepsOf_nonneg (.csc A) .quadratic, ?_, ?_, ?_, ?_, ?_⟩
  · intro w
    rw [← hp]
    exact M.obj w
  · intro w j v
    refine (M.major w j v).trans ?_
    have h1 := steps_bound h .quadratic j
    rw [one_mul] at h1
    have h2 := mul_le_mul_of_nonneg_right h1 (sq_nonneg ‖v - w j‖)
    have e : (probMT (.dense A.dense) Y (.l21 α)).L j = stepsOf (.dense A.dense) .quadratic j := rfl
    have e' : (probMT (.csc A) Y (.l21 α)).L j = stepsOf (.csc A) .quadratic j := rfl
    have e2 : (probMT (.dense A.dense) Y (.l21 α)).G w j = (probMT (.csc A) Y (.l21 α)).G w j := rfl
    rw [e, e', e2]
    have e3 : mtLoss Y (fitMT (Design.dense A.dense).matrix fun j => (w j).ofLp) = mtLoss Y (fitMT A.dense fun j => (w j).ofLp) := rfl
    rw [e3]
    linarith
  · intro V W
    refine le_trans (le_of_eq ?_) (mt_convex hn A.dense Y (fun j => (V j).ofLp) (fun j => (W j).ofLp))
    congr 1
    refine Finset.sum_congr rfl fun j _ => ?_
    rw [PiLp.inner_apply]
    exact Finset.sum_congr rfl fun t _ => mul_comm _ _
  · exact fun W => mtLoss_nonneg Y _
  · intro j v h0
    have hL : 0 < stepsOf (.csc A) .quadratic j := lt_of_le_of_ne (stepsOf_nonneg _ _ j) (Ne.symm h0)
    rw [← hp]
    exact bproxOf_subdiff (.l21 α) hα trivial v (one_div_pos.mpr hL)
  · intro x g
    rw [← hp]
    exact l21Score_dist hα.le x g

/-- Steps up to twice as long as allowed by the curvature do not increase the objective if the penalty is convex. -/
theorem dup_step_le (hn : 0 < n) {A : CSCData n p} (h : StoredBound 2 A) (y : Fin n → ℝ) (k : LossKind) (hy : k.LabelsOK y) (pen : Pen)
    (hv : pen.Valid) (hc : pen.Convex) (w : Fin p → ℝ) (j : Fin p) :
    (prob1 (.csc A) y k pen).F ((prob1 (.csc A) y k pen).step w j) ≤ (prob1 (.csc A) y k pen).F w := by
  unfold RProb.step
  split
  · exact le_rfl
  · rename_i h0
    have h0 : stepsOf (.csc A) k j ≠ 0 := h0
    have hL : 0 < stepsOf (.csc A) k j := lt_of_le_of_ne (stepsOf_nonneg _ k j) (Ne.symm h0)
    set L := stepsOf (.csc A) k j with hLd
    set g := gradOf A.dense y k (fit A.dense w) j with hg
    have hx := proxOf_subdiff pen hv hc (w j - 1 / L * g) (one_div_pos.mpr hL)
    set x := proxOf pen (w j - 1 / L * g) (1 / L) with hxd
    show k.loss y (fit A.dense (Function.update w j x)) + ∑ i, pen.fn (Function.update w j x i) ≤ k.loss y (fit A.dense w) + ∑ i, pen.fn (w i)
    rw [sum_update]
    have h1 := dup_major hn h y k hy w j x
    have h2 : 1 / L * pen.fn x + inner ℝ (w j - 1 / L * g - x) (w j - x) ≤ 1 / L * pen.fn (w j) := hx (w j)
    have e : inner ℝ (w j - 1 / L * g - x) (w j - x) = (w j - x) * (w j - 1 / L * g - x) := rfl
    rw [e] at h2
    have h3 := mul_le_mul_of_nonneg_left h2 hL.le
    have e2 : L * (1 / L * pen.fn x + (w j - x) * (w j - 1 / L * g - x)) = pen.fn x + L * (w j - x) ^ 2 - (w j - x) * g := by
      field_simp
      ring
    have e3 : L * (1 / L * pen.fn (w j)) = pen.fn (w j) := by field_simp
    rw [e2, e3] at h3
    rw [← hLd, ← hg] at h1
    nlinarith

/-- Runs do not increase the objective. -/
theorem dup_run_le (hn : 0 < n) {A : CSCData n p} (h : StoredBound 2 A) (y : Fin n → ℝ) (k : LossKind) (hy : k.LabelsOK y) (pen : Pen)
    (hv : pen.Valid) (hc : pen.Convex) {srt : Argsort XR} (hs : ArgsortSpec srt) (cfg : Solver XR) (v : Fin p → ℝ) (m : ℕ)
    (hr : (prob1 (.csc A) y k pen).run srt cfg = .ok (v, m)) : (prob1 (.csc A) y k pen).F v ≤ (prob1 (.csc A) y k pen).F fun _ => 0 :=
  (Tri.elim_ok (((prob1 (.csc A) y k pen).hoare hs cfg (Nat.min_le_right _ _)
    (fun v => (prob1 (.csc A) y k pen).F v ≤ (prob1 (.csc A) y k pen).F fun _ => 0)
    (fun v j hv' => le_trans (dup_step_le hn h y k hy pen hv hc v j) hv')
    (fun _ _ _ hv' _ hlt => le_trans hlt.le hv')).outer cfg.maxIterations _ le_rfl) hr).1

/-! ## One feature -/

/-- The iterates of a problem with one feature. -/
noncomputable def RProb.iter (R : RProb ℝ 1) (w : Fin 1 → ℝ) : ℕ → Fin 1 → ℝ
  | 0 => w
  | k + 1 => R.step (R.iter w k) 0

theorem RProb.iter_step (R : RProb ℝ 1) (w : Fin 1 → ℝ) : ∀ k, R.iter (R.step w 0) k = R.iter w (k + 1)
  | 0 => rfl
  | k + 1 => by
    show R.step (R.iter (R.step w 0) k) 0 = R.step (R.iter w (k + 1)) 0
    rw [R.iter_step w k]

theorem RProb.iter_add (R : RProb ℝ 1) (w : Fin 1 → ℝ) (k : ℕ) : ∀ m, R.iter (R.iter w k) m = R.iter w (k + m)
  | 0 => rfl
  | m + 1 => by
    show R.step (R.iter (R.iter w k) m) 0 = R.step (R.iter w (k + m)) 0
    rw [R.iter_add w k m]

/-- If no iterate passes the test, the run uses all epochs. -/
theorem RProb.run_iter {R : RProb ℝ 1} {srt : Argsort XR} (hs : ArgsortSpec srt) (cfg : Solver XR) (hu : cfg.useAcceleration = false)
    (hw : 0 < cfg.wsStartSize) {τ : ℝ} (ht : cfg.tolerance = XR.fin τ)
    (h : ∀ k, τ < R.sc (R.iter (fun _ => 0) k 0) (R.G (R.iter (fun _ => 0) k) 0)) :
    R.run srt cfg = .ok (R.iter (fun _ => 0) (cfg.maxIterations * cfg.maxEpochs), cfg.maxIterations) := by
  have hd : ∀ k, ((R.viol (R.iter (fun _ => 0) k) (List.finRange 1)).2 <=. cfg.tolerance) = false := fun k => by
    rw [ht]
    exact R.viol_gt 0 (h k)
  have key : ∀ m a, (R.skel srt cfg (ws0CD cfg 1)).outer m (R.iter (fun _ => 0) a) = .ok (R.iter (fun _ => 0) (a + m * cfg.maxEpochs), m) := by
    intro m
    induction m with
    | zero => intro a; rw [Nat.zero_mul, add_zero]; rfl
    | succ m ih =>
      intro a
      unfold Skel.outer
      show (if (_ <=. cfg.tolerance) = true then _ else _) = _
      rw [if_neg]
      swap
      · exact fun h => Bool.false_ne_true ((hd a).symm.trans h)
      obtain ⟨ws, h2, ⟨l, h3, h4, h5, h6⟩, -⟩ := R.pick_ok hs (Nat.min_le_right cfg.wsStartSize 1) (R.iter (fun _ => 0) a)
      have h2' : (R.skel srt cfg (ws0CD cfg 1)).mkWs (R.scores (R.iter (fun _ => 0) a) (List.finRange 1)) (R.iter (fun _ => 0) a) =
          .ok (ws, ws.length) := h2
      rw [h2']
      have h7 : l.length = 1 := by
        have a := List.Nodup.length_le_card h4
        rw [Fintype.card_fin] at a
        omega
      have hl : l = [0] := by
        obtain ⟨x, rfl⟩ := List.length_eq_one_iff.mp h7
        rw [Subsingleton.elim x 0]
      have hin : ∀ km r e b q, (R.skel srt cfg (ws0CD cfg 1)).inner ws ws.length km r e b (R.iter (fun _ => 0) q) =
          .ok (R.iter (fun _ => 0) (q + r)) := by
        intro km r
        induction r with
        | zero => intro e b q; rfl
        | succ r ihr =>
          intro e b q
          have he : (R.skel srt cfg (ws0CD cfg 1)).epoch ws (R.iter (fun _ => 0) q) = .ok (R.iter (fun _ => 0) (q + 1)) := by
            show Except.ok ((finws 1 ws).foldl R.step _) = _
            rw [h3, hl, finws_map]
            rfl
          have ha : (R.skel srt cfg (ws0CD cfg 1)).accel ws e b (R.iter (fun _ => 0) (q + 1)) = .ok (b, R.iter (fun _ => 0) (q + 1)) := by
            show R.accel cfg _ _ _ _ = _
            unfold RProb.accel
            rw [if_neg (by rw [hu]; exact Bool.false_ne_true)]
          have hst : (R.skel srt cfg (ws0CD cfg 1)).stop ws ws.length km e (R.iter (fun _ => 0) (q + 1)) = .ok false := by
            show Except.ok (decide (e > 0 ∧ e % 10 = 0) && if ws.length = 1 then _ else _) = _
            rw [if_pos (by rw [h5, h7])]
            have e1 : finws 1 ws = List.finRange 1 := by rw [h3, hl, finws_map]; rfl
            rw [e1, hd, Bool.and_false]
          unfold Skel.inner
          rw [he]
          dsimp only [bind, Except.bind]
          rw [ha]
          dsimp only
          rw [hst]
          dsimp only
          rw [if_neg Bool.false_ne_true, ihr, add_assoc, add_comm 1 r]
      show ((R.skel srt cfg (ws0CD cfg 1)).inner ws ws.length _ cfg.maxEpochs 0 _ _ >>= _) = _
      rw [hin]
      show ((R.skel srt cfg (ws0CD cfg 1)).outer m (R.iter (fun _ => 0) (a + cfg.maxEpochs)) >>= _) = _
      rw [ih, show a + cfg.maxEpochs + m * cfg.maxEpochs = a + (m + 1) * cfg.maxEpochs by ring]
      rfl
  have := key cfg.maxIterations 0
  rw [zero_add] at this
  exact this

/-! ## The array of `r` ones -/

theorem ones_inCol (r : ℕ) (k : Fin r) : (onesCSC r).InCol 0 k := ⟨Nat.zero_le _, k.2⟩

theorem ones_dense (r : ℕ) : (onesCSC r).dense 0 0 = r := by
  unfold CSCData.dense
  rw [Finset.sum_congr rfl fun k _ => if_pos ⟨ones_inCol r k, rfl⟩]
  show ∑ _ : Fin r, (1 : ℝ) = r
  simp

theorem ones_step (r : ℕ) : cscStep (onesCSC r) 0 = r := by
  unfold cscStep
  rw [colSq_stored]
  have e : storedSq (onesCSC r) 0 = ∑ _ : Fin r, (1 : ℝ) := by
    refine Finset.sum_congr rfl fun k _ => (if_pos (ones_inCol r k)).trans ?_
    show (1 : ℝ) ^ 2 = 1
    norm_num
  rw [e]
  simp

theorem ones_fit (r : ℕ) (w : Fin 1 → ℝ) : fit (onesCSC r).dense w 0 = r * w 0 := by
  unfold fit
  simp [ones_dense]

theorem ones_grad (r : ℕ) (y : Fin 1 → ℝ) (w : Fin 1 → ℝ) (α : ℝ) : (prob1 (.csc (onesCSC r)) y .quadratic (.l1 α)).G w 0 = r * (r * w 0 - y 0) := by
  show quadGrad (onesCSC r).dense y (fit (onesCSC r).dense w) 0 = _
  unfold quadGrad
  simp [ones_dense, ones_fit]
  ring

theorem ones_update {r : ℕ} (hr : 0 < r) (y : Fin 1 → ℝ) (w : Fin 1 → ℝ) (α : ℝ) :
    (prob1 (.csc (onesCSC r)) y .quadratic (.l1 α)).step w 0 = fun _ => softR (w 0 - (r * w 0 - y 0)) (α / r) := by
  have hr' : (r : ℝ) ≠ 0 := by positivity
  have hL : (prob1 (.csc (onesCSC r)) y .quadratic (.l1 α)).L 0 = r := ones_step r
  unfold RProb.step
  rw [hL, if_neg hr', ones_grad]
  funext j
  rw [Subsingleton.elim j 0, Function.update_self]
  show softR (w 0 - 1 / (r : ℝ) * (r * (r * w 0 - y 0))) (α * (1 / r)) = _
  rw [show w 0 - 1 / (r : ℝ) * (r * (r * w 0 - y 0)) = w 0 - (r * w 0 - y 0) by field_simp, mul_one_div]

end Sglm
