import Verif.Proofs.NullFloat
import Verif.Proofs.FlChop

/-!
# C67: the largest useful penalty, in floating point

`compute_alpha_max(X, y)` is computed with rounding errors.  Nevertheless a fit with this value of `alpha` (or a larger one) returns
exact zeros: the errors are the same as those made by the solver.  No tolerance is involved.
-/

namespace Sglm
open Scalar Spec
variable {n p : ℕ} {F : Type} [Scalar F]

theorem checkTail_ok' {α : Type} {t : F} {K ws : ℕ} {a b : α} (h : checkTail t K ws a = .ok b) : b = a := by
  unfold checkTail at h
  split at h
  · cases h
  · split at h
    · cases h
    · split at h
      · cases h
      · injection h with h
        exact h.symm

theorem lasso_check {ps q : LassoParams F} (h : ps.checkRef = .ok q) : q = ps := by
  unfold LassoParams.checkRef at h
  split at h
  · cases h
  · exact checkTail_ok' h

theorem enet_check {ps q : ElasticNetParams F} (h : ps.checkRef = .ok q) : q = ps := by
  unfold ElasticNetParams.checkRef at h
  split at h
  · cases h
  · split at h
    · cases h
    · exact checkTail_ok' h

theorem mcp_check {ps q : MCParams F} (h : ps.checkRef = .ok q) : q = ps := by
  unfold MCParams.checkRef at h
  split at h
  · cases h
  · split at h
    · cases h
    · exact checkTail_ok' h

variable [LawfulCmp F] {rep : F → Prop}

theorem zero_beq : ((zero : F) ==. zero) = true := (LawfulCmp.beq_iff _ _).mpr ⟨0, 0, LawfulCmp.key_zero, LawfulCmp.key_zero, rfl⟩

/-- `Lasso::fit` with `alpha ≥ compute_alpha_max(X, y)`, dense design: all coefficients are zero, for every sorting function and every
tolerance, working set size and other (valid) setting. -/
theorem C67_lasso (H : MonoRounded F rep) (hn : 0 < n) (x : Fin n → Fin p → F) (y : Fin n → F) (hx : ∀ i j, ∃ r, Den (x i j) r)
    (hfin : ∀ j, ∃ r, Den (dot (List.ofFn fun i => x i j) (List.ofFn y)) r) (hN : ∃ N, Den (Scalar.ofNat n : F) N)
    (a : F) (ha : computeAlphaMax (matOf x) (List.ofFn y) = .ok a) (ps q : LassoParams F) (hq : ps.checkRef = .ok q)
    (hle : (a <=. ps.alpha) = true) (hα : ∃ r, Den ps.alpha r) (ht : ∃ τ, Den ps.tolerance τ ∧ 0 ≤ τ) (srt : Argsort F) :
    Lasso.fit srt ps ⟨matOf x, Targets.one (List.ofFn y)⟩ = .ok (.ok (List.replicate p zero)) := by
  obtain ⟨N, hN⟩ := hN
  obtain ⟨θ, hα⟩ := hα
  obtain ⟨τ, ht, hτ⟩ := ht
  unfold Lasso.fit guardedFit
  rw [hq, lasso_check hq]
  show Lasso.fitValid srt ps _ = _
  unfold Lasso.fitValid
  obtain ⟨st, df, log, h1, h2⟩ := null_dense H hn x y hx hfin hN ha hα hle srt (L1.mk ps.alpha) ps.solver (L1.mk ps.alpha).dist
    (fun _ _ _ => rfl) (fun g => by unfold L1.dist; rw [zero_beq, if_pos rfl]) ht hτ
  rw [h1]
  show Except.ok (Except.ok st.w) = _
  rw [h2]

/-- The sparse version, with `compute_alpha_max_sparse`. -/
theorem C67_lasso_sparse (H : MonoRounded F rep) (hn : 0 < n) (A : CSCData n p) (x : Fin A.nnz → F) (y : Fin n → F)
    (hx : ∀ k, ∃ r, Den (x k) r) (hfin : ∀ j, ∃ r, Den (A.colDotOf x y j) r) (hN : ∃ N, Den (Scalar.ofNat n : F) N)
    (a : F) (ha : computeAlphaMaxSparse (A.toCSCOf x) (List.ofFn y) = .ok a) (ps q : LassoParams F) (hq : ps.checkRef = .ok q)
    (hle : (a <=. ps.alpha) = true) (hα : ∃ r, Den ps.alpha r) (ht : ∃ τ, Den ps.tolerance τ ∧ 0 ≤ τ) (srt : Argsort F) :
    Lasso.fit srt ps ⟨A.toCSCOf x, Targets.one (List.ofFn y)⟩ = .ok (.ok (List.replicate p zero)) := by
  obtain ⟨N, hN⟩ := hN
  obtain ⟨θ, hα⟩ := hα
  obtain ⟨τ, ht, hτ⟩ := ht
  unfold Lasso.fit guardedFit
  rw [hq, lasso_check hq]
  show Lasso.fitValid srt ps _ = _
  unfold Lasso.fitValid
  obtain ⟨st, df, log, h1, h2⟩ := null_csc H hn A x y hx hfin hN ha hα hle srt (L1.mk ps.alpha) ps.solver (L1.mk ps.alpha).dist
    (fun _ _ _ => rfl) (fun g => by unfold L1.dist; rw [zero_beq, if_pos rfl]) ht hτ
  rw [h1]
  show Except.ok (Except.ok st.w) = _
  rw [h2]

/-- `ElasticNet::fit` if the computed product `alpha * l1_ratio` is at least `compute_alpha_max(X, y)`. -/
theorem C67_elastic_net (H : MonoRounded F rep) (hn : 0 < n) (x : Fin n → Fin p → F) (y : Fin n → F) (hx : ∀ i j, ∃ r, Den (x i j) r)
    (hfin : ∀ j, ∃ r, Den (dot (List.ofFn fun i => x i j) (List.ofFn y)) r) (hN : ∃ N, Den (Scalar.ofNat n : F) N)
    (a : F) (ha : computeAlphaMax (matOf x) (List.ofFn y) = .ok a) (ps q : ElasticNetParams F) (hq : ps.checkRef = .ok q)
    (hle : (a <=. ps.alpha *. ps.l1Ratio) = true) (hα : ∃ r, Den (ps.alpha *. ps.l1Ratio) r)
    (ht : ∃ τ, Den ps.tolerance τ ∧ 0 ≤ τ) (srt : Argsort F) :
    ElasticNet.fit srt ps ⟨matOf x, Targets.one (List.ofFn y)⟩ = .ok (.ok (List.replicate p zero)) := by
  obtain ⟨N, hN⟩ := hN
  obtain ⟨θ, hα⟩ := hα
  obtain ⟨τ, ht, hτ⟩ := ht
  unfold ElasticNet.fit guardedFit
  rw [hq, enet_check hq]
  show ElasticNet.fitValid srt ps _ = _
  unfold ElasticNet.fitValid
  obtain ⟨st, df, log, h1, h2⟩ := null_dense H hn x y hx hfin hN ha hα hle srt (L1PlusL2.mk ps.alpha ps.l1Ratio) ps.solver
    (L1PlusL2.mk ps.alpha ps.l1Ratio).dist (fun _ _ _ => rfl) (fun g => by unfold L1PlusL2.dist; rw [zero_beq, if_pos rfl]) ht hτ
  rw [h1]
  show Except.ok (Except.ok st.w) = _
  rw [h2]

/-- The sparse version. -/
theorem C67_elastic_net_sparse (H : MonoRounded F rep) (hn : 0 < n) (A : CSCData n p) (x : Fin A.nnz → F) (y : Fin n → F)
    (hx : ∀ k, ∃ r, Den (x k) r) (hfin : ∀ j, ∃ r, Den (A.colDotOf x y j) r) (hN : ∃ N, Den (Scalar.ofNat n : F) N)
    (a : F) (ha : computeAlphaMaxSparse (A.toCSCOf x) (List.ofFn y) = .ok a) (ps q : ElasticNetParams F) (hq : ps.checkRef = .ok q)
    (hle : (a <=. ps.alpha *. ps.l1Ratio) = true) (hα : ∃ r, Den (ps.alpha *. ps.l1Ratio) r)
    (ht : ∃ τ, Den ps.tolerance τ ∧ 0 ≤ τ) (srt : Argsort F) :
    ElasticNet.fit srt ps ⟨A.toCSCOf x, Targets.one (List.ofFn y)⟩ = .ok (.ok (List.replicate p zero)) := by
  obtain ⟨N, hN⟩ := hN
  obtain ⟨θ, hα⟩ := hα
  obtain ⟨τ, ht, hτ⟩ := ht
  unfold ElasticNet.fit guardedFit
  rw [hq, enet_check hq]
  show ElasticNet.fitValid srt ps _ = _
  unfold ElasticNet.fitValid
  obtain ⟨st, df, log, h1, h2⟩ := null_csc H hn A x y hx hfin hN ha hα hle srt (L1PlusL2.mk ps.alpha ps.l1Ratio) ps.solver
    (L1PlusL2.mk ps.alpha ps.l1Ratio).dist (fun _ _ _ => rfl) (fun g => by unfold L1PlusL2.dist; rw [zero_beq, if_pos rfl]) ht hτ
  rw [h1]
  show Except.ok (Except.ok st.w) = _
  rw [h2]

/-- The MCP estimator. -/
theorem C67_mcp (H : MonoRounded F rep) (hn : 0 < n) (x : Fin n → Fin p → F) (y : Fin n → F) (hx : ∀ i j, ∃ r, Den (x i j) r)
    (hfin : ∀ j, ∃ r, Den (dot (List.ofFn fun i => x i j) (List.ofFn y)) r) (hN : ∃ N, Den (Scalar.ofNat n : F) N)
    (a : F) (ha : computeAlphaMax (matOf x) (List.ofFn y) = .ok a) (ps q : MCParams F) (hq : ps.checkRef = .ok q)
    (hle : (a <=. ps.alpha) = true) (hα : ∃ r, Den ps.alpha r) (ht : ∃ τ, Den ps.tolerance τ ∧ 0 ≤ τ) (srt : Argsort F) :
    MCPEstimator.fit srt ps ⟨matOf x, Targets.one (List.ofFn y)⟩ = .ok (.ok (List.replicate p zero)) := by
  obtain ⟨N, hN⟩ := hN
  obtain ⟨θ, hα⟩ := hα
  obtain ⟨τ, ht, hτ⟩ := ht
  unfold MCPEstimator.fit guardedFit
  rw [hq, mcp_check hq]
  show MCPEstimator.fitValid srt ps _ = _
  unfold MCPEstimator.fitValid
  obtain ⟨st, df, log, h1, h2⟩ := null_dense H hn x y hx hfin hN ha hα hle srt (MCP.mk ps.alpha ps.gamma) ps.solver
    (MCP.mk ps.alpha ps.gamma).dist (fun _ _ _ => rfl) (fun g => by unfold MCP.dist; rw [zero_beq, if_pos rfl]) ht hτ
  rw [h1]
  show Except.ok (Except.ok st.w) = _
  rw [h2]

/-- The sparse version. -/
theorem C67_mcp_sparse (H : MonoRounded F rep) (hn : 0 < n) (A : CSCData n p) (x : Fin A.nnz → F) (y : Fin n → F)
    (hx : ∀ k, ∃ r, Den (x k) r) (hfin : ∀ j, ∃ r, Den (A.colDotOf x y j) r) (hN : ∃ N, Den (Scalar.ofNat n : F) N)
    (a : F) (ha : computeAlphaMaxSparse (A.toCSCOf x) (List.ofFn y) = .ok a) (ps q : MCParams F) (hq : ps.checkRef = .ok q)
    (hle : (a <=. ps.alpha) = true) (hα : ∃ r, Den ps.alpha r) (ht : ∃ τ, Den ps.tolerance τ ∧ 0 ≤ τ) (srt : Argsort F) :
    MCPEstimator.fit srt ps ⟨A.toCSCOf x, Targets.one (List.ofFn y)⟩ = .ok (.ok (List.replicate p zero)) := by
  obtain ⟨N, hN⟩ := hN
  obtain ⟨θ, hα⟩ := hα
  obtain ⟨τ, ht, hτ⟩ := ht
  unfold MCPEstimator.fit guardedFit
  rw [hq, mcp_check hq]
  show MCPEstimator.fitValid srt ps _ = _
  unfold MCPEstimator.fitValid
  obtain ⟨st, df, log, h1, h2⟩ := null_csc H hn A x y hx hfin hN ha hα hle srt (MCP.mk ps.alpha ps.gamma) ps.solver
    (MCP.mk ps.alpha ps.gamma).dist (fun _ _ _ => rfl) (fun g => by unfold MCP.dist; rw [zero_beq, if_pos rfl]) ht hτ
  rw [h1]
  show Except.ok (Except.ok st.w) = _
  rw [h2]

/-! ## Examples -/

/-- Rounding towards zero with 53 bits. -/
theorem chop64_precise : Precise (Fl chop64) (1 / 2 ^ 50) := by
  refine Fl.precise chop64 (by positivity) ?_ ?_
  · show 4 * (1 / 2 ^ 52 : ℝ) ≤ 1 / 2 ^ 50
    norm_num
  · show (4 : ℝ) / (1 / 2 ^ 50) ≤ 2 ^ 1023
    calc (4 : ℝ) / (1 / 2 ^ 50) = 2 ^ 52 := by norm_num
      _ ≤ _ := pow_le_pow_right₀ (by norm_num) (by norm_num)

/-- All data of moderate size: a fit with the computed value of `compute_alpha_max` itself returns zeros.  Rounding errors occur. -/
example (x : Fin 3 → Fin 2 → Fl chop64) (y : Fin 3 → Fl chop64) (X : Fin 3 → Fin 2 → ℝ) (Y : Fin 3 → ℝ)
    (hx : ∀ i j, Den (x i j) (X i j) ∧ |X i j| ≤ 1000) (hy : ∀ i, Den (y i) (Y i) ∧ |Y i| ≤ 1000) (a : Fl chop64) (r : ℝ)
    (ha : computeAlphaMax (matOf x) (List.ofFn y) = .ok a) (hr : Den a r) (hr0 : 0 ≤ r) (tol : ℝ) (htol : 0 ≤ tol)
    (srt : Argsort (Fl chop64)) :
    Lasso.fit srt ⟨a, 50, 1000, 10, ⟨.fin tol⟩, 5, true, false⟩ ⟨matOf x, Targets.one (List.ofFn y)⟩ =
        .ok (.ok (List.replicate 2 zero)) := by
  have P := chop64_precise
  have hfin : ∀ j, ∃ r, Den (dot (List.ofFn fun i => x i j) (List.ofFn y)) r := fun j => by
    refine (P.dot 3 (fun i => x i j) y (fun i => X i j) Y (fun i => (hx i j).1) (fun i => (hy i).1) (by norm_num)).1 ?_
    have h : ∀ i, |X i j * Y i| ≤ 1000 * 1000 := fun i => by
      rw [abs_mul]
      exact mul_le_mul (hx i j).2 (hy i).2 (abs_nonneg _) (by norm_num)
    calc ∑ i, |X i j * Y i| ≤ ∑ _i : Fin 3, (1000 * 1000 : ℝ) := Finset.sum_le_sum fun i _ => h i
      _ ≤ _ := by norm_num
  refine C67_lasso (Fl.mono_rounded chop64_mono) (by norm_num) x y (fun i j => ⟨_, (hx i j).1⟩) hfin
    ((P.ofNat 3).1 (by norm_num)) a ha _ ⟨a, 50, 1000, 10, ⟨.fin tol⟩, 5, true, false⟩ ?_ ((LawfulCmp.le_iff a a).mpr ⟨r, r, hr, hr, le_rfl⟩) ⟨r, hr⟩
    ⟨tol, Fl.den_iff.mpr rfl, htol⟩ srt
  have e1 : signBit a = false := by
    show XR.signBit a.val = false
    rw [Fl.den_iff.mp hr]
    exact decide_eq_false (not_lt.mpr hr0)
  have e2 : signBit (⟨.fin tol⟩ : Fl chop64) = false := decide_eq_false (not_lt.mpr htol)
  unfold LassoParams.checkRef checkTail
  simp only [e1, e2]
  rfl

/-- Data for which the division is inexact: `X = (1, 1, 1)ᵀ`, `y = (1, 0, 0)`, `alpha_max = 1/3` rounded. -/
example : ∃ a : Fl chop64, computeAlphaMax (matOf fun (_ : Fin 3) (_ : Fin 1) => (one : Fl chop64))
    (List.ofFn fun i : Fin 3 => if i = 0 then one else zero) = .ok a ∧ Den a (chopRd 52 (1 / 3)) ∧ chopRd 52 (1 / 3) < 1 / 3 := by
  have log_eq : ∀ (x : ℝ) (k : ℤ), 0 < x → (2 : ℝ) ^ k ≤ x → x < 2 ^ (k + 1) → Int.log 2 x = k := fun x k hx h1 h2 =>
    le_antisymm (Int.lt_add_one_iff.mp ((Int.lt_zpow_iff_log_lt (b := 2) (by norm_num) hx).mp (by exact_mod_cast h2)))
      ((Int.zpow_le_iff_le_log (b := 2) (by norm_num) hx).mp (by exact_mod_cast h1))
  have r1 : chopRd 52 1 = 1 := by
    rw [chopRd_nonneg_eq _ (by norm_num), log_eq 1 0 (by norm_num) (by norm_num) (by norm_num)]
    norm_num
  have r3 : chopRd 52 3 = 3 := by
    rw [chopRd_nonneg_eq _ (by norm_num), log_eq 3 1 (by norm_num) (by norm_num) (by norm_num)]
    norm_num
  have top : ∀ a : ℝ, |a| ≤ 3 → Fl.rnd chop64 (.fin a) = .fin (chopRd 52 a) := fun a h =>
    Fl.rnd_small (h.trans (by
      show (3 : ℝ) ≤ 2 ^ 1023
      calc (3 : ℝ) ≤ 2 ^ 2 := by norm_num
        _ ≤ _ := pow_le_pow_right₀ (by norm_num) (by norm_num)))
  refine ⟨⟨.fin (chopRd 52 (1 / 3))⟩, ?_, Fl.den_iff.mpr rfl, ?_⟩
  · have d0 : Den (zero : Fl chop64) 0 := Fl.den_iff.mpr rfl
    have d1 : Den (one : Fl chop64) 1 := Fl.den_iff.mpr rfl
    have val : ∀ {z : Fl chop64} {t : ℝ}, z.val = .fin t → z = ⟨.fin t⟩ := fun {z} {t} h => by cases z; cases h; rfl
    have m1 : (one *. one : Fl chop64) = one := val (by rw [Fl.mul_val d1 d1, top _ (by norm_num), mul_one, r1])
    have m0 : (one *. zero : Fl chop64) = zero := val (by rw [Fl.mul_val d1 d0, top _ (by norm_num), mul_zero, chopRd_zero])
    have a1 : (zero +. one : Fl chop64) = one := val (by rw [Fl.add_val d0 d1, top _ (by norm_num), zero_add, r1])
    have a0 : (one +. zero : Fl chop64) = one := val (by rw [Fl.add_val d1 d0, top _ (by norm_num), add_zero, r1])
    have hd : dot (List.ofFn fun _ : Fin 3 => (one : Fl chop64)) (List.ofFn fun i : Fin 3 => if i = 0 then one else zero) = one := by
      show ((zero +. one *. one) +. one *. zero) +. one *. zero = _
      rw [m1, m0, a1, a0, a0]
    unfold computeAlphaMax
    rw [tMulVec_matOf, matOf_nrows]
    simp only [hd, bind, Except.bind, pure, Except.pure]
    refine congrArg Except.ok (val ?_)
    have hm : (List.ofFn fun _ : Fin 1 => (one : Fl chop64)).foldl (fun max_val z => fmax (Scalar.abs z) max_val) zero = one := by
      refine val (Fl.den_iff.mp ?_)
      have := den_fmax ((Fl.mono_rounded chop64_mono).abs _ _ d1) d0
      rwa [abs_one, max_eq_left zero_le_one] at this
    rw [hm]
    have d3 : Den (Scalar.ofNat 3 : Fl chop64) 3 := by
      rw [Fl.den_iff]
      show Fl.rnd chop64 (.fin ((3 : ℕ) : ℝ)) = _
      rw [top _ (by norm_num)]
      norm_num [r3]
    rw [Fl.div_val d1 d3 (by norm_num), top _ (by norm_num [abs_of_pos])]
  · rw [chopRd_nonneg_eq _ (by norm_num), log_eq (1 / 3) (-2) (by norm_num) (by norm_num) (by norm_num)]
    have : (⌊(1 / 3 : ℝ) / 2 ^ ((-2 : ℤ) - (52 : ℕ))⌋ : ℤ) = 6004799503160661 := by
      rw [Int.floor_eq_iff]
      norm_num
    rw [this]
    norm_num

/-- A sparse column with one stored entry. -/
def nullCSC : CSCData 2 1 := ⟨1, ![1], ![0], ![0, 1], by decide⟩

/-- `C67_lasso_sparse` applies to it with `alpha = 1 ≥ 1/2 = alpha_max`. -/
example (srt : Argsort (Fl chop64)) :
    Lasso.fit srt (⟨one, 50, 1000, 10, zero, 5, true, false⟩ : LassoParams (Fl chop64))
      (⟨nullCSC.toCSCOf (fun _ => one), Targets.one (List.ofFn fun _ : Fin 2 => one)⟩ : Dataset (CSC (Fl chop64)) (Fl chop64)) = .ok (.ok (List.replicate 1 zero)) := by
  have log_eq : ∀ (x : ℝ) (k : ℤ), 0 < x → (2 : ℝ) ^ k ≤ x → x < 2 ^ (k + 1) → Int.log 2 x = k := fun x k hx h1 h2 =>
    le_antisymm (Int.lt_add_one_iff.mp ((Int.lt_zpow_iff_log_lt (b := 2) (by norm_num) hx).mp (by exact_mod_cast h2)))
      ((Int.zpow_le_iff_le_log (b := 2) (by norm_num) hx).mp (by exact_mod_cast h1))
  have r1 : chopRd 52 1 = 1 := by
    rw [chopRd_nonneg_eq _ (by norm_num), log_eq 1 0 (by norm_num) (by norm_num) (by norm_num)]
    norm_num
  have r2 : chopRd 52 2 = 2 := by
    rw [chopRd_nonneg_eq _ (by norm_num), log_eq 2 1 (by norm_num) (by norm_num) (by norm_num)]
    norm_num
  have top : ∀ a : ℝ, |a| ≤ 3 → Fl.rnd chop64 (.fin a) = .fin (chopRd 52 a) := fun a h =>
    Fl.rnd_small (h.trans (by
      show (3 : ℝ) ≤ 2 ^ 1023
      calc (3 : ℝ) ≤ 2 ^ 2 := by norm_num
        _ ≤ _ := pow_le_pow_right₀ (by norm_num) (by norm_num)))
  have d0 : Den (zero : Fl chop64) 0 := Fl.den_iff.mpr rfl
  have d1 : Den (one : Fl chop64) 1 := Fl.den_iff.mpr rfl
  have d2 : Den (Scalar.ofNat 2 : Fl chop64) 2 := by
    rw [Fl.den_iff]
    show Fl.rnd chop64 (.fin ((2 : ℕ) : ℝ)) = _
    rw [top _ (by norm_num)]
    norm_num [r2]
  have m1 : Den (one *. one : Fl chop64) 1 := Fl.den_iff.mpr (by rw [Fl.mul_val d1 d1, top _ (by norm_num), mul_one, r1])
  have a1 : Den (zero +. one *. one : Fl chop64) 1 := Fl.den_iff.mpr (by rw [Fl.add_val d0 m1, top _ (by norm_num), zero_add, r1])
  have H := Fl.mono_rounded chop64_mono
  have hm := den_fmax d0 (H.abs _ _ a1)
  rw [abs_one, max_eq_right zero_le_one] at hm
  refine C67_lasso_sparse H (by norm_num) nullCSC (fun _ => one) (fun _ => one) (fun _ => ⟨1, d1⟩)
    (fun j => ⟨1, by fin_cases j; exact a1⟩) ⟨2, d2⟩ (fmax zero (Scalar.abs (zero +. one *. one)) /. Scalar.ofNat 2) rfl _
    ⟨one, 50, 1000, 10, zero, 5, true, false⟩ ?_ ?_ ⟨1, d1⟩ ⟨0, d0, le_rfl⟩ srt
  · have e1 : signBit (one : Fl chop64) = false := decide_eq_false (by norm_num)
    have e2 : signBit (zero : Fl chop64) = false := decide_eq_false (by norm_num)
    unfold LassoParams.checkRef checkTail
    simp only [e1, e2]
    rfl
  · have hv := Fl.div_val hm d2 (by norm_num)
    rw [top _ (by norm_num [abs_of_pos])] at hv
    refine (LawfulCmp.le_iff _ _).mpr ⟨((chopRd 52 (1 / 2) : ℝ) : EReal), ((1 : ℝ) : EReal), Fl.den_iff.mpr hv, d1, ?_⟩
    rw [EReal.coe_le_coe_iff]
    exact (chopRd_bounds 52 (by norm_num : (0 : ℝ) < 1 / 2)).2.1.trans (by norm_num)

end Sglm
