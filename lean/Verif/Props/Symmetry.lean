import Verif.Proofs.Scale
import Verif.Proofs.Fits
import Verif.Proofs.Descent
import Verif.Proofs.RunPanic

/-!
# C60, C61: negated features, isometries of the task space, scaled data
-/

namespace Sglm
open Scalar Spec
variable {n p T T' : ℕ}

/-! ## From runs to calls -/

theorem scaleTolerance_one (cfg : Solver XR) : scaleTolerance cfg 1 = cfg := by
  have h : (XR.fin 1 *. cfg.tolerance) = cfg.tolerance := by
    cases cfg.tolerance with
    | fin a => show XR.fin (1 * a) = _; rw [one_mul]
    | pinf => exact XR.scale_pinf one_pos
    | ninf => exact XR.scale_ninf one_pos
    | nan => rfl
  unfold scaleTolerance
  rw [h]

theorem corresponds_of_run {g : (Fin p → ℝ) → (Fin p → ℝ)} {r r' : M ((Fin p → ℝ) × ℕ)}
    (h : r' = (fun q => (g q.1, q.2)) <$> r) :
    Corresponds g ((fun q => vec q.1) <$> r) ((fun q => vec q.1) <$> r') := by
  subst h
  cases r with
  | error e => exact Or.inl ⟨e, rfl, rfl⟩
  | ok q => exact Or.inr ⟨q.1, rfl, rfl⟩

theorem correspondsMT_of_run {g : (Fin p → Euc T) → (Fin p → Euc T')} {r : M ((Fin p → Euc T) × ℕ)}
    {r' : M ((Fin p → Euc T') × ℕ)} (h : r' = (fun q => (g q.1, q.2)) <$> r) :
    CorrespondsMT g ((fun q => emat q.1) <$> r) ((fun q => emat q.1) <$> r') := by
  subst h
  cases r with
  | error e => exact Or.inl ⟨e, rfl, rfl⟩
  | ok q => exact Or.inr ⟨q.1, rfl, rfl⟩

theorem correspondsFit_guarded {Ps : Type} {g : (Fin p → ℝ) → (Fin p → ℝ)} (c : Except (EstimatorError XR) Ps)
    {r r' : M (List XR)} (h : ∀ q, c = .ok q → Corresponds g r r') :
    CorrespondsFit g (guarded c r) (guarded c r') := by
  cases c with
  | error e => exact Or.inr (Or.inl ⟨e, rfl, rfl⟩)
  | ok q =>
    rcases h q rfl with ⟨e, rfl, rfl⟩ | ⟨w, rfl, rfl⟩
    · exact Or.inl ⟨e, rfl, rfl⟩
    · exact Or.inr (Or.inr ⟨w, rfl, rfl⟩)

theorem correspondsFitMT_guarded {Ps : Type} {g : (Fin p → Euc T) → (Fin p → Euc T')}
    (c : Except (EstimatorError XR) Ps) {r r' : M (Mat XR)} (h : ∀ q, c = .ok q → CorrespondsMT g r r') :
    CorrespondsFitMT g (guarded c r) (guarded c r') := by
  cases c with
  | error e => exact Or.inr (Or.inl ⟨e, rfl, rfl⟩)
  | ok q =>
    rcases h q rfl with ⟨e, rfl, rfl⟩ | ⟨w, rfl, rfl⟩
    · exact Or.inl ⟨e, rfl, rfl⟩
    · exact Or.inr (Or.inr ⟨w, rfl, rfl⟩)

/-! ## C60: negated features -/

/-- The claim, for all settings. -/
def C60_full : Prop :=
  (∀ (n p : ℕ) (srt : Argsort XR), ArgsortSpec srt → 0 < n → ∀ (D D' : Design n p), D.Canonical → D'.Canonical →
    ∀ s : Fin p → ℝ, Negated D D' s → ∀ (y : Fin n → ℝ) (k : LossKind) (pen : Pen), pen.Valid → ∀ cfg : Solver XR,
    Corresponds (fun w j => s j * w j) (solve1 srt cfg D y k pen) (solve1 srt cfg D' y k pen)) ∧
  ∀ (n p T T' : ℕ) (srt : Argsort XR), ArgsortSpec srt → 0 < n → ∀ (D D' : Design n p), D.Canonical → D'.Canonical →
    ∀ s : Fin p → ℝ, Negated D D' s → ∀ (U : Euc T →ₗᵢ[ℝ] Euc T') (Y : Fin n → Fin T → ℝ) (pen : BPen), pen.Valid →
    ∀ cfg : Solver XR, CorrespondsMT (fun W j => s j • U (W j)) (solveMT srt cfg D Y pen)
      (solveMT srt cfg D' (mapTargets U Y) pen)

/-- Without acceleration: negating features negates their coefficients, exactly. -/
theorem C60_solve_partial {srt : Argsort XR} (hs : ArgsortSpec srt) (hn : 0 < n) (D D' : Design n p)
    (hD : D.Canonical) (hD' : D'.Canonical) (s : Fin p → ℝ) (h : Negated D D' s) (y : Fin n → ℝ) (k : LossKind)
    (pen : Pen) (hv : pen.Valid) (cfg : Solver XR) (hu : cfg.useAcceleration = false) :
    Corresponds (fun w j => s j * w j) (solve1 srt cfg D y k pen) (solve1 srt cfg D' y k pen) := by
  rw [solve1_eq hs hn D y k pen hv, solve1_eq hs hn D' y k pen hv]
  refine corresponds_of_run ?_
  have := (h.emap hD hD' y k pen hv).run_plain (Or.inl rfl) cfg hu (srt := srt)
  rw [scaleTolerance_one] at this
  exact this

/-- Multi-task, without acceleration: negating features negates their rows of coefficients; mapping the targets by a
linear isometry of the task space (a rotation, a permutation of the tasks, additional zero tasks) maps the rows by it. -/
theorem C60_solve_mt_partial {srt : Argsort XR} (hs : ArgsortSpec srt) (hn : 0 < n) (D D' : Design n p)
    (hD : D.Canonical) (hD' : D'.Canonical) (s : Fin p → ℝ) (h : Negated D D' s) (U : Euc T →ₗᵢ[ℝ] Euc T')
    (Y : Fin n → Fin T → ℝ) (pen : BPen) (hv : pen.Valid) (cfg : Solver XR) (hu : cfg.useAcceleration = false) :
    CorrespondsMT (fun W j => s j • U (W j)) (solveMT srt cfg D Y pen) (solveMT srt cfg D' (mapTargets U Y) pen) := by
  rw [solveMT_eq hs hn D Y pen hv, solveMT_eq hs hn D' _ pen hv]
  refine correspondsMT_of_run ?_
  have := (h.emapMT hD hD' U Y pen).run_plain (Or.inl rfl) cfg hu (srt := srt)
  rw [scaleTolerance_one] at this
  exact this

/-- The estimators, without acceleration. -/
theorem C60_fit_partial {srt : Argsort XR} (hs : ArgsortSpec srt) (hn : 0 < n) (D D' : Design n p)
    (hD : D.Canonical) (hD' : D'.Canonical) (s : Fin p → ℝ) (h : Negated D D' s) (y : Fin n → ℝ) (α c : ℝ) :
    (∀ ps : LassoParams XR, ps.alpha = XR.fin α → ps.useAcceleration = false →
      CorrespondsFit (fun w j => s j * w j) (fitLasso srt ps D y) (fitLasso srt ps D' y)) ∧
    (∀ ps : ElasticNetParams XR, ps.alpha = XR.fin α → ps.l1Ratio = XR.fin c → ps.useAcceleration = false →
      CorrespondsFit (fun w j => s j * w j) (fitElasticNet srt ps D y) (fitElasticNet srt ps D' y)) ∧
    ∀ ps : MCParams XR, ps.alpha = XR.fin α → ps.gamma = XR.fin c → ps.useAcceleration = false →
      CorrespondsFit (fun w j => s j * w j) (fitMCP srt ps D y) (fitMCP srt ps D' y) := by
  refine ⟨fun ps ha hu => ?_, fun ps ha hr hu => ?_, fun ps ha hr hu => ?_⟩
  · rw [fitLasso_eq srt ps α ha, fitLasso_eq srt ps α ha]
    exact correspondsFit_guarded _ fun q hq =>
      C60_solve_partial hs hn D D' hD hD' s h y .quadratic (.l1 α) (lasso_valid ha hq) _ hu
  · rw [fitElasticNet_eq srt ps α c ha hr, fitElasticNet_eq srt ps α c ha hr]
    exact correspondsFit_guarded _ fun q hq =>
      C60_solve_partial hs hn D D' hD hD' s h y .quadratic (.enet α c) (enet_valid ha hr hq) _ hu
  · rw [fitMCP_eq srt ps α c ha hr, fitMCP_eq srt ps α c ha hr]
    exact correspondsFit_guarded _ fun q hq =>
      C60_solve_partial hs hn D D' hD hD' s h y .quadratic (.mcp α c) (mcp_valid ha hr hq) _ hu

/-- The multi-task Lasso, without acceleration. -/
theorem C60_fit_mt_partial {srt : Argsort XR} (hs : ArgsortSpec srt) (hn : 0 < n) (D D' : Design n p)
    (hD : D.Canonical) (hD' : D'.Canonical) (s : Fin p → ℝ) (h : Negated D D' s) (U : Euc T →ₗᵢ[ℝ] Euc T')
    (Y : Fin n → Fin T → ℝ) (α : ℝ) (hα : 0 < α) (ps : LassoParams XR) (ha : ps.alpha = XR.fin α)
    (hu : ps.useAcceleration = false) :
    CorrespondsFitMT (fun W j => s j • U (W j)) (fitMTLasso srt ps D Y) (fitMTLasso srt ps D' (mapTargets U Y)) := by
  rw [fitMTLasso_eq srt ps α ha, fitMTLasso_eq srt ps α ha]
  exact correspondsFitMT_guarded _ fun _ _ =>
    C60_solve_mt_partial hs hn D D' hD hD' s h U Y (.l21 α) hα _ hu

/-! ### Acceleration breaks the symmetry -/

/-- A run of one iteration of three epochs. -/
theorem RProb.run_three (R : RProb ℝ p) {srt : Argsort XR} (cfg : Solver XR) (h1 : cfg.maxIterations = 1)
    (h2 : cfg.maxEpochs = 3) (hd : ((R.viol (fun _ => 0) (List.finRange p)).2 <=. cfg.tolerance) = false)
    {ws : List ℕ} {sz : ℕ} {l : List (Fin p)} (hl : finws p ws = l)
    (hws : pickWs srt (R.scores (fun _ => 0) (List.finRange p)) p (RProb.nz fun _ : Fin p => (0 : ℝ)) (ws0CD cfg p) =
      .ok (ws, sz))
    {b1 b2 b3 : ℕ → ℕ → ℝ} {w1 w2 w3 : Fin p → ℝ}
    (a1 : R.accel cfg l 0 (fun _ _ => 0) (l.foldl R.step fun _ => 0) = .ok (b1, w1))
    (a2 : R.accel cfg l 1 b1 (l.foldl R.step w1) = .ok (b2, w2))
    (a3 : R.accel cfg l 2 b2 (l.foldl R.step w2) = .ok (b3, w3)) : R.run srt cfg = .ok (w3, 1) := by
  subst hl
  unfold RProb.run
  rw [h1, Skel.outer]
  show (if ((R.viol (fun _ => 0) (List.finRange p)).2 <=. cfg.tolerance) = true then _ else _) = _
  rw [hd, if_neg (by simp)]
  show (pickWs srt (R.scores (fun _ => 0) (List.finRange p)) p (RProb.nz fun _ : Fin p => (0 : ℝ)) (ws0CD cfg p) >>= _) = _
  rw [hws]
  have hi : (R.skel srt cfg (ws0CD cfg p)).inner ws sz (R.viol (fun _ => 0) (List.finRange p)).2 cfg.maxEpochs 0
      (fun _ _ => 0) (fun _ => 0) = .ok w3 := by
    rw [h2]
    unfold Skel.inner
    show (R.accel cfg (finws p ws) 0 (fun _ _ => 0) ((finws p ws).foldl R.step fun _ => 0) >>= _) = _
    rw [a1]
    unfold Skel.inner
    show (R.accel cfg (finws p ws) 1 b1 ((finws p ws).foldl R.step w1) >>= _) = _
    rw [a2]
    unfold Skel.inner
    show (R.accel cfg (finws p ws) 2 b2 ((finws p ws).foldl R.step w2) >>= _) = _
    rw [a3]
    rfl
  show ((R.skel srt cfg (ws0CD cfg p)).inner ws sz (R.viol (fun _ => 0) (List.finRange p)).2 cfg.maxEpochs 0
      (fun _ _ => 0) (fun _ => 0) >>= _) = _
  rw [hi]
  rfl

namespace C60w

/-- The witness: the third column is multiplied by `s`. -/
def X (s : ℝ) (i : Fin 2) (j : Fin 3) : ℝ := (![![-1, 3, -2 * s], ![3, 1, -2 * s]] : Fin 2 → Fin 3 → ℝ) i j
def y : Fin 2 → ℝ := ![3, 2]
/-- One iteration of three epochs, `K = 2`. -/
noncomputable def cfg : Solver XR := ⟨3, 1, 3, XR.fin 0, 2, true, false⟩
noncomputable abbrev R (s : ℝ) : RProb ℝ 3 := prob1 (.dense (X s)) y .quadratic (.l1 1)

theorem lip (s : ℝ) (hs : s * s = 1) (j : Fin 3) : (R s).L j = (![5, 5, 4] : Fin 3 → ℝ) j := by
  show (∑ i : Fin 2, X s i j * X s i j) / ((2 : ℕ) : ℝ) = _
  rw [Fin.sum_univ_two]
  fin_cases j
  · simp [X]; norm_num
  · simp [X]; norm_num
  · simp [X]; nlinarith

theorem grad (s : ℝ) (hs : s * s = 1) (a b c : ℝ) (j : Fin 3) : (R s).G ![a, b, c] j =
    (![5 * a - 2 * s * c - 3 / 2, 5 * b - 4 * s * c - 11 / 2, -2 * s * a - 4 * s * b + 4 * c + 5 * s] : Fin 3 → ℝ) j := by
  show (∑ i : Fin 2, X s i j * fit (X s) ![a, b, c] i - ∑ i : Fin 2, X s i j * y i) / ((2 : ℕ) : ℝ) = _
  unfold fit
  rw [Fin.sum_univ_two, Fin.sum_univ_two, Fin.sum_univ_three, Fin.sum_univ_three]
  fin_cases j
  · simp [X, y]; ring
  · simp [X, y]; ring
  · simp [X, y]; linear_combination (4 * c) * hs

theorem zero3 : (fun _ : Fin 3 => (0 : ℝ)) = ![0, 0, 0] := by
  funext j
  fin_cases j <;> rfl

/-- Scores at zero, in both problems. -/
theorem scores0 (s : ℝ) (hs : s = 1 ∨ s = -1) : (R s).scores (fun _ => 0) (List.finRange 3) =
    [XR.fin (1 / 2), XR.fin (9 / 2), XR.fin 4] := by
  have hs2 : s * s = 1 := by rcases hs with h | h <;> rw [h] <;> norm_num
  have h0 : (R s).sc 0 ((R s).G (fun _ => 0) 0) = 1 / 2 := by
    rw [zero3, grad s hs2]
    show l1Score 1 0 (5 * 0 - 2 * s * 0 - 3 / 2) = _
    unfold l1Score
    norm_num
  have h1 : (R s).sc 0 ((R s).G (fun _ => 0) 1) = 9 / 2 := by
    rw [zero3, grad s hs2]
    show l1Score 1 0 (5 * 0 - 4 * s * 0 - 11 / 2) = _
    unfold l1Score
    norm_num
  have h2 : (R s).sc 0 ((R s).G (fun _ => 0) 2) = 4 := by
    rw [zero3, grad s hs2]
    show l1Score 1 0 (-2 * s * 0 - 4 * s * 0 + 4 * 0 + 5 * s) = _
    unfold l1Score
    rcases hs with h | h <;> rw [h] <;> norm_num
  show [XR.fin ((R s).sc 0 ((R s).G (fun _ => 0) 0)), XR.fin ((R s).sc 0 ((R s).G (fun _ => 0) 1)),
    XR.fin ((R s).sc 0 ((R s).G (fun _ => 0) 2))] = _
  rw [h0, h1, h2]

theorem step_eq (s : ℝ) (hs : s * s = 1) (w : Fin 3 → ℝ) (j : Fin 3) : (R s).step w j =
    Function.update w j (softR (w j - (1 / (![5, 5, 4] : Fin 3 → ℝ) j) * (R s).G w j)
      (1 * (1 / (![5, 5, 4] : Fin 3 → ℝ) j))) := by
  unfold RProb.step
  rw [lip s hs, if_neg (by fin_cases j <;> norm_num)]
  rfl

theorem epoch (s : ℝ) (hs : s * s = 1) (a b c a' b' c' : ℝ)
    (hb : softR (b - 1 / 5 * (5 * b - 4 * s * c - 11 / 2)) (1 / 5) = b')
    (hc : softR (c - 1 / 4 * (-2 * s * a - 4 * s * b' + 4 * c + 5 * s)) (1 / 4) = c')
    (ha : softR (a - 1 / 5 * (5 * a - 2 * s * c' - 3 / 2)) (1 / 5) = a') :
    [1, 2, 0].foldl (R s).step ![a, b, c] = ![a', b', c'] := by
  have e1 : (R s).step ![a, b, c] 1 = ![a, b', c] := by
    rw [step_eq s hs, grad s hs]
    funext j
    fin_cases j
    · rfl
    · show softR (b - 1 / 5 * (5 * b - 4 * s * c - 11 / 2)) (1 * (1 / 5)) = b'
      rw [one_mul, hb]
    · rfl
  have e2 : (R s).step ![a, b', c] 2 = ![a, b', c'] := by
    rw [step_eq s hs, grad s hs]
    funext j
    fin_cases j
    · rfl
    · rfl
    · show softR (c - 1 / 4 * (-2 * s * a - 4 * s * b' + 4 * c + 5 * s)) (1 * (1 / 4)) = c'
      rw [one_mul, hc]
  have e3 : (R s).step ![a, b', c'] 0 = ![a', b', c'] := by
    rw [step_eq s hs, grad s hs]
    funext j
    fin_cases j
    · show softR (a - 1 / 5 * (5 * a - 2 * s * c' - 3 / 2)) (1 * (1 / 5)) = a'
      rw [one_mul, ha]
    · rfl
    · rfl
  rw [List.foldl_cons, e1, List.foldl_cons, e2, List.foldl_cons, e3, List.foldl_nil]

theorem epoch1 (s : ℝ) (hs : s = 1 ∨ s = -1) : [1, 2, 0].foldl (R s).step ![0, 0, 0] = ![3 / 50, 9 / 10, -s / 10] := by
  rcases hs with rfl | rfl <;> refine epoch _ (by norm_num) _ _ _ _ _ _ ?_ ?_ ?_ <;> unfold softR <;> norm_num

theorem epoch2 (s : ℝ) (hs : s = 1 ∨ s = -1) :
    [1, 2, 0].foldl (R s).step ![3 / 50, 9 / 10, -s / 10] = ![1 / 25, 41 / 50, -3 * s / 20] := by
  rcases hs with rfl | rfl <;> refine epoch _ (by norm_num) _ _ _ _ _ _ ?_ ?_ ?_ <;> unfold softR <;> norm_num

theorem epoch3 (s : ℝ) (hs : s = 1 ∨ s = -1) :
    [1, 2, 0].foldl (R s).step ![1 / 25, 41 / 50, -3 * s / 20] = ![1 / 50, 39 / 50, -s / 5] := by
  rcases hs with rfl | rfl <;> refine epoch _ (by norm_num) _ _ _ _ _ _ ?_ ?_ ?_ <;> unfold softR <;> norm_num

/-- The working set is determined by the contract of the sort. -/
theorem pick {srt : Argsort XR} (h : ArgsortSpec srt) (s : ℝ) (hs : s = 1 ∨ s = -1) :
    pickWs srt ((R s).scores (fun _ => 0) (List.finRange 3)) 3 (RProb.nz fun _ : Fin 3 => (0 : ℝ)) (ws0CD cfg 3) =
      .ok ([1, 2, 0], 3) := by
  rw [scores0 s hs]
  have hnz : ∀ j, RProb.nz (fun _ : Fin 3 => (0 : ℝ)) j = false := by
    intro j
    unfold RProb.nz
    split
    · show decide ((0 : ℝ) ≠ 0) = false
      simp
    · rfl
  have hsrt : srt [XR.fin (1 / 2), XR.fin (9 / 2), XR.fin 4] = .ok [1, 2, 0] := by
    obtain ⟨π, h1, h2, h3⟩ := h.sorted [XR.fin (1 / 2), XR.fin (9 / 2), XR.fin 4]
      (Or.inr (by intro x hx; simp only [List.mem_cons, List.not_mem_nil, or_false] at hx
                  rcases hx with rfl | rfl | rfl <;> simp))
    rw [h1]
    have h4 : π ∈ [[0, 1, 2], [1, 0, 2], [1, 2, 0], [0, 2, 1], [2, 0, 1], [2, 1, 0]] := by
      have : π ∈ (List.range 3).permutations' := List.mem_permutations'.mpr h2
      exact this
    simp only [List.mem_cons, List.not_mem_nil, or_false] at h4
    rcases h4 with rfl | rfl | rfl | rfl | rfl | rfl <;>
      norm_num at h3
    rfl
  unfold pickWs
  have hm : (List.range [XR.fin (1 / 2), XR.fin (9 / 2), XR.fin 4].length).map
      (fun j => if RProb.nz (fun _ : Fin 3 => (0 : ℝ)) j = true then inf else
        [XR.fin (1 / 2), XR.fin (9 / 2), XR.fin 4].getD j zero) = [XR.fin (1 / 2), XR.fin (9 / 2), XR.fin 4] := by
    simp only [hnz]
    rfl
  have hc : (List.range 3).countP (RProb.nz fun _ : Fin 3 => (0 : ℝ)) = 0 := by
    rw [List.countP_eq_zero]
    intro j _
    rw [hnz]
    simp
  rw [hm, hsrt, hc]
  rfl

/-- The stored iterates at the end. -/
noncomputable def buf (s : ℝ) : ℕ → ℕ → ℝ :=
  Function.update (Function.update (Function.update (fun _ _ => 0) 0
    (RProb.flat [1, 2, 0] ![3 / 50, 9 / 10, -s / 10])) 1 (RProb.flat [1, 2, 0] ![1 / 25, 41 / 50, -3 * s / 20])) 2
    (RProb.flat [1, 2, 0] ![1 / 50, 39 / 50, -s / 5])

theorem s2 (f : ℕ → ℝ) : ∑ c ∈ Finset.range 2, f c = f 0 + f 1 := by simp [Finset.sum_range_succ]

theorem b00 (s : ℝ) : buf s 0 0 = 9 / 10 := rfl
theorem b01 (s : ℝ) : buf s 0 1 = -s / 10 := rfl
theorem b02 (s : ℝ) : buf s 0 2 = 3 / 50 := rfl
theorem b10 (s : ℝ) : buf s 1 0 = 41 / 50 := rfl
theorem b11 (s : ℝ) : buf s 1 1 = -3 * s / 20 := rfl
theorem b12 (s : ℝ) : buf s 1 2 = 1 / 25 := rfl
theorem b20 (s : ℝ) : buf s 2 0 = 39 / 50 := rfl
theorem b21 (s : ℝ) : buf s 2 1 = -s / 5 := rfl

theorem weights (s : ℝ) (hs : s = 1 ∨ s = -1) : ∃ z : ℕ → ℝ,
    solveLinSys (matN 3 3 (gram 2 (buf s))) (List.replicate 2 one) = .ok (some (vecN 2 z)) ∧
      z 0 = 1250 - 1500 * s ∧ z 1 = 2000 - 1500 * s := by
  have hs2 : s * s = 1 := by rcases hs with h | h <;> rw [h] <;> norm_num
  have g00 : gram 2 (buf s) 0 0 = 1 / 125 := by
    unfold gram; rw [s2, b00, b10, b20]; norm_num
  have g01 : gram 2 (buf s) 0 1 = 3 / 500 * s := by
    unfold gram; rw [s2, b00, b10, b20, b01, b11, b21]; ring
  have g10 : gram 2 (buf s) 1 0 = 3 / 500 * s := by
    unfold gram; rw [s2, b00, b10, b20, b01, b11, b21]; ring
  have g11 : gram 2 (buf s) 1 1 = 1 / 200 := by
    unfold gram; rw [s2, b01, b11, b21]; linear_combination (1 / 200) * hs2
  rw [replicate_one_vecN]
  rcases Lin.psd_sound (N := 3) (m := 3) (gram 2 (buf s)) (fun _ => 1) two_pos (by norm_num) (by norm_num)
    (gram_psd 2 2 (buf s)) with ⟨z, h1, h2⟩ | ⟨-, h⟩
  · refine ⟨z, h1, ?_⟩
    have q0 := h2 0 (by norm_num)
    have q1 := h2 1 (by norm_num)
    rw [s2, g00, g01] at q0
    rw [s2, g10, g11] at q1
    rcases hs with rfl | rfl <;> constructor <;> linarith
  · exfalso
    apply h
    intro x hx
    have q0 := hx 0 (by norm_num)
    have q1 := hx 1 (by norm_num)
    rw [s2, g00, g01] at q0
    rw [s2, g10, g11] at q1
    intro r hr
    rcases hs with rfl | rfl <;> interval_cases r <;> linarith

theorem obj (s : ℝ) (a b c : ℝ) : (R s).F ![a, b, c] =
    ((3 - (-a + 3 * b - 2 * s * c)) ^ 2 + (2 - (3 * a + b - 2 * s * c)) ^ 2) / 4 + (|a| + |b| + |c|) := by
  show quadLoss y (fit (X s) ![a, b, c]) + ∑ j, 1 * |(![a, b, c] : Fin 3 → ℝ) j| = _
  unfold quadLoss fit
  rw [Fin.sum_univ_two, Fin.sum_univ_three, Fin.sum_univ_three, Fin.sum_univ_three]
  simp [X, y]
  ring

/-- The result: the extrapolated point in one problem, the third iterate in the other. -/
theorem runs {srt : Argsort XR} (h : ArgsortSpec srt) :
    (R 1).run srt cfg = .ok (![1 / 50, 37 / 50, -1 / 5], 1) ∧ (R (-1)).run srt cfg = .ok (![1 / 50, 39 / 50, 1 / 5], 1) := by
  have hrun : ∀ s : ℝ, s = 1 ∨ s = -1 → ∀ v : Fin 3 → ℝ,
      (R s).accel cfg [1, 2, 0] 2 (Function.update (Function.update (fun _ _ => 0) 0
        (RProb.flat [1, 2, 0] ![3 / 50, 9 / 10, -s / 10])) 1 (RProb.flat [1, 2, 0] ![1 / 25, 41 / 50, -3 * s / 20]))
        ![1 / 50, 39 / 50, -s / 5] = .ok (buf s, v) → (R s).run srt cfg = .ok (v, 1) := by
    intro s hs v ha
    refine RProb.run_three (R s) cfg rfl rfl ?_ (l := [1, 2, 0]) rfl (pick h s hs) (w1 := ![3 / 50, 9 / 10, -s / 10])
      (w2 := ![1 / 25, 41 / 50, -3 * s / 20]) ?_ ?_ ?_ (b3 := buf s)
      (b1 := Function.update (fun _ _ => 0) 0 (RProb.flat [1, 2, 0] ![3 / 50, 9 / 10, -s / 10]))
      (b2 := Function.update (Function.update (fun _ _ => 0) 0
        (RProb.flat [1, 2, 0] ![3 / 50, 9 / 10, -s / 10])) 1 (RProb.flat [1, 2, 0] ![1 / 25, 41 / 50, -3 * s / 20]))
    · unfold RProb.viol
      rw [scores0 s hs]
      show (maxDist [XR.fin (1 / 2), XR.fin (9 / 2), XR.fin 4] <=. XR.fin 0) = false
      obtain ⟨m, -, h2, h3⟩ := maxDist_fin [1 / 2, 9 / 2, 4] (by simp)
      rw [show [XR.fin (1 / 2), XR.fin (9 / 2), XR.fin 4] = List.map XR.fin [1 / 2, 9 / 2, 4] from rfl, h3, XR.s_le,
        decide_eq_false_iff_not, not_le]
      have := h2 4 (by simp)
      linarith
    · rw [zero3, epoch1 s hs]; rfl
    · rw [epoch2 s hs]; rfl
    · rw [epoch3 s hs]; exact ha
  have hacc : ∀ s : ℝ, s = 1 ∨ s = -1 → ∀ wa : Fin 3 → ℝ, 
      wa = ![(3 / 50) * ((1250 - 1500 * s) / (3250 - 3000 * s)) + 1 / 25 * ((2000 - 1500 * s) / (3250 - 3000 * s)),
        9 / 10 * ((1250 - 1500 * s) / (3250 - 3000 * s)) + 41 / 50 * ((2000 - 1500 * s) / (3250 - 3000 * s)),
        -s / 10 * ((1250 - 1500 * s) / (3250 - 3000 * s)) + (-3 * s / 20) * ((2000 - 1500 * s) / (3250 - 3000 * s))] →
      (R s).accel cfg [1, 2, 0] 2 (Function.update (Function.update (fun _ _ => 0) 0
        (RProb.flat [1, 2, 0] ![3 / 50, 9 / 10, -s / 10])) 1 (RProb.flat [1, 2, 0] ![1 / 25, 41 / 50, -3 * s / 20]))
        ![1 / 50, 39 / 50, -s / 5] = .ok (buf s, if (R s).F wa < (R s).F ![1 / 50, 39 / 50, -s / 5] then wa else
          ![1 / 50, 39 / 50, -s / 5]) := by
    intro s hs wa hwa
    obtain ⟨z, hz, z0, z1⟩ := weights s hs
    unfold RProb.accel
    rw [if_pos (show cfg.useAcceleration = true from rfl)]
    dsimp only
    rw [if_pos (show 2 % (cfg.K + 1) = cfg.K from rfl)]
    show (solveLinSys (matN 3 3 (gram 2 (buf s))) (List.replicate 2 one) >>= _) = _
    rw [hz]
    have hc : RProb.scat [1, 2, 0] (comb 2 (buf s) (realsOf (vecN 2 z))) = wa := by
      have hc : ∀ i, comb 2 (buf s) (realsOf (vecN 2 z)) i =
          buf s 0 i * ((1250 - 1500 * s) / (3250 - 3000 * s)) + buf s 1 i * ((2000 - 1500 * s) / (3250 - 3000 * s)) := by
        intro i
        unfold comb
        rw [s2, s2, realsOf_vecN z two_pos, realsOf_vecN z one_lt_two, z0, z1]
        rw [show 1250 - 1500 * s + (2000 - 1500 * s) = 3250 - 3000 * s by ring]
      rw [hwa]
      funext j
      fin_cases j
      · show comb 2 (buf s) (realsOf (vecN 2 z)) 2 = _
        rw [hc, b02, b12]; rfl
      · show comb 2 (buf s) (realsOf (vecN 2 z)) 0 = _
        rw [hc, b00, b10]; rfl
      · show comb 2 (buf s) (realsOf (vecN 2 z)) 1 = _
        rw [hc, b01, b11]; rfl
    show Except.ok (buf s, if (R s).F (RProb.scat [1, 2, 0] (comb 2 (buf s) (realsOf (vecN 2 z)))) < _ then
      (RProb.scat [1, 2, 0] (comb 2 (buf s) (realsOf (vecN 2 z)))) else _) = _
    rw [hc]
  constructor
  · refine hrun 1 (Or.inl rfl) _ ?_
    rw [hacc 1 (Or.inl rfl) ![1 / 50, 37 / 50, -1 / 5] (by norm_num), if_pos]
    rw [obj, obj]
    norm_num [abs_of_pos, abs_of_neg]
  · refine hrun (-1) (Or.inr rfl) _ ?_
    rw [hacc (-1) (Or.inr rfl) ![61 / 1250, 1069 / 1250, 16 / 125] (by norm_num), if_neg]
    · norm_num
    · rw [obj, obj]
      norm_num [abs_of_pos, abs_of_neg]

end C60w

/-- Acceleration breaks the symmetry: the weights of the extrapolation depend on the signs of the features (they come
from the first `K` features).  `X = [[-1, 3, -2], [3, 1, -2]]`, `y = (3, 2)`, Lasso with `alpha = 1`, `K = 2`, one
iteration of three epochs: the coefficients are `(1/50, 37/50, -1/5)`; with the third column negated they are
`(1/50, 39/50, 1/5)`. -/
theorem C60_false : ¬ C60_full := by
  intro hf
  have hneg : Negated (.dense (C60w.X 1)) (.dense (C60w.X (-1))) ![1, 1, -1] := by
    refine ⟨fun j => ?_, fun i j => ?_⟩
    · fin_cases j <;> simp
    · show C60w.X (-1) i j = _ * C60w.X 1 i j
      fin_cases i <;> fin_cases j <;> simp [C60w.X]
  have := hf.1 2 3 argsortIns argsortIns_spec two_pos (.dense (C60w.X 1)) (.dense (C60w.X (-1))) trivial trivial _ hneg
    C60w.y .quadratic (.l1 1) zero_le_one C60w.cfg
  have hv : (Pen.l1 1).Valid := zero_le_one
  rw [solve1_eq argsortIns_spec two_pos _ _ _ _ hv, solve1_eq argsortIns_spec two_pos _ _ _ _ hv,
    (C60w.runs argsortIns_spec).1, (C60w.runs argsortIns_spec).2] at this
  rcases this with ⟨e, h1, -⟩ | ⟨w, h1, h2⟩
  · cases h1
  · injection h1 with h1
    injection h2 with h2
    have h3 := congrFun (vec_injective h1) 1
    have h4 := congrFun (vec_injective h2) 1
    simp at h3 h4
    rw [← h3] at h4
    norm_num at h4

-- two features, the second negated; both storage formats
example (cfg : Solver XR) (hu : cfg.useAcceleration = false) (y : Fin 2 → ℝ) :
    Corresponds (fun w j => (![1, -1] : Fin 2 → ℝ) j * w j)
      (solve1 argsortIns cfg (.dense fun i j => (![![1, 2], ![3, 4]] : Fin 2 → Fin 2 → ℝ) i j) y .logistic (.mcp 1 3))
      (solve1 argsortIns cfg (.dense fun i j => (![![1, -2], ![3, -4]] : Fin 2 → Fin 2 → ℝ) i j) y .logistic
        (.mcp 1 3)) := by
  refine C60_solve_partial argsortIns_spec two_pos (.dense _) (.dense _) trivial trivial _
    ⟨fun j => ?_, fun i j => ?_⟩ y _ (.mcp 1 3) ⟨zero_le_one, by norm_num⟩ cfg hu
  · fin_cases j <;> simp
  · fin_cases i <;> fin_cases j <;> simp [Design.matrix]

-- tasks swapped
example (cfg : Solver XR) (hu : cfg.useAcceleration = false) (D : Design 2 3) (hD : D.Canonical) (Y : Fin 2 → Fin 2 → ℝ) :
    CorrespondsMT (fun (W : Fin 3 → Euc 2) j => (1 : ℝ) • (LinearIsometryEquiv.piLpCongrLeft 2 ℝ ℝ (Equiv.swap (0 : Fin 2) 1)).toLinearIsometry (W j))
      (solveMT argsortIns cfg D Y (.l21 1))
      (solveMT argsortIns cfg D (mapTargets (LinearIsometryEquiv.piLpCongrLeft 2 ℝ ℝ (Equiv.swap (0 : Fin 2) 1)).toLinearIsometry Y)
        (.l21 1)) :=
  C60_solve_mt_partial argsortIns_spec two_pos D D hD hD (fun _ => 1) ⟨fun _ => Or.inl rfl, fun _ _ => (one_mul _).symm⟩
    _ Y _ one_pos cfg hu

/-! ## C61: scaled data -/

/-- The claim, for all penalties. -/
def C61_full : Prop :=
  (∀ (n p : ℕ) (srt : Argsort XR), ArgsortSpec srt → SortsByComparison srt → 0 < n → ∀ (D D' : Design n p),
    D.Canonical → D'.Canonical → ∀ c d : ℝ, 0 < c → 0 < d → (∀ i j, D'.matrix i j = d * D.matrix i j) →
    ∀ (y : Fin n → ℝ) (k : LossKind), (k = .logistic → c = 1) → ∀ pen pen' : Pen, pen.Valid → pen'.Valid →
    pen.Scaled (c / d) (c * d) pen' → ∀ cfg : Solver XR,
    Corresponds (fun (w : Fin p → ℝ) j => c / d * w j) (solve1 srt cfg D y k pen)
      (solve1 srt (scaleTolerance cfg (c * d)) D' (fun i => c * y i) k pen')) ∧
  ∀ (n p T : ℕ) (srt : Argsort XR), ArgsortSpec srt → SortsByComparison srt → 0 < n → ∀ (D D' : Design n p),
    D.Canonical → D'.Canonical → ∀ c d : ℝ, 0 < c → 0 < d → (∀ i j, D'.matrix i j = d * D.matrix i j) →
    ∀ (Y : Fin n → Fin T → ℝ) (pen pen' : BPen), pen.Valid → pen'.Valid →
    pen.Scaled (c / d) (c * d) pen' → ∀ cfg : Solver XR,
    CorrespondsMT (fun (W : Fin p → Euc T) j => (c / d) • W j) (solveMT srt cfg D Y pen)
      (solveMT srt (scaleTolerance cfg (c * d)) D' (fun i t => c * Y i t) pen')

/-- Single-task, any penalty, with or without acceleration: changing the units of the targets (`c`) and of the features
(`d`) changes those of the coefficients, exactly, if the hyperparameters and the tolerance are changed accordingly. -/
theorem C61_solve {srt : Argsort XR} (hs : ArgsortSpec srt) (hsc : SortsByComparison srt) (hn : 0 < n)
    (D D' : Design n p) (hD : D.Canonical) (hD' : D'.Canonical) (c d : ℝ) (hc : 0 < c) (hd : 0 < d)
    (h : ∀ i j, D'.matrix i j = d * D.matrix i j) (y : Fin n → ℝ) (k : LossKind) (hk : k = .logistic → c = 1)
    (pen pen' : Pen) (hv : pen.Valid) (hv' : pen'.Valid) (hp : pen.Scaled (c / d) (c * d) pen') (cfg : Solver XR) :
    Corresponds (fun (w : Fin p → ℝ) j => c / d * w j) (solve1 srt cfg D y k pen)
      (solve1 srt (scaleTolerance cfg (c * d)) D' (fun i => c * y i) k pen') := by
  rw [solve1_eq hs hn D y k pen hv, solve1_eq hs hn D' _ k pen' hv']
  exact corresponds_of_run ((prob1_scale hc hd h hD hD' y k hk hp hv).run (Or.inr hsc) cfg)

/-- Multi-task, for the `L2,1` and the MCP penalty. -/
theorem C61_solve_mt_partial {srt : Argsort XR} (hs : ArgsortSpec srt) (hsc : SortsByComparison srt) (hn : 0 < n)
    (D D' : Design n p) (hD : D.Canonical) (hD' : D'.Canonical) (c d : ℝ) (hc : 0 < c) (hd : 0 < d)
    (h : ∀ i j, D'.matrix i j = d * D.matrix i j) (Y : Fin n → Fin T → ℝ)
    (pen pen' : BPen) (hv : pen.Valid) (hv' : pen'.Valid) (hp : pen.Scaled (c / d) (c * d) pen')
    (hne : ∀ α ρ, pen ≠ .enet α ρ) (cfg : Solver XR) :
    CorrespondsMT (fun (W : Fin p → Euc T) j => (c / d) • W j) (solveMT srt cfg D Y pen)
      (solveMT srt (scaleTolerance cfg (c * d)) D' (fun i t => c * Y i t) pen') := by
  rw [solveMT_eq hs hn D Y pen hv, solveMT_eq hs hn D' _ pen' hv']
  refine correspondsMT_of_run ((probMT_scale hc hd h hD hD' Y hp ?_).run (Or.inr hsc) cfg)
  cases pen with
  | enet α ρ => exact absurd rfl (hne α ρ)
  | l21 α => trivial
  | mcp α γ => trivial

theorem signBit_scale {b : ℝ} (hb : 0 < b) (x : XR) : signBit (XR.fin b *. x) = signBit x := by
  cases x with
  | fin a => 
    show signBit (XR.fin (b * a)) = signBit (XR.fin a)
    rw [XR.s_signBit, XR.s_signBit]
    congr 1
    rw [mul_neg_iff]
    simp [hb, hb.not_gt]
  | pinf => exact congrArg _ (XR.scale_pinf hb)
  | ninf => exact congrArg _ (XR.scale_ninf hb)
  | nan => rfl

theorem checkTail_scale {A B : Type} {τ : XR} {K ws : ℕ} {a q : A} {b : ℝ} (hb : 0 < b) (a' : B)
    (h : checkTail τ K ws a = .ok q) : checkTail (XR.fin b *. τ) K ws a' = .ok a' := by
  unfold checkTail at h ⊢
  rw [signBit_scale hb]
  split at h
  · cases h
  · rename_i h1
    rw [if_neg h1]
    split at h
    · cases h
    · rename_i h2
      rw [if_neg h2]
      split at h
      · cases h
      · rename_i h3
        rw [if_neg h3]

theorem LassoParams.checkRef_scale {ps q : LassoParams XR} {b : ℝ} (hb : 0 < b) (h : ps.checkRef = .ok q) :
    (scaleLasso ps b).checkRef = .ok (scaleLasso ps b) := by
  have h0 := (LassoParams.checkRef_ok h).2
  unfold LassoParams.checkRef at h ⊢
  rw [if_neg (by simp [h0])] at h
  rw [show (scaleLasso ps b).alpha = XR.fin b *. ps.alpha from rfl, signBit_scale hb, if_neg (by simp [h0])]
  exact checkTail_scale hb _ h

theorem MCParams.checkRef_scale {ps q : MCParams XR} {b : ℝ} (hb : 0 < b) (h : ps.checkRef = .ok q) :
    (scaleMCP ps b).checkRef = .ok (scaleMCP ps b) := by
  obtain ⟨-, h0, h1⟩ := MCParams.checkRef_ok h
  unfold MCParams.checkRef at h ⊢
  rw [if_neg (by simp [h0]), if_neg (by rw [h1]; exact Bool.false_ne_true)] at h
  rw [show (scaleMCP ps b).alpha = XR.fin b *. ps.alpha from rfl, signBit_scale hb, if_neg (by simp [h0]),
    show (scaleMCP ps b).gamma = ps.gamma from rfl, if_neg (by rw [h1]; exact Bool.false_ne_true)]
  exact checkTail_scale hb _ h

/-- The Lasso estimators: with targets in other units, scale `alpha` and the tolerance alike.  For all accepted
settings. -/
theorem C61_fit_lasso {srt : Argsort XR} (hs : ArgsortSpec srt) (hsc : SortsByComparison srt) (hn : 0 < n)
    (D : Design n p) (hD : D.Canonical) (c : ℝ) (hc : 0 < c) (ps : LassoParams XR) (α : ℝ)
    (ha : ps.alpha = XR.fin α) (hq : ps.checkRef = .ok ps) :
    (∀ y : Fin n → ℝ, CorrespondsFit (fun (w : Fin p → ℝ) j => c * w j) (fitLasso srt ps D y)
      (fitLasso srt (scaleLasso ps c) D fun i => c * y i)) ∧
    (0 < α → ∀ (T : ℕ) (Y : Fin n → Fin T → ℝ), CorrespondsFitMT (fun (W : Fin p → Euc T) j => c • W j) (fitMTLasso srt ps D Y)
      (fitMTLasso srt (scaleLasso ps c) D fun i t => c * Y i t)) := by
  have ha' : (scaleLasso ps c).alpha = XR.fin (c * α) := by
    show (XR.fin c *. ps.alpha) = _
    rw [ha]; rfl
  have hq' := LassoParams.checkRef_scale hc hq
  have hsol : (scaleLasso ps c).solver = scaleTolerance ps.solver (c * 1) := by rw [mul_one]; rfl
  have hone : ∀ i j, D.matrix i j = 1 * D.matrix i j := fun _ _ => (one_mul _).symm
  refine ⟨fun y => ?_, fun hα T Y => ?_⟩
  · rw [fitLasso_eq srt ps α ha, fitLasso_eq srt _ _ ha', hq, hq']
    refine correspondsFit_guarded (.ok ps) fun _ _ => ?_
    have := C61_solve hs hsc hn D D hD hD c 1 hc one_pos hone y .quadratic (by simp) (.l1 α) (.l1 (c * α))
      (lasso_valid ha hq) (lasso_valid ha' hq') (by rw [mul_one]; exact .l1 α)
      ps.solver
    rw [hsol]
    rwa [div_one] at this
  · rw [fitMTLasso_eq srt ps α ha, fitMTLasso_eq srt _ _ ha', hq, hq']
    refine correspondsFitMT_guarded (.ok ps) fun _ _ => ?_
    have := C61_solve_mt_partial hs hsc hn D D hD hD c 1 hc one_pos hone Y (.l21 α) (.l21 (c * α))
      hα (mul_pos hc hα) (by rw [mul_one]; exact .l21 α)
      (by simp) ps.solver
    rw [hsol]
    rwa [div_one] at this

/-- The MCP estimator: scale `alpha` and the tolerance, keep `gamma`. -/
theorem C61_fit_mcp {srt : Argsort XR} (hs : ArgsortSpec srt) (hsc : SortsByComparison srt) (hn : 0 < n)
    (D : Design n p) (hD : D.Canonical) (c : ℝ) (hc : 0 < c) (ps : MCParams XR) (α γ : ℝ)
    (ha : ps.alpha = XR.fin α) (hg : ps.gamma = XR.fin γ) (hq : ps.checkRef = .ok ps) (y : Fin n → ℝ) :
    CorrespondsFit (fun (w : Fin p → ℝ) j => c * w j) (fitMCP srt ps D y) (fitMCP srt (scaleMCP ps c) D fun i => c * y i) := by
  have ha' : (scaleMCP ps c).alpha = XR.fin (c * α) := by
    show (XR.fin c *. ps.alpha) = _
    rw [ha]; rfl
  have hg' : (scaleMCP ps c).gamma = XR.fin γ := hg
  have hq' := MCParams.checkRef_scale hc hq
  have hsol : (scaleMCP ps c).solver = scaleTolerance ps.solver (c * 1) := by rw [mul_one]; rfl
  have hone : ∀ i j, D.matrix i j = 1 * D.matrix i j := fun _ _ => (one_mul _).symm
  rw [fitMCP_eq srt ps α γ ha hg, fitMCP_eq srt _ _ _ ha' hg', hq, hq']
  refine correspondsFit_guarded (.ok ps) fun _ _ => ?_
  have := C61_solve hs hsc hn D D hD hD c 1 hc one_pos hone y .quadratic (by simp) (.mcp α γ) (.mcp (c * α) γ)
    (mcp_valid ha hg hq) (mcp_valid ha' hg' hq') (by
      have := Pen.Scaled.mcp (a := c) (b := c) α γ
      rw [mul_one, div_one]
      rwa [div_self hc.ne', one_mul] at this) ps.solver
  rw [hsol]
  rwa [div_one] at this

/-! ### The multi-task elastic net -/

/-- A run of one iteration of one epoch, one feature, without acceleration. -/
theorem RProb.run_single {E : Type} [AddCommGroup E] [Module ℝ E] [Coord E] (R : RProb E 1) {srt : Argsort XR}
    (hs : ArgsortSpec srt) (cfg : Solver XR) (h1 : cfg.maxIterations = 1) (h2 : cfg.maxEpochs = 1)
    (hw : cfg.wsStartSize = 1) (hu : cfg.useAcceleration = false)
    (hd : (XR.fin (R.sc 0 (R.G (fun _ => 0) 0)) <=. cfg.tolerance) = false) :
    R.run srt cfg = .ok (R.step (fun _ => 0) 0, 1) := by
  have hsc : R.scores (fun _ => 0) (List.finRange 1) = [XR.fin (R.sc 0 (R.G (fun _ => 0) 0))] := rfl
  have hnz : ∀ j, RProb.nz (fun _ : Fin 1 => (0 : E)) j = false := by
    intro j
    unfold RProb.nz
    split
    · rw [Bool.eq_false_iff]
      exact fun h => (Coord.nzB_iff _).mp h rfl
    · rfl
  have hpick : pickWs srt (R.scores (fun _ => 0) (List.finRange 1)) 1 (RProb.nz fun _ : Fin 1 => (0 : E)) (ws0CD cfg 1) =
      .ok ([0], 1) := by
    obtain ⟨π, e1, e2, -⟩ := hs.sorted [XR.fin (R.sc 0 (R.G (fun _ => 0) 0))] (Or.inl (by simp))
    have e3 : π = [0] := List.perm_singleton.mp e2
    have hm : (List.range [XR.fin (R.sc 0 (R.G (fun _ => 0) 0))].length).map
        (fun j => if RProb.nz (fun _ : Fin 1 => (0 : E)) j = true then inf else
          [XR.fin (R.sc 0 (R.G (fun _ => 0) 0))].getD j zero) = [XR.fin (R.sc 0 (R.G (fun _ => 0) 0))] := by
      simp only [hnz]
      rfl
    have hc : (List.range 1).countP (RProb.nz fun _ : Fin 1 => (0 : E)) = 0 := by
      rw [List.countP_eq_zero]
      intro j _
      rw [hnz]
      simp
    have h0 : ws0CD cfg 1 = 1 := by unfold ws0CD; rw [hw]; rfl
    unfold pickWs
    rw [hsc, hm, e1, hc, h0, e3]
    rfl
  unfold RProb.run
  rw [h1, Skel.outer]
  show (if (maxDist [XR.fin (R.sc 0 (R.G (fun _ => 0) 0))] <=. cfg.tolerance) = true then _ else _) = _
  have hmax : maxDist [XR.fin (R.sc 0 (R.G (fun _ => 0) 0))] = XR.fin (R.sc 0 (R.G (fun _ => 0) 0)) := by
    obtain ⟨m, hm, -, h3⟩ := maxDist_fin [R.sc 0 (R.G (fun _ => 0) 0)] (by simp)
    rw [List.mem_singleton] at hm
    rw [hm] at h3
    exact h3
  rw [hmax, hd, if_neg (by simp)]
  show (pickWs srt (R.scores (fun _ => 0) (List.finRange 1)) 1 (RProb.nz fun _ : Fin 1 => (0 : E)) (ws0CD cfg 1) >>= _) = _
  rw [hpick]
  have hi : (R.skel srt cfg (ws0CD cfg 1)).inner [0] 1 (R.viol (fun _ => 0) (List.finRange 1)).2 cfg.maxEpochs 0
      (fun _ _ => 0) (fun _ => 0) = .ok (R.step (fun _ => 0) 0) := by
    rw [h2]
    unfold Skel.inner
    show (R.accel cfg [0] 0 (fun _ _ => 0) (R.step (fun _ => 0) 0) >>= _) = _
    unfold RProb.accel
    rw [if_neg (by simp [hu])]
    rfl
  show ((R.skel srt cfg (ws0CD cfg 1)).inner [0] 1 (R.viol (fun _ => 0) (List.finRange 1)).2 cfg.maxEpochs 0
      (fun _ _ => 0) (fun _ => 0) >>= _) = _
  rw [hi]
  rfl

namespace C61w

/-- One sample, one feature, one task; the target is `c`. -/
noncomputable abbrev R (c α : ℝ) : RProb (Euc 1) 1 := probMT (.dense fun _ _ => 1) (fun (_ : Fin 1) _ => c * 1) (.enet α 1)

theorem grad (c α : ℝ) : (R c α).G (fun _ => 0) 0 = WithLp.toLp 2 fun _ => -c := by
  ext t
  show (∑ i : Fin 1, (1 : ℝ) * fitMT (fun _ _ => 1) (fun _ => (0 : Euc 1).ofLp) i t - ∑ i : Fin 1, (1 : ℝ) * (c * 1)) /
    ((1 : ℕ) : ℝ) = -c
  simp [fitMT]

theorem lip (c α : ℝ) : (R c α).L 0 = 1 := by
  show (∑ i : Fin 1, (1 : ℝ) * 1) / ((1 : ℕ) : ℝ) = 1
  simp

theorem norm_one (c : ℝ) : ‖(WithLp.toLp 2 fun _ => c : Euc 1)‖ = |c| := by
  rw [EuclideanSpace.norm_eq]
  simp [Real.sqrt_sq_eq_abs]

theorem score (c α : ℝ) : (R c α).sc 0 ((R c α).G (fun _ => 0) 0) = max 0 (c ^ 2 - α) := by
  rw [grad]
  show blockEnetScore α 1 0 _ = _
  unfold blockEnetScore
  rw [if_pos rfl, norm_one, abs_neg, sq_abs, mul_one]

theorem step (c α : ℝ) (hc : α ≤ c) (h0 : 0 < c) :
    (R c α).step (fun _ => 0) 0 = fun _ => WithLp.toLp 2 fun _ => c - α := by
  funext j
  have hj : j = 0 := Subsingleton.elim _ _
  subst hj
  unfold RProb.step
  rw [lip, if_neg one_ne_zero, Function.update_self, grad]
  show blockEnetProxR α 1 (0 - (1 / 1 : ℝ) • WithLp.toLp 2 fun _ => -c) (1 / 1) = _
  have e : (0 - (1 / 1 : ℝ) • WithLp.toLp 2 fun _ => -c : Euc 1) = WithLp.toLp 2 fun _ => c := by
    ext t
    show (0 : ℝ) - 1 / 1 * -c = c
    ring
  rw [e]
  unfold blockEnetProxR blockSoftR
  rw [norm_one, abs_of_pos h0, if_neg (by simpa using hc)]
  ext t
  show 1 / (1 + 1 / 1 * (1 - 1) * α) * ((1 - α * (1 / 1) * 1 / c) * c) = c - α
  field_simp
  ring

end C61w

/-- The multi-task elastic net compares the square of the norm of the gradient with the threshold (C12), which is not
homogeneous.  One sample, one feature, one task: with target 1, `alpha = 1/2`, `l1_ratio = 1` and tolerance `1/2` the
coefficient is 0; with target 2, `alpha = 1` and tolerance 1 it is 1. -/
theorem C61_false : ¬ C61_full := by
  intro hf
  let cfg : Solver XR := ⟨1, 1, 1, XR.fin (1 / 2), 5, false, false⟩
  have hv : (BPen.enet (1 / 2) 1).Valid := ⟨by norm_num, one_pos, le_rfl⟩
  have hv' : (BPen.enet 1 1).Valid := ⟨one_pos, one_pos, le_rfl⟩
  have h := hf.2 1 1 1 argsortIns argsortIns_spec argsortIns_comparison one_pos (.dense fun _ _ => 1)
    (.dense fun _ _ => 1) trivial trivial 2 1 two_pos one_pos (fun _ _ => (one_mul _).symm) (fun _ _ => 1)
    (.enet (1 / 2) 1) (.enet 1 1) hv hv' (.enet _ _ _ _ (by norm_num) (by norm_num)) cfg
  rw [solveMT_eq argsortIns_spec one_pos _ _ _ hv, solveMT_eq argsortIns_spec one_pos _ _ _ hv'] at h
  have e2 : (probMT (.dense fun (_ _ : Fin 1) => 1) (fun (_ : Fin 1) (_ : Fin 1) => (2 : ℝ) * 1) (.enet 1 1)).run argsortIns
      (scaleTolerance cfg (2 * 1)) = .ok (fun _ => WithLp.toLp 2 fun _ => 1, 1) := by
    have h3 : (C61w.R 2 1).run argsortIns (scaleTolerance cfg (2 * 1)) = _ :=
      RProb.run_single (C61w.R 2 1) argsortIns_spec _ rfl rfl rfl rfl (by
      rw [C61w.score]
      show (XR.fin _ <=. XR.fin (2 * 1 * (1 / 2))) = false
      rw [XR.s_le]
      norm_num)
    rw [C61w.step 2 1 (by norm_num) two_pos] at h3
    refine h3.trans ?_
    norm_num
  have e1 : (probMT (.dense fun (_ _ : Fin 1) => 1) (fun (_ : Fin 1) (_ : Fin 1) => (1 : ℝ)) (.enet (1 / 2) 1)).run argsortIns
      cfg = .ok (fun _ => 0, 0) := by
    have h3 : (C61w.R 1 (1 / 2)).run argsortIns cfg = .ok (fun _ => 0, 0) := by
      refine RProb.run_zero _ cfg ?_
      show (maxDist (List.map XR.fin [(C61w.R 1 (1 / 2)).sc 0 ((C61w.R 1 (1 / 2)).G (fun _ => 0) 0)]) <=.
        XR.fin (1 / 2)) = true
      obtain ⟨m, h1, -, h3⟩ := maxDist_fin [(C61w.R 1 (1 / 2)).sc 0 ((C61w.R 1 (1 / 2)).G (fun _ => 0) 0)] (by simp)
      rw [List.mem_singleton, C61w.score] at h1
      rw [h3, h1, XR.s_le]
      norm_num
    unfold C61w.R at h3
    simpa only [mul_one] using h3
  rw [e1, e2] at h
  rcases h with ⟨e, h1, -⟩ | ⟨W, h1, h2⟩
  · cases h1
  · injection h1 with h1
    injection h2 with h2
    have h3 : (fun _ => 0 : Fin 1 → Euc 1) = W := emat_injective h1
    have h4 := congrFun (emat_injective h2) 0
    rw [← h3] at h4
    have h5 := congrArg (fun x : Euc 1 => x.ofLp 0) h4
    simp at h5

-- example hypotheses: three penalties in other units
example (cfg : Solver XR) (D D' : Design 2 3) (hD : D.Canonical) (hD' : D'.Canonical)
    (h : ∀ i j, D'.matrix i j = 10 * D.matrix i j) (y : Fin 2 → ℝ) :
    Corresponds (fun (w : Fin 3 → ℝ) j => 100 / 10 * w j) (solve1 argsortIns cfg D y .quadratic (.enet 1 (1 / 2)))
      (solve1 argsortIns (scaleTolerance cfg (100 * 10)) D' (fun i => 100 * y i) .quadratic (.enet 550 (10 / 11))) :=
  C61_solve argsortIns_spec argsortIns_comparison two_pos D D' hD hD' 100 10 (by norm_num) (by norm_num) h y _ (by simp)
    (.enet 1 (1 / 2)) (.enet 550 (10 / 11)) ⟨by norm_num, by norm_num, by norm_num⟩ ⟨by norm_num, by norm_num, by norm_num⟩
    (.enet _ _ _ _ (by norm_num) (by norm_num)) cfg

example (D : Design 2 3) (hD : D.Canonical) (y : Fin 2 → ℝ) :
    CorrespondsFit (fun (w : Fin 3 → ℝ) j => 1000 * w j)
      (fitMCP argsortIns ⟨XR.fin 1, XR.fin 3, 50, 1000, 10, XR.fin 0, 5, true, true⟩ D y)
      (fitMCP argsortIns (scaleMCP ⟨XR.fin 1, XR.fin 3, 50, 1000, 10, XR.fin 0, 5, true, true⟩ 1000) D
        fun i => 1000 * y i) :=
  C61_fit_mcp argsortIns_spec argsortIns_comparison two_pos D hD 1000 (by norm_num) _ 1 3 rfl rfl (by
    unfold MCParams.checkRef checkTail
    simp) y

end Sglm
