import Verif.Props.Equiv

/-!
# C59: only the collection of samples matters

Reordering the samples, repeating the whole dataset, and negating a row together with its target do not change a fit.
Exact arithmetic, real data, equality includes panics.
-/

namespace Sglm
open Scalar Spec
variable {n n' p T : ℕ}

/-- The rows of the second dataset are those of the first, each occurring `r` times, in any order and possibly negated
(together with the target). -/
structure SameSamples (D : Design n p) (D' : Design n' p) (σ : Fin n' → Fin n) (s : Fin n' → ℝ) (r : ℕ) : Prop where
  pos : 0 < r
  often : ∀ i, (Finset.univ.filter fun i' => σ i' = i).card = r
  sign : ∀ i', s i' = 1 ∨ s i' = -1
  rows : ∀ i' j, D'.matrix i' j = s i' * D.matrix (σ i') j

namespace SameSamples
variable {D : Design n p} {D' : Design n' p} {σ : Fin n' → Fin n} {s : Fin n' → ℝ} {r : ℕ}

theorem sum (h : SameSamples D D' σ s r) (g : Fin n → ℝ) : ∑ i', g (σ i') = r * ∑ i, g i := by
  rw [← Finset.sum_fiberwise (s := Finset.univ) (g := σ), Finset.mul_sum]
  refine Finset.sum_congr rfl fun i _ => ?_
  rw [Finset.sum_congr rfl (g := fun _ => g i) fun i' hi' => by rw [(Finset.mem_filter.mp hi').2],
    Finset.sum_const, h.often, nsmul_eq_mul]

theorem card (h : SameSamples D D' σ s r) : (n' : ℝ) = r * n := by
  have := h.sum fun _ => 1
  simpa using this

theorem sq (h : SameSamples D D' σ s r) (i' : Fin n') : s i' * s i' = 1 := by
  rcases h.sign i' with h | h <;> rw [h] <;> norm_num

theorem rne (h : SameSamples D D' σ s r) : (r : ℝ) ≠ 0 := by exact_mod_cast h.pos.ne'

theorem avg (h : SameSamples D D' σ s r) (g : Fin n → ℝ) (g' : Fin n' → ℝ) (hg : ∀ i', g' i' = g (σ i')) (c : ℝ) :
    (∑ i', g' i') / (c * n') = (∑ i, g i) / (c * n) := by
  rw [Finset.sum_congr rfl fun i' _ => hg i', h.sum, h.card, show c * (r * (n : ℝ)) = r * (c * n) by ring,
    mul_div_mul_left _ _ h.rne]

theorem fit_eq (h : SameSamples D D' σ s r) (w : Fin p → ℝ) (i' : Fin n') :
    fit D'.matrix w i' = s i' * fit D.matrix w (σ i') := by
  unfold fit
  rw [Finset.mul_sum]
  exact Finset.sum_congr rfl fun j _ => by rw [h.rows, mul_assoc]

theorem prob1_eq (h : SameSamples D D' σ s r) (hD : D.Canonical) (hD' : D'.Canonical) (y : Fin n → ℝ) (y' : Fin n' → ℝ)
    (hy : ∀ i', y' i' = s i' * y (σ i')) (k : LossKind) (pen : Pen) : prob1 D' y' k pen = prob1 D y k pen := by
  have hF : ∀ w, k.loss y' (fit D'.matrix w) = k.loss y (fit D.matrix w) := by
    intro w
    cases k with
    | quadratic =>
      refine h.avg (fun i => (y i - fit D.matrix w i) ^ 2) _ (fun i' => ?_) 2
      rw [hy, h.fit_eq]
      linear_combination (y (σ i') - fit D.matrix w (σ i')) ^ 2 * h.sq i'
    | logistic =>
      show logLoss _ _ = logLoss _ _
      unfold logLoss
      have := h.avg (fun i => Real.log (1 + Real.exp (-(y i * fit D.matrix w i))))
        (fun i' => Real.log (1 + Real.exp (-(y' i' * fit D'.matrix w i')))) (fun i' => by
          rw [hy, h.fit_eq, show s i' * y (σ i') * (s i' * fit D.matrix w (σ i')) =
            (s i' * s i') * (y (σ i') * fit D.matrix w (σ i')) by ring, h.sq, one_mul]) 1
      rwa [one_mul, one_mul] at this
  have hG : ∀ w, gradOf D'.matrix y' k (fit D'.matrix w) = gradOf D.matrix y k (fit D.matrix w) := by
    intro w
    funext j
    cases k with
    | quadratic =>
      show quadGrad _ _ _ _ = quadGrad _ _ _ _
      unfold quadGrad
      rw [← Finset.sum_sub_distrib, ← Finset.sum_sub_distrib]
      have := h.avg (fun i => D.matrix i j * fit D.matrix w i - D.matrix i j * y i)
        (fun i' => D'.matrix i' j * fit D'.matrix w i' - D'.matrix i' j * y' i') (fun i' => by
          rw [hy, h.fit_eq, h.rows]
          linear_combination (D.matrix (σ i') j * fit D.matrix w (σ i') - D.matrix (σ i') j * y (σ i')) * h.sq i') 1
      rwa [one_mul, one_mul] at this
    | logistic =>
      show logGrad _ _ _ _ = logGrad _ _ _ _
      unfold logGrad
      rw [neg_div, neg_div]
      have := h.avg (fun i => D.matrix i j * (y i * sigm (-y i * fit D.matrix w i)))
        (fun i' => D'.matrix i' j * (y' i' * sigm (-y' i' * fit D'.matrix w i'))) (fun i' => by
          rw [hy, h.fit_eq, h.rows, show -(s i' * y (σ i')) * (s i' * fit D.matrix w (σ i')) =
            (s i' * s i') * (-y (σ i') * fit D.matrix w (σ i')) by ring, h.sq, one_mul]
          linear_combination (D.matrix (σ i') j * (y (σ i') * sigm (-y (σ i') * fit D.matrix w (σ i')))) * h.sq i') 1
      rw [one_mul, one_mul] at this
      rw [this]
  have hL : stepsOf D' k = stepsOf D k := by
    rw [stepsOf_canonical D' hD', stepsOf_canonical D hD]
    funext j
    have hc : ∀ i', D'.matrix i' j * D'.matrix i' j = D.matrix (σ i') j * D.matrix (σ i') j := by
      intro i'
      rw [h.rows]
      linear_combination (D.matrix (σ i') j * D.matrix (σ i') j) * h.sq i'
    cases k with
    | quadratic =>
      have := h.avg (fun i => D.matrix i j * D.matrix i j) (fun i' => D'.matrix i' j * D'.matrix i' j) hc 1
      rw [one_mul, one_mul] at this
      exact this
    | logistic => exact h.avg (fun i => D.matrix i j * D.matrix i j) (fun i' => D'.matrix i' j * D'.matrix i' j) hc 4
  unfold prob1 probCD
  rw [hL]
  congr 1
  · funext w
    rw [hF]
  · funext w
    rw [hG]

theorem probMT_eq (h : SameSamples D D' σ s r) (hD : D.Canonical) (hD' : D'.Canonical) (Y : Fin n → Fin T → ℝ)
    (Y' : Fin n' → Fin T → ℝ) (hY : ∀ i' t, Y' i' t = s i' * Y (σ i') t) (pen : BPen) :
    probMT D' Y' pen = probMT D Y pen := by
  have hfit : ∀ (W : Fin p → Fin T → ℝ) i' t, fitMT D'.matrix W i' t = s i' * fitMT D.matrix W (σ i') t :=
    fun W i' t => h.fit_eq (fun j => W j t) i'
  have hF : ∀ W, mtLoss Y' (fitMT D'.matrix W) = mtLoss Y (fitMT D.matrix W) := by
    intro W
    refine h.avg (fun i => ∑ t, (Y i t - fitMT D.matrix W i t) ^ 2) _ (fun i' => ?_) 2
    refine Finset.sum_congr rfl fun t _ => ?_
    rw [hY, hfit]
    linear_combination (Y (σ i') t - fitMT D.matrix W (σ i') t) ^ 2 * h.sq i'
  have hG : ∀ W, mtGrad D'.matrix Y' (fitMT D'.matrix W) = mtGrad D.matrix Y (fitMT D.matrix W) := by
    intro W
    funext j t
    unfold mtGrad
    rw [← Finset.sum_sub_distrib, ← Finset.sum_sub_distrib]
    have := h.avg (fun i => D.matrix i j * fitMT D.matrix W i t - D.matrix i j * Y i t)
      (fun i' => D'.matrix i' j * fitMT D'.matrix W i' t - D'.matrix i' j * Y' i' t) (fun i' => by
        rw [hY, hfit, h.rows]
        linear_combination (D.matrix (σ i') j * fitMT D.matrix W (σ i') t - D.matrix (σ i') j * Y (σ i') t) * h.sq i') 1
    rwa [one_mul, one_mul] at this
  have hL : stepsOf D' .quadratic = stepsOf D .quadratic :=
    congrArg RProb.L (h.prob1_eq hD hD' (fun _ => 0) (fun i' => s i' * 0) (fun _ => rfl) .quadratic (.l1 0))
  unfold probMT probBCD
  rw [hL]
  congr 1
  · funext W
    rw [hF]
  · funext W j
    rw [hG]

end SameSamples

theorem SameSamples.npos {D : Design n p} {D' : Design n' p} {σ : Fin n' → Fin n} {s : Fin n' → ℝ} {r : ℕ}
    (h : SameSamples D D' σ s r) (hn : 0 < n) : 0 < n' := by
  have := h.card
  have h1 := h.pos
  have h2 : n' = r * n := by exact_mod_cast this
  rw [h2]
  exact Nat.mul_pos h1 hn

/-- `solve` on reordered, repeated or negated samples. -/
theorem C59_solve {srt : Argsort XR} (hs : ArgsortSpec srt) (hn : 0 < n) (D : Design n p) (D' : Design n' p)
    (hD : D.Canonical) (hD' : D'.Canonical) (σ : Fin n' → Fin n) (s : Fin n' → ℝ) (r : ℕ) (h : SameSamples D D' σ s r)
    (y : Fin n → ℝ) (k : LossKind) (pen : Pen) (hv : pen.Valid) (cfg : Solver XR) :
    solve1 srt cfg D' (fun i' => s i' * y (σ i')) k pen = solve1 srt cfg D y k pen := by
  rw [solve1_eq hs (h.npos hn) D' _ k pen hv, solve1_eq hs hn D y k pen hv, h.prob1_eq hD hD' y _ (fun _ => rfl)]

/-- The same for the multi-task solver. -/
theorem C59_solve_mt {srt : Argsort XR} (hs : ArgsortSpec srt) (hn : 0 < n) (D : Design n p) (D' : Design n' p)
    (hD : D.Canonical) (hD' : D'.Canonical) (σ : Fin n' → Fin n) (s : Fin n' → ℝ) (r : ℕ) (h : SameSamples D D' σ s r)
    (Y : Fin n → Fin T → ℝ) (pen : BPen) (hv : pen.Valid) (cfg : Solver XR) :
    solveMT srt cfg D' (fun i' t => s i' * Y (σ i') t) pen = solveMT srt cfg D Y pen := by
  rw [solveMT_eq hs (h.npos hn) D' _ pen hv, solveMT_eq hs hn D Y pen hv, h.probMT_eq hD hD' Y _ (fun _ _ => rfl)]

/-- The single-task estimators, with all settings (valid or not). -/
theorem C59_fit {srt : Argsort XR} (hs : ArgsortSpec srt) (hn : 0 < n) (D : Design n p) (D' : Design n' p)
    (hD : D.Canonical) (hD' : D'.Canonical) (σ : Fin n' → Fin n) (s : Fin n' → ℝ) (r : ℕ) (h : SameSamples D D' σ s r)
    (y : Fin n → ℝ) (α c : ℝ) :
    (∀ ps : LassoParams XR, ps.alpha = XR.fin α → fitLasso srt ps D' (fun i' => s i' * y (σ i')) = fitLasso srt ps D y) ∧
    (∀ ps : ElasticNetParams XR, ps.alpha = XR.fin α → ps.l1Ratio = XR.fin c →
      fitElasticNet srt ps D' (fun i' => s i' * y (σ i')) = fitElasticNet srt ps D y) ∧
    (∀ ps : MCParams XR, ps.alpha = XR.fin α → ps.gamma = XR.fin c →
      fitMCP srt ps D' (fun i' => s i' * y (σ i')) = fitMCP srt ps D y) := by
  refine ⟨fun ps ha => ?_, fun ps ha hr => ?_, fun ps ha hr => ?_⟩
  · rw [fitLasso_eq srt ps α ha, fitLasso_eq srt ps α ha]
    exact guarded_congr fun q hq => C59_solve hs hn D D' hD hD' σ s r h y _ (.l1 α) (lasso_valid ha hq) _
  · rw [fitElasticNet_eq srt ps α c ha hr, fitElasticNet_eq srt ps α c ha hr]
    exact guarded_congr fun q hq => C59_solve hs hn D D' hD hD' σ s r h y _ (.enet α c) (enet_valid ha hr hq) _
  · rw [fitMCP_eq srt ps α c ha hr, fitMCP_eq srt ps α c ha hr]
    exact guarded_congr fun q hq => C59_solve hs hn D D' hD hD' σ s r h y _ (.mcp α c) (mcp_valid ha hr hq) _

/-- The multi-task estimators. -/
theorem C59_fit_mt {srt : Argsort XR} (hs : ArgsortSpec srt) (hn : 0 < n) (D : Design n p) (D' : Design n' p)
    (hD : D.Canonical) (hD' : D'.Canonical) (σ : Fin n' → Fin n) (s : Fin n' → ℝ) (r : ℕ) (h : SameSamples D D' σ s r)
    (Y : Fin n → Fin T → ℝ) (α c : ℝ) (hα : 0 < α) (hc : 0 < c) :
    (∀ ps : LassoParams XR, ps.alpha = XR.fin α →
      fitMTLasso srt ps D' (fun i' t => s i' * Y (σ i') t) = fitMTLasso srt ps D Y) ∧
    (∀ ps : ElasticNetParams XR, ps.alpha = XR.fin α → ps.l1Ratio = XR.fin c →
      fitMTElasticNet srt ps D' (fun i' t => s i' * Y (σ i') t) = fitMTElasticNet srt ps D Y) ∧
    (∀ ps : MCParams XR, ps.alpha = XR.fin α → ps.gamma = XR.fin c →
      fitBlockMCP srt ps D' (fun i' t => s i' * Y (σ i') t) = fitBlockMCP srt ps D Y) := by
  refine ⟨fun ps ha => ?_, fun ps ha hr => ?_, fun ps ha hr => ?_⟩
  · rw [fitMTLasso_eq srt ps α ha, fitMTLasso_eq srt ps α ha]
    exact guarded_congr fun q hq => C59_solve_mt hs hn D D' hD hD' σ s r h Y (.l21 α) hα _
  · rw [fitMTElasticNet_eq srt ps α c ha hr, fitMTElasticNet_eq srt ps α c ha hr]
    exact guarded_congr fun q hq => C59_solve_mt hs hn D D' hD hD' σ s r h Y (.enet α c)
      ⟨hα, hc, (enet_valid ha hr hq).2.2⟩ _
  · rw [fitBlockMCP_eq srt ps α c ha hr, fitBlockMCP_eq srt ps α c ha hr]
    exact guarded_congr fun q hq => C59_solve_mt hs hn D D' hD hD' σ s r h Y (.mcp α c) ⟨hα.le, hc⟩ _

/-! ## Examples -/

section
/-- Three samples. -/
noncomputable def exThree : Design 3 2 := .dense ![![1, 2], ![-1, 1], ![0, 3]]

/-- The same samples twice, rotated, the first one negated. -/
noncomputable def exSix : Design 6 2 :=
  .dense ![![-0, -3], ![1, 2], ![-1, 1], ![0, 3], ![1, 2], ![-1, 1]]

theorem exSix_same : SameSamples exThree exSix ![2, 0, 1, 2, 0, 1] ![-1, 1, 1, 1, 1, 1] 2 where
  pos := two_pos
  often := by decide
  sign i' := by fin_cases i' <;> simp
  rows i' j := by
    fin_cases i' <;> fin_cases j <;> simp [exThree, exSix, Design.matrix]

example (ps : LassoParams XR) (ha : ps.alpha = XR.fin (1 / 10)) :
    fitLasso argsortIns ps exSix
      (fun i' => (![-1, 1, 1, 1, 1, 1] : Fin 6 → ℝ) i' * (![1, 5, -2] : Fin 3 → ℝ) ((![2, 0, 1, 2, 0, 1] : Fin 6 → Fin 3) i')) =
      fitLasso argsortIns ps exThree ![1, 5, -2] :=
  (C59_fit argsortIns_spec three_pos exThree exSix trivial trivial _ _ 2 exSix_same ![1, 5, -2] (1 / 10) 1).1 ps ha

example : solve1 argsortIns ⟨10, 50, 1000, XR.fin 0, 2, true, true⟩ exSix
      (fun i' => (![-1, 1, 1, 1, 1, 1] : Fin 6 → ℝ) i' * (![1, -1, -1] : Fin 3 → ℝ) ((![2, 0, 1, 2, 0, 1] : Fin 6 → Fin 3) i'))
      .logistic (.mcp 1 3) =
    solve1 argsortIns ⟨10, 50, 1000, XR.fin 0, 2, true, true⟩ exThree ![1, -1, -1] .logistic (.mcp 1 3) :=
  C59_solve argsortIns_spec three_pos exThree exSix trivial trivial _ _ 2 exSix_same _ .logistic (.mcp 1 3)
    ⟨zero_le_one, three_pos⟩ _

/-- Targets of two tasks. -/
noncomputable def exTargets : Fin 3 → Fin 2 → ℝ := ![![1, 0], ![2, 5], ![-1, 3]]

example (cfg : Solver XR) : solveMT argsortIns cfg exSix
      (fun i' t => (![-1, 1, 1, 1, 1, 1] : Fin 6 → ℝ) i' * exTargets ((![2, 0, 1, 2, 0, 1] : Fin 6 → Fin 3) i') t)
      (.l21 1) = solveMT argsortIns cfg exThree exTargets (.l21 1) :=
  C59_solve_mt argsortIns_spec three_pos exThree exSix trivial trivial _ _ 2 exSix_same exTargets (.l21 1) one_pos cfg

end

end Sglm
