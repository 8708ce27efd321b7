import Verif.Proofs.FloatLoss

/-!
# Calls with floating point data: constants of the error analysis
-/

set_option linter.unusedSectionVars false

namespace Sglm
open Scalar Spec
variable {n p : ℕ}

theorem FitApx.mono {F DM DF : Type} [Scalar F] [LawfulCmp F] [DesignMatrix F DM] [Datafit F DM DF] {e B C C' : ℝ}
    {ds : Dataset DM F} {df : DF} {A : Fin n → Fin p → ℝ} {g : (Fin n → ℝ) → Fin p → ℝ} {L : Fin p → ℝ}
    (h : FitApx e B C ds df A g L) (he : 0 ≤ e) (hC : C ≤ C') : FitApx e B C' ds df A g L := by
  refine ⟨h.safe, ?_, ?_, ?_⟩
  · obtain ⟨l, h1, h2⟩ := h.step
    exact ⟨l, h1, fun j => ⟨(h2 j).1.mono he hC, (h2 j).2⟩⟩
  · intro u U d hd hs hU hu j
    have k1 : C * d ≤ C' * d := mul_le_mul_of_nonneg_right hC (by linarith)
    exact Tri.mono (h.grad u U d hd ((mul_le_mul_of_nonneg_right k1 he).trans hs) hU hu j) fun x hx => hx.mono he k1
  · intro u U d c y s hd hc hs hU hsB hu hy j
    have k1 : C * (d + c) ≤ C' * (d + c) := mul_le_mul_of_nonneg_right hC (by linarith)
    have k2 : C * c ≤ C' * c := mul_le_mul_of_nonneg_right hC (by linarith)
    refine Tri.mono (h.upd u U d c y s hd hc ((mul_le_mul_of_nonneg_right k1 he).trans hs) hU hsB hu hy j) ?_
    rintro v ⟨u', h1, h2⟩
    exact ⟨u', h1, fun i => (h2 i).mono he (by linarith)⟩

/-- What is known about the objects given to the solver. -/
structure CallApx {F DM DF P : Type} [Scalar F] [LawfulCmp F] [DesignMatrix F DM] [Datafit F DM DF] [Penalty F P] (e B C m Bv Bu : ℝ)
    (ds : Dataset DM F) (df0 df : DF) (pn : P) (D : Design n p) (y : Fin n → ℝ) (k : LossKind) (pen : Pen) : Prop where
  samples : ds.targets.nSamples = n
  features : DesignMatrix.nFeatures (F := F) ds.designMatrix = .ok p
  init : Datafit.init df0 ds = .ok df
  fitA : FitApx e B C ds df D.matrix (gradOf D.matrix y k) (stepsOf D k)
  penA : PenApx e B C pn pen.fn (scoreOf pen)
  fitV : FitVal e Bv Bu C ds df D.matrix (k.loss y)
  penV : PenVal p e m Bv C pn pen.fn

theorem sum_abs_ge {ι : Type} [Fintype ι] (f : ι → ℝ) (i : ι) : |f i| ≤ ∑ j, |f j| :=
  Finset.single_le_sum (f := fun j => |f j|) (fun _ _ => abs_nonneg _) (Finset.mem_univ i)

/-- Least squares in floating point. -/
theorem quad_exists (hn : 0 < n) (D : Design n p) (y : Fin n → ℝ) (B : ℝ) (hB : 1 ≤ B) :
    ∃ C : ℝ, 1 ≤ C ∧ ∀ {F : Type} [Scalar F] [LawfulCmp F] {e : ℝ}, Precise F e → C * e ≤ 1 →
      ∀ (y' : Fin n → F), (∀ i, Stores e (y' i) (y i)) →
      match D with
      | .dense X => ∀ x : Fin n → Fin p → F, (∀ i j, Stores e (x i j) (X i j)) → ∀ df0 : Quadratic F,
        ∃ df, Datafit.init df0 (⟨matOf x, Targets.one (List.ofFn y')⟩ : Dataset (Mat F) F) = .ok df ∧
          FitApx e B C (⟨matOf x, Targets.one (List.ofFn y')⟩ : Dataset (Mat F) F) df X (quadGrad X y) (quadStep X)
      | .csc A => ∀ x : Fin A.nnz → F, (∀ k, Stores e (x k) (A.data k)) → ∀ df0 : Quadratic F,
        ∃ df, Datafit.init df0 (⟨A.toCSCOf x, Targets.one (List.ofFn y')⟩ : Dataset (CSC F) F) = .ok df ∧
          FitApx e B C (⟨A.toCSCOf x, Targets.one (List.ofFn y')⟩ : Dataset (CSC F) F) df A.dense (quadGrad A.dense y)
            (cscStep A) := by
  have hy0 : 0 ≤ ∑ i, |y i| := Finset.sum_nonneg fun i _ => abs_nonneg _
  have hn0 : (0 : ℝ) ≤ n := Nat.cast_nonneg n
  cases D with
  | dense X =>
    have hX : ∀ i j, |X i j| ≤ ∑ i, ∑ j, |X i j| := fun i j => (sum_abs_ge (X i) j).trans
      (Finset.single_le_sum (f := fun i => ∑ j, |X i j|) (fun i _ => Finset.sum_nonneg fun j _ => abs_nonneg _) (Finset.mem_univ i))
    have hX0 : 0 ≤ ∑ i, ∑ j, |X i j| := Finset.sum_nonneg fun i _ => Finset.sum_nonneg fun j _ => abs_nonneg _
    obtain ⟨B1, B2, hm, hS⟩ := mags_exists B (∑ i, ∑ j, |X i j| + ∑ i, |y i| + n) hB (by linarith) n
    obtain ⟨K, hK⟩ : ∃ K : ℝ, K = 10 * (n + 1) ^ 2 * (B2 + 1) ^ 3 := ⟨_, rfl⟩
    have hK1 := one_le_K hm.one2 hK
    have hc : 1 ≤ B2 + 1 := by linarith [hm.one2]
    refine ⟨K * (K * (K * (B2 + 1))), ?_, ?_⟩
    · exact one_le_mul_of_one_le_of_one_le hK1 (one_le_mul_of_one_le_of_one_le hK1 (one_le_mul_of_one_le_of_one_le hK1 hc))
    · intro F _ _ e Pr hCe y' hy x hx df0
      exact quad_dense_core hn X y Pr (Consts.mk' Pr.pos hm.one2 hK) hm (fun i j => (hX i j).trans (by linarith))
        (fun i => (sum_abs_ge y i).trans (by linarith)) (by linarith) rfl x y' hx hy hCe df0
  | csc A =>
    have hX0 : 0 ≤ ∑ k, |A.data k| := Finset.sum_nonneg fun i _ => abs_nonneg _
    obtain ⟨B1, B2, hm, hS⟩ := mags_exists B (∑ k, |A.data k| + ∑ i, |y i| + n) hB (by linarith) A.nnz
    obtain ⟨K, hK⟩ : ∃ K : ℝ, K = 10 * (A.nnz + 1) ^ 2 * (B2 + 1) ^ 3 := ⟨_, rfl⟩
    have hK1 := one_le_K hm.one2 hK
    have hc : 1 ≤ B2 + 1 := by linarith [hm.one2]
    have hN : (1 : ℝ) ≤ A.nnz + 1 := by linarith [(Nat.cast_nonneg A.nnz : (0 : ℝ) ≤ A.nnz)]
    refine ⟨(A.nnz + 1) * (K * (K * (K * (K * (K * (B2 + 1)))))), ?_, ?_⟩
    · refine one_le_mul_of_one_le_of_one_le hN ?_
      have := fun {x : ℝ} (hx : 1 ≤ x) => one_le_mul_of_one_le_of_one_le hK1 hx
      exact this (this (this (this (this hc))))
    · intro F _ _ e Pr hCe y' hy x hx df0
      exact quad_csc_core hn A y Pr (Consts.mk' Pr.pos hm.one2 hK) hm (fun i => (sum_abs_ge A.data i).trans (by linarith))
        (fun i => (sum_abs_ge y i).trans (by linarith)) (by linarith) rfl x y' hx hy rfl hCe df0

theorem PenApx.anti {F P : Type} [Scalar F] [LawfulCmp F] [Penalty F P] {e B B' C : ℝ} {pn : P} {φ : ℝ → ℝ} {sc : ℝ → ℝ → ℝ}
    (h : PenApx e B' C pn φ sc) (h0 : 0 < B) (hB : B ≤ B') : PenApx e B C pn φ sc := by
  refine ⟨h.safe, fun v s V L c h1 h2 h3 h4 h5 => h.prox v s V L c h1 h2 (h3.trans hB)
    ((one_div_le_one_div_of_le h0 hB).trans h4) (h5.trans hB), ?_⟩
  obtain ⟨fn, e1, h8⟩ := h.dist
  exact ⟨fn, e1, fun w g t G c h1 h2 h3 h4 => h8 w g t G c h1 h2 (h3.trans hB) (h4.trans hB)⟩

theorem pmags_exists (B : ℝ) (hB : 1 ≤ B) : ∃ B' K c1 C : ℝ, 1 ≤ C ∧ ∀ e, 0 < e → C * e ≤ 1 → PMags e B B' K c1 C 0 := by
  have h3 : 1 ≤ B ^ 3 := one_le_pow₀ hB
  have hB' : 1 ≤ 4 * B ^ 3 := by linarith
  obtain ⟨K, hK⟩ : ∃ K : ℝ, K = 10 * ((0 : ℕ) + 1) ^ 2 * (4 * B ^ 3 + 1) ^ 3 := ⟨_, rfl⟩
  have hK1 := one_le_K hB' hK
  have := fun {x : ℝ} (hx : 1 ≤ x) => one_le_mul_of_one_le_of_one_le hK1 hx
  exact ⟨4 * B ^ 3, K, 4 * B ^ 3 + 1, K * (K * (K * (K * (K * (K * (4 * B ^ 3 + 1)))))),
    this (this (this (this (this (this (by linarith)))))),
    fun e he hCe => ⟨Consts.mk' he hB' hK, hB, le_rfl, rfl, rfl, hCe⟩⟩

/-- The penalties in floating point. -/
theorem pen_exists (pen : Pen) (hv : pen.Valid) (B : ℝ) (hB : 1 ≤ B) :
    ∃ C : ℝ, 1 ≤ C ∧ ∀ {F : Type} [Scalar F] [LawfulCmp F] {e : ℝ}, Precise F e → C * e ≤ 1 →
      ∀ pen' : PenOf F, pen'.Stored e pen →
      match pen' with
      | .l1 a => PenApx e B C (L1.mk a) pen.fn (scoreOf pen)
      | .enet a r => PenApx e B C (L1PlusL2.mk a r) pen.fn (scoreOf pen) := by
  cases pen with
  | l1 α =>
    have hα : 0 ≤ α := hv
    obtain ⟨B', K, c1, C, hC, h⟩ := pmags_exists (B + α) (by linarith)
    refine ⟨C, hC, fun Pr hCe pen' hs => ?_⟩
    cases pen' with
    | l1 a => exact (l1_apx hα (by linarith) (h _ Pr.pos hCe) Pr hs).anti (by linarith) (by linarith)
    | enet a r => exact hs.elim
  | enet α ρ =>
    obtain ⟨hα, hρ, hρ1⟩ := hv
    obtain ⟨B', K, c1, C, hC, h⟩ := pmags_exists (B + α) (by linarith)
    refine ⟨C, hC, fun Pr hCe pen' hs => ?_⟩
    cases pen' with
    | l1 a => exact hs.elim
    | enet a r => exact (enet_apx hα hρ hρ1 (by linarith) (h _ Pr.pos hCe) Pr hs.1 hs.2.1).anti (by linarith) (by linarith)
  | mcp α γ =>
    refine ⟨1, le_rfl, fun Pr hCe pen' hs => ?_⟩
    cases pen' <;> exact hs.elim
  | l05 α =>
    refine ⟨1, le_rfl, fun Pr hCe pen' hs => ?_⟩
    cases pen' <;> exact hs.elim

theorem FitVal.mono {F DM DF : Type} [Scalar F] [LawfulCmp F] [DesignMatrix F DM] [Datafit F DM DF] {e Bv Bu C C' : ℝ}
    {ds : Dataset DM F} {df : DF} {A : Fin n → Fin p → ℝ} {f : (Fin n → ℝ) → ℝ} (h : FitVal e Bv Bu C ds df A f) (he : 0 ≤ e) (hC : C ≤ C') :
    FitVal e Bv Bu C' ds df A f := by
  refine ⟨h.nonneg, fun u U d hd hs hU hu => ?_, fun l w v h1 h2 h3 h4 => ?_⟩
  · have hd' : C * d ≤ C' * d := mul_le_mul_of_nonneg_right hC (by linarith)
    exact Tri.mono (h.val u U d hd ((mul_le_mul_of_nonneg_right hd' he).trans hs) hU hu) fun x hx => hx.mono he hd'
  · refine Tri.mono (h.extra l w v h1 h2 h3 h4) ?_
    rintro r ⟨u, k1, k2⟩
    exact ⟨u, k1, fun i => (k2 i).mono he hC⟩

theorem PenVal.mono {F P : Type} [Scalar F] [LawfulCmp F] [Penalty F P] {e m Bv C C' : ℝ} {pn : P} {φ : ℝ → ℝ}
    (h : PenVal p e m Bv C pn φ) (he : 0 ≤ e) (hC : C ≤ C') : PenVal p e m Bv C' pn φ :=
  ⟨h.nonneg, fun w v h1 h2 => Tri.mono (h.val w v h1 h2) fun _ hx => hx.mono he hC, h.back⟩

/-- The objects of a call satisfy the contracts. -/
theorem callOf_elim (hn : 0 < n) (D : Design n p) (y : Fin n → ℝ) (pen : Pen) (hv : pen.Valid) (hα : 0 < pen.fn 1) (B m : ℝ) (hB : 1 ≤ B)
    (hm : 0 ≤ m) :
    ∃ Bv Bu C : ℝ, B ≤ Bv ∧ B ≤ Bu ∧ (∀ v : Fin p → ℝ, (∀ j, |v j| ≤ Bv) → ∀ i, |fit D.matrix v i| ≤ Bu) ∧ 1 ≤ C ∧
      ∀ {F : Type} [Scalar F] [LawfulCmp F] {e : ℝ}, Precise F e → Propagates F → C * e ≤ 1 →
      ∀ (x : D.Entries F) (y' : Fin n → F) (pen' : PenOf F), D.StoredAs e x → (∀ i, Stores e (y' i) (y i)) → pen'.Stored e pen →
      ∀ {α : Type} (run : ∀ {DM DF P : Type} [DesignMatrix F DM] [Datafit F DM DF] [Penalty F P], Dataset DM F → DF → P → α)
        (Q : α → Prop),
        (∀ {DM DF P : Type} [DesignMatrix F DM] [Datafit F DM DF] [Penalty F P] (ds : Dataset DM F) (df0 df : DF) (pn : P),
          CallApx e B C m Bv Bu ds df0 df pn D y .quadratic pen → Q (run ds df0 pn)) →
        Q (callOf D x y' .quadratic pen' run) := by
  obtain ⟨Bv, C3, hBv, hBv1, h3, H3⟩ := penVal_exists p pen hv hα m B hm
  have hA0 : 0 ≤ ∑ i, ∑ j, |D.matrix i j| := Finset.sum_nonneg fun i _ => Finset.sum_nonneg fun j _ => abs_nonneg _
  obtain ⟨Bu, hBu⟩ : ∃ Bu : ℝ, Bu = B + (∑ i, ∑ j, |D.matrix i j|) * Bv := ⟨_, rfl⟩
  have hfit : ∀ v : Fin p → ℝ, (∀ j, |v j| ≤ Bv) → ∀ i, |fit D.matrix v i| ≤ Bu := by
    intro v hv i
    have h1 : |fit D.matrix v i| ≤ ∑ j, |D.matrix i j| * Bv := by
      refine (Finset.abs_sum_le_sum_abs _ _).trans (Finset.sum_le_sum fun j _ => ?_)
      rw [abs_mul]
      exact mul_le_mul_of_nonneg_left (hv j) (abs_nonneg _)
    rw [← Finset.sum_mul] at h1
    have h2 : ∑ j, |D.matrix i j| ≤ ∑ i, ∑ j, |D.matrix i j| :=
      Finset.single_le_sum (f := fun i => ∑ j, |D.matrix i j|) (fun i _ => Finset.sum_nonneg fun j _ => abs_nonneg _) (Finset.mem_univ i)
    have h3 := mul_le_mul_of_nonneg_right h2 (by linarith : 0 ≤ Bv)
    linarith
  obtain ⟨C1, h1, H1⟩ := quad_exists hn D y B hB
  obtain ⟨C2, h2, H2⟩ := pen_exists pen hv B hB
  have key : ∃ C4 : ℝ, 1 ≤ C4 ∧ ∀ {F : Type} [Scalar F] [LawfulCmp F] {e : ℝ}, Precise F e → Propagates F → C4 * e ≤ 1 →
      ∀ (y' : Fin n → F), (∀ i, Stores e (y' i) (y i)) →
      match D with
      | .dense X => ∀ x : Fin n → Fin p → F, (∀ i j, Stores e (x i j) (X i j)) → ∀ df : Quadratic F,
        FitVal e Bv Bu C4 (⟨matOf x, Targets.one (List.ofFn y')⟩ : Dataset (Mat F) F) df X (quadLoss y)
      | .csc A => ∀ x : Fin A.nnz → F, (∀ k, Stores e (x k) (A.data k)) → ∀ df : Quadratic F,
        FitVal e Bv Bu C4 (⟨A.toCSCOf x, Targets.one (List.ofFn y')⟩ : Dataset (CSC F) F) df A.dense (quadLoss y) := by
    cases D with
    | dense X => exact dense_fitVal hn X y Bv Bu
    | csc A => exact csc_fitVal hn A y Bv Bu
  obtain ⟨C4, h4, H4⟩ := key
  have hBu1 : B ≤ Bu := by
    have : 0 ≤ (∑ i, ∑ j, |D.matrix i j|) * Bv := mul_nonneg hA0 (by linarith)
    linarith
  refine ⟨Bv, Bu, C1 + C2 + C3 + C4, hBv, hBu1, hfit, by linarith, ?_⟩
  intro F _ _ e Pr S hCe x y' pen' hx hy hp α run Q hQ
  have he := Pr.pos
  have e1 : C1 * e ≤ 1 := (mul_le_mul_of_nonneg_right (by linarith) he.le).trans hCe
  have e2 : C2 * e ≤ 1 := (mul_le_mul_of_nonneg_right (by linarith) he.le).trans hCe
  have e3 : C3 * e ≤ 1 := (mul_le_mul_of_nonneg_right (by linarith) he.le).trans hCe
  have e4 : C4 * e ≤ 1 := (mul_le_mul_of_nonneg_right (by linarith) he.le).trans hCe
  have P2 := H2 Pr e2 pen' hp
  have P1 := H1 Pr e1 y' hy
  have P3 := H3 Pr S e3 pen' hp
  have P4 := H4 Pr S e4 y' hy
  have l1 : C1 ≤ C1 + C2 + C3 + C4 := by linarith
  have l2 : C2 ≤ C1 + C2 + C3 + C4 := by linarith
  have l3 : C3 ≤ C1 + C2 + C3 + C4 := by linarith
  have l4 : C4 ≤ C1 + C2 + C3 + C4 := by linarith
  cases D with
  | dense X =>
    obtain ⟨df, k1, k2⟩ := P1 x hx Quadratic.new
    cases pen' with
    | l1 a => exact hQ _ _ df (L1.mk a) ⟨one_nSamplesOf y', rfl, k1, k2.mono he.le l1, PenApx.mono P2 he.le l2,
        (P4 x hx df).mono he.le l4, PenVal.mono P3 he.le l3⟩
    | enet a r => exact hQ _ _ df (L1PlusL2.mk a r) ⟨one_nSamplesOf y', rfl, k1, k2.mono he.le l1, PenApx.mono P2 he.le l2,
        (P4 x hx df).mono he.le l4, PenVal.mono P3 he.le l3⟩
  | csc A =>
    obtain ⟨df, k1, k2⟩ := P1 x hx Quadratic.new
    cases pen' with
    | l1 a => exact hQ _ _ df (L1.mk a) ⟨one_nSamplesOf y', nFeatures_toCSCOf A x, k1, k2.mono he.le l1, PenApx.mono P2 he.le l2,
        (P4 x hx df).mono he.le l4, PenVal.mono P3 he.le l3⟩
    | enet a r => exact hQ _ _ df (L1PlusL2.mk a r) ⟨one_nSamplesOf y', nFeatures_toCSCOf A x, k1, k2.mono he.le l1, PenApx.mono P2 he.le l2,
        (P4 x hx df).mono he.le l4, PenVal.mono P3 he.le l3⟩

end Sglm
