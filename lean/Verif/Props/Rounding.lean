import Verif.Proofs.FloatLogCall
import Verif.Proofs.Fl
import Verif.Props.Converge

/-!
# C62, C63: runs in floating point arithmetic

The numbers of a real problem are stored in a floating point format `F` of precision `e`; the crate computes in `F`.  What is assumed
about the arithmetic is listed in `Spec/Rounding.lean`.  The theorems hold for all formats which are precise enough for the problem.
-/

namespace Sglm
open Scalar Spec
variable {n p : ℕ}

theorem StopsPlain.tail {F : Type} {cfg : Solver F} (h : StopsPlain cfg) : PlainTail (PlainEp cfg) cfg.maxEpochs 0 :=
  fun i _ h2 h3 => h i (by omega) (by rwa [Nat.zero_add] at h3)

/-- **Runs in floating point**: with sufficient precision the call returns finite coefficients `v` (no panic, no `NaN`), whose
objective exceeds that of zero by at most `ε`; and if it stops before `max_iterations`, then `v` is `(τ + ε)`-stationary. -/
theorem C62_run (hn : 0 < n) (hp : 0 < p) (D : Design n p) (hD : D.Canonical) (y : Fin n → ℝ) (k : LossKind) (hy : k.LabelsOK y)
    (pen : Pen) (hv : pen.Valid) (hc : pen.Convex) (hα : 0 < pen.fn 1) (M E : ℕ) (τ ε : ℝ) (hε : 0 < ε) :
    ∃ e₀ : ℝ, 0 < e₀ ∧ ∀ (F : Type) [Scalar F] [LawfulCmp F] (e : ℝ), FloatLaws k F e → e ≤ e₀ →
      ∀ (x : D.Entries F) (y' : Fin n → F) (pen' : PenOf F), D.StoredAs e x → (∀ i, Stores e (y' i) (y i)) → pen'.Stored e pen →
      ∀ srt : Argsort F, ArgsortSpec srt → ∀ cfg : Solver F, SettingsOK cfg p → Stores e cfg.tolerance τ →
      cfg.maxIterations ≤ M → cfg.maxEpochs ≤ E →
      ∃ v m, RunsTo srt cfg D x y' k pen' v m ∧ m ≤ cfg.maxIterations ∧ objective1 D y k pen v ≤ objective1 D y k pen 0 + ε ∧
        (m < cfg.maxIterations → ApproxStationary D y k (subdiff pen.fn) v (τ + ε) ∧
          ∀ u, objective1 D y k pen v - objective1 D y k pen u ≤ (τ + ε) * ∑ j, |v j - u j|) := by
  obtain ⟨a, b, H⟩ := prob1_cvx hn D hD y k hy pen hv hc hα
  obtain ⟨e₀, he₀, h⟩ := float_run (Law := fun F _ _ e => FloatLaws k F e) (fun hl => ⟨hl.precise, hl.propagates⟩) hn hp D hD y k hy pen hv hc
    hα (callable hn D y k pen hv hα) M E τ ε hε
  refine ⟨e₀, he₀, fun F _ _ e hl hee x y' pen' hx hy' hpn srt hs cfg hcfg ht hM hE => ?_⟩
  obtain ⟨v, m, h1, h2, h3, h4⟩ := h hl hee x y' pen' hx hy' hpn srt hs cfg hcfg ht hM hE
  refine ⟨v, m, h1, h2, h3, fun hm => ⟨fun j => ⟨_, _, loss_partial hn D.matrix y k v j, scoreOf_dist pen hv hc _ _, h4 hm j⟩, fun u => ?_⟩⟩
  have h5 : objective1 D y k pen v ≤ objective1 D y k pen u + (τ + ε) * ∑ j, |v j - u j| := H.gap' (h4 hm) u
  linarith

/-- **Runs in floating point stop**: for every tolerance `τ > 0` there is a bound on the number of iterations, which does not depend
on the format; with sufficient precision it is kept, and the result is `(τ + ε)`-stationary. -/
theorem C63_terminates (hn : 0 < n) (hp : 0 < p) (D : Design n p) (hD : D.Canonical) (y : Fin n → ℝ) (k : LossKind) (hy : k.LabelsOK y)
    (pen : Pen) (hv : pen.Valid) (hc : pen.Convex) (hα : 0 < pen.fn 1) (τ : ℝ) (hτ : 0 < τ) :
    ∃ N : ℕ, ∀ (E : ℕ) (ε : ℝ), 0 < ε → ∃ e₀ : ℝ, 0 < e₀ ∧ ∀ (F : Type) [Scalar F] [LawfulCmp F] (e : ℝ), FloatLaws k F e → e ≤ e₀ →
      ∀ (x : D.Entries F) (y' : Fin n → F) (pen' : PenOf F), D.StoredAs e x → (∀ i, Stores e (y' i) (y i)) → pen'.Stored e pen →
      ∀ srt : Argsort F, ArgsortSpec srt → ∀ cfg : Solver F, SettingsOK cfg p → Stores e cfg.tolerance τ →
      N ≤ cfg.maxIterations → cfg.maxEpochs ≤ E → 0 < cfg.maxEpochs → StopsPlain cfg →
      ∃ v m, RunsTo srt cfg D x y' k pen' v m ∧ m ≤ N ∧ objective1 D y k pen v ≤ objective1 D y k pen 0 + ε ∧
        ApproxStationary D y k (subdiff pen.fn) v (τ + ε) ∧
        ∀ u, objective1 D y k pen v - objective1 D y k pen u ≤ (τ + ε) * ∑ j, |v j - u j| := by
  obtain ⟨a, b, H⟩ := prob1_cvx hn D hD y k hy pen hv hc hα
  obtain ⟨N, h⟩ := float_stops (Law := fun F _ _ e => FloatLaws k F e) (fun hl => ⟨hl.precise, hl.propagates⟩) hn hp D hD y k hy pen hv hc
    hα (callable hn D y k pen hv hα) τ hτ
  refine ⟨N, fun E ε hε => ?_⟩
  obtain ⟨e₀, he₀, h⟩ := h E ε hε
  refine ⟨e₀, he₀, fun F _ _ e hl hee x y' pen' hx hy' hpn srt hs cfg hcfg ht hN hE hE1 hpl => ?_⟩
  obtain ⟨v, m, h1, h2, h3, h4⟩ := h hl hee x y' pen' hx hy' hpn srt hs cfg hcfg ht hN hE hE1 hpl.tail
  refine ⟨v, m, h1, h2, h3, fun j => ⟨_, _, loss_partial hn D.matrix y k v j, scoreOf_dist pen hv hc _ _, h4 j⟩, fun u => ?_⟩
  have h5 : objective1 D y k pen v ≤ objective1 D y k pen u + (τ + ε) * ∑ j, |v j - u j| := H.gap' h4 u
  linarith

/-- **Runs in floating point reach the minimum**: every accuracy `ε` is reached, for a tolerance, a number of iterations and a
precision which depend on the problem and `ε` (and the maximal number of epochs). -/
theorem C63_objective (hn : 0 < n) (hp : 0 < p) (D : Design n p) (hD : D.Canonical) (y : Fin n → ℝ) (k : LossKind) (hy : k.LabelsOK y)
    (pen : Pen) (hv : pen.Valid) (hc : pen.Convex) (hα : 0 < pen.fn 1) (ε : ℝ) (hε : 0 < ε) :
    ∃ τ₀ : ℝ, 0 < τ₀ ∧ ∀ τ, 0 < τ → τ ≤ τ₀ → ∃ N : ℕ, ∀ E : ℕ, ∃ e₀ : ℝ, 0 < e₀ ∧
      ∀ (F : Type) [Scalar F] [LawfulCmp F] (e : ℝ), FloatLaws k F e → e ≤ e₀ →
      ∀ (x : D.Entries F) (y' : Fin n → F) (pen' : PenOf F), D.StoredAs e x → (∀ i, Stores e (y' i) (y i)) → pen'.Stored e pen →
      ∀ srt : Argsort F, ArgsortSpec srt → ∀ cfg : Solver F, SettingsOK cfg p → Stores e cfg.tolerance τ →
      N ≤ cfg.maxIterations → cfg.maxEpochs ≤ E → 0 < cfg.maxEpochs → StopsPlain cfg →
      ∃ v m, RunsTo srt cfg D x y' k pen' v m ∧ m ≤ N ∧ ∀ u, objective1 D y k pen v ≤ objective1 D y k pen u + ε := by
  obtain ⟨a, b, H⟩ := prob1_cvx hn D hD y k hy pen hv hc hα
  obtain ⟨B, hB, hlev⟩ := H.level ((prob1 D y k pen).F 0 + 1)
  have hlev : ∀ w, objective1 D y k pen w ≤ objective1 D y k pen 0 + 1 → ∑ j, |w j| ≤ B := hlev
  refine ⟨ε / (4 * B + 1), by positivity, fun τ hτ hτ0 => ?_⟩
  obtain ⟨N, h⟩ := C63_terminates hn hp D hD y k hy pen hv hc hα τ hτ
  refine ⟨N, fun E => ?_⟩
  obtain ⟨e₀, he₀, h⟩ := h E (min 1 τ) (by positivity)
  refine ⟨e₀, he₀, fun F _ _ e hl hee x y' pen' hx hy' hpn srt hs cfg hcfg ht hN hE hE1 hpl => ?_⟩
  obtain ⟨v, m, h1, h2, h3, h4, h5⟩ := h F e hl hee x y' pen' hx hy' hpn srt hs cfg hcfg ht hN hE hE1 hpl
  refine ⟨v, m, h1, h2, fun u => ?_⟩
  rcases le_total (objective1 D y k pen v) (objective1 D y k pen u) with hle | hle
  · linarith
  · have hm1 : min 1 τ ≤ 1 := min_le_left _ _
    have hm2 : min 1 τ ≤ τ := min_le_right _ _
    have b1 := hlev v (by linarith)
    have b2 := hlev u (by linarith)
    have b3 : ∑ j, |v j - u j| ≤ 2 * B := by
      calc ∑ j, |v j - u j| ≤ ∑ j, (|v j| + |u j|) := Finset.sum_le_sum fun j _ => abs_sub _ _
        _ = ∑ j, |v j| + ∑ j, |u j| := Finset.sum_add_distrib
        _ ≤ _ := by linarith
    have b4 := h5 u
    have b5 : (τ + min 1 τ) * ∑ j, |v j - u j| ≤ 2 * τ * (2 * B) :=
      mul_le_mul (by linarith) b3 (Finset.sum_nonneg fun j _ => abs_nonneg _) (by linarith)
    rw [le_div_iff₀ (by positivity)] at hτ0
    nlinarith

/-! ## Estimators -/

theorem RunsTo.lasso {F : Type} [Scalar F] [LawfulCmp F] {srt : Argsort F} {ps : LassoParams F} {D : Design n p} {x : D.Entries F}
    {y : Fin n → F} {v : Fin p → ℝ} {m : ℕ} (hok : ps.checkRef = .ok ps) (h : RunsTo srt ps.solver D x y .quadratic (.l1 ps.alpha) v m) :
    ∃ w : Fin p → F, (∀ j, Den (w j) (v j)) ∧ fitLassoOf srt ps D x y = .ok (.ok (List.ofFn w)) := by
  obtain ⟨w, h1, h2, -⟩ := h
  refine ⟨w, h1, ?_⟩
  cases D <;>
  · unfold fitLassoOf Lasso.fit guardedFit
    simp only [hok]
    unfold Lasso.fitValid
    rw [fitCD_eq]
    exact congrArg (fun z => Except.ok <$> z) h2

theorem RunsTo.elasticNet {F : Type} [Scalar F] [LawfulCmp F] {srt : Argsort F} {ps : ElasticNetParams F} {D : Design n p}
    {x : D.Entries F} {y : Fin n → F} {v : Fin p → ℝ} {m : ℕ} (hok : ps.checkRef = .ok ps)
    (h : RunsTo srt ps.solver D x y .quadratic (.enet ps.alpha ps.l1Ratio) v m) :
    ∃ w : Fin p → F, (∀ j, Den (w j) (v j)) ∧ fitElasticNetOf srt ps D x y = .ok (.ok (List.ofFn w)) := by
  obtain ⟨w, h1, h2, -⟩ := h
  refine ⟨w, h1, ?_⟩
  cases D <;>
  · unfold fitElasticNetOf ElasticNet.fit guardedFit
    simp only [hok]
    unfold ElasticNet.fitValid
    rw [fitCD_eq]
    exact congrArg (fun z => Except.ok <$> z) h2

/-- `Lasso::fit` in floating point reaches any accuracy, for settings which pass the validation. -/
theorem C63_lasso_fit (hn : 0 < n) (hp : 0 < p) (D : Design n p) (hD : D.Canonical) (y : Fin n → ℝ) (α : ℝ) (hα : 0 < α) (ε : ℝ)
    (hε : 0 < ε) :
    ∃ τ₀ : ℝ, 0 < τ₀ ∧ ∀ τ, 0 < τ → τ ≤ τ₀ → ∃ N : ℕ, ∀ E : ℕ, ∃ e₀ : ℝ, 0 < e₀ ∧
      ∀ (F : Type) [Scalar F] [LawfulCmp F] (e : ℝ), FloatLaws .quadratic F e → e ≤ e₀ →
      ∀ (x : D.Entries F) (y' : Fin n → F), D.StoredAs e x → (∀ i, Stores e (y' i) (y i)) →
      ∀ srt : Argsort F, ArgsortSpec srt → ∀ ps : LassoParams F, ps.checkRef = .ok ps → SettingsOK ps.solver p →
      Stores e ps.alpha α → Stores e ps.tolerance τ → N ≤ ps.maxIterations → ps.maxEpochs ≤ E → 0 < ps.maxEpochs → StopsPlain ps.solver →
      ∃ (w : Fin p → F) (v : Fin p → ℝ), (∀ j, Den (w j) (v j)) ∧ fitLassoOf srt ps D x y' = .ok (.ok (List.ofFn w)) ∧
        ∀ u, objective1 D y .quadratic (.l1 α) v ≤ objective1 D y .quadratic (.l1 α) u + ε := by
  obtain ⟨τ₀, h1, h2⟩ := C63_objective hn hp D hD y .quadratic trivial (.l1 α) hα.le trivial
    (by show 0 < α * |(1 : ℝ)|; rw [abs_one, mul_one]; exact hα) ε hε
  refine ⟨τ₀, h1, fun τ ht1 ht2 => ?_⟩
  obtain ⟨N, h2⟩ := h2 τ ht1 ht2
  refine ⟨N, fun E => ?_⟩
  obtain ⟨e₀, he₀, h⟩ := h2 E
  refine ⟨e₀, he₀, fun F _ _ e hl hee x y' hx hy' srt hs ps hok hcfg ha ht hN hE hE1 hpl => ?_⟩
  obtain ⟨v, m, h3, -, h4⟩ := h F e hl hee x y' (.l1 ps.alpha) hx hy' ha srt hs ps.solver hcfg ht hN hE hE1 hpl
  obtain ⟨w, h5, h6⟩ := RunsTo.lasso hok h3
  exact ⟨w, v, h5, h6, h4⟩

/-- `ElasticNet::fit` in floating point reaches any accuracy, for settings which pass the validation. -/
theorem C63_elastic_net_fit (hn : 0 < n) (hp : 0 < p) (D : Design n p) (hD : D.Canonical) (y : Fin n → ℝ) (α ρ : ℝ) (hα : 0 < α)
    (hρ0 : 0 ≤ ρ) (hρ1 : ρ ≤ 1) (ε : ℝ) (hε : 0 < ε) :
    ∃ τ₀ : ℝ, 0 < τ₀ ∧ ∀ τ, 0 < τ → τ ≤ τ₀ → ∃ N : ℕ, ∀ E : ℕ, ∃ e₀ : ℝ, 0 < e₀ ∧
      ∀ (F : Type) [Scalar F] [LawfulCmp F] (e : ℝ), FloatLaws .quadratic F e → e ≤ e₀ →
      ∀ (x : D.Entries F) (y' : Fin n → F), D.StoredAs e x → (∀ i, Stores e (y' i) (y i)) →
      ∀ srt : Argsort F, ArgsortSpec srt → ∀ ps : ElasticNetParams F, ps.checkRef = .ok ps → SettingsOK ps.solver p →
      Stores e ps.alpha α → Stores e ps.l1Ratio ρ → Stores e ps.tolerance τ → N ≤ ps.maxIterations → ps.maxEpochs ≤ E →
      0 < ps.maxEpochs → StopsPlain ps.solver →
      ∃ (w : Fin p → F) (v : Fin p → ℝ), (∀ j, Den (w j) (v j)) ∧ fitElasticNetOf srt ps D x y' = .ok (.ok (List.ofFn w)) ∧
        ∀ u, objective1 D y .quadratic (.enet α ρ) v ≤ objective1 D y .quadratic (.enet α ρ) u + ε := by
  obtain ⟨τ₀, h1, h2⟩ := C63_objective hn hp D hD y .quadratic trivial (.enet α ρ) ⟨hα.le, hρ0, hρ1⟩ trivial (by
    have : (Pen.enet α ρ).fn 1 = α * ρ + α * (1 - ρ) / 2 := by simp [Pen.fn, enet]; ring
    rw [this]
    nlinarith [mul_nonneg hα.le hρ0, mul_nonneg hα.le (sub_nonneg.mpr hρ1)]) ε hε
  refine ⟨τ₀, h1, fun τ ht1 ht2 => ?_⟩
  obtain ⟨N, h2⟩ := h2 τ ht1 ht2
  refine ⟨N, fun E => ?_⟩
  obtain ⟨e₀, he₀, h⟩ := h2 E
  refine ⟨e₀, he₀, fun F _ _ e hl hee x y' hx hy' srt hs ps hok hcfg ha hr ht hN hE hE1 hpl => ?_⟩
  -- the validation keeps the ratio in `[0, 1]`
  have hr01 : ∃ t, Den ps.l1Ratio t ∧ 0 ≤ t ∧ t ≤ 1 := by
    obtain ⟨t, ht, -⟩ := hr.near
    have hc : ((one <. ps.l1Ratio) || (ps.l1Ratio <. zero)) = false := by
      unfold ElasticNetParams.checkRef at hok
      split at hok
      · cases hok
      · split at hok
        · cases hok
        · rename_i h; simpa using h
    rw [Bool.or_eq_false_iff] at hc
    refine ⟨t, ht, ?_, ?_⟩
    · by_contra hneg
      have : (ps.l1Ratio <. zero) = true := (den_lt ht den_zero).mpr (not_le.mp hneg)
      rw [hc.2] at this
      cases this
    · by_contra hneg
      have : (one <. ps.l1Ratio) = true := (den_lt hl.precise.one ht).mpr (not_le.mp hneg)
      rw [hc.1] at this
      cases this
  obtain ⟨v, m, h3, -, h4⟩ := h F e hl hee x y' (.enet ps.alpha ps.l1Ratio) hx hy' ⟨ha, hr, hr01⟩ srt hs ps.solver hcfg ht hN hE hE1 hpl
  obtain ⟨w, h5, h6⟩ := RunsTo.elasticNet hok h3
  exact ⟨w, v, h5, h6, h4⟩

/-! ## Examples

Formats `bin t` with `t + 2` significant bits, rounding to nearest. -/

/-- Settings in the format `bin t`. -/
noncomputable def binCfg (t N : ℕ) (τ : ℝ) : Solver (Fl (bin t)) := ⟨10, N, 10, Fl.of t τ, 2, true, true⟩

theorem binCfg_ok (t N : ℕ) (τ : ℝ) : SettingsOK (binCfg t N τ) 2 := ⟨by norm_num [binCfg], fun _ => by norm_num [binCfg]⟩

/-- `cvD`, rounded. -/
noncomputable def cvX (t : ℕ) : Fin 2 → Fin 2 → Fl (bin t) := fun i j => Fl.of t ((![![1, 2], ![3, 1]] : Fin 2 → Fin 2 → ℝ) i j)

theorem cvX_stored (t : ℕ) : cvD.StoredAs (1 / 2 ^ t) (cvX t) := fun _ _ => bin_stores t _

theorem argsortFl (t : ℕ) : ArgsortSpec (argsortIns : Argsort (Fl (bin t))) := argsortIns_spec

-- logistic regression, 50 iterations, with extrapolation
example : ∃ t : ℕ, ∃ v m, RunsTo argsortIns (binCfg t 50 (1 / 100)) cvD (cvX t) (fun i => Fl.of t (![1, -1] i)) .logistic
    (.l1 (Fl.of t (1 / 10))) v m ∧
    objective1 cvD ![1, -1] .logistic (.l1 (1 / 10)) v ≤ objective1 cvD ![1, -1] .logistic (.l1 (1 / 10)) 0 + 1 / 1000 := by
  obtain ⟨e₀, he₀, h⟩ := C62_run two_pos two_pos cvD trivial ![1, -1] .logistic (by intro i; fin_cases i <;> simp)
    (.l1 (1 / 10)) (by norm_num [Pen.Valid]) trivial (by norm_num [Pen.fn]) 50 10 (1 / 100) (1 / 1000) (by norm_num)
  obtain ⟨t, ht⟩ := bin_exists he₀
  obtain ⟨v, m, h1, -, h2, -⟩ := h _ _ (bin_laws t .logistic) ht (cvX t) (fun i => Fl.of t (![1, -1] i)) (.l1 (Fl.of t (1 / 10)))
    (cvX_stored t) (fun i => bin_stores t _) (bin_stores t _) argsortIns (argsortFl t) (binCfg t 50 (1 / 100)) (binCfg_ok _ _ _)
    (bin_stores t _) le_rfl le_rfl
  exact ⟨t, v, m, h1, h2⟩

theorem binCfg_plain (t N : ℕ) (τ : ℝ) : StopsPlain (binCfg t N τ) := by
  intro e h1 h2
  right
  change e < 10 at h1
  change e + 1 = 10 ∨ _ at h2
  show e % 3 ≠ 2
  omega

/-- The matrix with rows `(1, 0)`, `(3, 1)` in compressed columns. -/
noncomputable def cvA : CSCData 2 2 where
  nnz := 3
  data := ![1, 3, 1]
  row := ![0, 1, 1]
  ptr := ![0, 2, 3]
  ptr_le := by decide

theorem cvA_noDup : cvA.NoDup := by
  unfold CSCData.NoDup CSCData.InCol cvA
  decide

theorem signBit_of {t : ℕ} {x : ℝ} (hx : 0 ≤ x) : signBit (Fl.of t x) = false := by
  show decide ((bin t).rd x < 0) = false
  rw [decide_eq_false_iff_not, not_lt]
  exact Fl.rd_nonneg _ hx

-- elastic net, sparse design, logistic regression: the verbose run prints at most `N` iterations
example : ∃ t N : ℕ, ∃ v m, RunsTo argsortIns (binCfg t N (1 / 100)) (.csc cvA) (fun k => Fl.of t (cvA.data k))
    (fun i => Fl.of t (![1, -1] i)) .logistic (.enet (Fl.of t (1 / 10)) one) v m ∧ m ≤ N ∧
    ApproxStationary (.csc cvA) ![1, -1] .logistic (subdiff (Pen.enet (1 / 10) 1).fn) v (1 / 100 + 1 / 1000) := by
  obtain ⟨N, h⟩ := C63_terminates two_pos two_pos (.csc cvA) cvA_noDup ![1, -1] .logistic (by intro i; fin_cases i <;> simp)
    (.enet (1 / 10) 1) ⟨by norm_num, by norm_num, le_rfl⟩ trivial (by norm_num [Pen.fn, enet]) (1 / 100) (by norm_num)
  obtain ⟨e₀, he₀, h⟩ := h 10 (1 / 1000) (by norm_num)
  obtain ⟨t, ht⟩ := bin_exists he₀
  have hone : Den (one : Fl (bin t)) 1 := (bin_laws t .logistic).precise.one
  obtain ⟨v, m, h1, h2, -, h3, -⟩ := h _ _ (bin_laws t .logistic) ht (fun k => Fl.of t (cvA.data k)) (fun i => Fl.of t (![1, -1] i))
    (.enet (Fl.of t (1 / 10)) one) (fun k => bin_stores t _) (fun i => bin_stores t _)
    ⟨bin_stores t _, ⟨⟨1, hone, by rw [sub_self, abs_zero]; positivity⟩, fun h => absurd h one_ne_zero⟩, 1, hone, zero_le_one, le_rfl⟩
    argsortIns (argsortFl t) (binCfg t N (1 / 100)) (binCfg_ok _ _ _) (bin_stores t _) le_rfl le_rfl (by norm_num [binCfg]) (binCfg_plain _ _ _)
  exact ⟨t, N, v, m, h1, h2, h3⟩

-- the Lasso estimator gets within `1/1000` of the minimum
example : ∃ (t N : ℕ) (τ : ℝ) (w : Fin 2 → Fl (bin t)) (v : Fin 2 → ℝ), (∀ j, Den (w j) (v j)) ∧
    fitLassoOf argsortIns ⟨Fl.of t (1 / 10), N, 10, 10, Fl.of t τ, 2, true, true⟩ cvD (cvX t) (fun i => Fl.of t (![1, -2] i)) =
      .ok (.ok (List.ofFn w)) ∧
    ∀ u, objective1 cvD ![1, -2] .quadratic (.l1 (1 / 10)) v ≤ objective1 cvD ![1, -2] .quadratic (.l1 (1 / 10)) u + 1 / 1000 := by
  obtain ⟨τ, hτ, h⟩ := C63_lasso_fit two_pos two_pos cvD trivial ![1, -2] (1 / 10) (by norm_num) (1 / 1000) (by norm_num)
  obtain ⟨N, h⟩ := h τ hτ le_rfl
  obtain ⟨e₀, he₀, h⟩ := h 10
  obtain ⟨t, ht⟩ := bin_exists he₀
  obtain ⟨w, v, h1, h2, h3⟩ := h _ _ (bin_laws t .quadratic) ht (cvX t) (fun i => Fl.of t (![1, -2] i)) (cvX_stored t)
    (fun i => bin_stores t _) argsortIns (argsortFl t) ⟨Fl.of t (1 / 10), N, 10, 10, Fl.of t τ, 2, true, true⟩ (by
      unfold LassoParams.checkRef checkTail
      dsimp only
      rw [signBit_of (by norm_num), signBit_of hτ.le]
      rfl)
    (binCfg_ok t N τ) (bin_stores t _) (bin_stores t _) le_rfl le_rfl (by norm_num) (binCfg_plain t N τ)
  exact ⟨t, N, τ, w, v, h1, h2, h3⟩

-- the elastic net estimator
example : ∃ (t N : ℕ) (τ : ℝ) (w : Fin 2 → Fl (bin t)) (v : Fin 2 → ℝ), (∀ j, Den (w j) (v j)) ∧
    fitElasticNetOf argsortIns ⟨Fl.of t (1 / 10), zero, N, 10, 10, Fl.of t τ, 2, true, true⟩ cvD (cvX t) (fun i => Fl.of t (![1, -2] i)) =
      .ok (.ok (List.ofFn w)) ∧
    ∀ u, objective1 cvD ![1, -2] .quadratic (.enet (1 / 10) 0) v ≤ objective1 cvD ![1, -2] .quadratic (.enet (1 / 10) 0) u + 1 / 1000 := by
  obtain ⟨τ, hτ, h⟩ := C63_elastic_net_fit two_pos two_pos cvD trivial ![1, -2] (1 / 10) 0 (by norm_num) le_rfl zero_le_one (1 / 1000)
    (by norm_num)
  obtain ⟨N, h⟩ := h τ hτ le_rfl
  obtain ⟨e₀, he₀, h⟩ := h 10
  obtain ⟨t, ht⟩ := bin_exists he₀
  obtain ⟨w, v, h1, h2, h3⟩ := h _ _ (bin_laws t .quadratic) ht (cvX t) (fun i => Fl.of t (![1, -2] i)) (cvX_stored t)
    (fun i => bin_stores t _) argsortIns (argsortFl t) ⟨Fl.of t (1 / 10), zero, N, 10, 10, Fl.of t τ, 2, true, true⟩ (by
      unfold ElasticNetParams.checkRef checkTail
      dsimp only
      have h0 : ((one <. (zero : Fl (bin t))) || ((zero : Fl (bin t)) <. zero)) = false := by
        show (decide ((1 : ℝ) < 0) || decide ((0 : ℝ) < 0)) = false
        norm_num
      rw [signBit_of (by norm_num), signBit_of hτ.le, h0]
      rfl)
    (binCfg_ok t N τ) (bin_stores t _) ⟨⟨0, den_zero, by rw [sub_self, abs_zero]; positivity⟩, fun _ => den_zero⟩ (bin_stores t _)
    le_rfl le_rfl (by norm_num) (binCfg_plain t N τ)
  exact ⟨t, N, τ, w, v, h1, h2, h3⟩

end Sglm
