import Verif.Proofs.Converge
import Verif.Proofs.Fits
import Verif.Props.Certificate

/-!
# C50: convergence

Exact arithmetic, convex penalties which are not identically zero.  The bounds on the number of iterations depend on the
problem and the accuracy only: they hold for all solver settings and all ways of breaking ties in the sort.
-/

namespace Sglm
open Scalar Spec
variable {n p T : ℕ}

/-- The epochs at which an inner loop may stop (the last one, and every tenth one) are not extrapolated.  With
`K = 5` and `max_epochs = 1000`, the default, this is the case. -/
def StopsPlain {F : Type} (cfg : Solver F) : Prop :=
  ∀ e < cfg.maxEpochs, (e + 1 = cfg.maxEpochs ∨ (0 < e ∧ e % 10 = 0)) →
    cfg.useAcceleration = false ∨ e % (cfg.K + 1) ≠ cfg.K

theorem StopsPlain.default {F : Type} {cfg : Solver F} (hK : cfg.K = 5) (he : cfg.maxEpochs = 1000) : StopsPlain cfg := by
  intro e h1 h2
  rw [hK]
  rw [he] at h1 h2
  omega

theorem StopsPlain.plainEnd {cfg : Solver XR} (h : StopsPlain cfg) : PlainEnd cfg cfg.maxEpochs 0 :=
  fun i _ h2 h3 => h i (by omega) (by rwa [Nat.zero_add] at h3)

theorem run_of_solve1 {srt : Argsort XR} (hs : ArgsortSpec srt) (hn : 0 < n) (D : Design n p) (y : Fin n → ℝ)
    (k : LossKind) (pen : Pen) (hv : pen.Valid) (cfg : Solver XR) {v : Fin p → ℝ}
    (h : solve1 srt cfg D y k pen = .ok (vec v)) : ∃ m, (prob1 D y k pen).run srt cfg = .ok (v, m) := by
  rw [solve1_eq hs hn D y k pen hv] at h
  cases hr : (prob1 D y k pen).run srt cfg with
  | error e => rw [hr] at h; cases h
  | ok q =>
    rw [hr] at h
    injection h with h
    exact ⟨q.2, by rw [← vec_injective h]⟩

/-- **The objective converges to its infimum**: for every accuracy `ε` there are a tolerance and a number of iterations such
that all results computed with at most this tolerance and at least this number of iterations are `ε`-optimal. -/
theorem C50_objective (hn : 0 < n) (D : Design n p) (hD : D.Canonical) (y : Fin n → ℝ) (k : LossKind)
    (hy : k.LabelsOK y) (pen : Pen) (hv : pen.Valid) (hc : pen.Convex) (hα : 0 < pen.fn 1) (ε : ℝ) (hε : 0 < ε) :
    ∃ τ₀ : ℝ, 0 < τ₀ ∧ ∃ N : ℕ, ∀ srt, ArgsortSpec srt → ∀ (cfg : Solver XR) (τ : ℝ), cfg.tolerance = XR.fin τ →
      τ ≤ τ₀ → 0 < cfg.wsStartSize → 0 < cfg.maxEpochs → N ≤ cfg.maxIterations →
      ∀ v : Fin p → ℝ, solve1 srt cfg D y k pen = .ok (vec v) →
        ∀ u, objective1 D y k pen v ≤ objective1 D y k pen u + ε := by
  obtain ⟨a, b, H⟩ := prob1_cvx hn D hD y k hy pen hv hc hα
  obtain ⟨τ₀, h1, N, h2⟩ := H.run_objective ε hε
  refine ⟨τ₀, h1, N, fun srt hs cfg τ ht hτ hw he hN v hr => ?_⟩
  obtain ⟨m, hm⟩ := run_of_solve1 hs hn D y k pen hv cfg hr
  exact h2 hs cfg τ ht hτ hw he hN v m hm

/-- **The solver stops**: for every tolerance `τ > 0` there is a bound on the number of iterations (printed by the verbose
run), and if `max_iterations` is at least this bound, the result is `τ`-stationary. -/
theorem C50_terminates (hn : 0 < n) (D : Design n p) (hD : D.Canonical) (y : Fin n → ℝ) (k : LossKind)
    (hy : k.LabelsOK y) (pen : Pen) (hv : pen.Valid) (hc : pen.Convex) (hα : 0 < pen.fn 1) (τ : ℝ) (hτ : 0 < τ) :
    ∃ N : ℕ, ∀ srt, ArgsortSpec srt → ∀ cfg : Solver XR, cfg.tolerance = XR.fin τ → 0 < cfg.wsStartSize →
      0 < cfg.maxEpochs → StopsPlain cfg → ∀ st log, trace1 srt (cfg.setVerbose true) D y k pen = .ok (st, log) →
        iterationsPrinted log ≤ N ∧ (N ≤ cfg.maxIterations →
          ∃ v : Fin p → ℝ, solve1 srt cfg D y k pen = .ok (vec v) ∧ ApproxStationary D y k (subdiff pen.fn) v τ) := by
  obtain ⟨a, b, H⟩ := prob1_cvx hn D hD y k hy pen hv hc hα
  have hm0 : (prob1 D y k pen).m0 = XR.ninf ∨ (prob1 D y k pen).m0 = XR.fin 0 := by
    cases pen <;> first | exact Or.inl rfl | exact Or.inr rfl
  obtain ⟨N, h2⟩ := H.run_terminates hm0 τ hτ
  refine ⟨N, fun srt hs cfg ht hw he hp st log hr => ?_⟩
  obtain ⟨v, m, h3, -, h4⟩ := trace1_run hs hn D y k pen hv _ st log hr
  have h3 : (prob1 D y k pen).run srt cfg = .ok (v, m) := h3
  obtain ⟨h5, h6⟩ := h2 hs cfg ht hw he hp.plainEnd v m h3
  rw [h4 rfl]
  refine ⟨h5, fun hN => ⟨v, by rw [solve1_eq hs hn D y k pen hv, h3]; rfl, fun j => ?_⟩⟩
  exact ⟨_, _, loss_partial hn D.matrix y k v j, scoreOf_dist pen hv hc _ _, h6 hN j⟩

/-- **All features in the working set**: if `ws_start_size` is at least the number of features, a sufficient number of epochs
makes the result of a single iteration `τ`-stationary. -/
theorem C50_one_iteration (hn : 0 < n) (D : Design n p) (hD : D.Canonical) (y : Fin n → ℝ) (k : LossKind)
    (hy : k.LabelsOK y) (pen : Pen) (hv : pen.Valid) (hc : pen.Convex) (hα : 0 < pen.fn 1) (τ : ℝ) (hτ : 0 < τ) :
    ∃ N : ℕ, ∀ srt, ArgsortSpec srt → ∀ cfg : Solver XR, cfg.tolerance = XR.fin τ → p ≤ cfg.wsStartSize →
      N ≤ cfg.maxEpochs → 0 < cfg.maxIterations → StopsPlain cfg →
      ∀ st log, trace1 srt (cfg.setVerbose true) D y k pen = .ok (st, log) →
        iterationsPrinted log ≤ 1 ∧
          ∃ v : Fin p → ℝ, solve1 srt cfg D y k pen = .ok (vec v) ∧ ApproxStationary D y k (subdiff pen.fn) v τ := by
  obtain ⟨a, b, H⟩ := prob1_cvx hn D hD y k hy pen hv hc hα
  have hm0 : (prob1 D y k pen).m0 = XR.ninf ∨ (prob1 D y k pen).m0 = XR.fin 0 := by
    cases pen <;> first | exact Or.inl rfl | exact Or.inr rfl
  obtain ⟨N, h2⟩ := H.run_full hm0 τ hτ
  refine ⟨N, fun srt hs cfg ht hw he hi hp st log hr => ?_⟩
  obtain ⟨v, m, h3, -, h4⟩ := trace1_run hs hn D y k pen hv _ st log hr
  have h3 : (prob1 D y k pen).run srt cfg = .ok (v, m) := h3
  obtain ⟨h5, h6⟩ := h2 hs cfg ht hw he hi (fun e h1 h2 => hp e h1 (Or.inr h2)) v m h3
  rw [h4 rfl]
  refine ⟨h5, v, by rw [solve1_eq hs hn D y k pen hv, h3]; rfl, fun j => ?_⟩
  exact ⟨_, _, loss_partial hn D.matrix y k v j, scoreOf_dist pen hv hc _ _, h6 j⟩

/-! ## Multi-task Lasso -/

theorem C50_objective_mt (hn : 0 < n) (D : Design n p) (hD : D.Canonical) (Y : Fin n → Fin T → ℝ) (α : ℝ)
    (hα : 0 < α) (ε : ℝ) (hε : 0 < ε) :
    ∃ τ₀ : ℝ, 0 < τ₀ ∧ ∃ N : ℕ, ∀ srt, ArgsortSpec srt → ∀ (cfg : Solver XR) (τ : ℝ), cfg.tolerance = XR.fin τ →
      τ ≤ τ₀ → 0 < cfg.wsStartSize → 0 < cfg.maxEpochs → N ≤ cfg.maxIterations →
      ∀ V : Fin p → Euc T, solveMT srt cfg D Y (.l21 α) = .ok (emat V) →
        ∀ U, objectiveMT D Y (.l21 α) V ≤ objectiveMT D Y (.l21 α) U + ε := by
  have H := probMT_cvx hn D hD Y α hα
  obtain ⟨τ₀, h1, N, h2⟩ := H.run_objective ε hε
  refine ⟨τ₀, h1, N, fun srt hs cfg τ ht hτ hw he hN v hr => ?_⟩
  rw [solveMT_eq hs hn D Y (.l21 α) hα] at hr
  cases hq : (probMT D Y (.l21 α)).run srt cfg with
  | error e => rw [hq] at hr; cases hr
  | ok q =>
    rw [hq] at hr
    injection hr with hr
    have hr := emat_injective hr
    subst hr
    exact h2 hs cfg τ ht hτ hw he hN q.1 q.2 hq

theorem C50_terminates_mt (hn : 0 < n) (D : Design n p) (hD : D.Canonical) (Y : Fin n → Fin T → ℝ) (α : ℝ)
    (hα : 0 < α) (τ : ℝ) (hτ : 0 < τ) :
    ∃ N : ℕ, ∀ srt, ArgsortSpec srt → ∀ cfg : Solver XR, cfg.tolerance = XR.fin τ → 0 < cfg.wsStartSize →
      0 < cfg.maxEpochs → StopsPlain cfg →
      ∀ st log, traceMT srt (cfg.setVerbose true) D Y (.l21 α) = .ok (st, log) →
        iterationsPrinted log ≤ N ∧ (N ≤ cfg.maxIterations →
          ∃ V : Fin p → Euc T, solveMT srt cfg D Y (.l21 α) = .ok (emat V) ∧
            ApproxStationaryMT D Y (subdiff fun z => α * ‖z‖) V τ) := by
  have H := probMT_cvx hn D hD Y α hα
  obtain ⟨N, h2⟩ := H.run_terminates (Or.inl rfl) τ hτ
  refine ⟨N, fun srt hs cfg ht hw he hp st log hr => ?_⟩
  obtain ⟨V, m, h3, -, h4⟩ := traceMT_run hs hn D Y (.l21 α) hα _ st log hr
  have h3 : (probMT D Y (.l21 α)).run srt cfg = .ok (V, m) := h3
  obtain ⟨h5, h6⟩ := h2 hs cfg ht hw he hp.plainEnd V m h3
  rw [h4 rfl]
  refine ⟨h5, fun hN => ⟨V, by rw [solveMT_eq hs hn D Y (.l21 α) hα, h3]; rfl, fun j => ?_⟩⟩
  exact ⟨_, _, fun t => mt_partial hn D.matrix Y (fun j => (V j).ofLp) j t, l21Score_dist hα.le _ _, h6 hN j⟩

/-! ## Estimators -/

/-- `Lasso::fit` reaches any accuracy (without acceleration, or with at least `K` features and `ws_start_size ≥ K`, see C26). -/
theorem C50_lasso_fit (hn : 0 < n) (D : Design n p) (hD : D.Canonical) (y : Fin n → ℝ) (α : ℝ) (hα : 0 < α) (ε : ℝ)
    (hε : 0 < ε) :
    ∃ τ₀ : ℝ, 0 < τ₀ ∧ ∃ N : ℕ, ∀ srt, ArgsortSpec srt → ∀ (ps : LassoParams XR) (τ : ℝ), ps.alpha = XR.fin α →
      ps.tolerance = XR.fin τ → 0 ≤ τ → τ ≤ τ₀ → 0 < ps.K → 0 < ps.wsStartSize → 0 < ps.maxEpochs →
      N ≤ ps.maxIterations → (ps.useAcceleration = true → ps.K ≤ ps.wsStartSize ∧ ps.K ≤ p) →
      ∃ v : Fin p → ℝ, fitLasso srt ps D y = .ok (.ok (vec v)) ∧
        ∀ u, objective1 D y .quadratic (.l1 α) v ≤ objective1 D y .quadratic (.l1 α) u + ε := by
  obtain ⟨τ₀, h1, N, h2⟩ := C50_objective hn D hD y .quadratic trivial (.l1 α) hα.le trivial
    (by show 0 < α * |(1 : ℝ)|; rw [abs_one, mul_one]; exact hα) ε hε
  refine ⟨τ₀, h1, N, fun srt hs ps τ ha ht hτ0 hτ hK hw he hN hacc => ?_⟩
  obtain ⟨v, m, h⟩ := (prob1 D y .quadratic (.l1 α)).run_ok hs ps.solver (fun hu => by
    obtain ⟨h3, h4⟩ := hacc hu
    exact ⟨hK, by show ps.K ≤ ps.wsStartSize * 1; omega, by show ps.K ≤ p * 1; omega⟩)
  have hsol : solve1 srt ps.solver D y .quadratic (.l1 α) = .ok (vec v) := by
    rw [solve1_eq hs hn D y .quadratic (.l1 α) hα.le, h]; rfl
  refine ⟨v, ?_, h2 srt hs ps.solver τ ht hτ hw he hN v hsol⟩
  rw [fitLasso_eq srt ps α ha, checkRef_ok ps ha hα.le ht hτ0 hK hw, guarded_ok, hsol]
  rfl

/-! ## Examples -/

-- the default settings
example : StopsPlain ⟨10, 50, 1000, XR.fin (1 / 1000000), 5, true, true⟩ := StopsPlain.default rfl rfl

/-- Two correlated features, two samples. -/
noncomputable def cvD : Design 2 2 := .dense ![![1, 2], ![3, 1]]

-- the objective of the Lasso gets within `1/1000` of the minimum
example : ∃ τ₀ : ℝ, 0 < τ₀ ∧ ∃ N : ℕ, ∀ v : Fin 2 → ℝ,
    solve1 argsortIns ⟨10, N, 1000, XR.fin τ₀, 5, false, true⟩ cvD ![1, -2] .quadratic (.l1 (1 / 10)) = .ok (vec v) →
    ∀ u, objective1 cvD ![1, -2] .quadratic (.l1 (1 / 10)) v ≤
      objective1 cvD ![1, -2] .quadratic (.l1 (1 / 10)) u + 1 / 1000 := by
  obtain ⟨τ₀, h1, N, h2⟩ := C50_objective two_pos cvD trivial ![1, -2] .quadratic trivial (.l1 (1 / 10)) (by norm_num [Pen.Valid])
    trivial (by norm_num [Pen.fn]) (1 / 1000) (by norm_num)
  exact ⟨τ₀, h1, N, fun v hv => h2 _ argsortIns_spec _ τ₀ rfl le_rfl (by norm_num) (by norm_num) le_rfl v hv⟩

-- logistic regression stops
example : ∃ N : ℕ, ∀ st log,
    trace1 argsortIns ⟨10, N, 1000, XR.fin (1 / 100), 5, false, true⟩ cvD ![1, -1] .logistic (.enet (1 / 10) (1 / 2)) =
      .ok (st, log) →
    ∃ v : Fin 2 → ℝ, solve1 argsortIns ⟨10, N, 1000, XR.fin (1 / 100), 5, false, true⟩ cvD ![1, -1] .logistic
      (.enet (1 / 10) (1 / 2)) = .ok (vec v) ∧
      ApproxStationary cvD ![1, -1] .logistic (subdiff (Pen.enet (1 / 10) (1 / 2)).fn) v (1 / 100) := by
  obtain ⟨N, h⟩ := C50_terminates two_pos cvD trivial ![1, -1] .logistic (by intro i; fin_cases i <;> simp)
    (.enet (1 / 10) (1 / 2)) ⟨by norm_num, by norm_num, by norm_num⟩ trivial (by norm_num [Pen.fn, enet]) (1 / 100) (by norm_num)
  exact ⟨N, fun st log ht => (h _ argsortIns_spec ⟨10, N, 1000, XR.fin (1 / 100), 5, false, true⟩ rfl (by norm_num) (by norm_num)
    (fun _ _ _ => Or.inl rfl) st log ht).2 le_rfl⟩

-- one iteration, many epochs
example : ∃ N : ℕ, ∀ st log,
    trace1 argsortIns ⟨10, 1, N, XR.fin (1 / 100), 5, false, true⟩ cvD ![1, -2] .quadratic (.l1 (1 / 10)) = .ok (st, log) →
    ∃ v : Fin 2 → ℝ,
      solve1 argsortIns ⟨10, 1, N, XR.fin (1 / 100), 5, false, true⟩ cvD ![1, -2] .quadratic (.l1 (1 / 10)) = .ok (vec v) ∧
      ApproxStationary cvD ![1, -2] .quadratic (subdiff (Pen.l1 (1 / 10)).fn) v (1 / 100) := by
  obtain ⟨N, h⟩ := C50_one_iteration two_pos cvD trivial ![1, -2] .quadratic trivial (.l1 (1 / 10)) (by norm_num [Pen.Valid])
    trivial (by norm_num [Pen.fn]) (1 / 100) (by norm_num)
  exact ⟨N, fun st log ht => (h _ argsortIns_spec ⟨10, 1, N, XR.fin (1 / 100), 5, false, true⟩ rfl (by norm_num) le_rfl
    one_pos (fun _ _ _ => Or.inl rfl) st log ht).2⟩

-- multi-task Lasso
example : ∃ N : ℕ, ∀ st log,
    traceMT argsortIns ⟨10, N, 1000, XR.fin (1 / 100), 5, false, true⟩ cvD ![![1, 2], ![0, -1]] (.l21 (1 / 10)) = .ok (st, log) →
    ∃ V : Fin 2 → Euc 2, solveMT argsortIns ⟨10, N, 1000, XR.fin (1 / 100), 5, false, true⟩ cvD ![![1, 2], ![0, -1]]
      (.l21 (1 / 10)) = .ok (emat V) ∧
      ApproxStationaryMT cvD ![![1, 2], ![0, -1]] (subdiff fun z => 1 / 10 * ‖z‖) V (1 / 100) := by
  obtain ⟨N, h⟩ := C50_terminates_mt two_pos cvD trivial ![![1, 2], ![0, -1]] (1 / 10) (by norm_num) (1 / 100) (by norm_num)
  exact ⟨N, fun st log ht => (h _ argsortIns_spec ⟨10, N, 1000, XR.fin (1 / 100), 5, false, true⟩ rfl (by norm_num) (by norm_num)
    (fun _ _ _ => Or.inl rfl) st log ht).2 le_rfl⟩

example : ∃ τ₀ : ℝ, 0 < τ₀ ∧ ∃ N : ℕ, ∀ V : Fin 2 → Euc 2,
    solveMT argsortIns ⟨10, N, 1000, XR.fin τ₀, 5, false, true⟩ cvD ![![1, 2], ![0, -1]] (.l21 (1 / 10)) = .ok (emat V) →
    ∀ U, objectiveMT cvD ![![1, 2], ![0, -1]] (.l21 (1 / 10)) V ≤
      objectiveMT cvD ![![1, 2], ![0, -1]] (.l21 (1 / 10)) U + 1 / 1000 := by
  obtain ⟨τ₀, h1, N, h2⟩ := C50_objective_mt two_pos cvD trivial ![![1, 2], ![0, -1]] (1 / 10) (by norm_num) (1 / 1000)
    (by norm_num)
  exact ⟨τ₀, h1, N, fun V hV => h2 _ argsortIns_spec _ τ₀ rfl le_rfl (by norm_num) (by norm_num) le_rfl V hV⟩

-- the estimator
example : ∃ τ₀ : ℝ, ∃ N : ℕ, ∃ v : Fin 2 → ℝ,
    fitLasso argsortIns ⟨XR.fin (1 / 10), N, 1000, 10, XR.fin τ₀, 2, true, true⟩ cvD ![1, -2] = .ok (.ok (vec v)) ∧
    ∀ u, objective1 cvD ![1, -2] .quadratic (.l1 (1 / 10)) v ≤
      objective1 cvD ![1, -2] .quadratic (.l1 (1 / 10)) u + 1 / 1000 := by
  obtain ⟨τ₀, h1, N, h2⟩ := C50_lasso_fit two_pos cvD trivial ![1, -2] (1 / 10) (by norm_num) (1 / 1000) (by norm_num)
  exact ⟨τ₀, N, h2 _ argsortIns_spec ⟨XR.fin (1 / 10), N, 1000, 10, XR.fin τ₀, 2, true, true⟩ τ₀ rfl rfl h1.le le_rfl
    (by norm_num) (by norm_num) (by norm_num) le_rfl (fun _ => ⟨by norm_num, by norm_num⟩)⟩

end Sglm
