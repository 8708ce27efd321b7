import Verif.Proofs.Strong
import Verif.Props.Rounding

/-!
# C65: accuracy of the coefficients

If the objective is strongly convex (elastic net with `l1_ratio < 1`, or least squares with linearly independent columns) there
is one best vector of coefficients, and the returned coefficients are close to it.
-/

namespace Sglm
open Scalar Spec
variable {n p T : ℕ}

theorem sum_norm_sq (v w : Fin p → ℝ) : ∑ j, ‖v j - w j‖ ^ 2 = ∑ j, (v j - w j) ^ 2 :=
  Finset.sum_congr rfl fun j _ => by rw [Real.norm_eq_abs, sq_abs]

/-- Without assumptions on the design, the curvature of the loss is at least zero: this suffices for the elastic net. -/
theorem curvature_zero (D : Design n p) (k : LossKind) : Curvature D k 0 := by
  cases k with
  | quadratic =>
    intro d
    rw [zero_mul]; exact div_nonneg (Finset.sum_nonneg fun _ _ => sq_nonneg _) (by positivity)
  | logistic => rfl

/-- There is exactly one minimiser. -/
theorem C65_unique (hn : 0 < n) (D : Design n p) (y : Fin n → ℝ) (k : LossKind) (pen : Pen) (hv : pen.Valid) (hc : pen.Convex)
    (c : ℝ) (hcurv : Curvature D k c) (hμ : 0 < c + pen.modulus) :
    ∃! w : Fin p → ℝ, ∀ u, objective1 D y k pen w ≤ objective1 D y k pen u :=
  (strong1 hn D y k pen hv hc hcurv).exists_min hμ (objective1_continuous D y k pen hc) (objective1_nonneg D y k pen hv hc)

/-- **Accuracy**: the coefficients of a run which stops before `max_iterations` have Euclidean distance at most
`√p · tol / μ` to the minimiser. -/
theorem C65_accuracy {srt : Argsort XR} (hs : ArgsortSpec srt) (hn : 0 < n) (D : Design n p) (y : Fin n → ℝ)
    (k : LossKind) (pen : Pen) (hv : pen.Valid) (hc : pen.Convex) (c : ℝ) (hcurv : Curvature D k c) (hμ : 0 < c + pen.modulus)
    (w : Fin p → ℝ) (hw : ∀ u, objective1 D y k pen w ≤ objective1 D y k pen u) (cfg : Solver XR) (τ : ℝ)
    (ht : cfg.tolerance = XR.fin τ) (st : CDState XR) (log : List (Event XR))
    (h : trace1 srt (cfg.setVerbose true) D y k pen = .ok (st, log)) (hit : iterationsPrinted log < cfg.maxIterations) :
    ∃ v : Fin p → ℝ, solve1 srt cfg D y k pen = .ok (vec v) ∧ ∑ j, (v j - w j) ^ 2 ≤ p * (τ / (c + pen.modulus)) ^ 2 := by
  obtain ⟨v, h1, -, h2⟩ := C30_certificate hs hn D y k pen hv hc cfg τ ht st log h hit
  refine ⟨v, h1, ?_⟩
  have := (strong1 hn D y k pen hv hc hcurv).near (τ := τ) (σ := 0) hμ h2 (fun u => by rw [zero_mul]; linarith [hw u])
  rwa [add_zero, sum_norm_sq] at this

/-- **The settings do not matter**: two runs which stop before `max_iterations`, with whatever settings (working sets, acceleration,
numbers of iterations and epochs), ways to break ties and storage formats, return almost the same coefficients. -/
theorem C65_settings {srt srt' : Argsort XR} (hs : ArgsortSpec srt) (hs' : ArgsortSpec srt') (hn : 0 < n) (D D' : Design n p)
    (hD : D'.matrix = D.matrix) (y : Fin n → ℝ) (k : LossKind) (pen : Pen) (hv : pen.Valid) (hc : pen.Convex) (c : ℝ)
    (hcurv : Curvature D k c) (hμ : 0 < c + pen.modulus) (cfg cfg' : Solver XR) (τ τ' : ℝ)
    (ht : cfg.tolerance = XR.fin τ) (ht' : cfg'.tolerance = XR.fin τ') (st st' : CDState XR) (log log' : List (Event XR))
    (h : trace1 srt (cfg.setVerbose true) D y k pen = .ok (st, log)) (hit : iterationsPrinted log < cfg.maxIterations)
    (h' : trace1 srt' (cfg'.setVerbose true) D' y k pen = .ok (st', log')) (hit' : iterationsPrinted log' < cfg'.maxIterations) :
    ∃ v v' : Fin p → ℝ, solve1 srt cfg D y k pen = .ok (vec v) ∧ solve1 srt' cfg' D' y k pen = .ok (vec v') ∧
      ∑ j, (v j - v' j) ^ 2 ≤ p * ((τ + τ') / (c + pen.modulus)) ^ 2 := by
  obtain ⟨v, h1, -, h2⟩ := C30_certificate hs hn D y k pen hv hc cfg τ ht st log h hit
  obtain ⟨v', h1', -, h2'⟩ := C30_certificate hs' hn D' y k pen hv hc cfg' τ' ht' st' log' h' hit'
  refine ⟨v, v', h1, h1', ?_⟩
  have e : objective1 D' y k pen = objective1 D y k pen := by funext u; unfold objective1; rw [hD]
  rw [e] at h2'
  have := (strong1 hn D y k pen hv hc hcurv).near hμ h2 h2'
  rwa [sum_norm_sq] at this

/-- **The coefficients converge**: every accuracy `δ` is reached for a small tolerance and many iterations. -/
theorem C65_converges (hn : 0 < n) (D : Design n p) (hD : D.Canonical) (y : Fin n → ℝ) (k : LossKind)
    (hy : k.LabelsOK y) (pen : Pen) (hv : pen.Valid) (hc : pen.Convex) (hα : 0 < pen.fn 1) (c : ℝ) (hcurv : Curvature D k c)
    (hμ : 0 < c + pen.modulus) (w : Fin p → ℝ) (hw : ∀ u, objective1 D y k pen w ≤ objective1 D y k pen u) (δ : ℝ) (hδ : 0 < δ) :
    ∃ τ₀ : ℝ, 0 < τ₀ ∧ ∃ N : ℕ, ∀ srt, ArgsortSpec srt → ∀ (cfg : Solver XR) (τ : ℝ), cfg.tolerance = XR.fin τ →
      τ ≤ τ₀ → 0 < cfg.wsStartSize → 0 < cfg.maxEpochs → N ≤ cfg.maxIterations →
      ∀ v : Fin p → ℝ, solve1 srt cfg D y k pen = .ok (vec v) → ∑ j, (v j - w j) ^ 2 ≤ δ ^ 2 := by
  obtain ⟨τ₀, h1, N, h2⟩ := C50_objective hn D hD y k hy pen hv hc hα ((c + pen.modulus) * δ ^ 2 / 2) (by positivity)
  refine ⟨τ₀, h1, N, fun srt hs cfg τ ht hτ hws he hN v hr => ?_⟩
  have := (strong1 hn D y k pen hv hc hcurv).near_min hμ hw (h2 srt hs cfg τ ht hτ hws he hN v hr w)
  rw [sum_norm_sq] at this
  refine this.trans (le_of_eq ?_)
  field_simp

/-- Multi-task Lasso with linearly independent columns: there is exactly one minimiser. -/
theorem C65_unique_mt (D : Design n p) (Y : Fin n → Fin T → ℝ) (α : ℝ) (hα : 0 < α) (c : ℝ)
    (hcurv : Curvature D .quadratic c) (hμ : 0 < c) :
    ∃! W : Fin p → Euc T, ∀ U, objectiveMT D Y (.l21 α) W ≤ objectiveMT D Y (.l21 α) U :=
  (strongMT D Y hα.le hcurv).exists_min hμ (objectiveMT_continuous D Y α) (objectiveMT_nonneg D Y hα.le)

/-- **Multi-task Lasso**: accuracy of the coefficients. -/
theorem C65_accuracy_mt {srt : Argsort XR} (hs : ArgsortSpec srt) (hn : 0 < n) (D : Design n p)
    (Y : Fin n → Fin T → ℝ) (α : ℝ) (hα : 0 < α) (c : ℝ) (hcurv : Curvature D .quadratic c) (hμ : 0 < c)
    (W : Fin p → Euc T) (hW : ∀ U, objectiveMT D Y (.l21 α) W ≤ objectiveMT D Y (.l21 α) U) (cfg : Solver XR) (τ : ℝ)
    (ht : cfg.tolerance = XR.fin τ) (st : BCDState XR) (log : List (Event XR))
    (h : traceMT srt (cfg.setVerbose true) D Y (.l21 α) = .ok (st, log)) (hit : iterationsPrinted log < cfg.maxIterations) :
    ∃ V : Fin p → Euc T, solveMT srt cfg D Y (.l21 α) = .ok (emat V) ∧ ∑ j, ‖V j - W j‖ ^ 2 ≤ p * (τ / c) ^ 2 := by
  obtain ⟨V, h1, -, h2⟩ := C30_certificate_mt hs hn D Y α hα cfg τ ht st log h hit
  have := (strongMT D Y hα.le hcurv).near (τ := τ) (σ := 0) hμ h2 (fun u => by rw [zero_mul]; linarith [hW u])
  rw [add_zero] at this
  exact ⟨V, h1, this⟩

/-- **Multi-task Lasso**: the coefficients converge. -/
theorem C65_converges_mt (hn : 0 < n) (D : Design n p) (hD : D.Canonical) (Y : Fin n → Fin T → ℝ) (α : ℝ) (hα : 0 < α) (c : ℝ)
    (hcurv : Curvature D .quadratic c) (hμ : 0 < c) (W : Fin p → Euc T)
    (hW : ∀ U, objectiveMT D Y (.l21 α) W ≤ objectiveMT D Y (.l21 α) U) (δ : ℝ) (hδ : 0 < δ) :
    ∃ τ₀ : ℝ, 0 < τ₀ ∧ ∃ N : ℕ, ∀ srt, ArgsortSpec srt → ∀ (cfg : Solver XR) (τ : ℝ), cfg.tolerance = XR.fin τ →
      τ ≤ τ₀ → 0 < cfg.wsStartSize → 0 < cfg.maxEpochs → N ≤ cfg.maxIterations →
      ∀ V : Fin p → Euc T, solveMT srt cfg D Y (.l21 α) = .ok (emat V) → ∑ j, ‖V j - W j‖ ^ 2 ≤ δ ^ 2 := by
  obtain ⟨τ₀, h1, N, h2⟩ := C50_objective_mt hn D hD Y α hα (c * δ ^ 2 / 2) (by positivity)
  refine ⟨τ₀, h1, N, fun srt hs cfg τ ht hτ hws he hN V hr => ?_⟩
  have := (strongMT D Y hα.le hcurv).near_min hμ hW (h2 srt hs cfg τ ht hτ hws he hN V hr W)
  refine this.trans (le_of_eq ?_)
  field_simp

/-- **Accuracy in floating point**: with sufficient precision the run stops, and the distance of the computed coefficients to the
minimiser of the exact problem is at most `√p (tol + ε) / μ`. -/
theorem C65_float (hn : 0 < n) (hp : 0 < p) (D : Design n p) (hD : D.Canonical) (y : Fin n → ℝ) (k : LossKind) (hy : k.LabelsOK y)
    (pen : Pen) (hv : pen.Valid) (hc : pen.Convex) (hα : 0 < pen.fn 1) (c : ℝ) (hcurv : Curvature D k c)
    (hμ : 0 < c + pen.modulus) (w : Fin p → ℝ) (hw : ∀ u, objective1 D y k pen w ≤ objective1 D y k pen u) (τ : ℝ) (hτ : 0 < τ) :
    ∃ N : ℕ, ∀ (E : ℕ) (ε : ℝ), 0 < ε → ∃ e₀ : ℝ, 0 < e₀ ∧ ∀ (F : Type) [Scalar F] [LawfulCmp F] (e : ℝ), FloatLaws k F e → e ≤ e₀ →
      ∀ (x : D.Entries F) (y' : Fin n → F) (pen' : PenOf F), D.StoredAs e x → (∀ i, Stores e (y' i) (y i)) → pen'.Stored e pen →
      ∀ srt : Argsort F, ArgsortSpec srt → ∀ cfg : Solver F, SettingsOK cfg p → Stores e cfg.tolerance τ →
      N ≤ cfg.maxIterations → cfg.maxEpochs ≤ E → 0 < cfg.maxEpochs → StopsPlain cfg →
      ∃ v m, RunsTo srt cfg D x y' k pen' v m ∧ m ≤ N ∧ ∑ j, (v j - w j) ^ 2 ≤ p * ((τ + ε) / (c + pen.modulus)) ^ 2 := by
  obtain ⟨N, h⟩ := C63_terminates hn hp D hD y k hy pen hv hc hα τ hτ
  refine ⟨N, fun E ε hε => ?_⟩
  obtain ⟨e₀, he₀, h⟩ := h E ε hε
  refine ⟨e₀, he₀, fun F _ _ e hl hee x y' pen' hx hy' hpn srt hs cfg hcfg ht hN hE hE1 hpl => ?_⟩
  obtain ⟨v, m, h1, h2, -, -, h3⟩ := h F e hl hee x y' pen' hx hy' hpn srt hs cfg hcfg ht hN hE hE1 hpl
  refine ⟨v, m, h1, h2, ?_⟩
  have := (strong1 hn D y k pen hv hc hcurv).near (τ := τ + ε) (σ := 0) hμ h3 (fun u => by rw [zero_mul]; linarith [hw u])
  rwa [add_zero, sum_norm_sq] at this

/-- `ElasticNet::fit` with `l1_ratio < 1`, in floating point: the coefficients get arbitrarily close to the minimiser. -/
theorem C65_elastic_net_fit (hn : 0 < n) (hp : 0 < p) (D : Design n p) (hD : D.Canonical) (y : Fin n → ℝ) (α ρ : ℝ) (hα : 0 < α)
    (hρ0 : 0 ≤ ρ) (hρ1 : ρ < 1) (u : Fin p → ℝ)
    (hu : ∀ u', objective1 D y .quadratic (.enet α ρ) u ≤ objective1 D y .quadratic (.enet α ρ) u') (δ : ℝ) (hδ : 0 < δ) :
    ∃ τ₀ : ℝ, 0 < τ₀ ∧ ∀ τ, 0 < τ → τ ≤ τ₀ → ∃ N : ℕ, ∀ E : ℕ, ∃ e₀ : ℝ, 0 < e₀ ∧
      ∀ (F : Type) [Scalar F] [LawfulCmp F] (e : ℝ), FloatLaws .quadratic F e → e ≤ e₀ →
      ∀ (x : D.Entries F) (y' : Fin n → F), D.StoredAs e x → (∀ i, Stores e (y' i) (y i)) →
      ∀ srt : Argsort F, ArgsortSpec srt → ∀ ps : ElasticNetParams F, ps.checkRef = .ok ps → SettingsOK ps.solver p →
      Stores e ps.alpha α → Stores e ps.l1Ratio ρ → Stores e ps.tolerance τ → N ≤ ps.maxIterations → ps.maxEpochs ≤ E →
      0 < ps.maxEpochs → StopsPlain ps.solver →
      ∃ (w : Fin p → F) (v : Fin p → ℝ), (∀ j, Den (w j) (v j)) ∧ fitElasticNetOf srt ps D x y' = .ok (.ok (List.ofFn w)) ∧
        ∑ j, (v j - u j) ^ 2 ≤ δ ^ 2 := by
  have hv : (Pen.enet α ρ).Valid := ⟨hα.le, hρ0, hρ1.le⟩
  have hm : 0 < 0 + (Pen.enet α ρ).modulus := by
    show 0 < 0 + α * (1 - ρ)
    rw [zero_add]; exact mul_pos hα (by linarith)
  have hsc := strong1 hn D y .quadratic (.enet α ρ) hv trivial (curvature_zero D .quadratic)
  obtain ⟨τ₀, h1, h2⟩ := C63_elastic_net_fit hn hp D hD y α ρ hα hρ0 hρ1.le ((0 + (Pen.enet α ρ).modulus) * δ ^ 2 / 2) (by positivity)
  refine ⟨τ₀, h1, fun τ ht1 ht2 => ?_⟩
  obtain ⟨N, h2⟩ := h2 τ ht1 ht2
  refine ⟨N, fun E => ?_⟩
  obtain ⟨e₀, he₀, h⟩ := h2 E
  refine ⟨e₀, he₀, fun F _ _ e hl hee x y' hx hy' srt hs ps hok hcfg ha hr ht hN hE hE1 hpl => ?_⟩
  obtain ⟨w, v, h3, h4, h5⟩ := h F e hl hee x y' hx hy' srt hs ps hok hcfg ha hr ht hN hE hE1 hpl
  refine ⟨w, v, h3, h4, ?_⟩
  have := hsc.near_min hm hu (h5 u)
  rw [sum_norm_sq] at this
  refine this.trans (le_of_eq ?_)
  field_simp

/-! ## Examples -/

/-- The two columns of `cvD` are linearly independent. -/
theorem cvD_curvature : Curvature cvD .quadratic (1 / 2) := by
  intro d
  have e : ∀ i, fit cvD.matrix d i = ![![1, 2], ![3, 1]] i 0 * d 0 + ![![1, 2], ![3, 1]] i 1 * d 1 := fun i => by
    show ∑ j : Fin 2, _ = _
    rw [Fin.sum_univ_two]; rfl
  rw [Fin.sum_univ_two, Fin.sum_univ_two, e, e]
  norm_num
  nlinarith [sq_nonneg (9 * d 0 + 5 * d 1), sq_nonneg (d 1)]

theorem oneD_curvature : Curvature oneD .quadratic 1 := by
  intro d
  show 1 * ∑ j : Fin 1, d j ^ 2 ≤ (∑ i : Fin 1, (∑ j : Fin 1, (1 : ℝ) * d j) ^ 2) / ((1 : ℕ) : ℝ)
  simp

-- the Lasso with two correlated features has one solution
example : ∃! w : Fin 2 → ℝ, ∀ u, objective1 cvD ![1, -2] .quadratic (.l1 (1 / 10)) w ≤ objective1 cvD ![1, -2] .quadratic (.l1 (1 / 10)) u :=
  C65_unique two_pos cvD _ _ _ (by norm_num [Pen.Valid]) trivial _ cvD_curvature (by norm_num [Pen.modulus])

-- logistic regression with an elastic net penalty
example : ∃! w : Fin 2 → ℝ, ∀ u, objective1 cvD ![1, -1] .logistic (.enet (1 / 10) (1 / 2)) w ≤
    objective1 cvD ![1, -1] .logistic (.enet (1 / 10) (1 / 2)) u :=
  C65_unique two_pos cvD _ _ _ ⟨by norm_num, by norm_num, by norm_num⟩ trivial 0 (curvature_zero _ _) (by norm_num [Pen.modulus])

-- the run on `x = 1`, `y = 3` stops with tolerance 0, hence at the minimiser
example (w : Fin 1 → ℝ) (hw : ∀ u, objective1 oneD (fun _ => 3) .quadratic (.l1 1) w ≤ objective1 oneD (fun _ => 3) .quadratic (.l1 1) u) :
    ∃ v : Fin 1 → ℝ, solve1 argsortIns oneCfg oneD (fun _ => 3) .quadratic (.l1 1) = .ok (vec v) ∧ ∑ j, (v j - w j) ^ 2 ≤ 0 := by
  obtain ⟨st, log, h1, h2⟩ := oneD_trace 3 2 (.l1 1) zero_le_one rfl (by norm_num [proxOf, softR])
    (by norm_num [scoreOf, l1Score]) (by norm_num [scoreOf, l1Score])
  obtain ⟨v, h3, h4⟩ := C65_accuracy argsortIns_spec one_pos oneD _ .quadratic (.l1 1) zero_le_one trivial 1 oneD_curvature
    (by norm_num [Pen.modulus]) w hw oneCfg 0 rfl st log h1 (by rw [h2]; decide)
  exact ⟨v, h3, h4.trans (by norm_num)⟩

-- two sets of settings for the elastic net
example : ∃ N, ∀ st log st' log',
    trace1 argsortIns ⟨10, N + 1, 1000, XR.fin (1 / 100), 5, false, true⟩ cvD ![1, -2] .quadratic (.enet (1 / 10) (1 / 2)) = .ok (st, log) →
    trace1 argsortIns ⟨1, N + 1, 10, XR.fin (1 / 100), 2, true, true⟩ cvD ![1, -2] .quadratic (.enet (1 / 10) (1 / 2)) = .ok (st', log') →
    ∃ v v' : Fin 2 → ℝ, solve1 argsortIns ⟨10, N + 1, 1000, XR.fin (1 / 100), 5, false, true⟩ cvD ![1, -2] .quadratic
        (.enet (1 / 10) (1 / 2)) = .ok (vec v) ∧
      solve1 argsortIns ⟨1, N + 1, 10, XR.fin (1 / 100), 2, true, true⟩ cvD ![1, -2] .quadratic (.enet (1 / 10) (1 / 2)) = .ok (vec v') ∧
      ∑ j, (v j - v' j) ^ 2 ≤ 1 / 100 := by
  obtain ⟨N, h⟩ := C50_terminates two_pos cvD trivial ![1, -2] .quadratic trivial (.enet (1 / 10) (1 / 2))
    ⟨by norm_num, by norm_num, by norm_num⟩ trivial (by norm_num [Pen.fn, enet]) (1 / 100) (by norm_num)
  refine ⟨N, fun st log st' log' h1 h2 => ?_⟩
  have h3 := (h _ argsortIns_spec ⟨10, N + 1, 1000, XR.fin (1 / 100), 5, false, true⟩ rfl (by norm_num) (by norm_num)
    (fun _ _ _ => Or.inl rfl) st log h1).1
  have h4 := (h _ argsortIns_spec ⟨1, N + 1, 10, XR.fin (1 / 100), 2, true, true⟩ rfl (by norm_num) (by norm_num)
    (fun e h5 h6 => Or.inr (by
      change e < 10 at h5
      change e + 1 = 10 ∨ _ at h6
      show e % 3 ≠ 2
      omega)) st' log' h2).1
  obtain ⟨v, v', h5, h6, h7⟩ := C65_settings argsortIns_spec argsortIns_spec two_pos cvD cvD rfl ![1, -2] .quadratic
    (.enet (1 / 10) (1 / 2)) ⟨by norm_num, by norm_num, by norm_num⟩ trivial (1 / 2) cvD_curvature (by norm_num [Pen.modulus])
    ⟨10, N + 1, 1000, XR.fin (1 / 100), 5, false, true⟩ ⟨1, N + 1, 10, XR.fin (1 / 100), 2, true, true⟩ (1 / 100) (1 / 100) rfl rfl
    st st' log log' h1 (Nat.lt_succ_of_le h3) h2 (Nat.lt_succ_of_le h4)
  exact ⟨v, v', h5, h6, h7.trans (by norm_num [Pen.modulus])⟩

-- the multi-task Lasso has one solution
example : ∃! W : Fin 2 → Euc 2, ∀ U, objectiveMT cvD ![![1, 2], ![0, -1]] (.l21 (1 / 10)) W ≤
    objectiveMT cvD ![![1, 2], ![0, -1]] (.l21 (1 / 10)) U :=
  C65_unique_mt cvD _ _ (by norm_num) _ cvD_curvature (by norm_num)

-- every accuracy is reached
example (W : Fin 2 → Euc 2) (hW : ∀ U, objectiveMT cvD ![![1, 2], ![0, -1]] (.l21 (1 / 10)) W ≤
    objectiveMT cvD ![![1, 2], ![0, -1]] (.l21 (1 / 10)) U) : ∃ τ₀ : ℝ, 0 < τ₀ ∧ ∃ N : ℕ, ∀ V : Fin 2 → Euc 2,
    solveMT argsortIns ⟨10, N, 1000, XR.fin τ₀, 5, false, true⟩ cvD ![![1, 2], ![0, -1]] (.l21 (1 / 10)) = .ok (emat V) →
    ∑ j, ‖V j - W j‖ ^ 2 ≤ (1 / 1000) ^ 2 := by
  obtain ⟨τ₀, h1, N, h2⟩ := C65_converges_mt two_pos cvD trivial ![![1, 2], ![0, -1]] (1 / 10) (by norm_num) _ cvD_curvature
    (by norm_num) W hW (1 / 1000) (by norm_num)
  exact ⟨τ₀, h1, N, fun V hV => h2 _ argsortIns_spec _ τ₀ rfl le_rfl (by norm_num) (by norm_num) le_rfl V hV⟩

example (w : Fin 2 → ℝ) (hw : ∀ u, objective1 cvD ![1, -2] .quadratic (.l1 (1 / 10)) w ≤ objective1 cvD ![1, -2] .quadratic (.l1 (1 / 10)) u) :
    ∃ τ₀ : ℝ, 0 < τ₀ ∧ ∃ N : ℕ, ∀ v : Fin 2 → ℝ,
    solve1 argsortIns ⟨10, N, 1000, XR.fin τ₀, 5, false, true⟩ cvD ![1, -2] .quadratic (.l1 (1 / 10)) = .ok (vec v) →
    ∑ j, (v j - w j) ^ 2 ≤ (1 / 1000) ^ 2 := by
  obtain ⟨τ₀, h1, N, h2⟩ := C65_converges two_pos cvD trivial ![1, -2] .quadratic trivial (.l1 (1 / 10)) (by norm_num [Pen.Valid])
    trivial (by norm_num [Pen.fn]) _ cvD_curvature (by norm_num [Pen.modulus]) w hw (1 / 1000) (by norm_num)
  exact ⟨τ₀, h1, N, fun v hv => h2 _ argsortIns_spec _ τ₀ rfl le_rfl (by norm_num) (by norm_num) le_rfl v hv⟩

-- the Lasso in a binary format: within `1/10` of the minimiser
example (w : Fin 2 → ℝ) (hw : ∀ u, objective1 cvD ![1, -2] .quadratic (.l1 (1 / 10)) w ≤ objective1 cvD ![1, -2] .quadratic (.l1 (1 / 10)) u) :
    ∃ t N : ℕ, ∃ v m, RunsTo argsortIns (binCfg t N (1 / 100)) cvD (cvX t) (fun i => Fl.of t (![1, -2] i)) .quadratic
      (.l1 (Fl.of t (1 / 10))) v m ∧ m ≤ N ∧ ∑ j, (v j - w j) ^ 2 ≤ (1 / 10) ^ 2 := by
  obtain ⟨N, h⟩ := C65_float two_pos two_pos cvD trivial ![1, -2] .quadratic trivial (.l1 (1 / 10)) (by norm_num [Pen.Valid])
    trivial (by norm_num [Pen.fn]) _ cvD_curvature (by norm_num [Pen.modulus]) w hw (1 / 100) (by norm_num)
  obtain ⟨e₀, he₀, h⟩ := h 10 (1 / 1000) (by norm_num)
  obtain ⟨t, ht⟩ := bin_exists he₀
  obtain ⟨v, m, h1, h2, h3⟩ := h _ _ (bin_laws t .quadratic) ht (cvX t) (fun i => Fl.of t (![1, -2] i)) (.l1 (Fl.of t (1 / 10)))
    (cvX_stored t) (fun i => bin_stores t _) (bin_stores t _) argsortIns (argsortFl t) (binCfg t N (1 / 100)) (binCfg_ok _ _ _)
    (bin_stores t _) le_rfl le_rfl (by norm_num [binCfg]) (binCfg_plain _ _ _)
  exact ⟨t, N, v, m, h1, h2, h3.trans (by norm_num [Pen.modulus])⟩

-- the elastic net estimator
example (u : Fin 2 → ℝ) (hu : ∀ u', objective1 cvD ![1, -2] .quadratic (.enet (1 / 10) 0) u ≤
    objective1 cvD ![1, -2] .quadratic (.enet (1 / 10) 0) u') :
    ∃ (t N : ℕ) (τ : ℝ) (w : Fin 2 → Fl (bin t)) (v : Fin 2 → ℝ), (∀ j, Den (w j) (v j)) ∧
    fitElasticNetOf argsortIns ⟨Fl.of t (1 / 10), zero, N, 10, 10, Fl.of t τ, 2, true, true⟩ cvD (cvX t) (fun i => Fl.of t (![1, -2] i)) =
      .ok (.ok (List.ofFn w)) ∧ ∑ j, (v j - u j) ^ 2 ≤ (1 / 1000) ^ 2 := by
  obtain ⟨τ, hτ, h⟩ := C65_elastic_net_fit two_pos two_pos cvD trivial ![1, -2] (1 / 10) 0 (by norm_num) le_rfl zero_lt_one u hu
    (1 / 1000) (by norm_num)
  obtain ⟨N, h⟩ := h τ hτ le_rfl
  obtain ⟨e₀, he₀, h⟩ := h 10
  obtain ⟨t, ht⟩ := bin_exists he₀
  obtain ⟨w, v, h1, h2, h3⟩ := h _ _ (bin_laws t .quadratic) ht (cvX t) (fun i => Fl.of t (![1, -2] i)) (cvX_stored t)
    (fun i => bin_stores t _) argsortIns (argsortFl t) ⟨Fl.of t (1 / 10), zero, N, 10, 10, Fl.of t τ, 2, true, true⟩ (by
      unfold ElasticNetParams.checkRef checkTail
      dsimp only
      have h0 : ((one <. (zero : Fl (bin t))) || ((zero : Fl (bin t)) <. zero)) = false := by
        show (decide ((1 : ℝ) < 0) || decide ((0 : ℝ) < 0)) = false
        norm_num
      rw [signBit_of (by norm_num), signBit_of hτ.le, h0]
      rfl)
    (binCfg_ok t N τ) (bin_stores t _) ⟨⟨0, den_zero, by rw [sub_self, abs_zero]; positivity⟩, fun _ => den_zero⟩ (bin_stores t _)
    le_rfl le_rfl (by norm_num) (binCfg_plain t N τ)
  exact ⟨t, N, τ, w, v, h1, h2, h3⟩

end Sglm
