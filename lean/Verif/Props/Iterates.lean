import Verif.Proofs.IterCount
import Verif.Props.Iterations
import Verif.Props.BlockStop

/-!
# C87: all iterates but a bounded number are nearly stationary, also where the stopping test is wrong

The violation scores of the block MCP and of the block elastic net are wrong (C31, C86): the solver may stop at once or
never.  The iterates are nevertheless good: of the coefficients which the calls with `max_iterations = 0, 1, 2, ...` return,
at most an explicit number are not `τ`-stationary, for every `τ > 0`.  Exact arithmetic.
-/

namespace Sglm
namespace Spec

/-- How far a block penalty is from being convex. -/
noncomputable def BPen.concavity : BPen → ℝ
  | .mcp _ γ => 1 / γ
  | _ => 0

/-- Modulus of strong convexity of a block penalty. -/
noncomputable def BPen.modulus : BPen → ℝ
  | .enet α ρ => α * (1 - ρ)
  | _ => 0

/-- The scores order the features of zero rows correctly (the block elastic net squares a norm and subtracts `alpha * l1_ratio`). -/
def BPen.OrdersZeros : BPen → Prop
  | .enet α ρ => 1 ≤ α * ρ
  | _ => True

end Spec

open Scalar Spec
variable {n p T : ℕ}

/-- A run which makes `k` iterations is a run with `max_iterations = k`. -/
theorem Skel.outer_cut {F S B : Type} (sk : Skel F S B) {N k : ℕ} {s v : S} (h : sk.outer N s = .ok (v, k)) :
    sk.outer k s = .ok (v, k) := by
  have hk := (sk.outer_exit N s v k h).1
  obtain ⟨r, rfl⟩ := Nat.exists_eq_add_of_le hk
  rw [Skel.outer_add] at h
  cases h1 : sk.outer k s with
  | error e => rw [h1] at h; cases h
  | ok q =>
    obtain ⟨u, i⟩ := q
    rw [h1] at h
    have h : (sk.outer r u >>= fun q => pure (q.1, i + q.2) : M (S × ℕ)) = .ok (v, k) := h
    cases h2 : sk.outer r u with
    | error e => rw [h2] at h; cases h
    | ok q =>
      obtain ⟨w, j⟩ := q
      rw [h2] at h
      injection h with h
      injection h with h3 h4
      dsimp only at h3 h4
      subst h3
      have hi := sk.outer_exit k s u i h1
      rcases hi.1.lt_or_eq with hlt | heq
      · obtain ⟨kkt, km, h5, h6⟩ := hi.2 hlt
        rw [sk.outer_done r u kkt km h5 h6] at h2
        injection h2 with h2
        injection h2 with h7 h8
        subst h7 h8
        rw [Nat.add_zero] at h4
        rw [h4]
      · have hj : j = 0 := by omega
        subst hj
        cases r with
        | zero =>
          cases h2
          rw [heq]
        | succ r =>
          rw [Skel.outer] at h2
          cases hv : sk.viol u with
          | error e => rw [hv] at h2; cases h2
          | ok q =>
            obtain ⟨kkt', km'⟩ := q
            rw [hv] at h2
            dsimp only [bind, Except.bind] at h2
            split at h2
            · injection h2 with h2
              injection h2 with h7 _
              rw [← h7, heq]
            · cases hw : sk.mkWs kkt' u with
              | error e => rw [hw] at h2; cases h2
              | ok x =>
                obtain ⟨ws, sz⟩ := x
                rw [hw] at h2
                dsimp only at h2
                cases hi : sk.inner ws sz km' sk.maxEpochs 0 (sk.buf0 sz) u with
                | error e => rw [hi] at h2; cases h2
                | ok t =>
                  rw [hi] at h2
                  dsimp only at h2
                  cases ho : sk.outer r t with
                  | error e => rw [ho] at h2; cases h2
                  | ok x =>
                    rw [ho] at h2
                    injection h2 with h2
                    injection h2 with _ h8
                    omega

theorem bstepOK_of_conc {pen : BPen} (hv : pen.Valid) {D : Design n p} {μ : ℝ} (hμ0 : 0 < μ)
    (hμ : ∀ j, lipschitz D .quadratic j ≠ 0 → μ + pen.concavity ≤ lipschitz D .quadratic j) : pen.StepOK D := by
  cases pen with
  | mcp α γ =>
    intro j hj
    have h1 : 1 / γ ≤ lipschitz D .quadratic j := by
      have : μ + 1 / γ ≤ lipschitz D .quadratic j := hμ j hj
      linarith
    rwa [div_le_iff₀ hv.2, mul_comm] at h1
  | _ => trivial

theorem bpen_convex {pen : BPen} (hv : pen.Valid) (hc : pen.Convex) :
    ∃ a, 0 ≤ a ∧ 0 ≤ pen.modulus ∧ pen.concavity = 0 ∧ (pen.fn : Euc T → ℝ) = pen2 a pen.modulus := by
  cases pen with
  | l21 α =>
    refine ⟨α, hv.le, le_rfl, rfl, ?_⟩
    funext z; show α * ‖z‖ = α * ‖z‖ + 0 * ‖z‖ ^ 2 / 2; ring
  | enet α ρ =>
    obtain ⟨h1, h2, h3⟩ := hv
    refine ⟨α * ρ, by positivity, mul_nonneg h1.le (by linarith), rfl, ?_⟩
    funext z; show enet α ρ z = α * ρ * ‖z‖ + α * (1 - ρ) * ‖z‖ ^ 2 / 2; unfold enet; ring
  | mcp α γ => exact hc.elim

/-- Distance to the subdifferential. -/
noncomputable def frechetDist (φ : Euc T → ℝ) (x g : Euc T) : ℝ := Metric.infDist (-g) (frechetSubdiff φ x)

/-- Every block penalty, with the right scores. -/
theorem probMT_weak_all (hn : 0 < n) (D : Design n p) (hD : D.Canonical) (Y : Fin n → Fin T → ℝ) (pen : BPen)
    (hv : pen.Valid) (hst : pen.StepOK D) :
    ((probMT D Y pen).withScore (frechetDist pen.fn)).Weak
      (fun W => mtLoss Y (fitMT D.matrix (fun j => (W j).ofLp))) pen.fn pen.concavity pen.modulus := by
  have M := probMT_mm hn D hD Y pen hv hst
  have S := (probMT_cvx hn D hD Y 1 one_pos).smooth
  have M' : ((probMT D Y pen).withScore (frechetDist pen.fn)).MM
      (fun W => mtLoss Y (fitMT D.matrix (fun j => (W j).ofLp))) pen.fn := ⟨M.obj, M.nonneg, M.major, M.prox⟩
  have S' : ((probMT D Y pen).withScore (frechetDist pen.fn)).Smooth
      (fun W => mtLoss Y (fitMT D.matrix (fun j => (W j).ofLp))) := ⟨S.nonneg, S.major, S.convex, S.low⟩
  have conv : pen.Convex → ((probMT D Y pen).withScore (frechetDist pen.fn)).Weak
      (fun W => mtLoss Y (fitMT D.matrix (fun j => (W j).ofLp))) pen.fn pen.concavity pen.modulus := by
    intro hc
    obtain ⟨a, ha, hb, h0, he⟩ := bpen_convex (T := T) hv hc
    have hd := pen2_drop (E := Euc T) ha hb
    have hz : (0 : Euc T) ∈ frechetSubdiff (pen2 a pen.modulus) (0 : Euc T) := by
      rw [pen2_zero ha hb, mem_closedBall_zero_iff, norm_zero]; exact ha
    refine ⟨M', S', ?_, hb, ?_, ?_, ?_, ?_⟩
    · rw [h0, he]; exact pen2_weak ha hb
    · intro z; rw [he]; unfold pen2; positivity
    · intro x g
      refine ⟨?_, rfl⟩
      rw [he]
      by_cases hx : x = 0
      · subst hx; exact ⟨0, hz⟩
      · rw [pen2_frechet ha hb]
        have : subdiff (pen2 a pen.modulus) x = {(a / ‖x‖ + pen.modulus) • x} := subdiff_enet_ne ha hb hx
        rw [this]
        exact Set.singleton_nonempty _
    · rw [he]; exact hz
    · rw [he]; exact hd
  cases pen with
  | l21 α => exact conv trivial
  | enet α ρ => exact conv trivial
  | mcp α γ =>
    have hz : (0 : Euc T) ∈ frechetSubdiff (mcp α γ : Euc T → ℝ) 0 := by
      rw [frechet_mcp_zero hv.1 hv.2, mem_closedBall_zero_iff, norm_zero]; exact hv.1
    refine ⟨M', S', mcp_weak hv.1 hv.2, le_rfl, mcp_nonneg hv.2, fun x g => ⟨?_, rfl⟩, hz, mcp_drop hv.1 hv.2⟩
    show (frechetSubdiff (mcp α γ : Euc T → ℝ) x).Nonempty
    by_cases hx : x = 0
    · subst hx; exact ⟨0, hz⟩
    · rcases lt_or_ge ‖x‖ (γ * α) with h | h
      · rw [frechet_mcp_mid hx h]; exact Set.singleton_nonempty _
      · rw [frechet_mcp_out hv.1 hv.2 hx h]; exact Set.singleton_nonempty _

/-- The distances at zero. -/
theorem frechetDist_zero {a : ℝ} (ha : 0 ≤ a) {φ : Euc T → ℝ} (h : frechetSubdiff φ 0 = Metric.closedBall 0 a) (g : Euc T) :
    frechetDist φ 0 g = max 0 (‖g‖ - a) := by
  unfold frechetDist
  rw [h]
  exact (isDist_ball ha g).2.symm

/-- The scores at zero are ordered correctly above `τ`. -/
theorem bscore_order {pen : BPen} (hv : pen.Valid) (ho : pen.OrdersZeros) {τ : ℝ} (hτ : 0 < τ) (g g' : Euc T)
    (h1 : τ < frechetDist pen.fn 0 g) (h2 : bscoreOf pen 0 g ≤ bscoreOf pen 0 g') : τ < frechetDist pen.fn 0 g' := by
  cases pen with
  | l21 α =>
    have hf : frechetSubdiff ((BPen.l21 α).fn : Euc T → ℝ) 0 = Metric.closedBall 0 α := by
      obtain ⟨a, ha, hb, -, he⟩ := bpen_convex (T := T) (pen := .l21 α) hv trivial
      have : ((BPen.l21 α).fn : Euc T → ℝ) = pen2 α 0 := by
        funext z; show α * ‖z‖ = α * ‖z‖ + 0 * ‖z‖ ^ 2 / 2; ring
      rw [this]; exact pen2_zero (le_of_lt hv) le_rfl
    rw [frechetDist_zero (le_of_lt hv) hf] at h1 ⊢
    have h2 : l21Score α 0 g ≤ l21Score α 0 g' := h2
    unfold l21Score at h2
    rw [if_pos rfl, if_pos rfl] at h2
    exact lt_of_lt_of_le h1 h2
  | mcp α γ =>
    have hf : frechetSubdiff ((BPen.mcp α γ).fn : Euc T → ℝ) 0 = Metric.closedBall 0 α := frechet_mcp_zero hv.1 hv.2
    rw [frechetDist_zero hv.1 hf] at h1 ⊢
    have h2 : blockMcpScore α γ 0 g ≤ blockMcpScore α γ 0 g' := h2
    unfold blockMcpScore at h2
    rw [if_pos rfl, if_pos rfl] at h2
    exact lt_of_lt_of_le h1 h2
  | enet α ρ =>
    obtain ⟨v1, v2, v3⟩ := hv
    have ho : 1 ≤ α * ρ := ho
    have hf : frechetSubdiff ((BPen.enet α ρ).fn : Euc T → ℝ) 0 = Metric.closedBall 0 (α * ρ) := by
      have : ((BPen.enet α ρ).fn : Euc T → ℝ) = pen2 (α * ρ) (α * (1 - ρ)) := by
        funext z; show enet α ρ z = α * ρ * ‖z‖ + α * (1 - ρ) * ‖z‖ ^ 2 / 2; unfold enet; ring
      rw [this]; exact pen2_zero (by linarith) (mul_nonneg v1.le (by linarith))
    rw [frechetDist_zero (by linarith) hf] at h1 ⊢
    have h2 : blockEnetScore α ρ 0 g ≤ blockEnetScore α ρ 0 g' := h2
    unfold blockEnetScore at h2
    rw [if_pos rfl, if_pos rfl] at h2
    have h3 : τ < ‖g‖ - α * ρ := by
      rcases lt_max_iff.mp h1 with h | h
      · linarith
      · exact h
    have h4 : α * ρ < ‖g‖ ^ 2 := by nlinarith [norm_nonneg g]
    have h5 : ‖g‖ ^ 2 ≤ ‖g'‖ ^ 2 := by
      rcases le_max_iff.mp ((le_max_right _ _).trans h2) with h | h
      · linarith
      · linarith
    have h6 := abs_le_of_sq_le_sq' h5 (norm_nonneg _)
    exact lt_max_iff.mpr (Or.inr (by linarith [h6.2]))

/-- **All iterates but a bounded number are `τ`-stationary**, for every `τ > 0`, whatever the tolerance and the stopping test.  All
multi-task penalties; `V i` is the result of the same call with `max_iterations = i`.  For the block elastic net with
`alpha * l1_ratio < 1` the working set has to contain all features. -/
theorem C87_iterates_mt (hn : 0 < n) (D : Design n p) (hD : D.Canonical) (Y : Fin n → Fin T → ℝ) (pen : BPen) (hv : pen.Valid)
    (μ Λ τ : ℝ) (hμ0 : 0 < μ) (hμ : ∀ j, lipschitz D .quadratic j ≠ 0 → μ + pen.concavity ≤ lipschitz D .quadratic j)
    (hΛ : ∀ j, lipschitz D .quadratic j ≤ Λ) (hτ : 0 < τ)
    {srt : Argsort XR} (hs : ArgsortSpec srt) (cfg : Solver XR) (hw : 0 < cfg.wsStartSize)
    (ho : pen.OrdersZeros ∨ p ≤ cfg.wsStartSize) (he : 0 < cfg.maxEpochs) (hpl : StopsPlain cfg)
    (st : BCDState XR) (log : List (Event XR)) (h : traceMT srt (cfg.setVerbose true) D Y pen = .ok (st, log)) :
    ∃ V : ℕ → Fin p → Euc T,
      (∀ i ≤ iterationsPrinted log, solveMT srt { cfg with maxIterations := i } D Y pen = .ok (emat (V i))) ∧
      solveMT srt cfg D Y pen = .ok (emat (V (iterationsPrinted log))) ∧
      ∃ B : Finset ℕ, (B.card : ℝ) ≤ 4 * p * (2 * Λ + pen.modulus) ^ 2 * objectiveMT D Y pen (fun _ => 0) / (μ * τ ^ 2) ∧
        ∀ i < iterationsPrinted log, i ∉ B → ApproxStationaryMT D Y (frechetSubdiff pen.fn) (V i) τ := by
  obtain ⟨V, m, h3, -, h4⟩ := traceMT_run hs hn D Y pen hv _ st log h
  have h3 : ((probMT D Y pen).skel srt cfg (ws0CD cfg p)).outer cfg.maxIterations (fun _ => 0) = .ok (V, m) := h3
  rw [h4 rfl]
  have h5 := Skel.outer_cut _ h3
  have H := probMT_weak_all hn D hD Y pen hv (bstepOK_of_conc hv hμ0 hμ)
  obtain ⟨u, k1, B, k2, k3⟩ := RProb.run_count (R := probMT D Y pen) H (Λ := Λ) hμ0 (fun j hj => by
      have := hμ j (by rw [← stepsOf_lipschitz D hD]; exact hj)
      rw [← stepsOf_lipschitz D hD] at this
      exact this)
    (fun j => by
      have := hΛ j
      rw [← stepsOf_lipschitz D hD] at this
      exact this) hτ hs cfg hw (ho.imp (fun ho g g' => bscore_order hv ho hτ g g') id) he hpl.plainEnd m V h5
  refine ⟨u, fun i hi => ?_, ?_, B, ?_, fun i hi hB j => ?_⟩
  · rw [solveMT_eq hs hn D Y pen hv]
    have : (probMT D Y pen).run srt { cfg with maxIterations := i } = .ok (u i, i) := k1 i hi
    rw [this]; rfl
  · rw [solveMT_eq hs hn D Y pen hv]
    have : (probMT D Y pen).run srt cfg = .ok (V, m) := h3
    rw [this]
    have := k1 m le_rfl
    rw [h5] at this
    injection this with this
    injection this with this _
    rw [← this]; rfl
  · rw [le_div_iff₀ (by positivity)]
    exact k3
  · exact ⟨_, _, fun t => mt_partial hn D.matrix Y (fun j => (u i j).ofLp) j t, H.score _ _, k2 i hi hB j⟩

/-- One task: Lasso, elastic net and MCP, least squares and logistic loss. -/
theorem C87_iterates (hn : 0 < n) (D : Design n p) (hD : D.Canonical) (y : Fin n → ℝ) (k : LossKind) (hy : k.LabelsOK y) (pen : Pen)
    (hv : pen.Valid) (hne : ∀ α, pen ≠ .l05 α) (μ Λ τ : ℝ) (hμ0 : 0 < μ)
    (hμ : ∀ j, lipschitz D k j ≠ 0 → μ + pen.concavity ≤ lipschitz D k j) (hΛ : ∀ j, lipschitz D k j ≤ Λ) (hτ : 0 < τ)
    {srt : Argsort XR} (hs : ArgsortSpec srt) (cfg : Solver XR) (hw : 0 < cfg.wsStartSize) (he : 0 < cfg.maxEpochs)
    (hpl : StopsPlain cfg) (st : CDState XR) (log : List (Event XR))
    (h : trace1 srt (cfg.setVerbose true) D y k pen = .ok (st, log)) :
    ∃ v : ℕ → Fin p → ℝ,
      (∀ i ≤ iterationsPrinted log, solve1 srt { cfg with maxIterations := i } D y k pen = .ok (vec (v i))) ∧
      solve1 srt cfg D y k pen = .ok (vec (v (iterationsPrinted log))) ∧
      ∃ B : Finset ℕ, (B.card : ℝ) ≤ 4 * p * (2 * Λ + pen.modulus) ^ 2 * objective1 D y k pen (fun _ => 0) / (μ * τ ^ 2) ∧
        ∀ i < iterationsPrinted log, i ∉ B → ApproxStationary D y k (frechetSubdiff pen.fn) (v i) τ := by
  obtain ⟨v, m, h3, -, h4⟩ := trace1_run hs hn D y k pen hv _ st log h
  have h3 : ((prob1 D y k pen).skel srt cfg (ws0CD cfg p)).outer cfg.maxIterations (fun _ => 0) = .ok (v, m) := h3
  rw [h4 rfl]
  have h5 := Skel.outer_cut _ h3
  have H := prob1_weak hn D hD y k hy pen hv (stepOK_of_conc hv hμ0 hμ) hne
  obtain ⟨u, k1, B, k2, k3⟩ := RProb.run_count (R := prob1 D y k pen) (d := (prob1 D y k pen).sc) H (Λ := Λ) hμ0 (fun j hj => by
      have := hμ j (by rw [← stepsOf_lipschitz D hD]; exact hj)
      rw [← stepsOf_lipschitz D hD] at this
      exact this)
    (fun j => by
      have := hΛ j
      rw [← stepsOf_lipschitz D hD] at this
      exact this) hτ hs cfg hw (Or.inl fun g g' a b => lt_of_lt_of_le a b) he hpl.plainEnd m v h5
  refine ⟨u, fun i hi => ?_, ?_, B, ?_, fun i hi hB j => ?_⟩
  · rw [solve1_eq hs hn D y k pen hv]
    have : (prob1 D y k pen).run srt { cfg with maxIterations := i } = .ok (u i, i) := k1 i hi
    rw [this]; rfl
  · rw [solve1_eq hs hn D y k pen hv]
    have : (prob1 D y k pen).run srt cfg = .ok (v, m) := h3
    rw [this]
    have := k1 m le_rfl
    rw [h5] at this
    injection this with this
    injection this with this _
    rw [← this]; rfl
  · rw [le_div_iff₀ (by positivity)]
    exact k3
  · exact ⟨_, _, loss_partial hn D.matrix y k (u i) j, H.score _ _, k2 i hi hB j⟩

/-- A set of fewer than `N` numbers misses one below `N`. -/
theorem exists_notMem_lt {B : Finset ℕ} {N : ℕ} (h : B.card < N) : ∃ i < N, i ∉ B := by
  by_contra hc
  push Not at hc
  have : (Finset.range N).card ≤ B.card := Finset.card_le_card fun i hi => hc i (Finset.mem_range.mp hi)
  rw [Finset.card_range] at this
  omega

/-- **A good `max_iterations` exists**: if more iterations are printed than the bound, then one of the calls with
`max_iterations = 0, 1, 2, ...` up to the bound returns a `τ`-stationary point. -/
theorem C87_some_iterate_mt (hn : 0 < n) (D : Design n p) (hD : D.Canonical) (Y : Fin n → Fin T → ℝ) (pen : BPen) (hv : pen.Valid)
    (μ Λ τ : ℝ) (hμ0 : 0 < μ) (hμ : ∀ j, lipschitz D .quadratic j ≠ 0 → μ + pen.concavity ≤ lipschitz D .quadratic j)
    (hΛ : ∀ j, lipschitz D .quadratic j ≤ Λ) (hτ : 0 < τ)
    {srt : Argsort XR} (hs : ArgsortSpec srt) (cfg : Solver XR) (hw : 0 < cfg.wsStartSize)
    (ho : pen.OrdersZeros ∨ p ≤ cfg.wsStartSize) (he : 0 < cfg.maxEpochs) (hpl : StopsPlain cfg)
    (st : BCDState XR) (log : List (Event XR)) (h : traceMT srt (cfg.setVerbose true) D Y pen = .ok (st, log))
    (hN : 4 * p * (2 * Λ + pen.modulus) ^ 2 * objectiveMT D Y pen (fun _ => 0) / (μ * τ ^ 2) < iterationsPrinted log) :
    ∃ (i : ℕ) (V : Fin p → Euc T), (i : ℝ) ≤ 4 * p * (2 * Λ + pen.modulus) ^ 2 * objectiveMT D Y pen (fun _ => 0) / (μ * τ ^ 2) ∧
      solveMT srt { cfg with maxIterations := i } D Y pen = .ok (emat V) ∧
      ApproxStationaryMT D Y (frechetSubdiff pen.fn) V τ := by
  obtain ⟨V, h1, -, B, h3, h4⟩ := C87_iterates_mt hn D hD Y pen hv μ Λ τ hμ0 hμ hΛ hτ hs cfg hw ho he hpl st log h
  obtain ⟨i, hi, hB⟩ := exists_notMem_lt (Nat.lt_succ_self B.card)
  have h5 : (i : ℝ) ≤ B.card := by exact_mod_cast Nat.lt_succ_iff.mp hi
  have h6 : i < iterationsPrinted log := by exact_mod_cast lt_of_le_of_lt (h5.trans h3) hN
  exact ⟨i, V i, h5.trans h3, h1 i h6.le, h4 i h6 hB⟩

/-! ## Examples -/

theorem oneD_lipschitz (j : Fin 1) : lipschitz oneD .quadratic j = 1 := by
  simp [lipschitz, oneD, Design.matrix]

-- the run of C86 which never stops: one of the iterates up to number 144 is `1/2`-stationary
example : ∃ (i : ℕ) (V : Fin 1 → Euc 1), (i : ℝ) ≤ 144 ∧
    solveMT argsortIns { ({ oneCfg with maxIterations := 200 } : Solver XR) with maxIterations := i } oneD (fun _ (_ : Fin 1) => 3 / 2)
      (.mcp 1 2) = .ok (emat V) ∧
    ApproxStationaryMT oneD (fun _ (_ : Fin 1) => 3 / 2) (frechetSubdiff (mcp 1 2 : Euc 1 → ℝ)) V (1 / 2) := by
  obtain ⟨-, ⟨st, log, h2, h3⟩, -⟩ := C86_never_stops argsortIns_spec ({ oneCfg with maxIterations := 200 } : Solver XR) 0
    (by norm_num) rfl rfl (by decide) (by decide) (Nat.le_of_ble_eq_true rfl)
  have hF : objectiveMT oneD (fun _ (_ : Fin 1) => 3 / 2) (.mcp 1 2) (fun _ : Fin 1 => (0 : Euc 1)) = 9 / 8 := by
    simp [objectiveMT, mtLoss, fitMT, oneD, Design.matrix, BPen.fn, mcp]
    norm_num
  obtain ⟨i, V, h4, h5, h6⟩ := C87_some_iterate_mt one_pos oneD trivial (fun _ (_ : Fin 1) => 3 / 2) (.mcp 1 2)
    ⟨zero_le_one, two_pos⟩ (1 / 2) 1 (1 / 2) (by norm_num) (fun j _ => by
      rw [oneD_lipschitz]; show (1 : ℝ) / 2 + 1 / 2 ≤ 1; norm_num) (fun j => (oneD_lipschitz j).le) (by norm_num)
    argsortIns_spec ({ oneCfg with maxIterations := 200 } : Solver XR) (by decide) (Or.inl trivial) (by decide)
    (fun _ _ _ => Or.inl rfl) st log h2 (by
      rw [hF, h3]; show 4 * ((1 : ℕ) : ℝ) * (2 * 1 + 0) ^ 2 * (9 / 8) / (1 / 2 * (1 / 2) ^ 2) < ((200 : ℕ) : ℝ); norm_num)
  refine ⟨i, V, ?_, h5, h6⟩
  rw [hF] at h4
  refine h4.trans (le_of_eq ?_)
  show 4 * ((1 : ℕ) : ℝ) * (2 * 1 + 0) ^ 2 * (9 / 8) / (1 / 2 * (1 / 2) ^ 2) = 144
  norm_num

-- one task: any run of the MCP on this design
example (srt : Argsort XR) (hs : ArgsortSpec srt) (st : CDState XR) (log : List (Event XR))
    (h : trace1 srt (oneCfg.setVerbose true) oneD (fun _ => 3 / 2) .quadratic (.mcp 1 2) = .ok (st, log)) :
    ∃ v : ℕ → Fin 1 → ℝ, (∀ i ≤ iterationsPrinted log,
        solve1 srt { oneCfg with maxIterations := i } oneD (fun _ => 3 / 2) .quadratic (.mcp 1 2) = .ok (vec (v i))) ∧
      ∃ B : Finset ℕ, ∀ i < iterationsPrinted log, i ∉ B →
        ApproxStationary oneD (fun _ => 3 / 2) .quadratic (frechetSubdiff (mcp 1 2 : ℝ → ℝ)) (v i) 1 := by
  obtain ⟨v, h1, -, B, -, h3⟩ := C87_iterates one_pos oneD trivial (fun _ => 3 / 2) .quadratic trivial (.mcp 1 2)
    ⟨zero_le_one, two_pos⟩ (fun _ => by simp) (1 / 2) 1 1 (by norm_num) (fun j _ => by
      rw [oneD_lipschitz]; show (1 : ℝ) / 2 + 1 / 2 ≤ 1; norm_num) (fun j => (oneD_lipschitz j).le) one_pos hs oneCfg
    (by decide) (by decide) (fun _ _ _ => Or.inl rfl) st log h
  exact ⟨v, h1, B, h3⟩

end Sglm
