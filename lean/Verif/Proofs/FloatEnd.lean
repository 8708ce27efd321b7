import Verif.Proofs.FloatAccel
import Verif.Proofs.Converge

/-!
# Whole runs in floating point: the constants of the error analysis exist
-/

set_option linter.unusedSectionVars false

namespace Sglm
open Scalar Spec
variable {n p : ℕ}

/-! ## The extrapolation step satisfies its contract -/

section
variable {F DM DF P : Type} [Scalar F] [LawfulCmp F] [DesignMatrix F DM] [Datafit F DM DF] [Penalty F P]

theorem ObjApx.hacc {e Bv Bu C D ρ c K : ℝ} {ds : Dataset DM F} {df : DF} {pn : P} {A : Fin n → Fin p → ℝ}
    {f0 : (Fin n → ℝ) → ℝ} {φ : ℝ → ℝ} {R : RProb ℝ p} (O : ObjApx e Bv Bu C D ρ c ds df pn A f0 φ R) (cfg : Solver F)
    (hcfg : cfg.useAcceleration = true → 0 < cfg.K ∧ cfg.K ≤ ws0CD cfg p) {d0 η : ℝ} {T : ℕ} (hd0 : C ≤ d0) (hK : 0 ≤ C * K)
    (hD : d0 + T * (p * (C * K)) ≤ D) (hη : ρ ≤ η) (hρ : 0 ≤ ρ) (hTη : T * η ≤ 1) (hc : c = R.F 0 + 1) :
    ∀ k s (l : List (Fin p)) ep bf, k < T → 0 < k → FSys.Inv A e C K R d0 η k s → l.Nodup →
      ws0CD cfg p ≤ l.length → BufOK (fun j => R.L j = 0) cfg.K l bf → (∀ j ∉ l, absOf p s j = 0) →
      Ok (accelCD ds df pn cfg (l.map Fin.val) ep bf s) (fun r =>
        BufOK (fun j => R.L j = 0) cfg.K l r.1 ∧ FSys.Inv A e C K R d0 η (k + 1) r.2 ∧
          R.F (absOf p r.2) ≤ R.F (absOf p s) + ρ ∧
          (∀ j ∉ l, absOf p r.2 j = 0) ∧ (PlainEp cfg ep → absOf p r.2 = absOf p s)) := by
  intro k s l ep bf hk hk0 hI hl hwl hb hoff
  have he := O.prec.pos
  have hC := O.C1
  have hη0 : 0 ≤ η := hρ.trans hη
  have hI' := hI.mono he.le hK hη0 (Nat.le_succ k)
  unfold accelCD
  by_cases hu : cfg.useAcceleration = true
  · rw [if_pos hu]
    obtain ⟨hK0, hKw⟩ := hcfg hu
    obtain ⟨v, h1, h2, h3⟩ := hI
    have hkT : (k : ℝ) ≤ T := by exact_mod_cast hk.le
    have hpCK : 0 ≤ (p : ℝ) * (C * K) := by positivity
    have q1 := mul_le_mul_of_nonneg_right hkT hpCK
    have q2 := mul_le_mul_of_nonneg_right hkT hη0
    have q3 : 0 ≤ (k : ℝ) * (p * (C * K)) := by positivity
    have key := O.accel hK0 hl (hKw.trans hwl) h1 (by linarith) (by linarith) (by linarith) h3 hb ep
    have e1 : (fun r : Mat F × CDState F × List (Event F) => (r.1, r.2.1)) <$> andersonAccel ds df pn bf s (l.map Fin.val) ep cfg.K false [] =
        (andersonAccel ds df pn bf s (l.map Fin.val) ep cfg.K false []) >>= fun r => pure (r.1, r.2.1) := by
      cases andersonAccel ds df pn bf s (l.map Fin.val) ep cfg.K false [] <;> rfl
    rw [e1]
    refine Tri.bind key ?_
    rintro ⟨b', s', lg⟩ ⟨k1, k2⟩
    show BufOK _ _ l b' ∧ _
    rcases k2 with k2 | ⟨k2, v', k3, k4, k5, k6⟩
    · change s' = s at k2
      subst k2
      exact ⟨k1, hI', by linarith, hoff, fun _ => rfl⟩
    · change Rep A e C s' v' at k3
      refine ⟨k1, ⟨v', k3.mono he.le ?_, ?_, k5⟩, ?_, ?_, ?_⟩
      · have : 0 ≤ ((k + 1 : ℕ) : ℝ) * (p * (C * K)) := by positivity
        linarith
      · push_cast; linarith
      · show R.F (absOf p s') ≤ _
        rw [k3.abs, h1.abs]; exact k4
      · show ∀ j ∉ l, absOf p s' j = 0
        rw [k3.abs]; exact k6
      · rintro (h | h)
        · rw [h] at hu; cases hu
        · exact absurd k2 h
  · rw [if_neg hu]
    exact ⟨hb, hI', by linarith, hoff, fun _ => rfl⟩

/-- What the runs of a call satisfy. -/
structure PertCall (D : Design n p) (y : Fin n → ℝ) (k : LossKind) (pen : Pen) (a b ρ τ : ℝ) (T : ℕ) (srt : Argsort F)
    (cfg : Solver F) (ds : Dataset DM F) (df0 df : DF) (pn : P) : Prop where
  samples : ds.targets.nSamples = n
  features : DesignMatrix.nFeatures (F := F) ds.designMatrix = .ok p
  init : Datafit.init df0 ds = .ok df
  pert : ∃ (Inv : ℕ → CDState F → Prop) (BInv : List (Fin p) → Mat F → Prop),
    Pert (skelCD srt ds df pn cfg p (ws0CD cfg p)) (prob1 D y k pen) (subdiff (pen2 a b)) ρ τ ((prob1 D y k pen).F 0 + 1) T (ws0CD cfg p)
      (PlainEp cfg) (absOf p) Inv (fun _ => True) BInv ∧ Inv 0 (initCD n p) ∧
    ∀ j s, Inv j s → ∃ x : Fin p → F, s.w = List.ofFn x ∧ ∀ i, Den (x i) (absOf p s i)

end

/-- The contracts of the objects given to the solver hold, for arithmetics satisfying `Law`. -/
def Callable (Law : (F : Type) → [Scalar F] → [LawfulCmp F] → ℝ → Prop) (D : Design n p) (y : Fin n → ℝ) (k : LossKind) (pen : Pen) : Prop :=
  ∀ B m : ℝ, 1 ≤ B → 0 ≤ m →
    ∃ Bv Bu C : ℝ, B ≤ Bv ∧ B ≤ Bu ∧ (∀ v : Fin p → ℝ, (∀ j, |v j| ≤ Bv) → ∀ i, |fit D.matrix v i| ≤ Bu) ∧ 1 ≤ C ∧
      ∀ {F : Type} [Scalar F] [LawfulCmp F] {e : ℝ}, Law F e → C * e ≤ 1 →
      ∀ (x : D.Entries F) (y' : Fin n → F) (pen' : PenOf F), D.StoredAs e x → (∀ i, Stores e (y' i) (y i)) → pen'.Stored e pen →
      ∀ {α : Type} (run : ∀ {DM DF P : Type} [DesignMatrix F DM] [Datafit F DM DF] [Penalty F P], Dataset DM F → DF → P → α)
        (Q : α → Prop),
        (∀ {DM DF P : Type} [DesignMatrix F DM] [Datafit F DM DF] [Penalty F P] (ds : Dataset DM F) (df0 df : DF) (pn : P),
          CallApx e B C m Bv Bu ds df0 df pn D y k pen → Q (run ds df0 pn)) →
        Q (callOf D x y' k pen' run)

/-- Magnitudes of the points, fits and gradients of bounded objective. -/
theorem mags_bound {R : RProb ℝ p} {f : (Fin p → ℝ) → ℝ} {a b : ℝ} (H : R.Cvx f a b) (A : Fin n → Fin p → ℝ) (c : ℝ) :
    ∃ B0 : ℝ, 1 ≤ B0 ∧ (∀ j, R.L j ≤ B0) ∧ (∀ j, R.L j ≠ 0 → 1 / B0 ≤ R.L j) ∧
      ∀ w, R.F w ≤ c → (∀ j, |w j| ≤ B0) ∧ (∀ i, |fit A w i| ≤ B0) ∧ ∀ j, |R.G w j| ≤ B0 := by
  obtain ⟨Bl, hBl, hl⟩ := H.level c
  obtain ⟨μ, hμ, hμ2⟩ := H.exists_mu
  obtain ⟨Λ, hΛ⟩ : ∃ Λ, Λ = ∑ i, R.L i := ⟨_, rfl⟩
  have hΛ0 : 0 ≤ Λ := hΛ ▸ Finset.sum_nonneg fun i _ => H.nonneg i
  obtain ⟨a0, ha0⟩ : ∃ a0, a0 = ∑ i, ∑ j, |A i j| := ⟨_, rfl⟩
  have ha0' : 0 ≤ a0 := ha0 ▸ Finset.sum_nonneg fun i _ => Finset.sum_nonneg fun j _ => abs_nonneg _
  obtain ⟨g0, hg0⟩ : ∃ g0, g0 = ∑ j, |R.G 0 j| := ⟨_, rfl⟩
  have hg0' : 0 ≤ g0 := hg0 ▸ Finset.sum_nonneg fun j _ => abs_nonneg _
  have k1 : 0 ≤ a0 * Bl := mul_nonneg ha0' hBl
  have k2 : 0 ≤ Λ * Bl := mul_nonneg hΛ0 hBl
  have k3 : 0 < 1 / μ := by positivity
  refine ⟨1 + Bl + a0 * Bl + g0 + Λ * Bl + Λ + 1 / μ, by linarith, fun j => ?_, fun j hj => ?_, fun w hw => ⟨fun j => ?_, fun i => ?_, fun j => ?_⟩⟩
  · have := H.L_le j
    rw [← hΛ] at this
    linarith
  · refine le_trans ?_ (hμ2 j hj)
    rw [div_le_iff₀ (by linarith)]
    have : μ * (1 / μ) = 1 := by field_simp
    nlinarith
  · have h1 := hl w hw
    have h2 : |w j| ≤ ∑ j, ‖w j‖ := Finset.single_le_sum (f := fun j => ‖w j‖) (fun _ _ => norm_nonneg _) (Finset.mem_univ j)
    linarith
  · have h1 := hl w hw
    have h2 : ∀ j, |w j| ≤ Bl := fun j =>
      (Finset.single_le_sum (f := fun j => ‖w j‖) (fun _ _ => norm_nonneg _) (Finset.mem_univ j)).trans h1
    have h3 : |fit A w i| ≤ ∑ j, |A i j| * Bl := by
      refine (Finset.abs_sum_le_sum_abs _ _).trans (Finset.sum_le_sum fun j _ => ?_)
      rw [abs_mul]
      exact mul_le_mul_of_nonneg_left (h2 j) (abs_nonneg _)
    rw [← Finset.sum_mul] at h3
    have h4 : ∑ j, |A i j| ≤ a0 := by
      rw [ha0]
      exact Finset.single_le_sum (f := fun i => ∑ j, |A i j|) (fun i _ => Finset.sum_nonneg fun j _ => abs_nonneg _) (Finset.mem_univ i)
    have h5 := mul_le_mul_of_nonneg_right h4 hBl
    linarith
  · have h1 := hl w hw
    have h2 := H.grad_lips w 0 j
    rw [← hΛ] at h2
    have h3 : ∑ i, ‖w i - (0 : Fin p → ℝ) i‖ ≤ Bl := by
      simpa using h1
    have h4 := mul_le_mul_of_nonneg_left h3 hΛ0
    have h5 : |R.G 0 j| ≤ g0 := by rw [hg0]; exact sum_abs_ge _ j
    have h6 : |R.G w j| ≤ |R.G w j - R.G 0 j| + |R.G 0 j| := by
      have := abs_add_le (R.G w j - R.G 0 j) (R.G 0 j)
      rwa [sub_add_cancel] at this
    rw [Real.norm_eq_abs] at h2
    linarith

/-- Choice of the error of updates and scores. -/
theorem rho_exists (T : ℕ) {B0 : ℝ} (hB : 1 ≤ B0) : ∃ ρ₁ : ℝ, 0 < ρ₁ ∧ ∀ ρ, 0 < ρ → ρ ≤ ρ₁ →
    ρ ≤ 1 ∧ ρ ^ 2 * B0 ≤ 1 ∧ T * (p * (ρ ^ 2 * B0) + ρ) ≤ 1 := by
  have hT : (0 : ℝ) ≤ T := Nat.cast_nonneg T
  have hp : (0 : ℝ) ≤ p := Nat.cast_nonneg p
  have hS : 0 < T * (p * B0 + 1) + B0 := by positivity
  refine ⟨1 / (T * (p * B0 + 1) + B0), by positivity, fun ρ h0 h1 => ?_⟩
  rw [le_div_iff₀ hS] at h1
  have hTp : 0 ≤ ρ * (T * (p * B0 + 1)) := by positivity
  have h2 : ρ * B0 ≤ 1 := by nlinarith
  have h3 : ρ ≤ 1 := by nlinarith
  have h4 : ρ ^ 2 ≤ ρ := by nlinarith
  have h5 : ρ ^ 2 * B0 ≤ ρ * B0 := mul_le_mul_of_nonneg_right h4 (by linarith)
  refine ⟨h3, by linarith, ?_⟩
  have h6 : p * (ρ ^ 2 * B0) ≤ p * (ρ * B0) := mul_le_mul_of_nonneg_left h5 hp
  have h7 : T * (p * (ρ ^ 2 * B0) + ρ) ≤ T * (p * (ρ * B0) + ρ) := mul_le_mul_of_nonneg_left (by linarith) hT
  have h8 : T * (p * (ρ * B0) + ρ) = ρ * (T * (p * B0 + 1)) := by ring
  have : 0 ≤ ρ * B0 := by positivity
  linarith

/-- Choice of the precision. -/
theorem prec_exists {C K D c τ ρ : ℝ} (hC : 1 ≤ C) (hK : 1 ≤ K) (hD : 1 ≤ D) (hc : 0 ≤ c) (hρ : 0 < ρ) (hρ1 : ρ ≤ 1) :
    ∃ e₀ : ℝ, 0 < e₀ ∧ ∀ e, 0 < e → e ≤ e₀ → C * e ≤ 1 ∧ C * (K * (K * (C * D))) * e ≤ ρ ∧ 2 * (C * (C * D)) * e ≤ ρ ∧
      (4 * (C * D) + 3 * c + 4) * e ≤ ρ ∧ e * (|τ| + 1) ≤ ρ / 2 := by
  obtain ⟨a1, h1⟩ : ∃ a1, a1 = C * (K * (K * (C * D))) := ⟨_, rfl⟩
  obtain ⟨a2, h2⟩ : ∃ a2, a2 = 2 * (C * (C * D)) := ⟨_, rfl⟩
  obtain ⟨a3, h3⟩ : ∃ a3, a3 = 4 * (C * D) + 3 * c + 4 := ⟨_, rfl⟩
  obtain ⟨a4, h4⟩ : ∃ a4, a4 = |τ| + 1 := ⟨_, rfl⟩
  have p1 : 0 ≤ a1 := by rw [h1]; positivity
  have p2 : 0 ≤ a2 := by rw [h2]; positivity
  have p3 : 0 ≤ a3 := by rw [h3]; positivity
  have p4 : 0 ≤ a4 := by rw [h4]; positivity
  rw [← h1, ← h2, ← h3, ← h4]
  refine ⟨ρ / (a1 + a2 + a3 + 2 * a4 + C), by positivity, fun e he h => ?_⟩
  rw [le_div_iff₀ (by positivity)] at h
  have q1 : 0 ≤ a1 * e := by positivity
  have q2 : 0 ≤ a2 * e := by positivity
  have q3 : 0 ≤ a3 * e := by positivity
  have q4 : 0 ≤ a4 * e := by positivity
  have q5 : 0 ≤ C * e := by positivity
  have h' : a1 * e + a2 * e + a3 * e + 2 * (a4 * e) + C * e ≤ ρ := by linarith [h, mul_comm e (a1 + a2 + a3 + 2 * a4 + C)]
  refine ⟨by linarith, by linarith, by linarith, by linarith, by linarith⟩

/-- **The error analysis of whole runs.** -/
theorem pert_exists {Law : (F : Type) → [Scalar F] → [LawfulCmp F] → ℝ → Prop}
    (hLaw : ∀ {F : Type} [Scalar F] [LawfulCmp F] {e : ℝ}, Law F e → Precise F e ∧ Propagates F)
    (hn : 0 < n) (hp : 0 < p) (D : Design n p) (hD : D.Canonical) (y : Fin n → ℝ) (k : LossKind)
    (hy : k.LabelsOK y) (pen : Pen) (hv : pen.Valid) (hc : pen.Convex) {a b : ℝ} (ha : 0 ≤ a) (hb : 0 ≤ b)
    (hab : 0 < a + b) (hpen : pen.fn = pen2 a b) (hcall : Callable Law D y k pen) (T : ℕ) :
    ∃ ρ₁ : ℝ, 0 < ρ₁ ∧ ∀ ρ, 0 < ρ → ρ ≤ ρ₁ → ∀ τ, ∃ e₀ : ℝ, 0 < e₀ ∧
      ∀ {F : Type} [Scalar F] [LawfulCmp F] {e : ℝ}, Law F e → e ≤ e₀ →
      ∀ (x : D.Entries F) (y' : Fin n → F) (pen' : PenOf F), D.StoredAs e x → (∀ i, Stores e (y' i) (y i)) → pen'.Stored e pen →
      ∀ (srt : Argsort F), ArgsortSpec srt → ∀ cfg : Solver F, SettingsOK cfg p → Stores e cfg.tolerance τ →
      ∀ {α : Type} (run : ∀ {DM DF P : Type} [DesignMatrix F DM] [Datafit F DM DF] [Penalty F P], Dataset DM F → DF → P → α)
        (Q : α → Prop),
        (∀ {DM DF P : Type} [DesignMatrix F DM] [Datafit F DM DF] [Penalty F P] (ds : Dataset DM F) (df0 df : DF) (pn : P),
          PertCall D y k pen a b ρ τ T srt cfg ds df0 df pn → Q (run ds df0 pn)) →
        Q (callOf D x y' k pen' run) := by
  have H := prob1_cvx_of hn D hD y k hy pen hv hc ha hb hab hpen
  obtain ⟨R, hR⟩ : ∃ R, R = prob1 D y k pen := ⟨_, rfl⟩
  obtain ⟨c, hcc⟩ : ∃ c, c = R.F 0 + 1 := ⟨_, rfl⟩
  have hc0 : 0 ≤ c := by
    have := H.F_nonneg 0
    rw [← hR] at this
    linarith
  obtain ⟨B0, hB01, hLle, hLge, hbnd⟩ := mags_bound H D.matrix (c + 1)
  obtain ⟨B, hB⟩ : ∃ B, B = 4 * B0 ^ 2 := ⟨_, rfl⟩
  have hBB : B0 ≤ B := by rw [hB]; nlinarith
  obtain ⟨K, hK⟩ : ∃ K : ℝ, K = 10 * ((0 : ℕ) + 1) ^ 2 * (B + 1) ^ 3 := ⟨_, rfl⟩
  have hK1 : 1 ≤ K := one_le_K (hB01.trans hBB) hK
  obtain ⟨Bv, Bu, C, hBv, hBu, hfit, hC, hall⟩ := hcall B (2 * (c + 1)) (hB01.trans hBB) (by linarith)
  obtain ⟨ρ₁, hρ₁, hρ₁'⟩ := rho_exists (p := p) T hB01
  have hCK : 0 ≤ C * K := by positivity
  obtain ⟨Dm, hDm⟩ : ∃ Dm : ℝ, Dm = C + T * (p * (C * K)) := ⟨_, rfl⟩
  have hCD : C ≤ Dm := by
    have : 0 ≤ (T : ℝ) * (p * (C * K)) := by positivity
    linarith
  refine ⟨ρ₁, hρ₁, fun ρ hρ hρ2 τ => ?_⟩
  obtain ⟨r1, r2, r3⟩ := hρ₁' ρ hρ hρ2
  obtain ⟨e₀, he₀, hprec⟩ := prec_exists (τ := τ) hC hK1 (hC.trans hCD) hc0 hρ r1
  refine ⟨e₀, he₀, ?_⟩
  intro F _ _ e hlaw hee x y' pen' hx hy' hpn srt hs cfg hcfg htol α run Q hQ
  obtain ⟨Pr, S⟩ := hLaw hlaw
  have he := Pr.pos
  obtain ⟨s1, s2, s3, s4, s5⟩ := hprec e he hee
  refine hall hlaw s1 x y' pen' hx hy' hpn run Q fun ds df0 df pn hA => hQ ds df0 df pn ⟨hA.samples, hA.features, hA.init, ?_⟩
  subst hR
  have FS : FSys e B0 B K C Dm ρ c 0 ds df pn D.matrix (gradOf D.matrix y k) (prob1 D y k pen) (fun w => k.loss y (fit D.matrix w)) a b :=
    { prec := Pr
      kk := Consts.mk' he (hB01.trans hBB) hK
      C1 := hC
      fitA := hA.fitA
      penA := hpen ▸ hA.penA
      grad := fun w j => rfl
      cvx := H
      B01 := hB01
      hB := hB.ge
      Lle := hLle
      Lge := hLge
      bnd := hbnd
      small := s2
      small2 := s3
      ρ1 := r1
      ρB := r2 }
  have O : ObjApx e Bv Bu C Dm ρ c ds df pn D.matrix (k.loss y) pen.fn (prob1 D y k pen) :=
    { prec := Pr
      prop := S
      samples := hA.samples
      features := hA.features
      safe := hA.fitA.safe
      safeP := hA.penA.safe
      fitV := hA.fitV
      penV := hA.penV
      obj := fun w => rfl
      pos := H.F_nonneg
      bnd := fun w hw => by
        obtain ⟨h1, h2, -⟩ := hbnd w (by linarith)
        exact ⟨fun j => (h1 j).trans (hBB.trans hBv), fun i => (h2 i).trans (hBB.trans hBu)⟩
      fitb := hfit
      C1 := hC
      c0 := hc0
      CD := hCD
      small := s4
      ρ1 := r1 }
  have hη : ρ ≤ p * (ρ ^ 2 * B0) + ρ := by
    have : 0 ≤ (p : ℝ) * (ρ ^ 2 * B0) := by positivity
    linarith
  have hacc := O.hacc (K := K) cfg (fun hu => by
    obtain ⟨h1, h2, h3⟩ := hcfg.accel hu
    exact ⟨h1, le_min h2 h3⟩) (T := T) (le_refl C) hCK hDm.ge hη hρ.le r3 hcc
  have htol' : ∃ τ', Den cfg.tolerance τ' ∧ |τ' - τ| ≤ ρ / 2 := by
    obtain ⟨t, h1, h2⟩ := htol.near
    exact ⟨t, h1, h2.trans s5⟩
  refine ⟨FSys.Inv D.matrix e C K (prob1 D y k pen) C (p * (ρ ^ 2 * B0) + ρ), BufOK (fun j => (prob1 D y k pen).L j = 0) cfg.K, ?_, ?_, ?_⟩
  · rw [← hcc]
    exact FS.pert hs cfg hcfg.ws hp htol' hC hDm.ge (by linarith) r3 hcc (fun l => bufOK_zeros _ _ l) hacc
  · refine ⟨0, ⟨fun _ => zero, fun _ => zero, by simp [initCD], fun j => den_zero, fun i => ?_⟩, by simp, fun _ _ => rfl⟩
    refine ⟨0, den_zero, ?_⟩
    have e1 : fit D.matrix 0 i = 0 := by simp [fit]
    rw [e1, sub_zero, abs_zero]
    positivity
  · rintro j s ⟨v, h1, -, -⟩
    have h2 := h1.abs
    obtain ⟨x, u, rfl, h3, -⟩ := h1
    rw [h2]
    exact ⟨x, rfl, h3⟩

/-! ## Results of runs -/

section
variable {F DM DF P : Type} [Scalar F] [LawfulCmp F] [DesignMatrix F DM] [Datafit F DM DF] [Penalty F P]

theorem absOf_init : absOf p (initCD n p : CDState F) = 0 := by
  funext j
  unfold absOf initCD
  refine realOf_den ?_
  rw [List.getD_eq_getElem?_getD]
  simp [den_zero]

namespace PertCall
variable {D : Design n p} {y : Fin n → ℝ} {k : LossKind} {pen : Pen} {a b ρ τ : ℝ} {T : ℕ} {srt : Argsort F}
    {cfg : Solver F} {ds : Dataset DM F} {df0 df : DF} {pn : P} (S : PertCall D y k pen a b ρ τ T srt cfg ds df0 df pn)
include S

theorem run_eq : runCD srt ds df0 pn cfg = (skelCD srt ds df pn cfg p (ws0CD cfg p)).outer cfg.maxIterations (initCD n p) := by
  unfold runCD
  rw [S.features, S.init, S.samples]
  rfl

/-- Every run returns. -/
theorem run_ok {ν : ℝ} (hρ : 0 ≤ ρ) (hν : Pert.Grow (prob1 D y k pen) (subdiff (pen2 a b)) ρ ν) (hT : 2 * cfg.maxEpochs * cfg.maxIterations ≤ T) :
    Ok (runCD srt ds df0 pn cfg) (fun q => ∃ (x : Fin p → F) (v : Fin p → ℝ), q.1.w = List.ofFn x ∧ (∀ j, Den (x j) (v j)) ∧
      q.2 ≤ cfg.maxIterations ∧ (prob1 D y k pen).F v ≤ (prob1 D y k pen).F 0 + cfg.maxIterations * (cfg.maxEpochs * ν) ∧
      (q.2 < cfg.maxIterations → ∀ j, (prob1 D y k pen).sc (v j) ((prob1 D y k pen).G v j) ≤ τ + ρ)) := by
  rw [S.run_eq]
  obtain ⟨Inv, BInv, hP, h0, hI⟩ := S.pert
  refine Tri.mono (hP.outer_ok hρ hν (Or.inl fun _ => trivial) cfg.maxIterations 0 (initCD n p) (by
    show 0 + 2 * cfg.maxEpochs * cfg.maxIterations ≤ T
    omega) h0 trivial) ?_
  rintro q ⟨⟨k', -, h1⟩, -, h2, h3, h4⟩
  obtain ⟨x, h5, h6⟩ := hI _ _ h1
  rw [absOf_init] at h3
  exact ⟨x, absOf p q.1, h5, h6, h2, h3, h4⟩

/-- Runs with enough iterations stop. -/
theorem run_stops {ν : ℝ} (hρ : 0 ≤ ρ) (hν : Pert.Grow (prob1 D y k pen) (subdiff (pen2 a b)) ρ ν) {N : ℕ} (hT : 2 * cfg.maxEpochs * N ≤ T)
    (hN : N ≤ cfg.maxIterations)
    (ht : ∀ (Inv : ℕ → CDState F → Prop) (BInv : List (Fin p) → Mat F → Prop),
      Pert (skelCD srt ds df pn cfg p (ws0CD cfg p)) (prob1 D y k pen) (subdiff (pen2 a b)) ρ τ ((prob1 D y k pen).F 0 + 1) T (ws0CD cfg p)
      (PlainEp cfg) (absOf p) Inv (fun _ => True) BInv → Inv 0 (initCD n p) →
      Tri (fun _ => False) ((skelCD srt ds df pn cfg p (ws0CD cfg p)).outer N (initCD n p)) (fun q =>
        (∃ k', k' ≤ T ∧ Inv k' q.1) ∧
        ∃ kkt km, (skelCD srt ds df pn cfg p (ws0CD cfg p)).viol q.1 = .ok (kkt, km) ∧
          (skelCD srt ds df pn cfg p (ws0CD cfg p)).done km = true)) :
    Ok (runCD srt ds df0 pn cfg) (fun q => ∃ (x : Fin p → F) (v : Fin p → ℝ), q.1.w = List.ofFn x ∧ (∀ j, Den (x j) (v j)) ∧
      q.2 ≤ N ∧ (prob1 D y k pen).F v ≤ (prob1 D y k pen).F 0 + N * (cfg.maxEpochs * ν) ∧
      ∀ j, (prob1 D y k pen).sc (v j) ((prob1 D y k pen).G v j) ≤ τ + ρ) := by
  rw [S.run_eq]
  obtain ⟨Inv, BInv, hP, h0, hI⟩ := S.pert
  obtain ⟨q, hq, ⟨⟨k', hk', h1⟩, kkt, km, h2, h3⟩, -, -, h4, h5, -⟩ := Tri.exists_ok (Tri.and (ht Inv BInv hP h0)
    (hP.outer_ok hρ hν (Or.inl fun _ => trivial) N 0 (initCD n p) (by show 0 + 2 * cfg.maxEpochs * N ≤ T; omega) h0 trivial))
  obtain ⟨m, hm⟩ := Nat.exists_eq_add_of_le hN
  rw [hm, Skel.outer_add, hq]
  dsimp only [bind, Except.bind]
  rw [Skel.outer_done _ m q.1 kkt km h2 h3]
  obtain ⟨x, h6, h7⟩ := hI _ _ h1
  rw [absOf_init] at h5
  have h8 := (Tri.elim_ok (hP.viol k' q.1 hk' h1 trivial) h2).1 h3
  exact ⟨x, absOf p q.1, h6, h7, h4, h5, h8⟩

end PertCall

omit [LawfulCmp F] in
/-- From runs on the skeleton to the two entry points. -/
theorem runs_to (srt : Argsort F) (cfg : Solver F) (ds : Dataset DM F) (df0 : DF) (pn : P) {Q : CDState F × ℕ → Prop}
    (h : Ok (runCD srt ds df0 pn cfg) Q) : ∃ q, Q q ∧ cfg.solve srt ds df0 pn = .ok q.1.w ∧ ∃ log,
      (do
        let (st, _, log) ← coordinateDescent srt ds df0 pn (cfg.setVerbose true)
        pure (st, log)) = (Except.ok (q.1, log) : M (CDState F × List (Event F))) ∧ iterationsPrinted log = q.2 := by
  obtain ⟨q, hq, hQ⟩ := Tri.exists_ok h
  refine ⟨q, hQ, by rw [solve_eq, hq]; rfl, ?_⟩
  have h1 := cd_rel srt ds df0 pn (cfg.setVerbose true)
  have e1 : runCD srt ds df0 pn (cfg.setVerbose true) = runCD srt ds df0 pn cfg := rfl
  rw [e1, hq] at h1
  cases hc : coordinateDescent srt ds df0 pn (cfg.setVerbose true) with
  | error e => rw [hc] at h1; exact h1.elim
  | ok r =>
    obtain ⟨st, df, log⟩ := r
    rw [hc] at h1
    obtain ⟨h2, h3, -⟩ := h1
    change st = q.1 at h2
    subst h2
    exact ⟨log, rfl, h3 rfl⟩

end

/-- Two functions of the same call. -/
theorem callOf_pair {F : Type} [Scalar F] (D : Design n p) (x : D.Entries F) (y : Fin n → F) (k : LossKind) (pen : PenOf F) {α β : Type}
    (r1 : ∀ {DM DF P : Type} [DesignMatrix F DM] [Datafit F DM DF] [Penalty F P], Dataset DM F → DF → P → α)
    (r2 : ∀ {DM DF P : Type} [DesignMatrix F DM] [Datafit F DM DF] [Penalty F P], Dataset DM F → DF → P → β) :
    callOf D x y k pen (fun ds df pn => (r1 ds df pn, r2 ds df pn)) = (callOf D x y k pen r1, callOf D x y k pen r2) := by
  unfold callOf
  cases pen <;> cases D <;> cases k <;> rfl

/-- The two entry points, from the runs on the skeleton. -/
theorem runsTo_of {F : Type} [Scalar F] [LawfulCmp F] (srt : Argsort F) (cfg : Solver F) (D : Design n p) (x : D.Entries F) (y : Fin n → F)
    (k : LossKind) (pen : PenOf F) (Q : (Fin p → ℝ) → ℕ → Prop) (PC : ∀ {DM DF P : Type} [DesignMatrix F DM] [Datafit F DM DF] [Penalty F P],
      Dataset DM F → DF → DF → P → Prop)
    (h : ∀ {α : Type} (run : ∀ {DM DF P : Type} [DesignMatrix F DM] [Datafit F DM DF] [Penalty F P], Dataset DM F → DF → P → α)
        (Q : α → Prop),
        (∀ {DM DF P : Type} [DesignMatrix F DM] [Datafit F DM DF] [Penalty F P] (ds : Dataset DM F) (df0 df : DF) (pn : P),
          PC ds df0 df pn → Q (run ds df0 pn)) →
        Q (callOf D x y k pen run))
    (h' : ∀ {DM DF P : Type} [DesignMatrix F DM] [Datafit F DM DF] [Penalty F P] (ds : Dataset DM F) (df0 df : DF) (pn : P),
      PC ds df0 df pn → Ok (runCD srt ds df0 pn cfg) (fun q => ∃ (w : Fin p → F) (v : Fin p → ℝ), q.1.w = List.ofFn w ∧
        (∀ j, Den (w j) (v j)) ∧ Q v q.2)) :
    ∃ v m, RunsTo srt cfg D x y k pen v m ∧ Q v m := by
  have key := h (fun ds df pn => (cfg.solve srt ds df pn, (do
        let (st, _, log) ← coordinateDescent srt ds df pn (cfg.setVerbose true)
        pure (st, log) : M (CDState F × List (Event F)))))
    (fun r => ∃ v m, (∃ w : Fin p → F, (∀ j, Den (w j) (v j)) ∧ r.1 = .ok (List.ofFn w) ∧
      ∃ st log, r.2 = .ok (st, log) ∧ st.w = List.ofFn w ∧ iterationsPrinted log = m) ∧ Q v m) (by
    intro DM DF P _ _ _ ds df0 df pn hp
    obtain ⟨q, ⟨w, v, h1, h2, h3⟩, h4, log, h5, h6⟩ := runs_to srt cfg ds df0 pn (h' ds df0 df pn hp)
    exact ⟨v, q.2, ⟨w, h2, by rw [h4, h1], q.1, log, h5, h1, h6⟩, h3⟩)
  rw [callOf_pair] at key
  exact key

/-- **Runs in floating point return, and do not increase the objective.** -/
theorem float_run {Law : (F : Type) → [Scalar F] → [LawfulCmp F] → ℝ → Prop}
    (hLaw : ∀ {F : Type} [Scalar F] [LawfulCmp F] {e : ℝ}, Law F e → Precise F e ∧ Propagates F)
    (hn : 0 < n) (hp : 0 < p) (D : Design n p) (hD : D.Canonical) (y : Fin n → ℝ) (k : LossKind)
    (hy : k.LabelsOK y) (pen : Pen) (hv : pen.Valid) (hc : pen.Convex) (hα : 0 < pen.fn 1) (hcall : Callable Law D y k pen)
    (M E : ℕ) (τ ε : ℝ) (hε : 0 < ε) :
    ∃ e₀ : ℝ, 0 < e₀ ∧ ∀ {F : Type} [Scalar F] [LawfulCmp F] {e : ℝ}, Law F e → e ≤ e₀ →
      ∀ (x : D.Entries F) (y' : Fin n → F) (pen' : PenOf F), D.StoredAs e x → (∀ i, Stores e (y' i) (y i)) → pen'.Stored e pen →
      ∀ (srt : Argsort F), ArgsortSpec srt → ∀ cfg : Solver F, SettingsOK cfg p → Stores e cfg.tolerance τ →
      cfg.maxIterations ≤ M → cfg.maxEpochs ≤ E →
      ∃ v m, RunsTo srt cfg D x y' k pen' v m ∧ m ≤ cfg.maxIterations ∧
        (prob1 D y k pen).F v ≤ (prob1 D y k pen).F 0 + ε ∧
        (m < cfg.maxIterations → ∀ j, (prob1 D y k pen).sc (v j) ((prob1 D y k pen).G v j) ≤ τ + ε) := by
  obtain ⟨a, b, ha, hb, hab, hpen⟩ := pen_fn_eq pen hv hc hα
  have H := prob1_cvx_of hn D hD y k hy pen hv hc ha hb hab hpen
  obtain ⟨ρ₁, hρ₁, h1⟩ := pert_exists hLaw hn hp D hD y k hy pen hv hc ha hb hab hpen hcall (2 * E * M)
  obtain ⟨m0, hm0, hgrow⟩ := Pert.grow_exists H
  have hS : 0 < (M * E : ℝ) * (m0 + 1) + 1 := by positivity
  obtain ⟨ρ, hρ, l1, l2, l3⟩ : ∃ ρ : ℝ, 0 < ρ ∧ ρ ≤ ρ₁ ∧ ρ ≤ 1 ∧ ρ ≤ ε / ((M * E : ℝ) * (m0 + 1) + 1) :=
    ⟨min ρ₁ (min 1 (ε / ((M * E : ℝ) * (m0 + 1) + 1))), by positivity, min_le_left _ _, (min_le_right _ _).trans (min_le_left _ _),
      (min_le_right _ _).trans (min_le_right _ _)⟩
  rw [le_div_iff₀ hS] at l3
  have hν : m0 * ρ ^ 2 + ρ ≤ ρ * (m0 + 1) := by nlinarith [mul_le_mul_of_nonneg_left l2 (mul_nonneg hm0 hρ.le)]
  have hME : (M * E : ℝ) * (m0 * ρ ^ 2 + ρ) ≤ ε := by
    have := mul_le_mul_of_nonneg_left hν (by positivity : 0 ≤ (M * E : ℝ))
    nlinarith
  have hρε : ρ ≤ ε := by
    have : 0 ≤ ρ * ((M * E : ℝ) * (m0 + 1)) := by positivity
    linarith
  obtain ⟨e₀, he₀, h2⟩ := h1 ρ hρ l1 τ
  refine ⟨e₀, he₀, ?_⟩
  intro F _ _ e hlaw hee x y' pen' hx hy' hpn srt hs cfg hcfg htol hM hE
  refine runsTo_of srt cfg D x y' k pen' _ (fun ds df0 df pn => PertCall D y k pen a b ρ τ (2 * E * M) srt cfg ds df0 df pn)
    (h2 hlaw hee x y' pen' hx hy' hpn srt hs cfg hcfg htol) ?_
  intro DM DF P _ _ _ ds df0 df pn hP
  refine Tri.mono (hP.run_ok hρ.le (hgrow ρ hρ.le) (Nat.mul_le_mul (Nat.mul_le_mul_left 2 hE) hM)) ?_
  rintro q ⟨w, v, q1, q2, q3, q4, q5⟩
  refine ⟨w, v, q1, q2, q3, ?_, fun h j => (q5 h j).trans (by linarith)⟩
  have hν0 : 0 ≤ m0 * ρ ^ 2 + ρ := by positivity
  have c1 : (cfg.maxIterations : ℝ) ≤ M := by exact_mod_cast hM
  have c2 : (cfg.maxEpochs : ℝ) ≤ E := by exact_mod_cast hE
  have c3 : (cfg.maxIterations : ℝ) * (cfg.maxEpochs * (m0 * ρ ^ 2 + ρ)) ≤ M * (E * (m0 * ρ ^ 2 + ρ)) := by gcongr
  linarith

/-- **Runs in floating point stop.** -/
theorem float_stops {Law : (F : Type) → [Scalar F] → [LawfulCmp F] → ℝ → Prop}
    (hLaw : ∀ {F : Type} [Scalar F] [LawfulCmp F] {e : ℝ}, Law F e → Precise F e ∧ Propagates F)
    (hn : 0 < n) (hp : 0 < p) (D : Design n p) (hD : D.Canonical) (y : Fin n → ℝ) (k : LossKind)
    (hy : k.LabelsOK y) (pen : Pen) (hv : pen.Valid) (hc : pen.Convex) (hα : 0 < pen.fn 1) (hcall : Callable Law D y k pen)
    (τ : ℝ) (hτ : 0 < τ) :
    ∃ N : ℕ, ∀ (E : ℕ) (ε : ℝ), 0 < ε → ∃ e₀ : ℝ, 0 < e₀ ∧ ∀ {F : Type} [Scalar F] [LawfulCmp F] {e : ℝ}, Law F e → e ≤ e₀ →
      ∀ (x : D.Entries F) (y' : Fin n → F) (pen' : PenOf F), D.StoredAs e x → (∀ i, Stores e (y' i) (y i)) → pen'.Stored e pen →
      ∀ (srt : Argsort F), ArgsortSpec srt → ∀ cfg : Solver F, SettingsOK cfg p → Stores e cfg.tolerance τ →
      N ≤ cfg.maxIterations → cfg.maxEpochs ≤ E → 0 < cfg.maxEpochs → PlainTail (PlainEp cfg) cfg.maxEpochs 0 →
      ∃ v m, RunsTo srt cfg D x y' k pen' v m ∧ m ≤ N ∧
        (prob1 D y k pen).F v ≤ (prob1 D y k pen).F 0 + ε ∧
        ∀ j, (prob1 D y k pen).sc (v j) ((prob1 D y k pen).G v j) ≤ τ + ε := by
  obtain ⟨a, b, ha, hb, hab, hpen⟩ := pen_fn_eq pen hv hc hα
  have H := prob1_cvx_of hn D hD y k hy pen hv hc ha hb hab hpen
  obtain ⟨N, ρ₀, ν₀, hρ₀, hν₀, hterm⟩ := Pert.terminates (c := (prob1 D y k pen).F 0 + 1) H hτ
  refine ⟨N, fun E ε hε => ?_⟩
  obtain ⟨ρ₁, hρ₁, h1⟩ := pert_exists hLaw hn hp D hD y k hy pen hv hc ha hb hab hpen hcall (2 * E * N)
  obtain ⟨m0, hm0, hgrow⟩ := Pert.grow_exists H
  have hS : 0 < (N * E : ℝ) * (m0 + 1) + 1 := by positivity
  have hS2 : 0 < (E : ℝ) * (m0 + 1) + 1 := by positivity
  obtain ⟨ρ, hρ, l1, l2, l3, l4, l5⟩ : ∃ ρ : ℝ, 0 < ρ ∧ ρ ≤ ρ₁ ∧ ρ ≤ 1 ∧ ρ ≤ ε / ((N * E : ℝ) * (m0 + 1) + 1) ∧ ρ ≤ ρ₀ ∧
      ρ ≤ ν₀ / ((E : ℝ) * (m0 + 1) + 1) :=
    ⟨min (min ρ₁ (min 1 (ε / ((N * E : ℝ) * (m0 + 1) + 1)))) (min ρ₀ (ν₀ / ((E : ℝ) * (m0 + 1) + 1))), by positivity,
      (min_le_left _ _).trans (min_le_left _ _), (min_le_left _ _).trans ((min_le_right _ _).trans (min_le_left _ _)),
      (min_le_left _ _).trans ((min_le_right _ _).trans (min_le_right _ _)), (min_le_right _ _).trans (min_le_left _ _),
      (min_le_right _ _).trans (min_le_right _ _)⟩
  rw [le_div_iff₀ hS] at l3
  rw [le_div_iff₀ hS2] at l5
  have hν : m0 * ρ ^ 2 + ρ ≤ ρ * (m0 + 1) := by nlinarith [mul_le_mul_of_nonneg_left l2 (mul_nonneg hm0 hρ.le)]
  have hNE : (N * E : ℝ) * (m0 * ρ ^ 2 + ρ) ≤ ε := by
    have := mul_le_mul_of_nonneg_left hν (by positivity : 0 ≤ (N * E : ℝ))
    nlinarith
  have hE0 : (E : ℝ) * (m0 * ρ ^ 2 + ρ) ≤ ν₀ := by
    have := mul_le_mul_of_nonneg_left hν (by positivity : 0 ≤ (E : ℝ))
    nlinarith
  have hρε : ρ ≤ ε := by
    have : 0 ≤ ρ * ((N * E : ℝ) * (m0 + 1)) := by positivity
    linarith
  obtain ⟨e₀, he₀, h2⟩ := h1 ρ hρ l1 τ
  refine ⟨e₀, he₀, ?_⟩
  intro F _ _ e hlaw hee x y' pen' hx hy' hpn srt hs cfg hcfg htol hN hE hE1 hplain
  refine runsTo_of srt cfg D x y' k pen' _ (fun ds df0 df pn => PertCall D y k pen a b ρ τ (2 * E * N) srt cfg ds df0 df pn)
    (h2 hlaw hee x y' pen' hx hy' hpn srt hs cfg hcfg htol) ?_
  intro DM DF P _ _ _ ds df0 df pn hP
  have hν0 : 0 ≤ m0 * ρ ^ 2 + ρ := by positivity
  have c2 : (cfg.maxEpochs : ℝ) ≤ E := by exact_mod_cast hE
  have hT : 2 * cfg.maxEpochs * N ≤ 2 * E * N := Nat.mul_le_mul_right _ (Nat.mul_le_mul_left 2 hE)
  have c4 : (cfg.maxEpochs : ℝ) * (m0 * ρ ^ 2 + ρ) ≤ E * (m0 * ρ ^ 2 + ρ) := mul_le_mul_of_nonneg_right c2 hν0
  refine Tri.mono (hP.run_stops hρ.le (hgrow ρ hρ.le) hT hN fun Inv BInv hPt h0 => ?_) ?_
  · refine Tri.mono (hterm hPt hρ.le l4 (hgrow ρ hρ.le) (c4.trans hE0) hE1 hplain 0 _ (by
      show 0 + 2 * cfg.maxEpochs * N ≤ _
      omega) h0 trivial) ?_
    rintro q ⟨⟨k', h3, h4⟩, h5⟩
    exact ⟨⟨k', by change k' ≤ 0 + 2 * cfg.maxEpochs * N at h3; omega, h4⟩, h5⟩
  · rintro q ⟨w, v, q1, q2, q3, q4, q5⟩
    refine ⟨w, v, q1, q2, q3, ?_, fun j => (q5 j).trans (by linarith)⟩
    have c3 : (N : ℝ) * (cfg.maxEpochs * (m0 * ρ ^ 2 + ρ)) ≤ N * (E * (m0 * ρ ^ 2 + ρ)) :=
      mul_le_mul_of_nonneg_left c4 (Nat.cast_nonneg N)
    linarith

end Sglm
