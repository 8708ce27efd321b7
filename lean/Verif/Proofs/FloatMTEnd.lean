import Verif.Proofs.FloatMTAccel
import Verif.Proofs.FloatEnd
import Verif.Proofs.Converge

/-!
# Runs of the multi-task Lasso in floating point: results
-/

set_option linter.unusedSectionVars false

namespace Sglm
open Scalar Spec
variable {n p T : ℕ}

section
variable {F DM DF : Type} [Scalar F] [LawfulCmp F] [DesignMatrix F DM] [MTDatafit F DM DF]

theorem FitMTApx.mono {e B C C' : ℝ} {ds : Dataset DM F} {df : DF} {A : Fin n → Fin p → ℝ}
    {g : (Fin n → Fin T → ℝ) → Fin p → Fin T → ℝ} {L : Fin p → ℝ} (h : FitMTApx e B C ds df A g L) (he : 0 ≤ e) (hC : C ≤ C') :
    FitMTApx e B C' ds df A g L := by
  refine ⟨h.safe, h.tasks, h.samples, h.feats, ?_, ?_, ?_⟩
  · obtain ⟨l, h1, h2⟩ := h.step
    exact ⟨l, h1, fun j => ⟨(h2 j).1.mono he hC, (h2 j).2⟩⟩
  · intro u U d hd hs hU hu j
    have k1 : C * d ≤ C' * d := mul_le_mul_of_nonneg_right hC (by linarith)
    obtain ⟨γ, h1, h2⟩ := h.grad u U d hd ((mul_le_mul_of_nonneg_right k1 he).trans hs) hU hu j
    exact ⟨γ, h1, fun t => (h2 t).mono he k1⟩
  · intro u U d c y s hd hc hs hU hsB hu hy j
    have k1 : C * (d + c) ≤ C' * (d + c) := mul_le_mul_of_nonneg_right hC (by linarith)
    have k2 : C * c ≤ C' * c := mul_le_mul_of_nonneg_right hC (by linarith)
    obtain ⟨u', h1, h2⟩ := h.upd u U d c y s hd hc ((mul_le_mul_of_nonneg_right k1 he).trans hs) hU hsB hu hy j
    exact ⟨u', h1, fun i t => (h2 i t).mono he (by linarith)⟩

theorem FitMTVal.mono {e Bv Bu C C' : ℝ} {ds : Dataset DM F} {df : DF} {A : Fin n → Fin p → ℝ} {f : (Fin n → Fin T → ℝ) → ℝ}
    (h : FitMTVal e Bv Bu C ds df A f) (he : 0 ≤ e) (hC : C ≤ C') : FitMTVal e Bv Bu C' ds df A f := by
  refine ⟨h.nonneg, ?_, ?_⟩
  · intro u U d hd hs hU hu
    have k1 : C * d ≤ C' * d := mul_le_mul_of_nonneg_right hC (by linarith)
    exact Tri.mono (h.val u U d hd ((mul_le_mul_of_nonneg_right k1 he).trans hs) hU hu) fun x hx => hx.mono he k1
  · intro l w v hl hw hv h0
    obtain ⟨u, h1, h2⟩ := h.extra l w v hl hw hv h0
    exact ⟨u, h1, fun i t => (h2 i t).mono he hC⟩

end

section
variable {F : Type} [Scalar F] [LawfulCmp F]

theorem PenMTVal.mono {P : Type} [MTPenalty F P] {e m Bv C C' : ℝ} {pn : P} {α : ℝ} (h : PenMTVal p T e m Bv C pn α) (he : 0 ≤ e)
    (hC : C ≤ C') : PenMTVal p T e m Bv C' pn α :=
  ⟨h.nonneg, fun w v hw hv => Tri.mono (h.val w v hw hv) fun _ hx => hx.mono he hC, h.back⟩

theorem ProxMT.mono {e B C C' κ α : ℝ} {a : F} (h : ProxMT T e B C κ a α) (he : 0 ≤ e) (hC : C ≤ C') : ProxMT T e B C' κ a α := by
  intro v s V L c hc hs hV h1 h2 hv hs1
  have k1 : C * c * e ≤ C' * c * e := mul_le_mul_of_nonneg_right (mul_le_mul_of_nonneg_right hC (by linarith)) he
  obtain ⟨x, z, e1, e2, ⟨g, e3, e4⟩, e5⟩ := h v s V L c hc (k1.trans hs) hV h1 h2 hv hs1
  exact ⟨x, z, e1, e2, ⟨g, e3, e4.trans k1⟩, e5⟩

end

/-- What is known about the objects given to the multi-task solver. -/
structure CallMTApx {F DM DF : Type} [Scalar F] [LawfulCmp F] [DesignMatrix F DM] [MTDatafit F DM DF] (e B C κ m Bv Bu : ℝ)
    (ds : Dataset DM F) (df0 df : DF) (al : F) (D : Design n p) (Y : Fin n → Fin T → ℝ) (α : ℝ) : Prop where
  init : MTDatafit.init df0 ds = .ok df
  fitA : FitMTApx e B C ds df D.matrix (mtGrad D.matrix Y) (stepsOf D .quadratic)
  penA : ProxMT T e B C κ al α
  fitV : FitMTVal e Bv Bu C ds df D.matrix (mtLoss Y)
  penV : PenMTVal p T e m Bv C (L21.mk al) α

/-- The contracts of the objects given to the multi-task solver hold. -/
theorem callMT_exists (hn : 0 < n) (D : Design n p) (Y : Fin n → Fin T → ℝ) (α : ℝ) (hα : 0 < α) (B m : ℝ) (hB : 1 ≤ B) (hm : 0 ≤ m) :
    ∃ Bv Bu C κ : ℝ, m ≤ α * Bv ∧ (∀ v : Fin p → Fin T → ℝ, (∀ j t, |v j t| ≤ Bv) → ∀ i t, |fitMT D.matrix v i t| ≤ Bu) ∧ 1 ≤ C ∧ 0 < κ ∧
      ∀ {F : Type} [Scalar F] [LawfulCmp F] {e η : ℝ}, Precise F e → Propagates F → PreciseMT F e η → C * e ≤ 1 →
      ∀ (x : D.Entries F) (y' : Fin n → Fin T → F) (al : F), D.StoredAs e x → (∀ i t, Stores e (y' i t) (Y i t)) → Stores e al α →
      ∀ {β : Type} (run : ∀ {DM DF P : Type} [DesignMatrix F DM] [MTDatafit F DM DF] [MTPenalty F P], Dataset DM F → DF → P → β)
        (Q : β → Prop),
        (∀ {DM DF : Type} [DesignMatrix F DM] [MTDatafit F DM DF] (ds : Dataset DM F) (df0 df : DF),
          CallMTApx e B C κ m Bv Bu ds df0 df al D Y α → Q (run ds df0 (L21.mk al))) →
        Q (callMTOf D x y' al run) := by
  obtain ⟨Bv, C1, hBv, hmB, hC1, H1⟩ := penMTVal_exists p T α hα m hm
  obtain ⟨C2, κ, hC2, hκ, H2⟩ := proxMT_exists T α hα B hB
  obtain ⟨Bu, hBu⟩ : ∃ Bu : ℝ, Bu = ∑ i, ∑ j, |D.matrix i j| * Bv := ⟨_, rfl⟩
  have hfit : ∀ v : Fin p → Fin T → ℝ, (∀ j t, |v j t| ≤ Bv) → ∀ i t, |fitMT D.matrix v i t| ≤ Bu := fun v hv i t => by
    have h3 : |fitMT D.matrix v i t| ≤ ∑ j, |D.matrix i j| * Bv := by
      refine (Finset.abs_sum_le_sum_abs _ _).trans (Finset.sum_le_sum fun j _ => ?_)
      rw [abs_mul]
      exact mul_le_mul_of_nonneg_left (hv j t) (abs_nonneg _)
    rw [hBu]
    exact h3.trans (Finset.single_le_sum (f := fun i => ∑ j, |D.matrix i j| * Bv)
      (fun i _ => Finset.sum_nonneg fun j _ => mul_nonneg (abs_nonneg _) (by linarith)) (Finset.mem_univ i))
  obtain ⟨C3, hC3, H3⟩ := fitMTVal_exists hn D Y Bv Bu
  cases D with
  | dense X =>
    obtain ⟨C4, hC4, H4⟩ := fitMT_dense hn X Y B hB
    refine ⟨Bv, Bu, C1 + C2 + C3 + C4, κ, hmB, hfit, by linarith, hκ, ?_⟩
    intro F _ _ e η Pr S M hCe x y' al hx hy hal β run Q hQ
    have he := Pr.pos
    have sm : ∀ {z : ℝ}, z ≤ C1 + C2 + C3 + C4 → z * e ≤ 1 := fun h => (mul_le_mul_of_nonneg_right h he.le).trans hCe
    obtain ⟨df, h1, h2⟩ := H4 Pr M.norm (sm (by linarith)) y' hy x hx QuadraticMT.new
    exact hQ _ _ df ⟨h1, h2.mono he.le (by linarith), (H2 Pr M (sm (by linarith)) al hal).mono he.le (by linarith),
      (H3 Pr S M (sm (by linarith)) y' hy x hx df).mono he.le (by linarith),
      (H1 Pr S M (sm (by linarith)) al hal).mono he.le (by linarith)⟩
  | csc A =>
    obtain ⟨C4, hC4, H4⟩ := fitMT_csc hn A Y B hB
    refine ⟨Bv, Bu, C1 + C2 + C3 + C4, κ, hmB, hfit, by linarith, hκ, ?_⟩
    intro F _ _ e η Pr S M hCe x y' al hx hy hal β run Q hQ
    have he := Pr.pos
    have sm : ∀ {z : ℝ}, z ≤ C1 + C2 + C3 + C4 → z * e ≤ 1 := fun h => (mul_le_mul_of_nonneg_right h he.le).trans hCe
    obtain ⟨df, h1, h2⟩ := H4 Pr (sm (by linarith)) y' hy x hx QuadraticMT.new
    exact hQ _ _ df ⟨h1, h2.mono he.le (by linarith), (H2 Pr M (sm (by linarith)) al hal).mono he.le (by linarith),
      (H3 Pr S M (sm (by linarith)) y' hy x hx df).mono he.le (by linarith),
      (H1 Pr S M (sm (by linarith)) al hal).mono he.le (by linarith)⟩

section
variable {F DM DF : Type} [Scalar F] [LawfulCmp F] [DesignMatrix F DM] [MTDatafit F DM DF]

theorem ObjMT.hacc {e Bv Bu C D ρ c K : ℝ} {ds : Dataset DM F} {df : DF} {al : F} {α : ℝ} {A : Fin n → Fin p → ℝ}
    {f0 : (Fin n → Fin T → ℝ) → ℝ} {R : RProb (Euc T) p} (O : ObjMT e Bv Bu C D ρ c ds df al α A f0 R) (cfg : Solver F)
    (hcfg : cfg.useAcceleration = true → 0 < cfg.K ∧ cfg.K ≤ ws0CD cfg p * T) {d0 η : ℝ} {m : ℕ} (hd0 : C ≤ d0) (hK : 0 ≤ C * K)
    (hD : d0 + m * (p * (C * K)) ≤ D) (hη : ρ ≤ η) (hρ : 0 ≤ ρ) (hTη : m * η ≤ 1) (hc : c = R.F 0 + 1) :
    ∀ k s (l : List (Fin p)) ep bf, k < m → 0 < k → FSysMT.Inv A e C K R d0 η k s → l.Nodup →
      ws0CD cfg p ≤ l.length → BufOK (onRows T fun j => R.L j = 0) cfg.K (expand T l) bf → (∀ j ∉ l, absMT p T s j = 0) →
      Ok (MT.accelBCD ds df (L21.mk al) cfg (l.map Fin.val) ep bf s) (fun r =>
        BufOK (onRows T fun j => R.L j = 0) cfg.K (expand T l) r.1 ∧ FSysMT.Inv A e C K R d0 η (k + 1) r.2 ∧
          R.F (absMT p T r.2) ≤ R.F (absMT p T s) + ρ ∧
          (∀ j ∉ l, absMT p T r.2 j = 0) ∧ (PlainEp cfg ep → absMT p T r.2 = absMT p T s)) := by
  intro k s l ep bf hk hk0 hI hl hwl hb hoff
  have he := O.prec.pos
  have hC := O.C1
  have hη0 : 0 ≤ η := hρ.trans hη
  have hI' := hI.mono he.le hK hη0 (Nat.le_succ k)
  unfold MT.accelBCD
  by_cases hu : cfg.useAcceleration = true
  · rw [if_pos hu]
    obtain ⟨hK0, hKw⟩ := hcfg hu
    obtain ⟨v, h1, h2, h3⟩ := hI
    have hkT : (k : ℝ) ≤ m := by exact_mod_cast hk.le
    have hpCK : 0 ≤ (p : ℝ) * (C * K) := by positivity
    have q1 := mul_le_mul_of_nonneg_right hkT hpCK
    have q2 := mul_le_mul_of_nonneg_right hkT hη0
    have q3 : 0 ≤ (k : ℝ) * (p * (C * K)) := by positivity
    have key := O.accel (Z := fun j => R.L j = 0) hK0 hl (hKw.trans (Nat.mul_le_mul_right T hwl)) h1 (by linarith) (by linarith)
      (by linarith) h3 hb ep
    have e1 : (fun r : Mat F × BCDState F × List (Event F) => (r.1, r.2.1)) <$>
        MT.andersonAccel ds df (L21.mk al) bf s (l.map Fin.val) ep cfg.K false [] =
        (MT.andersonAccel ds df (L21.mk al) bf s (l.map Fin.val) ep cfg.K false []) >>= fun r => pure (r.1, r.2.1) := by
      cases MT.andersonAccel ds df (L21.mk al) bf s (l.map Fin.val) ep cfg.K false [] <;> rfl
    rw [e1]
    refine Tri.bind key ?_
    rintro ⟨b', s', lg⟩ ⟨k1, k2⟩
    show BufOK _ _ _ b' ∧ _
    rcases k2 with k2 | ⟨k2, v', k3, k4, k5, k6⟩
    · change s' = s at k2
      subst k2
      exact ⟨k1, hI', by linarith, hoff, fun _ => rfl⟩
    · change RepMT A e C s' v' at k3
      refine ⟨k1, ⟨v', k3.mono he.le ?_, ?_, k5⟩, ?_, ?_, ?_⟩
      · have : 0 ≤ ((k + 1 : ℕ) : ℝ) * (p * (C * K)) := by positivity
        linarith
      · push_cast; linarith
      · show R.F (absMT p T s') ≤ _
        rw [k3.abs, h1.abs]; exact k4
      · show ∀ j ∉ l, absMT p T s' j = 0
        rw [k3.abs]; exact k6
      · rintro (h | h)
        · rw [h] at hu; cases hu
        · exact absurd k2 h
  · rw [if_neg hu]
    exact ⟨hb, hI', by linarith, hoff, fun _ => rfl⟩

/-- What the runs of a call satisfy. -/
structure PertCallMT (D : Design n p) (Y : Fin n → Fin T → ℝ) (α ρ τ : ℝ) (m : ℕ) (srt : Argsort F)
    (cfg : Solver F) (ds : Dataset DM F) (df0 df : DF) (al : F) : Prop where
  samples : ds.targets.nSamples = n
  tasks : ds.targets.nTasks = T
  features : DesignMatrix.nFeatures (F := F) ds.designMatrix = .ok p
  init : MTDatafit.init df0 ds = .ok df
  pert : ∃ (Inv : ℕ → BCDState F → Prop) (Out : BCDState F → Prop) (BInv : List (Fin p) → Mat F → Prop),
    Pert (MT.skelBCD srt ds df (L21.mk al) cfg p (ws0CD cfg p)) (probMT D Y (.l21 α)) (subdiff (pen2 α 0)) ρ τ ((probMT D Y (.l21 α)).F 0 + 1) m (ws0CD cfg p)
      (PlainEp cfg) (absMT p T) Inv Out BInv ∧ Inv 0 (MT.initBCD n p T) ∧ Out (MT.initBCD n p T) ∧
    ∀ j s, Inv j s → ∃ x : Fin p → Fin T → F, s.W = matOf x ∧ ∀ i t, Den (x i t) ((absMT p T s i).ofLp t)

end

/-- Magnitudes of the points, fits and gradients of bounded objective. -/
theorem mags_boundMT {R : RProb (Euc T) p} {f : (Fin p → Euc T) → ℝ} {a b : ℝ} (H : R.Cvx f a b) (A : Fin n → Fin p → ℝ) (c : ℝ) :
    ∃ B0 : ℝ, 1 ≤ B0 ∧ (∀ j, R.L j ≤ B0) ∧ (∀ j, R.L j ≠ 0 → 1 / B0 ≤ R.L j) ∧
      ∀ w, R.F w ≤ c → (∀ j, ‖w j‖ ≤ B0) ∧ (∀ i t, |fitMT A (fun k => (w k).ofLp) i t| ≤ B0) ∧ ∀ j, ‖R.G w j‖ ≤ B0 := by
  obtain ⟨Bl, hBl, hl⟩ := H.level c
  obtain ⟨μ, hμ, hμ2⟩ := H.exists_mu
  obtain ⟨Λ, hΛ⟩ : ∃ Λ, Λ = ∑ i, R.L i := ⟨_, rfl⟩
  have hΛ0 : 0 ≤ Λ := hΛ ▸ Finset.sum_nonneg fun i _ => H.nonneg i
  obtain ⟨a0, ha0⟩ : ∃ a0, a0 = ∑ i, ∑ j, |A i j| := ⟨_, rfl⟩
  have ha0' : 0 ≤ a0 := ha0 ▸ Finset.sum_nonneg fun i _ => Finset.sum_nonneg fun j _ => abs_nonneg _
  obtain ⟨g0, hg0⟩ : ∃ g0, g0 = ∑ j, ‖R.G 0 j‖ := ⟨_, rfl⟩
  have hg0' : 0 ≤ g0 := hg0 ▸ Finset.sum_nonneg fun j _ => norm_nonneg _
  have k1 : 0 ≤ a0 * Bl := mul_nonneg ha0' hBl
  have k2 : 0 ≤ Λ * Bl := mul_nonneg hΛ0 hBl
  have k3 : 0 < 1 / μ := by positivity
  have hone : ∀ w, R.F w ≤ c → ∀ j, ‖w j‖ ≤ Bl := fun w hw j =>
    (Finset.single_le_sum (f := fun j => ‖w j‖) (fun _ _ => norm_nonneg _) (Finset.mem_univ j)).trans (hl w hw)
  refine ⟨1 + Bl + a0 * Bl + g0 + Λ * Bl + Λ + 1 / μ, by linarith, fun j => ?_, fun j hj => ?_, fun w hw => ⟨fun j => ?_, fun i t => ?_, fun j => ?_⟩⟩
  · have := H.L_le j
    rw [← hΛ] at this
    linarith
  · refine le_trans ?_ (hμ2 j hj)
    rw [div_le_iff₀ (by linarith)]
    have : μ * (1 / μ) = 1 := by field_simp
    nlinarith
  · have := hone w hw j
    linarith
  · have h3 : |fitMT A (fun k => (w k).ofLp) i t| ≤ ∑ j, |A i j| * Bl := by
      refine (Finset.abs_sum_le_sum_abs _ _).trans (Finset.sum_le_sum fun j _ => ?_)
      rw [abs_mul]
      exact mul_le_mul_of_nonneg_left ((abs_le_euc (w j) t).trans (hone w hw j)) (abs_nonneg _)
    rw [← Finset.sum_mul] at h3
    have h4 : ∑ j, |A i j| ≤ a0 := by
      rw [ha0]
      exact Finset.single_le_sum (f := fun i => ∑ j, |A i j|) (fun i _ => Finset.sum_nonneg fun j _ => abs_nonneg _) (Finset.mem_univ i)
    have h5 := mul_le_mul_of_nonneg_right h4 hBl
    linarith
  · have h1 := hl w hw
    have h2 := H.grad_lips w 0 j
    rw [← hΛ] at h2
    have h3 : ∑ i, ‖w i - (0 : Fin p → Euc T) i‖ ≤ Bl := by
      simpa using h1
    have h4 := mul_le_mul_of_nonneg_left h3 hΛ0
    have h5 : ‖R.G 0 j‖ ≤ g0 := by
      rw [hg0]
      exact Finset.single_le_sum (f := fun j => ‖R.G 0 j‖) (fun _ _ => norm_nonneg _) (Finset.mem_univ j)
    have h6 : ‖R.G w j‖ ≤ ‖R.G w j - R.G 0 j‖ + ‖R.G 0 j‖ := by
      have := norm_add_le (R.G w j - R.G 0 j) (R.G 0 j)
      rwa [sub_add_cancel] at this
    linarith

/-- Choice of the precision, for the scores. -/
theorem prec_existsMT {S κ b α ρ : ℝ} (T : ℕ) (hS : 0 ≤ S) (hκ : 0 < κ) (hα : 0 < α) (hρ : 0 < ρ) :
    ∃ e₀ : ℝ, 0 < e₀ ∧ ∀ e, 0 < e → e ≤ e₀ → 2 * S * e ≤ ρ ∧ T * e ≤ κ ^ 2 ∧ (α + 2) * (b + 1) ^ 2 * e ≤ 1 ∧ e * (α + 1) ≤ α := by
  have hT : (0 : ℝ) ≤ T := Nat.cast_nonneg T
  have hb : 0 ≤ (α + 2) * (b + 1) ^ 2 := by positivity
  refine ⟨min (min (ρ / (2 * S + 1)) (κ ^ 2 / (T + 1))) (min (1 / ((α + 2) * (b + 1) ^ 2 + 1)) (α / (α + 1))), by positivity, fun e he h => ?_⟩
  have h1 := h.trans ((min_le_left _ _).trans (min_le_left _ _))
  have h2 := h.trans ((min_le_left _ _).trans (min_le_right _ _))
  have h3 := h.trans ((min_le_right _ _).trans (min_le_left _ _))
  have h4 := h.trans ((min_le_right _ _).trans (min_le_right _ _))
  rw [le_div_iff₀ (by positivity)] at h1 h2 h3 h4
  refine ⟨by linarith, by linarith, by linarith, h4⟩

/-- **The error analysis of whole runs of the multi-task solver.** -/
theorem pertMT_exists (hn : 0 < n) (hp : 0 < p) (D : Design n p) (hD : D.Canonical) (Y : Fin n → Fin T → ℝ) (α : ℝ) (hα : 0 < α) (m : ℕ) :
    ∃ ρ₁ : ℝ, 0 < ρ₁ ∧ ∀ ρ, 0 < ρ → ρ ≤ ρ₁ → ∀ τ, ∃ e₀ : ℝ, 0 < e₀ ∧
      ∀ {F : Type} [Scalar F] [LawfulCmp F] {e : ℝ}, MTLaws F e → e ≤ e₀ →
      ∀ (x : D.Entries F) (y' : Fin n → Fin T → F) (al : F), D.StoredAs e x → (∀ i t, Stores e (y' i t) (Y i t)) → Stores e al α →
      ∀ (srt : Argsort F), ArgsortSpec srt → ∀ cfg : Solver F, SettingsOKMT cfg p T → Stores e cfg.tolerance τ →
      ∀ {β : Type} (run : ∀ {DM DF P : Type} [DesignMatrix F DM] [MTDatafit F DM DF] [MTPenalty F P], Dataset DM F → DF → P → β)
        (Q : β → Prop),
        (∀ {DM DF : Type} [DesignMatrix F DM] [MTDatafit F DM DF] (ds : Dataset DM F) (df0 df : DF),
          PertCallMT D Y α ρ τ m srt cfg ds df0 df al → Q (run ds df0 (L21.mk al))) →
        Q (callMTOf D x y' al run) := by
  have H := probMT_cvx hn D hD Y α hα
  obtain ⟨R, hR⟩ : ∃ R, R = probMT D Y (.l21 α) := ⟨_, rfl⟩
  obtain ⟨c, hcc⟩ : ∃ c, c = R.F 0 + 1 := ⟨_, rfl⟩
  have hc0 : 0 ≤ c := by
    have := H.F_nonneg 0
    rw [← hR] at this
    linarith
  obtain ⟨B0, hB01, hLle, hLge, hbnd⟩ := mags_boundMT H D.matrix (c + 1)
  obtain ⟨B, hB⟩ : ∃ B, B = 4 * B0 ^ 2 := ⟨_, rfl⟩
  have hBB : B0 ≤ B := by rw [hB]; nlinarith
  obtain ⟨K, hK⟩ : ∃ K : ℝ, K = 10 * ((0 : ℕ) + 1) ^ 2 * (B + 1) ^ 3 := ⟨_, rfl⟩
  have hK1 : 1 ≤ K := one_le_K (hB01.trans hBB) hK
  obtain ⟨Bv, Bu, C, κ, hmB, hfit, hC, hκ, hall⟩ := callMT_exists hn D Y α hα B (2 * (c + 1)) (hB01.trans hBB) (by linarith)
  obtain ⟨ρ₁, hρ₁, hρ₁'⟩ := rho_exists (p := p) m hB01
  have hCK : 0 ≤ C * K := by positivity
  obtain ⟨Dm, hDm⟩ : ∃ Dm : ℝ, Dm = C + m * (p * (C * K)) := ⟨_, rfl⟩
  have hCD : C ≤ Dm := by
    have : 0 ≤ (m : ℝ) * (p * (C * K)) := by positivity
    linarith
  refine ⟨ρ₁, hρ₁, fun ρ hρ hρ2 τ => ?_⟩
  obtain ⟨r1, r2, r3⟩ := hρ₁' ρ hρ hρ2
  obtain ⟨e₀, he₀, hprec⟩ := prec_exists (τ := τ) hC hK1 (hC.trans hCD) hc0 hρ r1
  obtain ⟨e₁, he₁, hprec'⟩ := prec_existsMT (S := (64 * T + 256) * (T * (B0 + 1) + (T + 1) * (α + 2)) + (α + 1) + T * (C * Dm)) (b := B0) T
    (by have : 0 ≤ C * Dm := mul_nonneg (by linarith) (by linarith)
        positivity) hκ hα hρ
  refine ⟨min e₀ e₁, lt_min he₀ he₁, ?_⟩
  intro F _ _ e hlaw hee x y' al hx hy' hal srt hs cfg hcfg htol β run Q hQ
  obtain ⟨Pr, S, η, M⟩ := hlaw
  have he := Pr.pos
  obtain ⟨s1, s2, s3, s4, s5⟩ := hprec e he (hee.trans (min_le_left _ _))
  obtain ⟨t1, t2, t3, t4⟩ := hprec' e he (hee.trans (min_le_right _ _))
  refine hall Pr S M s1 x y' al hx hy' hal run Q fun ds df0 df hA => hQ ds df0 df ⟨hA.fitA.samples, hA.fitA.tasks, hA.fitA.feats, hA.init, ?_⟩
  subst hR
  have hobj : ∀ w, (probMT D Y (.l21 α)).F w = mtLoss Y (fitMT D.matrix fun j => (w j).ofLp) + ∑ j, α * ‖w j‖ := fun w => rfl
  have FS : FSysMT e η B0 B K C Dm κ ρ c 0 ds df al α D.matrix (mtGrad D.matrix Y) (probMT D Y (.l21 α))
      (fun W => mtLoss Y (fitMT D.matrix fun j => (W j).ofLp)) :=
    { prec := Pr
      mt := M
      kk := Consts.mk' he (hB01.trans hBB) hK
      C1 := hC
      fitA := hA.fitA
      penA := hA.penA
      al := by
        obtain ⟨t, h1, h2⟩ := hal.near
        exact ⟨t, h1, by rwa [abs_of_pos hα] at h2⟩
      α0 := hα
      sc := rfl
      grad := fun w j t => rfl
      cvx := H
      B01 := hB01
      hB := hB.ge
      Lle := hLle
      Lge := hLge
      bnd := hbnd
      small := s2
      small2 := t1
      small3 := t2
      small4 := t3
      small5 := t4
      κ0 := hκ
      ρ1 := r1
      ρB := r2 }
  have hbv : ∀ w, (probMT D Y (.l21 α)).F w ≤ c → ∀ j, ‖w j‖ ≤ Bv := fun w hw j => by
    rw [hobj] at hw
    have h1 : 0 ≤ mtLoss Y (fitMT D.matrix fun j => (w j).ofLp) := by
      unfold mtLoss; positivity
    have h2 : α * ‖w j‖ ≤ ∑ j, α * ‖w j‖ := Finset.single_le_sum (f := fun j => α * ‖w j‖) (fun _ _ => by positivity) (Finset.mem_univ j)
    have h3 : α * ‖w j‖ ≤ α * Bv := by linarith
    exact le_of_mul_le_mul_left h3 hα
  have O : ObjMT e Bv Bu C Dm ρ c ds df al α D.matrix (mtLoss Y) (probMT D Y (.l21 α)) :=
    { prec := Pr
      prop := S
      samples := hA.fitA.samples
      tasks := hA.fitA.tasks
      features := hA.fitA.feats
      safe := hA.fitA.safe
      fitV := hA.fitV
      penV := hA.penV
      obj := hobj
      pos := H.F_nonneg
      bnd := fun w hw => ⟨hbv w hw, hfit _ fun j t => (abs_le_euc (w j) t).trans (hbv w hw j)⟩
      fitb := hfit
      C1 := hC
      c0 := hc0
      CD := hCD
      small := s4
      ρ1 := r1 }
  have hη : ρ ≤ p * (ρ ^ 2 * B0) + ρ := by
    have : 0 ≤ (p : ℝ) * (ρ ^ 2 * B0) := by positivity
    linarith
  have hacc := O.hacc (K := K) cfg (fun hu => by
    obtain ⟨h1, h2, h3⟩ := hcfg.accel hu
    refine ⟨h1, ?_⟩
    unfold ws0CD
    rcases le_total cfg.wsStartSize p with h | h
    · rw [min_eq_left h]; exact h2
    · rw [min_eq_right h]; exact h3) (m := m) (le_refl C) hCK hDm.ge hη hρ.le r3 hcc
  have htol' : ∃ τ', Den cfg.tolerance τ' ∧ |τ' - τ| ≤ ρ / 2 := by
    obtain ⟨t, h1, h2⟩ := htol.near
    exact ⟨t, h1, h2.trans s5⟩
  have hinit : RepMT D.matrix e (C + ((0 : ℕ) : ℝ) * (p * (C * K))) (MT.initBCD n p T : BCDState F) (0 : Fin p → Euc T) := by
    refine ⟨fun _ _ => zero, fun _ _ => zero, by simp [MT.initBCD, Mat.zeros, matOf], fun j t => den_zero, fun i t => ?_⟩
    refine ⟨0, den_zero, ?_⟩
    have e1 : fitMT D.matrix (fun j => ((0 : Fin p → Euc T) j).ofLp) i t = 0 := by simp [fitMT]
    rw [e1, sub_zero, abs_zero]
    positivity
  refine ⟨FSysMT.Inv D.matrix e C K (probMT D Y (.l21 α)) C (p * (ρ ^ 2 * B0) + ρ), FSysMT.Out p T κ e,
    fun l => BufOK (onRows T fun j => (probMT D Y (.l21 α)).L j = 0) cfg.K (expand T l), ?_, ?_, ?_, ?_⟩
  · rw [← hcc]
    refine FS.pert hs cfg hcfg.ws hp htol' hC hDm.ge (by linarith) r3 hcc (fun l => ?_) hacc
    have := bufOK_zeros (F := F) (onRows T fun j => (probMT D Y (.l21 α)).L j = 0) cfg.K (expand T l)
    rwa [expand_length] at this
  · exact ⟨0, hinit, by simp, fun _ _ => rfl⟩
  · intro j
    rw [hinit.abs]
    exact Or.inl rfl
  · rintro j s ⟨v, h1, -, -⟩
    have h2 := h1.abs
    obtain ⟨x, u, rfl, h3, -⟩ := h1
    rw [h2]
    exact ⟨x, rfl, h3⟩

/-! ## Results of runs -/

section
variable {F DM DF : Type} [Scalar F] [LawfulCmp F] [DesignMatrix F DM] [MTDatafit F DM DF]

theorem absMT_init : absMT p T (MT.initBCD n p T : BCDState F) = 0 := by
  have h : RepMT (fun (_ : Fin n) (_ : Fin p) => (0 : ℝ)) 1 0 (MT.initBCD n p T : BCDState F) (0 : Fin p → Euc T) := by
    refine ⟨fun _ _ => zero, fun _ _ => zero, by simp [MT.initBCD, Mat.zeros, matOf], fun j t => den_zero, fun i t => ?_⟩
    refine ⟨0, den_zero, ?_⟩
    simp [fitMT]
  exact h.abs

namespace PertCallMT
variable {D : Design n p} {Y : Fin n → Fin T → ℝ} {α ρ τ : ℝ} {M : ℕ} {srt : Argsort F}
    {cfg : Solver F} {ds : Dataset DM F} {df0 df : DF} {al : F} (S : PertCallMT D Y α ρ τ M srt cfg ds df0 df al)
include S

theorem run_eq : MT.runBCD srt ds df0 (L21.mk al) cfg =
    (MT.skelBCD srt ds df (L21.mk al) cfg p (ws0CD cfg p)).outer cfg.maxIterations (MT.initBCD n p T) := by
  unfold MT.runBCD
  rw [S.features, S.init, S.samples, S.tasks]
  rfl

/-- Every run returns. -/
theorem run_ok {ν : ℝ} (hρ : 0 ≤ ρ) (hν : Pert.Grow (probMT D Y (.l21 α)) (subdiff (pen2 α 0)) ρ ν) (hT : 2 * cfg.maxEpochs * cfg.maxIterations ≤ M)
    (hpl : PlainTail (PlainEp cfg) cfg.maxEpochs 0) :
    Ok (MT.runBCD srt ds df0 (L21.mk al) cfg) (fun q => ∃ (x : Fin p → Fin T → F) (v : Fin p → Euc T), q.1.W = matOf x ∧
      (∀ j t, Den (x j t) ((v j).ofLp t)) ∧
      q.2 ≤ cfg.maxIterations ∧ (probMT D Y (.l21 α)).F v ≤ (probMT D Y (.l21 α)).F 0 + cfg.maxIterations * (cfg.maxEpochs * ν) ∧
      (q.2 < cfg.maxIterations → ∀ j, (probMT D Y (.l21 α)).sc (v j) ((probMT D Y (.l21 α)).G v j) ≤ τ + ρ)) := by
  rw [S.run_eq]
  obtain ⟨Inv, Out, BInv, hP, h0, hO, hI⟩ := S.pert
  refine Tri.mono (hP.outer_ok hρ hν (Or.inr hpl) cfg.maxIterations 0 (MT.initBCD n p T) (by
    show 0 + 2 * cfg.maxEpochs * cfg.maxIterations ≤ M
    omega) h0 hO) ?_
  rintro q ⟨⟨k', -, h1⟩, -, h2, h3, h4⟩
  obtain ⟨x, h5, h6⟩ := hI _ _ h1
  rw [absMT_init] at h3
  exact ⟨x, absMT p T q.1, h5, h6, h2, h3, h4⟩

/-- Runs with enough iterations stop. -/
theorem run_stops {ν : ℝ} (hρ : 0 ≤ ρ) (hν : Pert.Grow (probMT D Y (.l21 α)) (subdiff (pen2 α 0)) ρ ν) {N : ℕ} (hT : 2 * cfg.maxEpochs * N ≤ M)
    (hN : N ≤ cfg.maxIterations) (hpl : PlainTail (PlainEp cfg) cfg.maxEpochs 0)
    (ht : ∀ (Inv : ℕ → BCDState F → Prop) (Out : BCDState F → Prop) (BInv : List (Fin p) → Mat F → Prop),
      Pert (MT.skelBCD srt ds df (L21.mk al) cfg p (ws0CD cfg p)) (probMT D Y (.l21 α)) (subdiff (pen2 α 0)) ρ τ ((probMT D Y (.l21 α)).F 0 + 1) M
        (ws0CD cfg p) (PlainEp cfg) (absMT p T) Inv Out BInv → Inv 0 (MT.initBCD n p T) → Out (MT.initBCD n p T) →
      Tri (fun _ => False) ((MT.skelBCD srt ds df (L21.mk al) cfg p (ws0CD cfg p)).outer N (MT.initBCD n p T)) (fun q =>
        (∃ k', k' ≤ M ∧ Inv k' q.1) ∧
        ∃ kkt km, (MT.skelBCD srt ds df (L21.mk al) cfg p (ws0CD cfg p)).viol q.1 = .ok (kkt, km) ∧
          (MT.skelBCD srt ds df (L21.mk al) cfg p (ws0CD cfg p)).done km = true)) :
    Ok (MT.runBCD srt ds df0 (L21.mk al) cfg) (fun q => ∃ (x : Fin p → Fin T → F) (v : Fin p → Euc T), q.1.W = matOf x ∧
      (∀ j t, Den (x j t) ((v j).ofLp t)) ∧
      q.2 ≤ N ∧ (probMT D Y (.l21 α)).F v ≤ (probMT D Y (.l21 α)).F 0 + N * (cfg.maxEpochs * ν) ∧
      ∀ j, (probMT D Y (.l21 α)).sc (v j) ((probMT D Y (.l21 α)).G v j) ≤ τ + ρ) := by
  rw [S.run_eq]
  obtain ⟨Inv, Out, BInv, hP, h0, hO, hI⟩ := S.pert
  obtain ⟨q, hq, ⟨⟨k', hk', h1⟩, kkt, km, h2, h3⟩, -, hOq, h4, h5, -⟩ := Tri.exists_ok (Tri.and (ht Inv Out BInv hP h0 hO)
    (hP.outer_ok hρ hν (Or.inr hpl) N 0 (MT.initBCD n p T) (by show 0 + 2 * cfg.maxEpochs * N ≤ M; omega) h0 hO))
  obtain ⟨m, hm⟩ := Nat.exists_eq_add_of_le hN
  rw [hm, Skel.outer_add, hq]
  dsimp only [bind, Except.bind]
  rw [Skel.outer_done _ m q.1 kkt km h2 h3]
  obtain ⟨x, h6, h7⟩ := hI _ _ h1
  rw [absMT_init] at h5
  have h8 := (Tri.elim_ok (hP.viol k' q.1 hk' h1 hOq) h2).1 h3
  exact ⟨x, absMT p T q.1, h6, h7, h4, h5, h8⟩

end PertCallMT

omit [LawfulCmp F] in
/-- From runs on the skeleton to the two entry points. -/
theorem MT.runs_to {P : Type} [MTPenalty F P] (srt : Argsort F) (cfg : Solver F) (ds : Dataset DM F) (df0 : DF) (pn : P)
    {Q : BCDState F × ℕ → Prop} (h : Ok (MT.runBCD srt ds df0 pn cfg) Q) :
    ∃ q, Q q ∧ cfg.solveMultiTask srt ds df0 pn = .ok q.1.W ∧ ∃ log,
      (do
        let (st, _, log) ← MT.blockCoordinateDescent srt ds df0 pn (cfg.setVerbose true)
        pure (st, log)) = (Except.ok (q.1, log) : M (BCDState F × List (Event F))) ∧ iterationsPrinted log = q.2 := by
  obtain ⟨q, hq, hQ⟩ := Tri.exists_ok h
  refine ⟨q, hQ, by rw [MT.solve_eq, hq]; rfl, ?_⟩
  have h1 := MT.bcd_rel srt ds df0 pn (cfg.setVerbose true)
  have e1 : MT.runBCD srt ds df0 pn (cfg.setVerbose true) = MT.runBCD srt ds df0 pn cfg := rfl
  rw [e1, hq] at h1
  cases hc : MT.blockCoordinateDescent srt ds df0 pn (cfg.setVerbose true) with
  | error e => rw [hc] at h1; exact h1.elim
  | ok r =>
    obtain ⟨st, df, log⟩ := r
    rw [hc] at h1
    obtain ⟨h2, h3, -⟩ := h1
    change st = q.1 at h2
    subst h2
    exact ⟨log, rfl, h3 rfl⟩

end

/-- Two functions of the same call. -/
theorem callMTOf_pair {F : Type} [Scalar F] (D : Design n p) (x : D.Entries F) (y : Fin n → Fin T → F) (al : F) {α β : Type}
    (r1 : ∀ {DM DF P : Type} [DesignMatrix F DM] [MTDatafit F DM DF] [MTPenalty F P], Dataset DM F → DF → P → α)
    (r2 : ∀ {DM DF P : Type} [DesignMatrix F DM] [MTDatafit F DM DF] [MTPenalty F P], Dataset DM F → DF → P → β) :
    callMTOf D x y al (fun ds df pn => (r1 ds df pn, r2 ds df pn)) = (callMTOf D x y al r1, callMTOf D x y al r2) := by
  unfold callMTOf
  cases D <;> rfl

/-- The two entry points, from the runs on the skeleton. -/
theorem runsToMT_of {F : Type} [Scalar F] [LawfulCmp F] (srt : Argsort F) (cfg : Solver F) (D : Design n p) (x : D.Entries F)
    (y : Fin n → Fin T → F) (al : F) (Q : (Fin p → Euc T) → ℕ → Prop) (PC : ∀ {DM DF : Type} [DesignMatrix F DM] [MTDatafit F DM DF],
      Dataset DM F → DF → DF → Prop)
    (h : ∀ {α : Type} (run : ∀ {DM DF P : Type} [DesignMatrix F DM] [MTDatafit F DM DF] [MTPenalty F P], Dataset DM F → DF → P → α)
        (Q : α → Prop),
        (∀ {DM DF : Type} [DesignMatrix F DM] [MTDatafit F DM DF] (ds : Dataset DM F) (df0 df : DF),
          PC ds df0 df → Q (run ds df0 (L21.mk al))) →
        Q (callMTOf D x y al run))
    (h' : ∀ {DM DF : Type} [DesignMatrix F DM] [MTDatafit F DM DF] (ds : Dataset DM F) (df0 df : DF),
      PC ds df0 df → Ok (MT.runBCD srt ds df0 (L21.mk al) cfg) (fun q => ∃ (w : Fin p → Fin T → F) (v : Fin p → Euc T), q.1.W = matOf w ∧
        (∀ j t, Den (w j t) ((v j).ofLp t)) ∧ Q v q.2)) :
    ∃ v m, RunsToMT srt cfg D x y al v m ∧ Q v m := by
  have key := h (fun ds df pn => (cfg.solveMultiTask srt ds df pn, (do
        let (st, _, log) ← MT.blockCoordinateDescent srt ds df pn (cfg.setVerbose true)
        pure (st, log) : M (BCDState F × List (Event F)))))
    (fun r => ∃ v m, (∃ w : Fin p → Fin T → F, (∀ j t, Den (w j t) ((v j).ofLp t)) ∧ r.1 = .ok (matOf w) ∧
      ∃ st log, r.2 = .ok (st, log) ∧ st.W = matOf w ∧ iterationsPrinted log = m) ∧ Q v m) (by
    intro DM DF _ _ ds df0 df hp
    obtain ⟨q, ⟨w, v, h1, h2, h3⟩, h4, log, h5, h6⟩ := MT.runs_to srt cfg ds df0 (L21.mk al) (h' ds df0 df hp)
    exact ⟨v, q.2, ⟨w, h2, by rw [h4, h1], q.1, log, h5, h1, h6⟩, h3⟩)
  rw [callMTOf_pair] at key
  exact key

/-- **Runs of the multi-task Lasso in floating point return, and do not increase the objective.** -/
theorem float_runMT (hn : 0 < n) (hp : 0 < p) (D : Design n p) (hD : D.Canonical) (Y : Fin n → Fin T → ℝ) (α : ℝ) (hα : 0 < α)
    (M E : ℕ) (τ ε : ℝ) (hε : 0 < ε) :
    ∃ e₀ : ℝ, 0 < e₀ ∧ ∀ {F : Type} [Scalar F] [LawfulCmp F] {e : ℝ}, MTLaws F e → e ≤ e₀ →
      ∀ (x : D.Entries F) (y' : Fin n → Fin T → F) (al : F), D.StoredAs e x → (∀ i t, Stores e (y' i t) (Y i t)) → Stores e al α →
      ∀ (srt : Argsort F), ArgsortSpec srt → ∀ cfg : Solver F, SettingsOKMT cfg p T → Stores e cfg.tolerance τ →
      cfg.maxIterations ≤ M → cfg.maxEpochs ≤ E → PlainTail (PlainEp cfg) cfg.maxEpochs 0 →
      ∃ v m, RunsToMT srt cfg D x y' al v m ∧ m ≤ cfg.maxIterations ∧
        (probMT D Y (.l21 α)).F v ≤ (probMT D Y (.l21 α)).F 0 + ε ∧
        (m < cfg.maxIterations → ∀ j, (probMT D Y (.l21 α)).sc (v j) ((probMT D Y (.l21 α)).G v j) ≤ τ + ε) := by
  have H := probMT_cvx hn D hD Y α hα
  obtain ⟨ρ₁, hρ₁, h1⟩ := pertMT_exists hn hp D hD Y α hα (2 * E * M)
  obtain ⟨m0, hm0, hgrow⟩ := Pert.grow_exists H
  have hS : 0 < (M * E : ℝ) * (m0 + 1) + 1 := by positivity
  obtain ⟨ρ, hρ, l1, l2, l3⟩ : ∃ ρ : ℝ, 0 < ρ ∧ ρ ≤ ρ₁ ∧ ρ ≤ 1 ∧ ρ ≤ ε / ((M * E : ℝ) * (m0 + 1) + 1) :=
    ⟨min ρ₁ (min 1 (ε / ((M * E : ℝ) * (m0 + 1) + 1))), by positivity, min_le_left _ _, (min_le_right _ _).trans (min_le_left _ _),
      (min_le_right _ _).trans (min_le_right _ _)⟩
  rw [le_div_iff₀ hS] at l3
  have hν : m0 * ρ ^ 2 + ρ ≤ ρ * (m0 + 1) := by nlinarith [mul_le_mul_of_nonneg_left l2 (mul_nonneg hm0 hρ.le)]
  have hME : (M * E : ℝ) * (m0 * ρ ^ 2 + ρ) ≤ ε := by
    have := mul_le_mul_of_nonneg_left hν (by positivity : 0 ≤ (M * E : ℝ))
    nlinarith
  have hρε : ρ ≤ ε := by
    have : 0 ≤ ρ * ((M * E : ℝ) * (m0 + 1)) := by positivity
    linarith
  obtain ⟨e₀, he₀, h2⟩ := h1 ρ hρ l1 τ
  refine ⟨e₀, he₀, ?_⟩
  intro F _ _ e hlaw hee x y' al hx hy' hal srt hs cfg hcfg htol hM hE hpl
  refine runsToMT_of srt cfg D x y' al _ (fun ds df0 df => PertCallMT D Y α ρ τ (2 * E * M) srt cfg ds df0 df al)
    (h2 hlaw hee x y' al hx hy' hal srt hs cfg hcfg htol) ?_
  intro DM DF _ _ ds df0 df hP
  refine Tri.mono (hP.run_ok hρ.le (hgrow ρ hρ.le) (Nat.mul_le_mul (Nat.mul_le_mul_left 2 hE) hM) hpl) ?_
  rintro q ⟨w, v, q1, q2, q3, q4, q5⟩
  refine ⟨w, v, q1, q2, q3, ?_, fun h j => (q5 h j).trans (by linarith)⟩
  have hν0 : 0 ≤ m0 * ρ ^ 2 + ρ := by positivity
  have c1 : (cfg.maxIterations : ℝ) ≤ M := by exact_mod_cast hM
  have c2 : (cfg.maxEpochs : ℝ) ≤ E := by exact_mod_cast hE
  have c3 : (cfg.maxIterations : ℝ) * (cfg.maxEpochs * (m0 * ρ ^ 2 + ρ)) ≤ M * (E * (m0 * ρ ^ 2 + ρ)) := by gcongr
  linarith

/-- **Runs of the multi-task Lasso in floating point stop.** -/
theorem float_stopsMT (hn : 0 < n) (hp : 0 < p) (D : Design n p) (hD : D.Canonical) (Y : Fin n → Fin T → ℝ) (α : ℝ) (hα : 0 < α)
    (τ : ℝ) (hτ : 0 < τ) :
    ∃ N : ℕ, ∀ (E : ℕ) (ε : ℝ), 0 < ε → ∃ e₀ : ℝ, 0 < e₀ ∧ ∀ {F : Type} [Scalar F] [LawfulCmp F] {e : ℝ}, MTLaws F e → e ≤ e₀ →
      ∀ (x : D.Entries F) (y' : Fin n → Fin T → F) (al : F), D.StoredAs e x → (∀ i t, Stores e (y' i t) (Y i t)) → Stores e al α →
      ∀ (srt : Argsort F), ArgsortSpec srt → ∀ cfg : Solver F, SettingsOKMT cfg p T → Stores e cfg.tolerance τ →
      N ≤ cfg.maxIterations → cfg.maxEpochs ≤ E → 0 < cfg.maxEpochs → PlainTail (PlainEp cfg) cfg.maxEpochs 0 →
      ∃ v m, RunsToMT srt cfg D x y' al v m ∧ m ≤ N ∧
        (probMT D Y (.l21 α)).F v ≤ (probMT D Y (.l21 α)).F 0 + ε ∧
        ∀ j, (probMT D Y (.l21 α)).sc (v j) ((probMT D Y (.l21 α)).G v j) ≤ τ + ε := by
  have H := probMT_cvx hn D hD Y α hα
  obtain ⟨N, ρ₀, ν₀, hρ₀, hν₀, hterm⟩ := Pert.terminates (c := (probMT D Y (.l21 α)).F 0 + 1) H hτ
  refine ⟨N, fun E ε hε => ?_⟩
  obtain ⟨ρ₁, hρ₁, h1⟩ := pertMT_exists hn hp D hD Y α hα (2 * E * N)
  obtain ⟨m0, hm0, hgrow⟩ := Pert.grow_exists H
  have hS : 0 < (N * E : ℝ) * (m0 + 1) + 1 := by positivity
  have hS2 : 0 < (E : ℝ) * (m0 + 1) + 1 := by positivity
  obtain ⟨ρ, hρ, l1, l2, l3, l4, l5⟩ : ∃ ρ : ℝ, 0 < ρ ∧ ρ ≤ ρ₁ ∧ ρ ≤ 1 ∧ ρ ≤ ε / ((N * E : ℝ) * (m0 + 1) + 1) ∧ ρ ≤ ρ₀ ∧
      ρ ≤ ν₀ / ((E : ℝ) * (m0 + 1) + 1) :=
    ⟨min (min ρ₁ (min 1 (ε / ((N * E : ℝ) * (m0 + 1) + 1)))) (min ρ₀ (ν₀ / ((E : ℝ) * (m0 + 1) + 1))), by positivity,
      (min_le_left _ _).trans (min_le_left _ _), (min_le_left _ _).trans ((min_le_right _ _).trans (min_le_left _ _)),
      (min_le_left _ _).trans ((min_le_right _ _).trans (min_le_right _ _)), (min_le_right _ _).trans (min_le_left _ _),
      (min_le_right _ _).trans (min_le_right _ _)⟩
  rw [le_div_iff₀ hS] at l3
  rw [le_div_iff₀ hS2] at l5
  have hν : m0 * ρ ^ 2 + ρ ≤ ρ * (m0 + 1) := by nlinarith [mul_le_mul_of_nonneg_left l2 (mul_nonneg hm0 hρ.le)]
  have hNE : (N * E : ℝ) * (m0 * ρ ^ 2 + ρ) ≤ ε := by
    have := mul_le_mul_of_nonneg_left hν (by positivity : 0 ≤ (N * E : ℝ))
    nlinarith
  have hE0 : (E : ℝ) * (m0 * ρ ^ 2 + ρ) ≤ ν₀ := by
    have := mul_le_mul_of_nonneg_left hν (by positivity : 0 ≤ (E : ℝ))
    nlinarith
  have hρε : ρ ≤ ε := by
    have : 0 ≤ ρ * ((N * E : ℝ) * (m0 + 1)) := by positivity
    linarith
  obtain ⟨e₀, he₀, h2⟩ := h1 ρ hρ l1 τ
  refine ⟨e₀, he₀, ?_⟩
  intro F _ _ e hlaw hee x y' al hx hy' hal srt hs cfg hcfg htol hN hE hE1 hplain
  refine runsToMT_of srt cfg D x y' al _ (fun ds df0 df => PertCallMT D Y α ρ τ (2 * E * N) srt cfg ds df0 df al)
    (h2 hlaw hee x y' al hx hy' hal srt hs cfg hcfg htol) ?_
  intro DM DF _ _ ds df0 df hP
  have hν0 : 0 ≤ m0 * ρ ^ 2 + ρ := by positivity
  have c2 : (cfg.maxEpochs : ℝ) ≤ E := by exact_mod_cast hE
  have hT : 2 * cfg.maxEpochs * N ≤ 2 * E * N := Nat.mul_le_mul_right _ (Nat.mul_le_mul_left 2 hE)
  have c4 : (cfg.maxEpochs : ℝ) * (m0 * ρ ^ 2 + ρ) ≤ E * (m0 * ρ ^ 2 + ρ) := mul_le_mul_of_nonneg_right c2 hν0
  refine Tri.mono (hP.run_stops hρ.le (hgrow ρ hρ.le) hT hN hplain fun Inv Out BInv hPt h0 hO => ?_) ?_
  · refine Tri.mono (hterm hPt hρ.le l4 (hgrow ρ hρ.le) (c4.trans hE0) hE1 hplain 0 _ (by
      show 0 + 2 * cfg.maxEpochs * N ≤ _
      omega) h0 hO) ?_
    rintro q ⟨⟨k', h3, h4⟩, h5⟩
    exact ⟨⟨k', by change k' ≤ 0 + 2 * cfg.maxEpochs * N at h3; omega, h4⟩, h5⟩
  · rintro q ⟨w, v, q1, q2, q3, q4, q5⟩
    refine ⟨w, v, q1, q2, q3, ?_, fun j => (q5 j).trans (by linarith)⟩
    have c3 : (N : ℝ) * (cfg.maxEpochs * (m0 * ρ ^ 2 + ρ)) ≤ N * (E * (m0 * ρ ^ 2 + ρ)) :=
      mul_le_mul_of_nonneg_left c4 (Nat.cast_nonneg N)
    linarith

end Sglm
