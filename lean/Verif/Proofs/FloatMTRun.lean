import Verif.Proofs.FloatMTFit
import Verif.Proofs.FloatMTProx
import Verif.Proofs.FloatRun
import Verif.Proofs.Problem
import Verif.Proofs.SkelBCD

/-!
# Runs of the multi-task solver in floating point
-/

set_option linter.unusedSectionVars false

namespace Sglm
open Scalar Spec
variable {n p T : ℕ}

section
variable {F : Type} [Scalar F] [LawfulCmp F]

/-- The real point of a state. -/
noncomputable def absMT (p T : ℕ) (s : BCDState F) : Fin p → Euc T :=
  fun j => WithLp.toLp 2 fun t => realOf ((s.W.rows.getD j []).getD t zero)

/-- The state represents the point `v`, with a model fit which is off by at most `d e`. -/
def RepMT (A : Fin n → Fin p → ℝ) (e d : ℝ) (s : BCDState F) (v : Fin p → Euc T) : Prop :=
  ∃ (x : Fin p → Fin T → F) (u : Fin n → Fin T → F), s = ⟨matOf x, matOf u⟩ ∧ (∀ j t, Den (x j t) ((v j).ofLp t)) ∧
    ∀ i t, Apx e (u i t) (fitMT A (fun j => (v j).ofLp) i t) d

omit [LawfulCmp F] in
theorem matOf_getD (x : Fin p → Fin T → F) (j : Fin p) : (matOf x).rows.getD j [] = List.ofFn (x j) := by
  rw [List.getD_eq_getElem?_getD]
  simp [matOf]

omit [LawfulCmp F] in
theorem ofFn_getD (x : Fin T → F) (t : Fin T) : (List.ofFn x).getD t zero = x t := by
  rw [List.getD_eq_getElem?_getD]
  simp

theorem RepMT.abs {A : Fin n → Fin p → ℝ} {e d : ℝ} {s : BCDState F} {v : Fin p → Euc T} (h : RepMT A e d s v) : absMT p T s = v := by
  obtain ⟨x, u, rfl, h1, -⟩ := h
  funext j
  unfold absMT
  ext t
  show realOf _ = _
  rw [matOf_getD, ofFn_getD]
  exact realOf_den (h1 j t)

theorem RepMT.mono {A : Fin n → Fin p → ℝ} {e d d' : ℝ} {s : BCDState F} {v : Fin p → Euc T} (h : RepMT A e d s v) (he : 0 ≤ e)
    (hd : d ≤ d') : RepMT A e d' s v := by
  obtain ⟨x, u, h0, h1, h2⟩ := h
  exact ⟨x, u, h0, h1, fun i t => (h2 i t).mono he hd⟩

theorem RepMT.shaped {A : Fin n → Fin p → ℝ} {e d : ℝ} {s : BCDState F} {v : Fin p → Euc T} (h : RepMT A e d s v) :
    Shaped s.W p T ∧ Shaped s.XW n T := by
  obtain ⟨x, u, rfl, -, -⟩ := h
  exact ⟨shaped_matOf x, shaped_matOf u⟩

omit [Scalar F] [LawfulCmp F] in
theorem zipIdx_ofFn (a : Fin T → F) : (List.ofFn a).zipIdx = List.ofFn fun t => (a t, (t : ℕ)) := by
  apply List.ext_getElem (by simp)
  intro i h1 h2
  simp

theorem fitMT_set (X : Fin n → Fin p → ℝ) (v : Fin p → Euc T) (j : Fin p) (z : Euc T) (i : Fin n) (t : Fin T) :
    fitMT X (fun k => (Function.update v j z k).ofLp) i t =
      fitMT X (fun k => (v k).ofLp) i t + (z.ofLp t - (v j).ofLp t) * X i j := by
  have h := fit_set X (fun k => (v k).ofLp t) j (z.ofLp t) i
  rw [show fitMT X (fun k => (v k).ofLp) i t = fit X (fun k => (v k).ofLp t) i from rfl]
  rw [← h]
  show ∑ k, X i k * _ = ∑ k, X i k * _
  refine Finset.sum_congr rfl fun k _ => ?_
  by_cases hk : k = j
  · subst hk; dsimp only; rw [Function.update_self, Function.update_self]
  · dsimp only; rw [Function.update_of_ne hk, Function.update_of_ne hk]

/-- Scores are 1-Lipschitz in the strength. -/
theorem l21Score_lip_alpha (α α' : ℝ) (V G : Euc T) : |l21Score α' V G - l21Score α V G| ≤ |α' - α| := by
  unfold l21Score
  split
  · refine (abs_max_sub _ _).trans (le_of_eq ?_)
    rw [sub_sub_sub_cancel_left, abs_sub_comm]
  · rename_i hV
    have hV0 : 0 < ‖V‖ := norm_pos_iff.mpr hV
    refine (abs_norm_sub_norm_le _ _).trans (le_of_eq ?_)
    rw [add_sub_add_left_eq_sub, ← sub_smul, norm_smul (α' / ‖V‖ - α / ‖V‖) V, ← sub_div, Real.norm_eq_abs, abs_div, abs_of_pos hV0, div_mul_cancel₀ _ hV0.ne']

end

section
variable {F DM DF : Type} [Scalar F] [LawfulCmp F] [DesignMatrix F DM] [MTDatafit F DM DF]

/-- A multi-task Lasso problem in floating point, with the constants of the error analysis. -/
structure FSysMT (e η B0 B K C D κ ρ c : ℝ) (N : ℕ) (ds : Dataset DM F) (df : DF) (al : F) (α : ℝ) (A : Fin n → Fin p → ℝ)
    (g : (Fin n → Fin T → ℝ) → Fin p → Fin T → ℝ) (R : RProb (Euc T) p) (f : (Fin p → Euc T) → ℝ) : Prop where
  prec : Precise F e
  mt : PreciseMT F e η
  kk : Consts e B K N
  C1 : 1 ≤ C
  fitA : FitMTApx e B C ds df A g R.L
  penA : ProxMT T e B C κ al α
  al : ∃ α', Den al α' ∧ |α' - α| ≤ e * (α + 1)
  α0 : 0 < α
  sc : R.sc = l21Score α
  grad : ∀ w j t, (R.G w j).ofLp t = g (fitMT A fun k => (w k).ofLp) j t
  cvx : R.Cvx f α 0
  B01 : 1 ≤ B0
  hB : 4 * B0 ^ 2 ≤ B
  Lle : ∀ j, R.L j ≤ B0
  Lge : ∀ j, R.L j ≠ 0 → 1 / B0 ≤ R.L j
  bnd : ∀ w, R.F w ≤ c + 1 → (∀ j, ‖w j‖ ≤ B0) ∧ (∀ i t, |fitMT A (fun k => (w k).ofLp) i t| ≤ B0) ∧ ∀ j, ‖R.G w j‖ ≤ B0
  small : C * (K * (K * (C * D))) * e ≤ ρ
  small2 : 2 * ((64 * T + 256) * (T * (B0 + 1) + (T + 1) * (α + 2)) + (α + 1) + T * (C * D)) * e ≤ ρ
  small3 : T * e ≤ κ ^ 2
  small4 : (α + 2) * (B0 + 1) ^ 2 * e ≤ 1
  small5 : e * (α + 1) ≤ α
  κ0 : 0 < κ
  ρ1 : ρ ≤ 1
  ρB : ρ ^ 2 * B0 ≤ 1

namespace FSysMT
variable {e η B0 B K C D κ ρ c : ℝ} {N : ℕ} {ds : Dataset DM F} {df : DF} {al : F} {α : ℝ} {A : Fin n → Fin p → ℝ}
    {g : (Fin n → Fin T → ℝ) → Fin p → Fin T → ℝ} {R : RProb (Euc T) p} {f : (Fin p → Euc T) → ℝ}
    (S : FSysMT e η B0 B K C D κ ρ c N ds df al α A g R f)
include S

theorem B0B : B0 ≤ B := by have := S.B01; have := S.hB; nlinarith

theorem chain {d : ℝ} (h1 : 1 ≤ d) (h2 : d ≤ D) : C * d * e ≤ 1 ∧ K * (C * d) * e ≤ 1 ∧ K * (K * (C * d)) * e ≤ 1 ∧
    C * (K * (K * (C * d))) * e ≤ ρ ∧ 0 ≤ ρ := by
  have he := S.kk.e0
  have hK := S.kk.K1
  have hC := S.C1
  have hs := S.small
  have hρ := S.ρ1
  have d0 : 0 < d := by linarith
  have k0 : 0 < K := by linarith
  have c0 : 0 < C := by linarith
  have a4 : C * (K * (K * (C * d))) * e ≤ C * (K * (K * (C * D))) * e := by
    refine mul_le_mul_of_nonneg_right ?_ he.le
    refine mul_le_mul_of_nonneg_left ?_ c0.le
    refine mul_le_mul_of_nonneg_left ?_ k0.le
    refine mul_le_mul_of_nonneg_left ?_ k0.le
    exact mul_le_mul_of_nonneg_left h2 c0.le
  have b1 : 0 < C * d := by positivity
  have a1 : C * d * e ≤ K * (C * d) * e := mul_le_mul_of_nonneg_right (le_mul_of_one_le_left b1.le hK) he.le
  have a2 : K * (C * d) * e ≤ K * (K * (C * d)) * e :=
    mul_le_mul_of_nonneg_right (le_mul_of_one_le_left (by positivity) hK) he.le
  have a3 : K * (K * (C * d)) * e ≤ C * (K * (K * (C * d))) * e :=
    mul_le_mul_of_nonneg_right (le_mul_of_one_le_left (by positivity) hC) he.le
  have : 0 ≤ C * (K * (K * (C * d))) * e := by positivity
  exact ⟨by linarith, by linarith, by linarith, by linarith, by linarith⟩

/-- The computed step constant vanishes exactly if the real one does. -/
theorem step_zero (h1 : 1 ≤ D) {l : F} {j : Fin p} (hl : Apx e l (R.L j) C) (h0 : R.L j = 0 → Den l 0) :
    (l ==. zero) = true ↔ R.L j = 0 := by
  constructor
  · intro h
    by_contra hc
    obtain ⟨t, ht, ht2⟩ := hl
    rw [(den_beq ht den_zero).mp h, zero_sub, abs_neg] at ht2
    have hL := S.Lge j hc
    have hB0 := S.B01
    obtain ⟨-, h3, -⟩ := S.chain le_rfl h1
    have hK := S.kk.K_ge
    have hBB := S.B0B
    have hB1 := S.kk.B1
    have he := S.kk.e0
    have hC := S.C1
    rw [abs_of_nonneg (le_trans (by positivity) hL)] at ht2
    have : K > B0 := by nlinarith [pow_two_nonneg B, pow_nonneg (by linarith : 0 ≤ B) 3]
    have h5 : 1 / B0 ≤ C * e := hL.trans ht2
    rw [div_le_iff₀ (by linarith)] at h5
    have h6 : C * e * B0 < C * e * K := mul_lt_mul_of_pos_left this (by positivity)
    nlinarith
  · exact fun h => (den_beq (h0 h) den_zero).mpr rfl

/-- The gradient rows. -/
theorem rows {u : Fin n → Fin T → F} {v : Fin p → Euc T} {d : ℝ}
    (hu : ∀ i t, Apx e (u i t) (fitMT A (fun j => (v j).ofLp) i t) d) (h1 : 1 ≤ d) (h2 : d ≤ D) (hF : R.F v ≤ c) (j : Fin p) :
    ∃ γ : Fin T → F, MTDatafit.gradientJ df ds (matOf u) j = .ok (List.ofFn γ) ∧ ∀ t, Apx e (γ t) ((R.G v j).ofLp t) (C * d) := by
  obtain ⟨b1, b2, b3⟩ := S.bnd v (by linarith)
  obtain ⟨c1, -⟩ := S.chain h1 h2
  obtain ⟨γ, h3, h4⟩ := S.fitA.grad u _ d h1 c1 (fun i t => (b2 i t).trans S.B0B) hu j
  exact ⟨γ, h3, fun t => by rw [S.grad]; exact h4 t⟩

/-- One update. -/
theorem step {s : BCDState F} {v : Fin p → Euc T} {d : ℝ} (hr : RepMT A e d s v) (h1 : 1 ≤ d) (h2 : d + C * K ≤ D) (hF : R.F v ≤ c)
    (j : Fin p) : Ok (MT.bcdStep ds df (L21.mk al) s j) (fun s' => ∃ v', RepMT A e (d + C * K) s' v' ∧ PStep R (subdiff (pen2 α 0)) ρ v j v' ∧
      (R.L j ≠ 0 → v' j = 0 ∨ κ * e ≤ ‖v' j‖)) := by
  have he := S.kk.e0
  have hK := S.kk.K1
  have hC := S.C1
  have hB0 := S.B01
  have hB := S.hB
  have hBB := S.B0B
  have hCK : 0 ≤ C * K := by positivity
  have hdD : d ≤ D := by linarith
  obtain ⟨x, u, rfl, hx, hu⟩ := hr
  obtain ⟨b1, b2, b3⟩ := S.bnd v (by linarith)
  obtain ⟨c1, c2, c3, c4, hρ⟩ := S.chain h1 hdD
  obtain ⟨l, hl0, hl⟩ := S.fitA.step
  have hz := S.step_zero (by linarith) (hl j).1 (hl j).2
  unfold MT.bcdStep
  rw [hl0, getM_ofFn]
  dsimp only [bind, Except.bind]
  by_cases h0 : R.L j = 0
  · rw [if_pos (hz.mpr h0)]
    exact ⟨v, RepMT.mono ⟨x, u, rfl, hx, hu⟩ he.le (by linarith), ⟨fun _ _ => rfl, fun _ => rfl, fun h => absurd h0 h⟩, fun h => absurd h0 h⟩
  · rw [if_neg fun h => h0 (hz.mp h)]
    rw [rowM_matOf]
    dsimp only
    have hL := S.Lge j h0
    have hL2 := S.Lle j
    have hLp : 0 < R.L j := lt_of_lt_of_le (by positivity) hL
    have hBL : 1 / B ≤ R.L j := le_trans (one_div_le_one_div_of_le (by linarith) hBB) hL
    obtain ⟨γ, hγ, hgr⟩ := S.rows hu h1 hdD hF j
    rw [hγ]
    dsimp only
    rw [List.map_ofFn, bop_ofFn]
    dsimp only
    have hCd : 1 ≤ C * d := one_le_mul_of_one_le_of_one_le hC h1
    have hl1 : Apx e (l j) (R.L j) (C * d) := (hl j).1.mono he.le (le_mul_of_one_le_right (by linarith) h1)
    have hGt : ∀ t, |(R.G v j).ofLp t| ≤ B := fun t => (abs_le_euc _ t).trans ((b3 j).trans hBB)
    have hq := fun t => S.kk.div S.prec (hgr t) hl1 hCd (hGt t) (by rw [abs_of_pos hLp]; exact hBL) c2
    have hKCd : 1 ≤ K * (C * d) := one_le_mul_of_one_le_of_one_le hK hCd
    obtain ⟨V, hVd⟩ : ∃ V : Euc T, V = v j - (1 / R.L j) • R.G v j := ⟨_, rfl⟩
    have hVt : ∀ t, V.ofLp t = (v j).ofLp t - (R.G v j).ofLp t / R.L j := fun t => by
      rw [hVd]
      show (v j).ofLp t - 1 / R.L j * (R.G v j).ofLp t = _
      ring
    have hGL : ‖(1 / R.L j) • R.G v j‖ ≤ B0 * B0 := by
      rw [norm_smul (1 / R.L j) (R.G v j), Real.norm_eq_abs, abs_of_pos (by positivity : 0 < 1 / R.L j), one_div_mul_eq_div, div_le_iff₀ hLp]
      have : B0 ≤ B0 * B0 * R.L j := by
        have := mul_le_mul_of_nonneg_left hL (by positivity : 0 ≤ B0 * B0)
        rw [mul_one_div, mul_div_assoc, div_self (by linarith), mul_one] at this
        exact this
      exact (b3 j).trans this
    have hV : ‖V‖ ≤ B := by
      rw [hVd]
      have := norm_sub_le (v j) ((1 / R.L j) • R.G v j)
      have := b1 j
      nlinarith
    have hsub : ∀ t, Apx e (x j t -. γ t /. l j) (V.ofLp t) (K * (K * (C * d))) := fun t => by
      rw [hVt]
      refine S.kk.sub S.prec (Den.apx he.le (hx j t) (by linarith)) (hq t) hKCd ?_ c3
      rw [← hVt]
      exact (abs_le_euc V t).trans hV
    have hinv := S.kk.div S.prec (Den.apx he.le S.prec.one (by linarith)) hl1 hCd
      (by rw [abs_one]; exact S.kk.B1) (by rw [abs_of_pos hLp]; exact hBL) c2
    have hcc : K * (C * d) ≤ K * (K * (C * d)) := le_mul_of_one_le_left (by linarith) hK
    obtain ⟨y, z, hy, hyz, ⟨σ, hσ, hres⟩, hbig⟩ := S.penA (fun t => x j t -. γ t /. l j) (one /. l j) V (R.L j) _ (hKCd.trans hcc)
      (c4.trans S.ρ1) hV hBL (hL2.trans hBB) hsub (hinv.mono he.le hcc)
    have hpx : MTPenalty.prox (L21.mk al) (List.ofFn fun i => x j i -. (((fun a => a /. l j) ∘ γ) i)) (one /. l j) = .ok (List.ofFn y) := by
      show Except.ok _ = _
      rw [← hy]
      rfl
    rw [hpx]
    dsimp only
    rw [S.fitA.tasks]
    have hW := fold_matOf (fun t (_ : F) => y t) x j (fun (A : Mat F) t => do
      let u ← getM (List.ofFn y) t
      A.set2 j t u) (by
        intro u t
        simp only [getM_ofFn, bind, Except.bind]
        exact set2_matOf u j t (y t))
    dsimp only [bind, Except.bind] at hW
    rw [hW]
    dsimp only
    rw [zipIdx_ofFn, mapM_ofFn _ (fun t => y t -. x j t) (by
      intro t
      dsimp only
      rw [get2_matOf, Function.update_self]
      rfl)]
    dsimp only
    -- the new point
    have hP : PStep R (subdiff (pen2 α 0)) ρ v j (Function.update v j z) := by
      refine ⟨fun i hi => Function.update_of_ne hi _ _, fun h => absurd h h0, fun _ => ?_⟩
      rw [Function.update_self]
      refine ⟨σ, hσ, le_trans (le_of_eq ?_) (hres.trans c4)⟩
      have e1 : R.L j • (V - z) = R.L j • (v j - z) - R.G v j := by
        rw [hVd, smul_sub, smul_sub, smul_smul, mul_one_div, div_self hLp.ne', one_smul, smul_sub]
        abel
      rw [e1]
    have hx' : ∀ i t, Den (Function.update x j y i t) ((Function.update v j z i).ofLp t) := fun i t => by
      by_cases hi : i = j
      · subst hi; rw [Function.update_self, Function.update_self]; exact hyz t
      · rw [Function.update_of_ne hi, Function.update_of_ne hi]; exact hx i t
    have hbig' : R.L j ≠ 0 → Function.update v j z j = 0 ∨ κ * e ≤ ‖Function.update v j z j‖ := fun _ => by
      rw [Function.update_self]; exact hbig
    have hF' : R.F (Function.update v j z) ≤ c + 1 := by
      have h3 := S.cvx.pstep_dec' (μ := 1 / B0) (by positivity) S.Lge hP
      have h4 : 0 ≤ 1 / B0 / 4 * ‖Function.update v j z j - v j‖ ^ 2 := by positivity
      have h5 : ρ ^ 2 / (1 / B0) = ρ ^ 2 * B0 := by rw [div_div_eq_mul_div, div_one]
      rw [h5] at h3
      linarith [S.ρB]
    have htB : ‖z‖ ≤ B0 := by
      have := (S.bnd _ hF').1 j
      rwa [Function.update_self] at this
    have hts : ∀ t, |z.ofLp t - (v j).ofLp t| ≤ B := fun t => by
      have h3 := abs_sub (z.ofLp t) ((v j).ofLp t)
      have h4 := (abs_le_euc (v j) t).trans (b1 j)
      have h5 := (abs_le_euc z t).trans htB
      nlinarith
    have hK1 : K * 1 * e ≤ 1 := by
      rw [mul_one]
      refine le_trans (mul_le_mul_of_nonneg_right (le_mul_of_one_le_right (by linarith) hCd) he.le) c2
    have hdiff : ∀ t, Apx e (y t -. x j t) (z.ofLp t - (v j).ofLp t) K := fun t => by
      have := S.kk.sub S.prec (Den.apx he.le (hyz t) zero_le_one) (Den.apx he.le (hx j t) zero_le_one) le_rfl (hts t) hK1
      rwa [mul_one] at this
    by_cases hd : anyNonzero (List.ofFn fun t => y t -. x j t) = true
    · rw [if_pos hd]
      have hsm : C * (d + K) * e ≤ 1 := by
        have h3 : d + K ≤ D := by
          have : K ≤ C * K := le_mul_of_one_le_left (by linarith) hC
          linarith
        exact (S.chain (by linarith) h3).1
      obtain ⟨u', e1, hu'⟩ := S.fitA.upd u _ d K _ (fun t => z.ofLp t - (v j).ofLp t) h1 hK hsm (fun i t => (b2 i t).trans hBB) hts hu hdiff j
      rw [e1]
      refine ⟨Function.update v j z, ⟨_, u', rfl, hx', fun i t => ?_⟩, hP, hbig'⟩
      rw [fitMT_set]
      exact hu' i t
    · rw [if_neg hd]
      have htv : z = v j := by
        choose q hq1 hq2 using hdiff
        have hne : ¬ (WithLp.toLp 2 q : Euc T) ≠ 0 := fun h => hd ((anyNonzero_den (V := (WithLp.toLp 2 q : Euc T)) hq1).mpr h)
        push Not at hne
        have he1 : e < 1 := by
          have := S.kk.K_ge
          have := S.kk.B1
          have : (2 : ℝ) ≤ K := by nlinarith [pow_two_nonneg B, pow_nonneg (by linarith : 0 ≤ B) 3]
          nlinarith
        ext t
        have hqt : q t = 0 := by
          have := congrArg (fun V : Euc T => V.ofLp t) hne
          exact this
        have h3 := (S.prec.sub _ _ _ _ (hyz t) (hx j t)).2 (q t) (hq1 t)
        rw [hqt, zero_sub, abs_neg] at h3
        by_contra hne
        have : 0 < |z.ofLp t - (v j).ofLp t| := abs_pos.mpr (sub_ne_zero.mpr hne)
        nlinarith
      refine ⟨Function.update v j z, ⟨_, u, rfl, hx', fun i t => ?_⟩, hP, hbig'⟩
      rw [htv, Function.update_eq_self]
      exact (hu i t).mono he.le (by linarith)

/-- One epoch. -/
theorem epoch : ∀ (l : List (Fin p)) (s : BCDState F) (v : Fin p → Euc T) (d : ℝ), RepMT A e d s v → 1 ≤ d →
    d + l.length * (C * K) ≤ D → R.F v + l.length * (ρ ^ 2 * B0) ≤ c →
    Ok (MT.bcdEpoch ds df (L21.mk al) (l.map Fin.val) s) (fun s' => ∃ v', RepMT A e (d + l.length * (C * K)) s' v' ∧
      PEpoch R (subdiff (pen2 α 0)) ρ l v v' ∧ R.F v' ≤ R.F v + l.length * (ρ ^ 2 * B0) ∧ ∀ j ∈ l, R.L j ≠ 0 → v' j = 0 ∨ κ * e ≤ ‖v' j‖)
  | [], s, v, d, hr, _, _, _ => ⟨v, by simpa using hr, PEpoch.nil v, by simp, fun j hj => by simp at hj⟩
  | j :: l, s, v, d, hr, h1, h2, hF => by
    have hK := S.kk.K1
    have hC := S.C1
    have hB0 := S.B01
    have hCK : 0 ≤ C * K := by positivity
    have hlen : ((j :: l).length : ℝ) = l.length + 1 := by simp
    rw [hlen] at h2 hF ⊢
    have hl : (0 : ℝ) ≤ l.length := Nat.cast_nonneg _
    have q1 : 0 ≤ l.length * (C * K) := by positivity
    have q2 : 0 ≤ l.length * (ρ ^ 2 * B0) := by positivity
    have q3 : 0 ≤ ρ ^ 2 * B0 := by positivity
    unfold MT.bcdEpoch
    rw [List.map_cons, List.foldlM_cons]
    refine Tri.bind (S.step hr h1 (by linarith) (by linarith) j) fun s1 ⟨v1, hr1, hp, hb⟩ => ?_
    have hF1 : R.F v1 ≤ R.F v + ρ ^ 2 * B0 := by
      have h3 := S.cvx.pstep_dec' (μ := 1 / B0) (by positivity) S.Lge hp
      have h4 : 0 ≤ 1 / B0 / 4 * ‖v1 j - v j‖ ^ 2 := by positivity
      have h5 : ρ ^ 2 / (1 / B0) = ρ ^ 2 * B0 := by rw [div_div_eq_mul_div, div_one]
      rw [h5] at h3
      linarith
    refine Tri.mono (epoch l s1 v1 _ hr1 (by linarith) (by linarith) (by linarith)) fun s' ⟨v', k1, k2, k3, k4⟩ => ?_
    refine ⟨v', ?_, PEpoch.cons hp k2, by linarith, fun i hi hL => ?_⟩
    · rw [show d + (l.length + 1) * (C * K) = d + C * K + l.length * (C * K) by ring]
      exact k1
    · by_cases hil : i ∈ l
      · exact k4 i hil hL
      · rcases List.mem_cons.mp hi with rfl | h
        · rw [k2.off hil]; exact hb hL
        · exact absurd h hil

/-- The scores. -/
theorem viol {s : BCDState F} {v : Fin p → Euc T} {d : ℝ} (hr : RepMT A e d s v) (h1 : 1 ≤ d) (h2 : d ≤ D) (hF : R.F v ≤ c)
    (hO : ∀ j, v j = 0 ∨ κ * e ≤ ‖v j‖) :
    ∃ q : Fin p → F, MT.optCondViolation ds s.W s.XW (List.range p) df (L21.mk al) = .ok (List.ofFn q, maxDist (List.ofFn q)) ∧
      ∀ j, ∃ t, Den (q j) t ∧ |t - R.sc (v j) (R.G v j)| ≤ ρ / 2 := by
  have he := S.kk.e0
  have hC := S.C1
  have hB01 := S.B01
  have hα := S.α0
  have hρ1 := S.ρ1
  have hT0 : (0 : ℝ) ≤ T := Nat.cast_nonneg T
  obtain ⟨x, u, rfl, hx, hu⟩ := hr
  obtain ⟨b1, b2, b3⟩ := S.bnd v (by linarith)
  obtain ⟨α', ha, ha2⟩ := S.al
  have hs2 := S.small2
  obtain ⟨U, hU⟩ : ∃ U : ℝ, U = T * (B0 + 1) + (T + 1) * (α + 2) := ⟨_, rfl⟩
  rw [← hU] at hs2
  have hCd : C * d ≤ C * D := mul_le_mul_of_nonneg_left h2 (by linarith)
  have hTCd : T * (C * d) * e ≤ T * (C * D) * e := mul_le_mul_of_nonneg_right (mul_le_mul_of_nonneg_left hCd hT0) he.le
  have hTCd0 : 0 ≤ T * (C * d) * e := by
    have : 0 ≤ C * d := mul_nonneg (by linarith) (by linarith)
    positivity
  have hU2 : 2 * (T + 1) ≤ U := by
    rw [hU]
    have : 0 ≤ T * (B0 + 1) := by positivity
    nlinarith
  have hU0 : 0 < U := by linarith
  have hs2' : 2 * ((64 * T + 256) * U * e) + 2 * ((α + 1) * e) + 2 * (T * (C * D) * e) ≤ ρ := by linarith
  have p1 : 0 ≤ T * (U * e) := by positivity
  have p2 : 0 < U * e := by positivity
  have p3 : 0 < (α + 1) * e := by positivity
  have p5 : (64 * T + 256) * U * e = 64 * (T * (U * e)) + 256 * (U * e) := by ring
  have p6 : 2 * ((T + 1) * e) ≤ U * e := by
    have := mul_le_mul_of_nonneg_right hU2 he.le
    linarith
  have hTe0 : 0 ≤ T * e := by positivity
  have hTT : 64 * ((T + 4) * e) ≤ 1 := by linarith
  have ha3 : |α' - α| ≤ 1 / 2 := by linarith
  have ha4 := abs_le.mp ha3
  have he1 : e ≤ 1 := by linarith
  have hrow : ∀ j, RowOK e η α' (v j) := fun j => by
    rcases hO j with h | h
    · exact Or.inl h
    · right
      have hη := S.mt.small
      have hη0 := S.mt.norm.pos
      constructor
      · have h3 : (e * (κ * e)) ^ 2 ≤ (e * ‖v j‖) ^ 2 := by
          have : 0 ≤ e * (κ * e) := by have := S.κ0; positivity
          exact pow_le_pow_left₀ this (mul_le_mul_of_nonneg_left h he.le) 2
        refine le_trans ?_ h3
        have h4 : T * η ≤ T * e ^ 5 := mul_le_mul_of_nonneg_left hη hT0
        have h5 : T * e * e ^ 4 ≤ κ ^ 2 * e ^ 4 := mul_le_mul_of_nonneg_right S.small3 (by positivity)
        calc T * η ≤ T * e * e ^ 4 := by linarith [show T * e ^ 5 = T * e * e ^ 4 by ring]
          _ ≤ κ ^ 2 * e ^ 4 := h5
          _ = (e * (κ * e)) ^ 2 := by ring
      · have h3 : η ≤ e := by
          refine hη.trans ?_
          calc e ^ 5 = e * e ^ 4 := by ring
            _ ≤ e * 1 := mul_le_mul_of_nonneg_left (pow_le_one₀ he.le he1) he.le
            _ = e := mul_one e
        have h4 : (α' + 1) * (‖v j‖ + 1) ^ 2 ≤ (α + 2) * (B0 + 1) ^ 2 := by
          have h5 : (‖v j‖ + 1) ^ 2 ≤ (B0 + 1) ^ 2 := pow_le_pow_left₀ (by positivity) (by linarith [b1 j]) 2
          exact mul_le_mul (by linarith) h5 (by positivity) (by linarith)
        have h6 : (α' + 1) * (‖v j‖ + 1) ^ 2 * η ≤ (α + 2) * (B0 + 1) ^ 2 * e :=
          mul_le_mul h4 h3 hη0.le (by positivity)
        exact h6.trans S.small4
  have hgr := fun j => S.rows hu h1 h2 hF j
  choose γ hγ hγ2 using hgr
  have hnear := fun j => euc_near (hγ2 j)
  choose r hr1 hr2 using hnear
  have hsum : ∀ j, ∑ t, |r j t| ≤ T * (B0 + 1) := fun j => by
    have h3 : ∀ t, |r j t| ≤ B0 + 1 := fun t => by
      have h4 := abs_le_euc (WithLp.toLp 2 (r j) : Euc T) t
      have h5 : ‖(WithLp.toLp 2 (r j) : Euc T)‖ ≤ ‖R.G v j‖ + ‖R.G v j - (WithLp.toLp 2 (r j) : Euc T)‖ := by
        have := norm_sub_le (R.G v j) (R.G v j - (WithLp.toLp 2 (r j) : Euc T))
        rwa [sub_sub_cancel] at this
      have h6 := hr2 j
      have h7 := b3 j
      have h8 : |r j t| ≤ ‖(WithLp.toLp 2 (r j) : Euc T)‖ := h4
      linarith
    refine (Finset.sum_le_sum fun t _ => h3 t).trans (le_of_eq ?_)
    rw [Finset.sum_const, Finset.card_univ, Fintype.card_fin, nsmul_eq_mul]
  have hUj : ∀ j, ∑ t, |r j t| + (T + 1) * (α' + 1) ≤ U := fun j => by
    rw [hU]
    have : (T + 1) * (α' + 1) ≤ (T + 1) * (α + 2) := mul_le_mul_of_nonneg_left (by linarith) (by linarith)
    linarith [hsum j]
  have hsc := fun j => l21_score_err S.prec S.mt.norm ha (by linarith [(abs_le.mp ha2).1, S.small5]) (x j) (v j) (hx j) (γ j) (WithLp.toLp 2 (r j)) (hr1 j) hTT
    (by
      have := mul_le_mul_of_nonneg_right (hUj j) he.le
      show 8 * ((∑ t, |r j t| + (T + 1) * (α' + 1)) * e) ≤ 1
      linarith) (hrow j)
  choose q hq k hk hk2 using hsc
  refine ⟨q, mt_check_eq ds df (L21.mk al) S.fitA.tasks (L21.mk al).dist (fun _ _ _ => rfl) x (matOf u) γ hγ q hq, fun j => ⟨k j, hk j, ?_⟩⟩
  have h3 : |k j - l21Score α' (v j) (WithLp.toLp 2 (r j))| ≤ (8 * T + 24) * (e * U) := by
    refine (hk2 j).trans ?_
    have := mul_le_mul_of_nonneg_left (hUj j) he.le
    exact mul_le_mul_of_nonneg_left this (by positivity)
  have h4 := l21Score_lip_alpha α α' (v j) (WithLp.toLp 2 (r j))
  have h5 := l21Score_lip α (v j) (WithLp.toLp 2 (r j)) (R.G v j)
  rw [norm_sub_rev] at h5
  have h6 := hr2 j
  rw [S.sc]
  have a1 := abs_le.mp h3
  have a2 := abs_le.mp (h4.trans ha2)
  have a3 := abs_le.mp (h5.trans h6)
  have a4 : (8 * T + 24) * (e * U) = 8 * (T * (U * e)) + 24 * (U * e) := by ring
  have a5 : T * (C * d * e) = T * (C * d) * e := by ring
  rw [abs_le]
  constructor <;> linarith

/-- The working set. -/
theorem mkWs {srt : Argsort F} (hs : ArgsortSpec srt) {ws0 : ℕ} (h0 : 0 < ws0) (h0p : ws0 ≤ p) {s : BCDState F}
    {v : Fin p → Euc T} {d : ℝ} (hr : RepMT A e d s v) (h1 : 1 ≤ d) (h2 : d ≤ D) (hF : R.F v ≤ c)
    (hO : ∀ j, v j = 0 ∨ κ * e ≤ ‖v j‖) {kkt : List F} {km : F}
    (hv : MT.optCondViolation ds s.W s.XW (List.range p) df (L21.mk al) = .ok (kkt, km)) :
    ∃ l : List (Fin p), MT.constructWs srt kkt s.W ws0 = .ok (l.map Fin.val, l.length) ∧ l.Nodup ∧ (∀ j ∉ l, v j = 0) ∧
      ws0 ≤ l.length ∧
      ∀ j ∉ l, ∃ i ∈ l, v i = 0 ∧ R.sc (v j) (R.G v j) ≤ R.sc (v i) (R.G v i) + ρ := by
  obtain ⟨q, hκ, hκ2⟩ := S.viol hr h1 h2 hF hO
  rw [hκ] at hv
  injection hv with hv
  injection hv with hv1 hv2
  subst hv1
  obtain ⟨x, u, rfl, hx, hu⟩ := hr
  have hrows : (matOf x).nrows = p := by simp [matOf, Mat.nrows]
  obtain ⟨ws, hws, hW⟩ := MT.constructWs_ok hs (List.ofFn q) (matOf x) ws0 (by rw [hrows]; simp) (by rw [hrows]; exact h0p) (by
    intro y hy
    obtain ⟨j, rfl⟩ := List.mem_ofFn.mp hy
    obtain ⟨t, ht, -⟩ := hκ2 j
    exact ⟨t, ht, EReal.coe_ne_top t⟩)
  obtain ⟨nz, hnzd⟩ : ∃ nz : ℕ → Bool, nz = fun j => ((matOf x).rows.getD j []).any (fun x => !(x ==. zero)) := ⟨_, rfl⟩
  rw [← hnzd] at hW
  have hnz : ∀ j : Fin p, nz j = false ↔ v j = 0 := fun j => by
    have h3 := anyNonzero_den (V := v j) (hx j)
    have e1 : nz j = anyNonzero (List.ofFn (x j)) := by rw [hnzd]; dsimp only; rw [matOf_getD]; rfl
    rw [e1, ← Bool.not_eq_true, h3, not_not]
  rw [hrows] at hW
  obtain ⟨l, rfl⟩ : ∃ l : List (Fin p), ws = l.map Fin.val := by
    refine ⟨ws.pmap (fun j hj => ⟨j, hj⟩) hW.lt, ?_⟩
    rw [List.map_pmap]
    simp
  rw [List.length_map] at hws
  have mem : ∀ j : Fin p, j ∈ l ↔ (j : ℕ) ∈ l.map Fin.val := fun j => by
    rw [List.mem_map]
    exact ⟨fun h => ⟨j, h, rfl⟩, fun ⟨i, hi, e⟩ => Fin.ext e ▸ hi⟩
  have sup : ∀ j ∉ l, v j = 0 := fun j hj => by
    by_contra hc
    refine hj ((mem j).mpr (hW.support j j.isLt ?_))
    by_contra hn
    exact hc ((hnz j).mp (by simpa using hn))
  have hsz := hW.size
  rw [List.length_map] at hsz
  refine ⟨l, hws, List.Nodup.of_map _ hW.nodup, sup, by omega, fun j hj => ?_⟩
  have hex : ∃ i ∈ l, v i = 0 := by
    by_contra hc
    push Not at hc
    have hall : ∀ i ∈ l.map Fin.val, nz i = true := fun i hi => by
      obtain ⟨i', hi', rfl⟩ := List.mem_map.mp hi
      by_contra hn
      exact hc i' hi' ((hnz i').mp (by simpa using hn))
    have hcard : (l.map Fin.val).length ≤ (List.range p).countP nz := by
      rw [List.countP_eq_length_filter]
      refine (hW.nodup.subperm fun i hi => ?_).length_le
      exact List.mem_filter.mpr ⟨List.mem_range.mpr (hW.lt i hi), hall i hi⟩
    rw [List.length_map] at hcard
    have hle : p ≤ (List.range p).countP nz := by omega
    have hall := List.countP_eq_length.mp (le_antisymm List.countP_le_length (by rw [List.length_range]; exact hle))
    exact hj ((mem j).mpr (hW.support j j.isLt (hall j (List.mem_range.mpr j.isLt))))
  obtain ⟨i, hi, hvi⟩ := hex
  refine ⟨i, hi, hvi, ?_⟩
  have hb := hW.best i ((mem i).mp hi) ((hnz i).mpr hvi) j j.isLt (fun h => hj ((mem j).mpr h))
  rw [ofFn_getD, ofFn_getD] at hb
  obtain ⟨t, ht, ht2⟩ := hκ2 i
  obtain ⟨t', ht', ht2'⟩ := hκ2 j
  have hlt : ¬ t < t' := fun h => by
    rw [(den_lt ht ht').mpr h] at hb
    exact absurd hb (by simp)
  have := abs_le.mp ht2
  have := abs_le.mp ht2'
  linarith

/-- What holds of the states after `k` epochs and extrapolations. -/
def Inv (A : Fin n → Fin p → ℝ) (e C K : ℝ) (R : RProb (Euc T) p) (d0 η : ℝ) (k : ℕ) (s : BCDState F) : Prop :=
  ∃ v, RepMT A e (d0 + k * (p * (C * K))) s v ∧ R.F v ≤ R.F 0 + k * η ∧ ∀ j, R.L j = 0 → v j = 0

omit S [DesignMatrix F DM] [MTDatafit F DM DF] in
theorem Inv.mono {d0 η : ℝ} {k k' : ℕ} {s : BCDState F} (h : Inv A e C K R d0 η k s) (he : 0 ≤ e) (hCK : 0 ≤ C * K) (hη : 0 ≤ η)
    (hk : k ≤ k') : Inv A e C K R d0 η k' s := by
  obtain ⟨v, h1, h2, h3⟩ := h
  have hk' : (k : ℝ) ≤ k' := by exact_mod_cast hk
  refine ⟨v, h1.mono he ?_, h2.trans ?_, h3⟩
  · have := mul_le_mul_of_nonneg_right hk' (by positivity : 0 ≤ (p : ℝ) * (C * K))
    linarith
  · have := mul_le_mul_of_nonneg_right hk' hη
    linarith

/-- Rows are zero or not tiny. -/
def Out (p T : ℕ) (κ e : ℝ) (s : BCDState F) : Prop := ∀ j, absMT p T s j = 0 ∨ κ * e ≤ ‖absMT p T s j‖

/-- The solver realises block coordinate descent up to `ρ`, given this of its extrapolation step. -/
theorem pert {srt : Argsort F} (hs : ArgsortSpec srt) (cfg : Solver F) (hw0 : 0 < cfg.wsStartSize) (hp : 0 < p) {τ d0 ζ : ℝ}
    {m : ℕ} (hτ : ∃ τ', Den cfg.tolerance τ' ∧ |τ' - τ| ≤ ρ / 2) (hd0 : 1 ≤ d0) (hD : d0 + m * (p * (C * K)) ≤ D)
    (hη : p * (ρ ^ 2 * B0) ≤ ζ) (hTη : m * ζ ≤ 1) (hc : c = R.F 0 + 1) {plain : ℕ → Prop}
    {BInv : List (Fin p) → Mat F → Prop}
    (hbuf : ∀ l : List (Fin p), BInv l (Mat.zeros (cfg.K + 1) (l.length * T)))
    (hacc : ∀ k s (l : List (Fin p)) ep bf, k < m → 0 < k → Inv A e C K R d0 ζ k s → l.Nodup →
      ws0CD cfg p ≤ l.length → BInv l bf → (∀ j ∉ l, absMT p T s j = 0) →
      Ok (MT.accelBCD ds df (L21.mk al) cfg (l.map Fin.val) ep bf s) (fun r =>
        BInv l r.1 ∧ Inv A e C K R d0 ζ (k + 1) r.2 ∧ R.F (absMT p T r.2) ≤ R.F (absMT p T s) + ρ ∧
          (∀ j ∉ l, absMT p T r.2 j = 0) ∧ (plain ep → absMT p T r.2 = absMT p T s))) :
    Pert (MT.skelBCD srt ds df (L21.mk al) cfg p (ws0CD cfg p)) R (subdiff (pen2 α 0)) ρ τ c m (ws0CD cfg p) plain (absMT p T) (Inv A e C K R d0 ζ)
      (Out p T κ e) BInv := by
  have he := S.kk.e0
  have hK := S.kk.K1
  have hC := S.C1
  have hB0 := S.B01
  have hCK : 0 ≤ C * K := by positivity
  have hpCK : 0 ≤ (p : ℝ) * (C * K) := by positivity
  have hη0 : 0 ≤ ζ := le_trans (by positivity) hη
  have hd : ∀ k : ℕ, k ≤ m → 1 ≤ d0 + k * (p * (C * K)) ∧ d0 + k * (p * (C * K)) ≤ D := fun k hk => by
    have h1 : (k : ℝ) ≤ m := by exact_mod_cast hk
    have := mul_le_mul_of_nonneg_right h1 hpCK
    have : 0 ≤ (k : ℝ) * (p * (C * K)) := by positivity
    constructor <;> linarith
  have hl : ∀ k : ℕ, k ≤ m → R.F 0 + k * ζ ≤ c := fun k hk => by
    have h1 : (k : ℝ) ≤ m := by exact_mod_cast hk
    have := mul_le_mul_of_nonneg_right h1 hη0
    linarith
  have hw0' : 0 < ws0CD cfg p := by unfold ws0CD; omega
  have hwp : ws0CD cfg p ≤ p := min_le_right _ _
  obtain ⟨τ', t1, t2⟩ := hτ
  have t3 := abs_le.mp t2
  refine ⟨?_, ?_, ?_, ?_, fun l _ _ => ?_, ?_, fun k s l ep bf h1 h2 h3 h4 h5 h6 h7 =>
    (hacc k s l ep bf h1 h2 h3 h4 h5 h6 h7).mono fun r ⟨q1, q2, q3, q4, q5⟩ => ⟨q1, q2, q3, q4, fun h => ⟨q5 h, fun ho => ?_⟩⟩, ?_⟩
  · rintro k s - ⟨v, h1, -, h3⟩ j hj
    rw [h1.abs]; exact h3 j hj
  · rintro k s hk ⟨v, h1, h2, -⟩
    rw [h1.abs]; exact h2.trans (hl k hk)
  · rintro k s hk ⟨v, h1, h2, -⟩ hO
    unfold Out at hO
    rw [h1.abs] at hO
    obtain ⟨q, e1, e2⟩ := S.viol h1 (hd k hk).1 (hd k hk).2 (h2.trans (hl k hk)) hO
    refine Tri.of_ok e1 ?_
    have hm := maxDist_le (l := List.ofFn q) (by
      intro y hy
      obtain ⟨j, rfl⟩ := List.mem_ofFn.mp hy
      obtain ⟨t, ht, -⟩ := e2 j
      exact ⟨t, ht⟩) t1
    show ((maxDist (List.ofFn q) <=. cfg.tolerance) = true → _) ∧ (_ → (maxDist (List.ofFn q) <=. cfg.tolerance) = true)
    rw [hm, h1.abs]
    constructor
    · intro h j
      obtain ⟨t, ht, ht2⟩ := e2 j
      have h5 := h _ (List.mem_ofFn.mpr ⟨j, rfl⟩) t ht
      have := abs_le.mp ht2
      linarith
    · intro h y hy r hr
      obtain ⟨j, rfl⟩ := List.mem_ofFn.mp hy
      obtain ⟨t, ht, ht2⟩ := e2 j
      have := abs_le.mp ht2
      have := h j
      rw [hr.unique ht]
      linarith
  · rintro k s kkt km hk ⟨v, h1, h2, -⟩ hO hv
    unfold Out at hO
    rw [h1.abs] at hO
    obtain ⟨l, e1, e2, e3, e4, e5⟩ := S.mkWs hs hw0' hwp h1 (hd k hk).1 (hd k hk).2 (h2.trans (hl k hk)) hO hv
    refine Tri.of_ok e1 ⟨l, rfl, rfl, e2, e4, ?_, ?_⟩
    · rw [h1.abs]; exact e3
    · rw [h1.abs]; exact e5
  · show BInv l (Mat.zeros (cfg.K + 1) (l.length * ds.targets.nTasks))
    rw [S.fitA.tasks]
    exact hbuf l
  · rintro k s l hk ⟨v, h1, h2, h3⟩ hnd
    have hlen : (l.length : ℝ) ≤ p := by
      have := hnd.length_le_card
      rw [Fintype.card_fin] at this
      exact_mod_cast this
    have b1 : (l.length : ℝ) * (C * K) ≤ p * (C * K) := mul_le_mul_of_nonneg_right hlen hCK
    have b2 : (l.length : ℝ) * (ρ ^ 2 * B0) ≤ p * (ρ ^ 2 * B0) := mul_le_mul_of_nonneg_right hlen (by positivity)
    have b3 := hd (k + 1) hk
    have b4 := hl (k + 1) hk
    push_cast at b3 b4
    refine Tri.mono (S.epoch l s v _ h1 (hd k hk.le).1 (by linarith [b3.2]) (by linarith)) fun s' ⟨v', k1, k2, k3, k4⟩ => ?_
    rw [h1.abs]
    unfold Out
    rw [k1.abs]
    refine ⟨⟨v', k1.mono he.le ?_, ?_, k2.zeroOK h3⟩, k2, fun hoff j => ?_⟩
    · push_cast; linarith
    · push_cast; linarith
    · by_cases hj : j ∈ l
      · by_cases hL : R.L j = 0
        · exact Or.inl (k2.zeroOK h3 j hL)
        · exact k4 j hj hL
      · left
        rw [k2.off hj, hoff j hj]
  · unfold Out
    rw [q5 h]
    exact ho
  · rintro k s l km ep hk ⟨v, h1, -, -⟩ hnd
    have hs1 := MT.stop_safe (tol := cfg.tolerance) (km := km) (sz := l.length) (e := ep) S.fitA.tasks S.fitA.safe
      (MT.safe_L21 (L21.mk al)) h1.shaped.1 h1.shaped.2 (ws := l.map Fin.val) (by
        intro j hj
        obtain ⟨i, -, rfl⟩ := List.mem_map.mp hj
        exact i.isLt)
    show Ok (MT.stopBCD ds df (L21.mk al) cfg.tolerance p (l.map Fin.val) l.length km ep s) _
    revert hs1
    unfold MT.stopBCD
    split
    · rename_i hc
      intro hs1
      exact Tri.mono hs1 fun r _ _ => hc
    · intro _ h
      exact absurd h (by simp)

end FSysMT
end
end Sglm
