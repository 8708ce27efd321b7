import Verif.Proofs.FloatRun
import Verif.Proofs.Keep

/-!
# Runs of the solver in floating point, for penalties which need not be convex
-/

set_option linter.unusedSectionVars false

namespace Sglm
open Scalar Spec

section
variable {F DM DF P : Type} [Scalar F] [LawfulCmp F] [DesignMatrix F DM] [Datafit F DM DF] [Penalty F P] {n p : ℕ}

/-- A problem in floating point whose proximal steps `PX L V` are continuous and satisfy the optimality condition with
the subdifferential `Sd` up to a small error, with the constants of the error analysis: `B` bounds
magnitudes, `K` and `C` are the growth of errors, `D` bounds the error of the model fit, `ρ` the error of updates and scores, while
the objective is below `c`.  Steps with errors below `ρ` increase the objective by at most `η`; `Mag k` bounds the points reached after `k`
steps. -/
structure FWk (e B0 B K C D ρ η c : ℝ) (N Tu : ℕ) (ds : Dataset DM F) (df : DF) (pn : P) (A : Fin n → Fin p → ℝ)
    (g : (Fin n → ℝ) → Fin p → ℝ) (R : RProb ℝ p) (PX : ℝ → ℝ → ℝ) (Sd : ℝ → Set ℝ) (Mag : ℕ → (Fin p → ℝ) → Prop) : Prop where
  prec : Precise F e
  kk : Consts e B K N
  C1 : 1 ≤ C
  fitA : FitApx e B C ds df A g R.L
  safe : SafePen pn
  prox : ∀ (v s : F) (V : ℝ) (j : Fin p) (c : ℝ), R.L j ≠ 0 → 1 ≤ c → C * c * e ≤ 1 → |V| ≤ B → Apx e v V c → Apx e s (1 / R.L j) c →
    Ok (Penalty.prox pn v s) (fun x => ∃ t, Den x t ∧ |t - PX (R.L j) V| ≤ C * c * e ∧ ∃ s ∈ Sd t, |R.L j * (V - t) - s| ≤ C * c * e)
  dist : ∃ fn : F → F → F, Penalty.subdiffDistance pn = sepDistances fn ∧
    ∀ (w g : F) (t G c : ℝ), 1 ≤ c → C * c * e ≤ 1 → |t| ≤ B → |G| ≤ B → Den w t → Apx e g G c → Apx e (fn w g) (R.sc t G) (C * c)
  grad : ∀ w j, R.G w j = g (fit A w) j
  dec : ∀ k v j t, k < Tu → Mag k v → R.F v ≤ c → R.L j ≠ 0 → |t - PX (R.L j) (v j - R.G v j / R.L j)| ≤ ρ →
    Mag (k + 1) (Function.update v j t) ∧ R.F (Function.update v j t) ≤ R.F v + η
  mag : ∀ k v, Mag k v → Mag (k + 1) v
  η0 : 0 ≤ η
  η1 : η ≤ 1
  B01 : 1 ≤ B0
  hB : 4 * B0 ^ 2 ≤ B
  Lle : ∀ j, R.L j ≤ B0
  Lge : ∀ j, R.L j ≠ 0 → 1 / B0 ≤ R.L j
  bnd : ∀ k w, k ≤ Tu → Mag k w → R.F w ≤ c + 1 → (∀ j, |w j| ≤ B0) ∧ (∀ i, |fit A w i| ≤ B0) ∧ ∀ j, |R.G w j| ≤ B0
  small : C * (K * (K * (C * D))) * e ≤ ρ
  small2 : 2 * (C * (C * D)) * e ≤ ρ
  ρ1 : ρ ≤ 1

namespace FWk
variable {e B0 B K C D ρ η c : ℝ} {N Tu : ℕ} {ds : Dataset DM F} {df : DF} {pn : P} {A : Fin n → Fin p → ℝ}
    {g : (Fin n → ℝ) → Fin p → ℝ} {R : RProb ℝ p} {PX : ℝ → ℝ → ℝ} {Sd : ℝ → Set ℝ} {Mag : ℕ → (Fin p → ℝ) → Prop}
    (S : FWk e B0 B K C D ρ η c N Tu ds df pn A g R PX Sd Mag)
include S

theorem B0B : B0 ≤ B := by have := S.B01; have := S.hB; nlinarith

theorem chain {d : ℝ} (h1 : 1 ≤ d) (h2 : d ≤ D) : C * d * e ≤ 1 ∧ K * (C * d) * e ≤ 1 ∧ K * (K * (C * d)) * e ≤ 1 ∧
    C * (K * (K * (C * d))) * e ≤ ρ ∧ 0 ≤ ρ := by
  have he := S.kk.e0
  have hK := S.kk.K1
  have hC := S.C1
  have hs := S.small
  have hρ := S.ρ1
  have d0 : 0 < d := by linarith
  have k0 : 0 < K := by linarith
  have c0 : 0 < C := by linarith
  have a4 : C * (K * (K * (C * d))) * e ≤ C * (K * (K * (C * D))) * e := by
    refine mul_le_mul_of_nonneg_right ?_ he.le
    refine mul_le_mul_of_nonneg_left ?_ c0.le
    refine mul_le_mul_of_nonneg_left ?_ k0.le
    refine mul_le_mul_of_nonneg_left ?_ k0.le
    exact mul_le_mul_of_nonneg_left h2 c0.le
  have b1 : 0 < C * d := by positivity
  have a1 : C * d * e ≤ K * (C * d) * e := mul_le_mul_of_nonneg_right (le_mul_of_one_le_left b1.le hK) he.le
  have a2 : K * (C * d) * e ≤ K * (K * (C * d)) * e :=
    mul_le_mul_of_nonneg_right (le_mul_of_one_le_left (by positivity) hK) he.le
  have a3 : K * (K * (C * d)) * e ≤ C * (K * (K * (C * d))) * e :=
    mul_le_mul_of_nonneg_right (le_mul_of_one_le_left (by positivity) hC) he.le
  have : 0 ≤ C * (K * (K * (C * d))) * e := by positivity
  exact ⟨by linarith, by linarith, by linarith, by linarith, by linarith⟩

/-- The computed step constant vanishes exactly if the real one does. -/
theorem step_zero (h1 : 1 ≤ D) {l : F} {j : Fin p} (hl : Apx e l (R.L j) C) (h0 : R.L j = 0 → Den l 0) :
    (l ==. zero) = true ↔ R.L j = 0 := by
  constructor
  · intro h
    by_contra hc
    obtain ⟨t, ht, ht2⟩ := hl
    rw [(den_beq ht den_zero).mp h, zero_sub, abs_neg] at ht2
    have hL := S.Lge j hc
    have hB0 := S.B01
    obtain ⟨-, h3, -⟩ := S.chain le_rfl h1
    have hK := S.kk.K_ge
    have hBB := S.B0B
    have hB1 := S.kk.B1
    have he := S.kk.e0
    have hC := S.C1
    rw [abs_of_nonneg (le_trans (by positivity) hL)] at ht2
    have : K > B0 := by nlinarith [pow_two_nonneg B, pow_nonneg (by linarith : 0 ≤ B) 3]
    have h5 : 1 / B0 ≤ C * e := hL.trans ht2
    rw [div_le_iff₀ (by linarith)] at h5
    have h6 : C * e * B0 < C * e * K := mul_lt_mul_of_pos_left this (by positivity)
    nlinarith
  · exact fun h => (den_beq (h0 h) den_zero).mpr rfl

/-- One update. -/
theorem step {s : CDState F} {v : Fin p → ℝ} {d : ℝ} (hr : Rep A e d s v) (h1 : 1 ≤ d) (h2 : d + C * K ≤ D) (hF : R.F v ≤ c)
    {k : ℕ} (hk : k < Tu) (hM : Mag k v) (j : Fin p) : Ok (cdStep ds df pn s j) (fun s' => ∃ v', Rep A e (d + C * K) s' v' ∧
      Mag (k + 1) v' ∧ R.F v' ≤ R.F v + η ∧ PStep R Sd ρ v j v') := by
  have he := S.kk.e0
  have hK := S.kk.K1
  have hC := S.C1
  have hB0 := S.B01
  have hB := S.hB
  have hBB := S.B0B
  have hCK : 0 ≤ C * K := by positivity
  have hdD : d ≤ D := by linarith
  obtain ⟨x, u, rfl, hx, hu⟩ := hr
  obtain ⟨b1, b2, b3⟩ := S.bnd k v hk.le hM (by linarith)
  obtain ⟨c1, c2, c3, c4, hρ⟩ := S.chain h1 hdD
  obtain ⟨l, hl0, hl⟩ := S.fitA.step
  have hz := S.step_zero (by linarith) (hl j).1 (hl j).2
  unfold cdStep
  rw [hl0, getM_ofFn]
  dsimp only [bind, Except.bind]
  by_cases h0 : R.L j = 0
  · rw [if_pos (hz.mpr h0)]
    exact ⟨v, Rep.mono ⟨x, u, rfl, hx, hu⟩ he.le (by linarith), S.mag k v hM, by linarith [S.η0],
      fun _ _ => rfl, fun _ => rfl, fun h => absurd h0 h⟩
  · rw [if_neg fun h => h0 (hz.mp h)]
    rw [getM_ofFn]
    dsimp only
    have hL := S.Lge j h0
    have hL2 := S.Lle j
    have hLp : 0 < R.L j := lt_of_lt_of_le (by positivity) hL
    have hBL : 1 / B ≤ R.L j := le_trans (one_div_le_one_div_of_le (by linarith) hBB) hL
    refine Tri.bind (S.fitA.grad u (fit A v) d h1 c1 (fun i => (b2 i).trans hBB) hu j) fun gr hgr => ?_
    rw [← S.grad] at hgr
    have hCd : 1 ≤ C * d := one_le_mul_of_one_le_of_one_le hC h1
    have hl1 : Apx e (l j) (R.L j) (C * d) := (hl j).1.mono he.le (le_mul_of_one_le_right (by linarith) h1)
    have hq := S.kk.div S.prec hgr hl1 hCd ((b3 j).trans hBB) (by rw [abs_of_pos hLp]; exact hBL) c2
    have hKCd : 1 ≤ K * (C * d) := one_le_mul_of_one_le_of_one_le hK hCd
    have hGL : |R.G v j / R.L j| ≤ B0 * B0 := by
      rw [abs_div, abs_of_pos hLp, div_le_iff₀ hLp]
      have : B0 ≤ B0 * B0 * R.L j := by
        have := mul_le_mul_of_nonneg_left hL (by positivity : 0 ≤ B0 * B0)
        rw [mul_one_div, mul_div_assoc, div_self (by linarith), mul_one] at this
        exact this
      exact (b3 j).trans this
    have hV : |v j - R.G v j / R.L j| ≤ B := by
      have := abs_sub (v j) (R.G v j / R.L j)
      have := b1 j
      nlinarith
    have hsub := S.kk.sub S.prec (Den.apx he.le (hx j) (by linarith)) hq hKCd hV c3
    have hinv := S.kk.div S.prec (Den.apx he.le S.prec.one (by linarith)) hl1 hCd
      (by rw [abs_one]; exact S.kk.B1) (by rw [abs_of_pos hLp]; exact hBL) c2
    have hcc : K * (C * d) ≤ K * (K * (C * d)) := le_mul_of_one_le_left (by linarith) hK
    refine Tri.bind (S.prox _ _ _ j _ h0 (hKCd.trans hcc) (c4.trans S.ρ1) hV hsub
      (hinv.mono he.le hcc)) fun y hy => ?_
    obtain ⟨t, ht, hres, sg, hsg, hsg2⟩ := hy
    rw [setM_ofFn]
    dsimp only
    -- the new point
    obtain ⟨hM', hdec⟩ := S.dec k v j t hk hM hF h0 (hres.trans c4)
    have hP : Mag (k + 1) (Function.update v j t) ∧ R.F (Function.update v j t) ≤ R.F v + η ∧
        PStep R Sd ρ v j (Function.update v j t) := by
      refine ⟨hM', hdec, fun i hi => Function.update_of_ne hi _ _, fun h => absurd h h0, fun _ => ⟨sg, ?_, ?_⟩⟩
      · rw [Function.update_self]; exact hsg
      · rw [Function.update_self, Real.norm_eq_abs, smul_eq_mul]
        have e1 : R.L j * (v j - t) - R.G v j - sg = R.L j * (v j - R.G v j / R.L j - t) - sg := by field_simp; ring
        rw [e1]
        exact hsg2.trans c4
    have hx' : ∀ i, Den (Function.update x j y i) (Function.update v j t i) := fun i => by
      by_cases hi : i = j
      · subst hi; rw [Function.update_self, Function.update_self]; exact ht
      · rw [Function.update_of_ne hi, Function.update_of_ne hi]; exact hx i
    have hF' : R.F (Function.update v j t) ≤ c + 1 := by linarith [S.η1]
    have htB : |t| ≤ B0 := by
      have := (S.bnd (k + 1) _ hk hM' hF').1 j
      rwa [Function.update_self] at this
    have hts : |t - v j| ≤ B := by
      have := abs_sub t (v j)
      have := b1 j
      nlinarith
    have hK1 : K * 1 * e ≤ 1 := by
      rw [mul_one]
      refine le_trans (mul_le_mul_of_nonneg_right (le_mul_of_one_le_right (by linarith) hCd) he.le) c2
    have hdiff := S.kk.sub S.prec (Den.apx he.le ht zero_le_one) (Den.apx he.le (hx j) zero_le_one) le_rfl hts hK1
    rw [mul_one] at hdiff
    by_cases hd : ((y -. x j) ==. zero) = true
    · rw [if_neg (by simp [hd])]
      have htv : t = v j := by
        obtain ⟨q, hq1, -⟩ := hdiff
        have h3 := (S.prec.sub _ _ _ _ ht (hx j)).2 q hq1
        rw [(den_beq hq1 den_zero).mp hd, zero_sub, abs_neg] at h3
        have he1 : e < 1 := by
          have := S.kk.K_ge
          have := S.kk.B1
          have : (2 : ℝ) ≤ K := by nlinarith [pow_two_nonneg B, pow_nonneg (by linarith : 0 ≤ B) 3]
          nlinarith
        by_contra hne
        have : 0 < |t - v j| := abs_pos.mpr (sub_ne_zero.mpr hne)
        nlinarith
      refine ⟨Function.update v j t, ⟨_, u, rfl, hx', fun i => ?_⟩, hP⟩
      rw [htv, Function.update_eq_self]
      exact (hu i).mono he.le (by linarith)
    · rw [if_pos (by simpa using hd)]
      have hsm : C * (d + K) * e ≤ 1 := by
        have h3 : d + K ≤ D := by
          have : K ≤ C * K := le_mul_of_one_le_left (by linarith) hC
          linarith
        exact (S.chain (by linarith) h3).1
      refine Tri.bind (S.fitA.upd u (fit A v) d K _ (t - v j) h1 hK hsm (fun i => (b2 i).trans hBB) hts hu hdiff j)
        fun w' hw' => ?_
      obtain ⟨u', rfl, hu'⟩ := hw'
      refine ⟨Function.update v j t, ⟨_, u', rfl, hx', fun i => ?_⟩, hP⟩
      rw [fit_set]
      exact hu' i

/-- One epoch. -/
theorem epoch : ∀ (l : List (Fin p)) (s : CDState F) (v : Fin p → ℝ) (d : ℝ) (k : ℕ), Rep A e d s v → 1 ≤ d →
    d + l.length * (C * K) ≤ D → R.F v + l.length * η ≤ c → k + l.length ≤ Tu → Mag k v →
    Ok (cdEpoch ds df pn (l.map Fin.val) s) (fun s' => ∃ v', Rep A e (d + l.length * (C * K)) s' v' ∧ Mag (k + l.length) v' ∧
      R.F v' ≤ R.F v + l.length * η ∧ PEpoch R Sd ρ l v v')
  | [], s, v, d, k, hr, _, _, _, _, hM => ⟨v, by simpa using hr, hM, by simp, PEpoch.nil v⟩
  | j :: l, s, v, d, k, hr, h1, h2, hF, hk, hM => by
    have hK := S.kk.K1
    have hC := S.C1
    have hη := S.η0
    have hCK : 0 ≤ C * K := by positivity
    have hlen : ((j :: l).length : ℝ) = l.length + 1 := by simp
    have hlen' : (j :: l).length = l.length + 1 := by simp
    rw [hlen'] at hk
    rw [hlen] at h2 hF ⊢
    have hl : (0 : ℝ) ≤ l.length := Nat.cast_nonneg _
    have q1 : 0 ≤ l.length * (C * K) := by positivity
    have q2 : 0 ≤ l.length * η := by positivity
    unfold cdEpoch
    rw [List.map_cons, List.foldlM_cons]
    refine Tri.bind (S.step hr h1 (by linarith) (by linarith) (k := k) (by omega) hM j) fun s1 ⟨v1, hr1, hM1, hF1, hp⟩ => ?_
    refine Tri.mono (epoch l s1 v1 _ (k + 1) hr1 (by linarith) (by linarith) (by linarith) (by omega) hM1) fun s' ⟨v', k1, k2, k3, k4⟩ => ?_
    refine ⟨v', ?_, ?_, by linarith, PEpoch.cons hp k4⟩
    · rw [show d + (l.length + 1) * (C * K) = d + C * K + l.length * (C * K) by ring]
      exact k1
    · rw [hlen', show k + (l.length + 1) = k + 1 + l.length by ring]
      exact k2

/-- The scores. -/
theorem viol {s : CDState F} {v : Fin p → ℝ} {d : ℝ} (hr : Rep A e d s v) (h1 : 1 ≤ d) (h2 : d ≤ D) (hF : R.F v ≤ c) {k : ℕ} (hk : k ≤ Tu) (hM : Mag k v) :
    ∃ κ : Fin p → F, optCondViolation ds s.w s.Xw (List.range p) df pn = .ok (List.ofFn κ, maxDist (List.ofFn κ)) ∧
      ∀ j, ∃ t, Den (κ j) t ∧ |t - R.sc (v j) (R.G v j)| ≤ ρ / 2 := by
  have he := S.kk.e0
  have hC := S.C1
  have hBB := S.B0B
  obtain ⟨x, u, rfl, hx, hu⟩ := hr
  obtain ⟨b1, b2, b3⟩ := S.bnd k v hk hM (by linarith)
  obtain ⟨c1, c2, c3, c4, hρ⟩ := S.chain h1 h2
  have hCd : 1 ≤ C * d := one_le_mul_of_one_le_of_one_le hC h1
  have hgr : ∀ j : Fin p, ∃ y, Datafit.gradientJ df ds (List.ofFn u) j = .ok y ∧ Apx e y (R.G v j) (C * d) := fun j => by
    have := S.fitA.grad u (fit A v) d h1 c1 (fun i => (b2 i).trans hBB) hu j
    rw [← S.grad] at this
    exact Tri.exists_ok this
  choose y hy1 hy2 using hgr
  obtain ⟨fn, hfn, hd⟩ := S.dist
  refine ⟨fun j => fn (x j) (y j), ?_, fun j => ?_⟩
  · unfold optCondViolation constructGrad
    rw [mapM_range y hy1]
    dsimp only [bind, Except.bind]
    rw [hfn]
    exact sepDistances_all fn x y
  · have hsm : 2 * (C * (C * d)) * e ≤ ρ := by
      refine le_trans (mul_le_mul_of_nonneg_right ?_ he.le) S.small2
      refine mul_le_mul_of_nonneg_left ?_ (by norm_num)
      refine mul_le_mul_of_nonneg_left ?_ (by linarith)
      exact mul_le_mul_of_nonneg_left h2 (by linarith)
    obtain ⟨t, ht, ht2⟩ := hd (x j) (y j) (v j) (R.G v j) (C * d) hCd (by linarith [S.ρ1]) ((b1 j).trans hBB) ((b3 j).trans hBB)
      (hx j) (hy2 j)
    exact ⟨t, ht, by linarith⟩

/-- The working set. -/
theorem mkWs {srt : Argsort F} (hs : ArgsortSpec srt) {ws0 : ℕ} (h0p : ws0 ≤ p) {s : CDState F}
    {v : Fin p → ℝ} {d : ℝ} (hr : Rep A e d s v) (h1 : 1 ≤ d) (h2 : d ≤ D) (hF : R.F v ≤ c) {k : ℕ} (hk : k ≤ Tu) (hM : Mag k v)
    {kkt : List F} {km : F} (hv : optCondViolation ds s.w s.Xw (List.range p) df pn = .ok (kkt, km)) :
    ∃ l : List (Fin p), constructWs srt kkt s.w ws0 = .ok (l.map Fin.val, l.length) ∧ l.Nodup ∧ (∀ j ∉ l, v j = 0) ∧
      ws0 ≤ l.length ∧ (0 < ws0 → ∀ j ∉ l, ∃ i ∈ l, v i = 0 ∧ R.sc (v j) (R.G v j) ≤ R.sc (v i) (R.G v i) + ρ) := by
  obtain ⟨κ, hκ, hκ2⟩ := S.viol hr h1 h2 hF hk hM
  rw [hκ] at hv
  injection hv with hv
  injection hv with hv1 hv2
  subst hv1
  obtain ⟨x, u, rfl, hx, hu⟩ := hr
  obtain ⟨ws, hws, hW⟩ := constructWs_ok hs (List.ofFn κ) (List.ofFn x) ws0 (by simp) (by simpa using h0p) (by
    intro y hy
    obtain ⟨j, rfl⟩ := List.mem_ofFn.mp hy
    obtain ⟨t, ht, -⟩ := hκ2 j
    exact ⟨t, ht, EReal.coe_ne_top t⟩)
  have hnz : ∀ j : Fin p, (!((List.ofFn x).getD j zero ==. zero)) = false ↔ v j = 0 := fun j => by
    have e1 : (List.ofFn x).getD j zero = x j := by rw [List.getD_eq_getElem?_getD]; simp
    rw [e1, Bool.not_eq_false']
    exact den_beq (hx j) den_zero
  simp only [List.length_ofFn] at hW
  obtain ⟨l, rfl⟩ : ∃ l : List (Fin p), ws = l.map Fin.val := by
    refine ⟨ws.pmap (fun j hj => ⟨j, hj⟩) hW.lt, ?_⟩
    rw [List.map_pmap]
    simp
  rw [List.length_map] at hws
  have mem : ∀ j : Fin p, j ∈ l ↔ (j : ℕ) ∈ l.map Fin.val := fun j => by
    rw [List.mem_map]
    exact ⟨fun h => ⟨j, h, rfl⟩, fun ⟨i, hi, e⟩ => Fin.ext e ▸ hi⟩
  have sup : ∀ j ∉ l, v j = 0 := fun j hj => by
    by_contra hc
    refine hj ((mem j).mpr (hW.support j j.isLt ?_))
    by_contra hn
    exact hc ((hnz j).mp (by simpa using hn))
  have hsz := hW.size
  rw [List.length_map] at hsz
  refine ⟨l, hws, List.Nodup.of_map _ hW.nodup, sup, by omega, fun h0 j hj => ?_⟩
  have hex : ∃ i ∈ l, v i = 0 := by
    by_contra hc
    push Not at hc
    have hall : ∀ i ∈ l.map Fin.val, (!((List.ofFn x).getD i zero ==. zero)) = true := fun i hi => by
      obtain ⟨i', hi', rfl⟩ := List.mem_map.mp hi
      by_contra hn
      exact hc i' hi' ((hnz i').mp (by simpa using hn))
    have hcard : (l.map Fin.val).length ≤ (List.range p).countP (fun j => !((List.ofFn x).getD j zero ==. zero)) := by
      rw [List.countP_eq_length_filter]
      refine (hW.nodup.subperm fun i hi => ?_).length_le
      exact List.mem_filter.mpr ⟨List.mem_range.mpr (hW.lt i hi), hall i hi⟩
    rw [List.length_map] at hcard
    have hle : p ≤ (List.range p).countP (fun j => !((List.ofFn x).getD j zero ==. zero)) := by omega
    have hall := List.countP_eq_length.mp (le_antisymm List.countP_le_length (by rw [List.length_range]; exact hle))
    exact hj ((mem j).mpr (hW.support j j.isLt (hall j (List.mem_range.mpr j.isLt))))
  obtain ⟨i, hi, hvi⟩ := hex
  refine ⟨i, hi, hvi, ?_⟩
  have hb := hW.best i ((mem i).mp hi) ((hnz i).mpr hvi) j j.isLt (fun h => hj ((mem j).mpr h))
  have get : ∀ j : Fin p, (List.ofFn κ).getD j zero = κ j := fun j => by rw [List.getD_eq_getElem?_getD]; simp
  rw [get, get] at hb
  obtain ⟨t, ht, ht2⟩ := hκ2 i
  obtain ⟨t', ht', ht2'⟩ := hκ2 j
  have hlt : ¬ t < t' := fun h => by
    rw [(den_lt ht ht').mpr h] at hb
    exact absurd hb (by simp)
  have := abs_le.mp ht2
  have := abs_le.mp ht2'
  linarith

/-- What holds of the states after `k` epochs and extrapolations. -/
def Inv (A : Fin n → Fin p → ℝ) (e C K : ℝ) (R : RProb ℝ p) (Mag : ℕ → (Fin p → ℝ) → Prop) (d0 ν : ℝ) (k : ℕ) (s : CDState F) : Prop :=
  ∃ v, Rep A e (d0 + k * (p * (C * K))) s v ∧ R.F v ≤ R.F 0 + k * ν ∧ Mag (k * p) v ∧ ∀ j, R.L j = 0 → v j = 0

theorem mag_le {k k' : ℕ} (h : k ≤ k') {v : Fin p → ℝ} (hM : Mag k v) : Mag k' v := by
  induction h with
  | refl => exact hM
  | step _ ih => exact S.mag _ _ ih

theorem Inv.mono {d0 ν : ℝ} {k k' : ℕ} {s : CDState F} (h : Inv A e C K R Mag d0 ν k s) (hν : 0 ≤ ν)
    (hk : k ≤ k') : Inv A e C K R Mag d0 ν k' s := by
  obtain ⟨v, h1, h2, hM, h3⟩ := h
  have hk' : (k : ℝ) ≤ k' := by exact_mod_cast hk
  have hC := S.C1
  have hK := S.kk.K1
  refine ⟨v, h1.mono S.kk.e0' ?_, h2.trans ?_, S.mag_le (Nat.mul_le_mul_right p hk) hM, h3⟩
  · have := mul_le_mul_of_nonneg_right hk' (by positivity : 0 ≤ (p : ℝ) * (C * K))
    linarith
  · have := mul_le_mul_of_nonneg_right hk' hν
    linarith

/-- The solver keeps the invariant, given this of its extrapolation step. -/
theorem keep {srt : Argsort F} (hs : ArgsortSpec srt) (cfg : Solver F) {τ d0 ν : ℝ}
    {T : ℕ} (hτ : ∃ τ', Den cfg.tolerance τ' ∧ |τ' - τ| ≤ ρ / 2) (hd0 : 1 ≤ d0) (hD : d0 + T * (p * (C * K)) ≤ D) (hTu : T * p ≤ Tu)
    (hν : p * η ≤ ν) (hTν : T * ν ≤ 1) (hc : c = R.F 0 + 1)
    {BInv : List (Fin p) → Mat F → Prop}
    (hbuf : ∀ l : List (Fin p), BInv l (Mat.zeros (cfg.K + 1) l.length))
    (hacc : ∀ k s (l : List (Fin p)) ep bf, k < T → 0 < k → Inv A e C K R Mag d0 ν k s → l.Nodup →
      ws0CD cfg p ≤ l.length → BInv l bf → (∀ j ∉ l, absOf p s j = 0) →
      Ok (accelCD ds df pn cfg (l.map Fin.val) ep bf s) (fun r =>
        BInv l r.1 ∧ Inv A e C K R Mag d0 ν (k + 1) r.2 ∧ ∀ j ∉ l, absOf p r.2 j = 0)) :
    Keep (skelCD srt ds df pn cfg p (ws0CD cfg p)) R ρ τ T (ws0CD cfg p) (absOf p) (Inv A e C K R Mag d0 ν) BInv := by
  have he := S.kk.e0
  have hK := S.kk.K1
  have hC := S.C1
  have hη := S.η0
  have hCK : 0 ≤ C * K := by positivity
  have hpCK : 0 ≤ (p : ℝ) * (C * K) := by positivity
  have hν0 : 0 ≤ ν := le_trans (by positivity) hν
  have hd : ∀ k : ℕ, k ≤ T → 1 ≤ d0 + k * (p * (C * K)) ∧ d0 + k * (p * (C * K)) ≤ D := fun k hk => by
    have h1 : (k : ℝ) ≤ T := by exact_mod_cast hk
    have := mul_le_mul_of_nonneg_right h1 hpCK
    have : 0 ≤ (k : ℝ) * (p * (C * K)) := by positivity
    constructor <;> linarith
  have hl : ∀ k : ℕ, k ≤ T → R.F 0 + k * ν ≤ c := fun k hk => by
    have h1 : (k : ℝ) ≤ T := by exact_mod_cast hk
    have := mul_le_mul_of_nonneg_right h1 hν0
    linarith
  have hu : ∀ k : ℕ, k ≤ T → k * p ≤ Tu := fun k hk => (Nat.mul_le_mul_right p hk).trans hTu
  have hwp : ws0CD cfg p ≤ p := min_le_right _ _
  obtain ⟨τ', t1, t2⟩ := hτ
  have t3 := abs_le.mp t2
  refine ⟨?_, ?_, fun l _ _ => hbuf l, ?_, hacc, ?_⟩
  · rintro k s hk ⟨v, h1, h2, hM, -⟩
    obtain ⟨κ, e1, e2⟩ := S.viol h1 (hd k hk).1 (hd k hk).2 (h2.trans (hl k hk)) (hu k hk) hM
    refine Tri.of_ok e1 ?_
    have hm := maxDist_le (l := List.ofFn κ) (by
      intro y hy
      obtain ⟨j, rfl⟩ := List.mem_ofFn.mp hy
      obtain ⟨t, ht, -⟩ := e2 j
      exact ⟨t, ht⟩) t1
    show (maxDist (List.ofFn κ) <=. cfg.tolerance) = true → _
    rw [hm, h1.abs]
    intro h j
    obtain ⟨t, ht, ht2⟩ := e2 j
    have h5 := h _ (List.mem_ofFn.mpr ⟨j, rfl⟩) t ht
    have := abs_le.mp ht2
    linarith
  · rintro k s kkt km hk ⟨v, h1, h2, hM, -⟩ hv
    obtain ⟨l, e1, e2, e3, e4, -⟩ := S.mkWs hs hwp h1 (hd k hk).1 (hd k hk).2 (h2.trans (hl k hk)) (hu k hk) hM hv
    refine Tri.of_ok e1 ⟨l, rfl, rfl, e2, e4, ?_⟩
    rw [h1.abs]; exact e3
  · rintro k s l hk ⟨v, h1, h2, hM, h3⟩ hnd
    have hlen0 : l.length ≤ p := by
      have := hnd.length_le_card
      rwa [Fintype.card_fin] at this
    have hlen : (l.length : ℝ) ≤ p := by exact_mod_cast hlen0
    have b1 : (l.length : ℝ) * (C * K) ≤ p * (C * K) := mul_le_mul_of_nonneg_right hlen hCK
    have b2 : (l.length : ℝ) * η ≤ p * η := mul_le_mul_of_nonneg_right hlen hη
    have b3 := hd (k + 1) hk
    have b4 := hl (k + 1) hk
    have b5 := hu (k + 1) hk
    have b6 : (k + 1) * p = k * p + p := by ring
    push_cast at b3 b4
    refine Tri.mono (S.epoch l s v _ (k * p) h1 (hd k hk.le).1 (by linarith [b3.2]) (by linarith) (by omega) hM)
      fun s' ⟨v', k1, k2, k3, k4⟩ => ?_
    rw [h1.abs, k1.abs]
    refine ⟨⟨v', k1.mono he.le ?_, ?_, S.mag_le (by omega) k2, k4.zeroOK h3⟩, fun j hj => k4.off hj⟩
    · push_cast; linarith
    · push_cast; linarith
  · rintro k s l km ep hk ⟨v, h1, -, -⟩ hnd
    have hs1 := stop_safe (tol := cfg.tolerance) (km := km) (sz := l.length) (e := ep) S.fitA.safe S.safe h1.len.1
      h1.len.2 (ws := l.map Fin.val) (by
        intro j hj
        obtain ⟨i, -, rfl⟩ := List.mem_map.mp hj
        exact i.isLt)
    exact Tri.mono hs1 fun _ _ => trivial

/-- The solver realises coordinate descent up to `ρ`, given this of its extrapolation step. -/
theorem pert {srt : Argsort F} (hs : ArgsortSpec srt) (cfg : Solver F) (hw0 : 0 < cfg.wsStartSize) (hp : 0 < p) {τ d0 ν : ℝ}
    {T : ℕ} (hτ : ∃ τ', Den cfg.tolerance τ' ∧ |τ' - τ| ≤ ρ / 2) (hd0 : 1 ≤ d0) (hD : d0 + T * (p * (C * K)) ≤ D) (hTu : T * p ≤ Tu)
    (hν : p * η ≤ ν) (hTν : T * ν ≤ 1) (hc : c = R.F 0 + 1) {plain : ℕ → Prop}
    {BInv : List (Fin p) → Mat F → Prop}
    (hbuf : ∀ l : List (Fin p), BInv l (Mat.zeros (cfg.K + 1) l.length))
    (hacc : ∀ k s (l : List (Fin p)) ep bf, k < T → 0 < k → Inv A e C K R Mag d0 ν k s → l.Nodup →
      ws0CD cfg p ≤ l.length → BInv l bf → (∀ j ∉ l, absOf p s j = 0) →
      Ok (accelCD ds df pn cfg (l.map Fin.val) ep bf s) (fun r =>
        BInv l r.1 ∧ Inv A e C K R Mag d0 ν (k + 1) r.2 ∧ R.F (absOf p r.2) ≤ R.F (absOf p s) + ρ ∧ (∀ j ∉ l, absOf p r.2 j = 0) ∧
          (plain ep → absOf p r.2 = absOf p s))) :
    Pert (skelCD srt ds df pn cfg p (ws0CD cfg p)) R Sd ρ τ c T (ws0CD cfg p) plain (absOf p) (Inv A e C K R Mag d0 ν)
      (fun _ => True) BInv := by
  have he := S.kk.e0
  have hK := S.kk.K1
  have hC := S.C1
  have hη := S.η0
  have hCK : 0 ≤ C * K := by positivity
  have hpCK : 0 ≤ (p : ℝ) * (C * K) := by positivity
  have hν0 : 0 ≤ ν := le_trans (by positivity) hν
  have hd : ∀ k : ℕ, k ≤ T → 1 ≤ d0 + k * (p * (C * K)) ∧ d0 + k * (p * (C * K)) ≤ D := fun k hk => by
    have h1 : (k : ℝ) ≤ T := by exact_mod_cast hk
    have := mul_le_mul_of_nonneg_right h1 hpCK
    have : 0 ≤ (k : ℝ) * (p * (C * K)) := by positivity
    constructor <;> linarith
  have hl : ∀ k : ℕ, k ≤ T → R.F 0 + k * ν ≤ c := fun k hk => by
    have h1 : (k : ℝ) ≤ T := by exact_mod_cast hk
    have := mul_le_mul_of_nonneg_right h1 hν0
    linarith
  have hu : ∀ k : ℕ, k ≤ T → k * p ≤ Tu := fun k hk => (Nat.mul_le_mul_right p hk).trans hTu
  have hw0' : 0 < ws0CD cfg p := by unfold ws0CD; omega
  have hwp : ws0CD cfg p ≤ p := min_le_right _ _
  obtain ⟨τ', t1, t2⟩ := hτ
  have t3 := abs_le.mp t2
  refine ⟨?_, ?_, ?_, ?_, fun l _ _ => hbuf l, ?_, fun k s l ep bf h1 h2 h3 h4 h5 h6 h7 =>
    (hacc k s l ep bf h1 h2 h3 h4 h5 h6 h7).mono fun r ⟨q1, q2, q3, q4, q5⟩ => ⟨q1, q2, q3, q4, fun h => ⟨q5 h, id⟩⟩, ?_⟩
  · rintro k s - ⟨v, h1, -, -, h3⟩ j hj
    rw [h1.abs]; exact h3 j hj
  · rintro k s hk ⟨v, h1, h2, -⟩
    rw [h1.abs]; exact h2.trans (hl k hk)
  · rintro k s hk ⟨v, h1, h2, hM, -⟩ -
    obtain ⟨κ, e1, e2⟩ := S.viol h1 (hd k hk).1 (hd k hk).2 (h2.trans (hl k hk)) (hu k hk) hM
    refine Tri.of_ok e1 ?_
    have hm := maxDist_le (l := List.ofFn κ) (by
      intro y hy
      obtain ⟨j, rfl⟩ := List.mem_ofFn.mp hy
      obtain ⟨t, ht, -⟩ := e2 j
      exact ⟨t, ht⟩) t1
    show ((maxDist (List.ofFn κ) <=. cfg.tolerance) = true → _) ∧ (_ → (maxDist (List.ofFn κ) <=. cfg.tolerance) = true)
    rw [hm, h1.abs]
    constructor
    · intro h j
      obtain ⟨t, ht, ht2⟩ := e2 j
      have h5 := h _ (List.mem_ofFn.mpr ⟨j, rfl⟩) t ht
      have := abs_le.mp ht2
      linarith
    · intro h y hy r hr
      obtain ⟨j, rfl⟩ := List.mem_ofFn.mp hy
      obtain ⟨t, ht, ht2⟩ := e2 j
      have := abs_le.mp ht2
      have := h j
      rw [hr.unique ht]
      linarith
  · rintro k s kkt km hk ⟨v, h1, h2, hM, -⟩ - hv
    obtain ⟨l, e1, e2, e3, e4, e5⟩ := S.mkWs hs hwp h1 (hd k hk).1 (hd k hk).2 (h2.trans (hl k hk)) (hu k hk) hM hv
    refine Tri.of_ok e1 ⟨l, rfl, rfl, e2, e4, ?_, ?_⟩
    · rw [h1.abs]; exact e3
    · rw [h1.abs]; exact e5 hw0'
  · rintro k s l hk ⟨v, h1, h2, hM, h3⟩ hnd
    have hlen0 : l.length ≤ p := by
      have := hnd.length_le_card
      rwa [Fintype.card_fin] at this
    have hlen : (l.length : ℝ) ≤ p := by exact_mod_cast hlen0
    have b1 : (l.length : ℝ) * (C * K) ≤ p * (C * K) := mul_le_mul_of_nonneg_right hlen hCK
    have b2 : (l.length : ℝ) * η ≤ p * η := mul_le_mul_of_nonneg_right hlen hη
    have b3 := hd (k + 1) hk
    have b4 := hl (k + 1) hk
    have b5 := hu (k + 1) hk
    have b6 : (k + 1) * p = k * p + p := by ring
    push_cast at b3 b4
    refine Tri.mono (S.epoch l s v _ (k * p) h1 (hd k hk.le).1 (by linarith [b3.2]) (by linarith) (by omega) hM)
      fun s' ⟨v', k1, k2, k3, k4⟩ => ?_
    rw [h1.abs, k1.abs]
    refine ⟨⟨v', k1.mono he.le ?_, ?_, S.mag_le (by omega) k2, k4.zeroOK h3⟩, k4, fun _ => trivial⟩
    · push_cast; linarith
    · push_cast; linarith
  · rintro k s l km ep hk ⟨v, h1, -, -⟩ hnd
    have hs1 := stop_safe (tol := cfg.tolerance) (km := km) (sz := l.length) (e := ep) S.fitA.safe S.safe h1.len.1
      h1.len.2 (ws := l.map Fin.val) (by
        intro j hj
        obtain ⟨i, -, rfl⟩ := List.mem_map.mp hj
        exact i.isLt)
    show Ok (stopCD ds df pn cfg.tolerance p (l.map Fin.val) l.length km ep s) _
    revert hs1
    unfold stopCD
    split
    · rename_i hc
      intro hs1
      exact Tri.mono hs1 fun r _ _ => hc
    · intro _ h
      exact absurd h (by simp)

end FWk
end
end Sglm
