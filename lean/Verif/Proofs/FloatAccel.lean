import Verif.Proofs.FloatCall

/-!
# Extrapolation in floating point
-/

set_option linter.unusedSectionVars false

namespace Sglm
open Scalar Spec

section
variable {F : Type} [Scalar F] [LawfulCmp F] {n p : ℕ}

/-- The buffer has the right shape, and its entries are zero for coordinates satisfying `Z`. -/
def BufOK (Z : Fin p → Prop) (K : ℕ) (l : List (Fin p)) (b : Mat F) : Prop :=
  Shaped b (K + 1) l.length ∧ ∀ row ∈ b.rows, ∀ (i : ℕ) (j : Fin p) (x : F), l[i]? = some j → row[i]? = some x → Z j → Den x 0

theorem bufOK_zeros (Z : Fin p → Prop) (K : ℕ) (l : List (Fin p)) : BufOK Z K l (Mat.zeros (K + 1) l.length : Mat F) := by
  refine ⟨Shaped.zeros, fun row hrow i j x _ hx _ => ?_⟩
  rw [List.eq_of_mem_replicate hrow] at hx
  rw [List.eq_of_mem_replicate (List.mem_of_getElem? hx)]
  exact den_zero

theorem set2_rows {A : Mat F} {r c : ℕ} (h : Shaped A r c) {i j : ℕ} (hi : i < r) (hj : j < c) (a : F) :
    Ok (A.set2 i j a) (fun B => ∀ row ∈ B.rows, row ∈ A.rows ∨ ∃ x ∈ A.rows, row = x.set j a) := by
  unfold Mat.set2
  refine Tri.bind (Tri.getM' (by rw [h.1]; exact hi)) fun x hx => ?_
  have hxl := h.2.2 x hx
  refine Tri.bind (Tri.setM a (by rw [hxl]; exact hj)) fun y hy => ?_
  refine Tri.bind (Tri.setM' y (by rw [h.1]; exact hi)) fun rows hr => ?_
  intro row hrow
  rcases hr.2 row hrow with h1 | h1
  · exact Or.inr ⟨x, hx, by rw [h1, hy]⟩
  · exact Or.inl h1

theorem storeIterate_buf {Z : Fin p → Prop} {K k : ℕ} {l : List (Fin p)} {b : Mat F} (hb : BufOK Z K l b) (hk : k < K + 1) {w : Fin p → F}
    (hw : ∀ j, Z j → Den (w j) 0) : Ok (storeIterate b (List.ofFn w) (l.map Fin.val) k) (BufOK Z K l) := by
  unfold storeIterate
  refine Tri.foldlM (BufOK Z K l) _ _ (fun A ji hji hA => ?_) _ hb
  obtain ⟨-, h1, h2⟩ := List.mem_zipIdx hji
  simp only [Nat.sub_zero, List.length_map, Nat.zero_add, List.getElem_map] at h1 h2
  rw [h2, getM_ofFn]
  show Ok (A.set2 k ji.2 (w l[ji.2])) _
  refine Tri.mono (Tri.and (hA.1.set2 hk h1 _) (set2_rows hA.1 hk h1 (w l[ji.2]))) ?_
  rintro B ⟨hB1, hB2⟩
  refine ⟨hB1, fun row hrow i j x hj hx hZ => ?_⟩
  rcases hB2 row hrow with h3 | ⟨r, hr, rfl⟩
  · exact hA.2 row h3 i j x hj hx hZ
  · rw [List.getElem?_set] at hx
    split at hx
    · rename_i hi
      split at hx
      · injection hx with hx
        rw [← hx]
        subst hi
        rw [List.getElem?_eq_getElem h1] at hj
        injection hj with hj
        rw [hj]
        exact hw j hZ
      · cases hx
    · exact hA.2 r hr i j x hj hx hZ

/-- Extrapolated coordinates are zero if the stored ones are. -/
theorem extrapolate_zero {e : ℝ} (Pr : Precise F e) (S : Propagates F) {Z : Fin p → Prop} {K : ℕ} {l : List (Fin p)} {b : Mat F}
    (hb : BufOK Z K l b) (z : List F) : Ok (extrapolate b z K l.length) (fun pt => pt.length = l.length ∧
      ∀ (i : ℕ) (j : Fin p) (x : F), l[i]? = some j → pt[i]? = some x → Z j → ∀ t, Den x t → t = 0) := by
  unfold extrapolate
  refine Tri.foldlM (fun acc : List F => acc.length = l.length ∧
      ∀ (i : ℕ) (j : Fin p) (x : F), l[i]? = some j → acc[i]? = some x → Z j → ∀ t, Den x t → t = 0) _ _ (fun acc r hr hacc => ?_) _
    ⟨by simp, fun i j x _ hx _ t ht => ?_⟩
  · obtain ⟨rc, hrc, rfl⟩ := List.mem_map.mp hr
    have hrow : rc.1 ∈ b.rows := List.mem_of_mem_take (List.of_mem_zip hrc).1
    have hlen := hb.1.2.2 _ hrow
    unfold bop
    rw [if_pos (by rw [hacc.1, List.length_map, hlen])]
    refine ⟨by rw [List.length_zipWith, List.length_map, hacc.1, hlen, Nat.min_self], fun i j x hj hx hZ t ht => ?_⟩
    rw [List.getElem?_zipWith] at hx
    split at hx
    · rename_i a c ha hc
      injection hx with hx
      rw [← hx] at ht
      rw [List.getElem?_map] at hc
      obtain ⟨c0, hc0, rfl⟩ := Option.map_eq_some_iff.mp hc
      have hz0 := hb.2 _ hrow i j c0 hj hc0 hZ
      obtain ⟨r1, r2, k1, k2⟩ := S.add_fin _ _ _ ht
      obtain ⟨r3, r4, k3, k4⟩ := S.mul_fin _ _ _ k2
      have e1 := hacc.2 i j a hj ha hZ r1 k1
      have e2 := k2.unique (Pr.mul_zero _ _ _ _ hz0 k4 (zero_mul _))
      have := (Pr.add _ _ _ _ k1 k2).2 t ht
      rw [e1, e2, add_zero, abs_zero, mul_zero, sub_zero] at this
      exact abs_eq_zero.mp (le_antisymm this (abs_nonneg _))
    · cases hx
  · rw [List.eq_of_mem_replicate (List.mem_of_getElem? hx)] at ht
    exact ht.unique den_zero

/-- Scattered values. -/
theorem scatter_spec (pt : List F) (l : List (Fin p)) :
    Ok (scatter p pt (l.map Fin.val)) (fun w => ∃ x : Fin p → F, w = List.ofFn x ∧
      ∀ j, x j = zero ∨ ∃ i : ℕ, pt[i]? = some (x j) ∧ l[i]? = some j) := by
  unfold scatter
  refine Tri.foldlM (fun w : List F => ∃ x : Fin p → F, w = List.ofFn x ∧
      ∀ j, x j = zero ∨ ∃ i : ℕ, pt[i]? = some (x j) ∧ l[i]? = some j) _ _ (fun acc vj hvj hacc => ?_) _
    ⟨fun _ => zero, by simp, fun j => Or.inl rfl⟩
  obtain ⟨x, rfl, hx⟩ := hacc
  obtain ⟨i, hi⟩ := List.mem_iff_getElem?.mp hvj
  rw [List.getElem?_zip_eq_some, List.getElem?_map] at hi
  obtain ⟨h1, h2⟩ := hi
  obtain ⟨j, h3, h4⟩ := Option.map_eq_some_iff.mp h2
  rw [← h4, setM_ofFn]
  refine ⟨_, rfl, fun j' => ?_⟩
  by_cases hj : j' = j
  · subst hj
    rw [Function.update_self]
    exact Or.inr ⟨i, h1, h3⟩
  · rw [Function.update_of_ne hj]
    exact hx j'

end

section
variable {F DM DF P : Type} [Scalar F] [LawfulCmp F] [DesignMatrix F DM] [Datafit F DM DF] [Penalty F P] {n p : ℕ}

/-- What is known of computed objectives. -/
structure ObjApx (e Bv Bu C D ρ c : ℝ) (ds : Dataset DM F) (df : DF) (pn : P) (A : Fin n → Fin p → ℝ) (f0 : (Fin n → ℝ) → ℝ)
    (φ : ℝ → ℝ) (R : RProb ℝ p) : Prop where
  prec : Precise F e
  prop : Propagates F
  samples : ds.targets.nSamples = n
  features : DesignMatrix.nFeatures (F := F) ds.designMatrix = .ok p
  safe : SafeFit ds df n p
  safeP : SafePen pn
  fitV : FitVal e Bv Bu C ds df A f0
  penV : PenVal p e (2 * (c + 1)) Bv C pn φ
  obj : ∀ w, R.F w = f0 (fit A w) + ∑ j, φ (w j)
  pos : ∀ w, 0 ≤ R.F w
  bnd : ∀ w, R.F w ≤ c → (∀ j, |w j| ≤ Bv) ∧ ∀ i, |fit A w i| ≤ Bu
  fitb : ∀ v : Fin p → ℝ, (∀ j, |v j| ≤ Bv) → ∀ i, |fit A v i| ≤ Bu
  C1 : 1 ≤ C
  c0 : 0 ≤ c
  CD : C ≤ D
  small : (4 * (C * D) + 3 * c + 4) * e ≤ ρ
  ρ1 : ρ ≤ 1

namespace ObjApx
variable {e Bv Bu C D ρ c : ℝ} {ds : Dataset DM F} {df : DF} {pn : P} {A : Fin n → Fin p → ℝ} {f0 : (Fin n → ℝ) → ℝ}
  {φ : ℝ → ℝ} {R : RProb ℝ p} (O : ObjApx e Bv Bu C D ρ c ds df pn A f0 φ R)
include O

theorem consts : 0 < e ∧ 0 ≤ C * D ∧ (C * D) * e ≤ 1 / 4 ∧ (c + 1) * e ≤ 1 ∧ e ≤ 1 / 4 ∧ 0 ≤ (C * D) * e ∧ 0 ≤ c * e := by
  have he := O.prec.pos
  have h1 := O.C1
  have h2 := O.CD
  have h3 := O.c0
  have hs := O.small
  have hr := O.ρ1
  have h4 : 0 ≤ C * D := mul_nonneg (by linarith) (by linarith)
  have h5 : 0 ≤ (C * D) * e := mul_nonneg h4 he.le
  have h6 : 0 ≤ c * e := mul_nonneg h3 he.le
  refine ⟨he, h4, by nlinarith, by nlinarith, by nlinarith, h5, h6⟩

/-- The objective of the current point. -/
theorem current {d : ℝ} {s : CDState F} {v : Fin p → ℝ} (h : Rep A e d s v) (hd : 1 ≤ d) (hD : d ≤ D) (hF : R.F v ≤ c) :
    Ok (objective ds df pn s.w s.Xw) (fun x => ∃ t, Den x t ∧ |t - R.F v| ≤ (2 * (C * D) + c + 2) * e) := by
  obtain ⟨x, u, rfl, h1, h2⟩ := h
  obtain ⟨he, k1, k2, k3, k4, k5, k6⟩ := O.consts
  obtain ⟨b1, b2⟩ := O.bnd v hF
  have hC := O.C1
  have hCd : C * d ≤ C * D := mul_le_mul_of_nonneg_left hD (by linarith)
  have hCd' := mul_le_mul_of_nonneg_right hCd he.le
  have hCe : C * e ≤ C * D * e := by
    refine mul_le_mul_of_nonneg_right ?_ he.le
    exact le_mul_of_one_le_right (by linarith) (by linarith)
  unfold objective
  refine Tri.bind (O.fitV.val u _ d hd (by linarith) b2 h2) ?_
  rintro y ⟨t1, y1, y2⟩
  refine Tri.bind (O.penV.val x v h1 b1) ?_
  rintro z ⟨t2, z1, z2⟩
  show ∃ t, _
  have hF0 := O.pos v
  rw [O.obj] at hF hF0 ⊢
  have a1 := abs_le.mp y2
  have a2 := abs_le.mp z2
  have a3 : |t1 + t2 - (f0 (fit A v) + ∑ j, φ (v j))| ≤ 2 * (C * D * e) := by
    rw [abs_le]; constructor <;> linarith
  have a4 : |t1 + t2| ≤ c + 1 := by
    have := abs_le.mp a3
    rw [abs_le]; constructor <;> linarith
  obtain ⟨r1, r2⟩ := O.prec.add _ _ _ _ y1 z1
  obtain ⟨t, ht⟩ := r1 (by rw [le_div_iff₀ he]; exact (mul_le_mul_of_nonneg_right a4 he.le).trans k3)
  refine ⟨t, ht, ?_⟩
  have a5 := r2 t ht
  have a6 : e * |t1 + t2| ≤ e * (c + 1) := mul_le_mul_of_nonneg_left a4 he.le
  have a7 := abs_le.mp (a5.trans a6)
  have a8 := abs_le.mp a3
  rw [abs_le]; constructor <;> nlinarith

/-- A candidate whose computed objective is below that of the current point. -/
theorem accepted {x : Fin p → F} {u : Fin n → F} {xo : F} {t₀ : ℝ} {l : List (Fin p)} (hl : l.Nodup) (ho : Den xo t₀) (hto : t₀ ≤ c + 1)
    (hoff : ∀ j ∉ l, x j = zero)
    (hu : DesignMatrix.extrapolatedFit ds.designMatrix (l.map Fin.val) (List.ofFn x) n = .ok (List.ofFn u)) :
    Ok (objective ds df pn (List.ofFn x) (List.ofFn u)) (fun y => (y <. xo) = true →
      ∃ v : Fin p → ℝ, (∀ j, Den (x j) (v j)) ∧ (∀ i, Apx e (u i) (fit A v i) C) ∧ R.F v ≤ t₀ + (2 * (C * D) + 2 * (c + 1)) * e) := by
  obtain ⟨he, k1, k2, k3, k4, k5, k6⟩ := O.consts
  have hC := O.C1
  have hCD := O.CD
  unfold objective
  refine Tri.bind_eq (O.fitV.nonneg u) fun y e1 hy => ?_
  refine Tri.bind_eq (Tri.and (O.penV.nonneg x) (O.penV.back x)) ?_
  rintro z e2 ⟨hz, hzb⟩
  intro hlt
  obtain ⟨a1, a2, h1, h2, h3⟩ := (LawfulCmp.lt_iff _ _).mp hlt
  rw [show LawfulCmp.key xo = _ from ho] at h2
  injection h2 with h2
  rw [← h2] at h3
  have h4 := O.prop.add_nonneg _ _ hy hz a1 h1
  obtain ⟨t, rfl⟩ : ∃ t : ℝ, a1 = (t : EReal) := by
    refine ⟨a1.toReal, (EReal.coe_toReal ?_ ?_).symm⟩
    · exact ne_top_of_lt h3
    · intro hb
      rw [hb] at h4
      exact absurd h4 (by simp)
  have ht : Den (y +. z) t := h1
  have h5 : t < t₀ := by exact_mod_cast h3
  obtain ⟨r, s, m1, m2, m3, m4, m5⟩ := add_back O.prec O.prop (by linarith) hy hz ht
  obtain ⟨v, hv1, hv2⟩ := hzb s m2 (by linarith)
  have hv0 : ∀ j ∉ l, v j = 0 := fun j hj => by
    have := hv1 j
    rw [hoff j hj] at this
    exact this.unique den_zero
  obtain ⟨u', g1, g2⟩ := (O.fitV.extra l x v hl hv1 hv2 hv0).elim_ok hu
  have hu' : u' = u := by
    have := List.ofFn_injective g1
    exact this.symm
  subst hu'
  refine ⟨v, hv1, g2, ?_⟩
  have hCe : C * e ≤ C * D * e := by
    refine mul_le_mul_of_nonneg_right ?_ he.le
    exact le_mul_of_one_le_right (by linarith) (by linarith)
  have hCC : C * C * e ≤ C * D * e := mul_le_mul_of_nonneg_right (mul_le_mul_of_nonneg_left hCD (by linarith)) he.le
  have q1 := (Tri.elim_ok (O.fitV.val u' _ C hC (by linarith) (O.fitb v hv2) g2) e1).abs_le m1
  have q2 := (Tri.elim_ok (O.penV.val x v hv1 hv2) e2).abs_le m2
  have q3 := (O.prec.add _ _ _ _ m1 m2).2 t ht
  rw [abs_of_nonneg (by linarith : 0 ≤ r + s)] at q3
  have p1 := abs_le.mp q1
  have p2 := abs_le.mp q2
  have p3 := abs_le.mp q3
  have q4 : e * (r + s) ≤ e * (2 * (c + 1)) := mul_le_mul_of_nonneg_left (by linarith) he.le
  rw [O.obj]
  nlinarith

/-- One call of the extrapolation. -/
theorem accel {Z : Fin p → Prop} {K : ℕ} (hK : 0 < K) {l : List (Fin p)} (hl : l.Nodup) (hKl : K ≤ l.length) {d : ℝ} {s : CDState F}
    {v : Fin p → ℝ} (h : Rep A e d s v) (hd : 1 ≤ d) (hD : d ≤ D) (hF : R.F v ≤ c) (hZ : ∀ j, Z j → v j = 0) {b : Mat F}
    (hb : BufOK Z K l b) (ep : ℕ) : Ok (andersonAccel ds df pn b s (l.map Fin.val) ep K false []) (fun r => BufOK Z K l r.1 ∧
      (r.2.1 = s ∨ (ep % (K + 1) = K ∧ ∃ v', Rep A e C r.2.1 v' ∧ R.F v' ≤ R.F v + ρ ∧ (∀ j, Z j → v' j = 0) ∧ ∀ j ∉ l, v' j = 0))) := by
  have hcur := O.current h hd hD hF
  obtain ⟨he, k1, k2, k3, k4, k5, k6⟩ := O.consts
  have hsm := O.small
  have hρ := O.ρ1
  obtain ⟨x, u, rfl, h1, h2⟩ := h
  unfold andersonAccel
  rw [O.features]
  refine Tri.bind (Q := fun k => k = p) rfl fun k hk => ?_
  subst hk
  refine Tri.bind (storeIterate_buf hb (Nat.mod_lt _ (Nat.succ_pos _)) (w := x) fun j hj => by
    have := h1 j; rwa [hZ j hj] at this) fun B1 hB1 => ?_
  split
  · rename_i hep
    have hll : (l.map Fin.val).length = l.length := List.length_map _
    rw [hll]
    refine Tri.bind (diffMatrix_safe hB1.1) fun U hU => ?_
    refine Tri.bind (tMulMat_safe hU hU) fun C' hC' => ?_
    refine Tri.bind (solveLinSys_safe hC' (by simpa using hK) (by simpa using hKl) (by simpa using hKl)) fun z _ => ?_
    cases z with
    | none => exact ⟨hB1, Or.inl rfl⟩
    | some z =>
      refine Tri.bind (extrapolate_zero O.prec O.prop hB1 z) fun pt hpt => ?_
      refine Tri.bind (scatter_spec pt l) ?_
      rintro wa ⟨xa, rfl, hxa⟩
      refine Tri.bind_eq (Q := fun v => v.length = n) (by
        rw [O.samples]
        refine O.safe.extra _ _ (fun j hj => ?_) (by simp)
        obtain ⟨i, -, rfl⟩ := List.mem_map.mp hj
        exact i.isLt) fun Xa hXa hXl => ?_
      obtain ⟨ua, rfl⟩ : ∃ ua : Fin n → F, Xa = List.ofFn ua := by
        subst hXl
        exact ⟨fun i => Xa[i], (List.ofFn_getElem (xs := Xa)).symm⟩
      rw [O.samples] at hXa
      refine Tri.bind hcur ?_
      rintro xo ⟨t₀, ho, hto⟩
      have hto' := abs_le.mp hto
      have hoff : ∀ j ∉ l, xa j = zero := fun j hj => by
        rcases hxa j with h0 | ⟨i, -, hi⟩
        · exact h0
        · exact absurd (List.mem_of_getElem? hi) hj
      refine Tri.bind (O.accepted hl ho (by nlinarith) hoff hXa) fun y hy => ?_
      split
      · rename_i hlt
        obtain ⟨v', hv1, hv2, hv3⟩ := hy hlt
        refine ⟨hB1, Or.inr ⟨hep, v', ⟨xa, ua, rfl, hv1, hv2⟩, by nlinarith, fun j hj => ?_, fun j hj => ?_⟩⟩
        · rcases hxa j with h0 | ⟨i, hi1, hi2⟩
          · have := hv1 j
            rw [h0] at this
            exact this.unique den_zero
          · exact hpt.2 i j _ hi2 hi1 hj _ (hv1 j)
        · have := hv1 j
          rw [hoff j hj] at this
          exact this.unique den_zero
      · exact ⟨hB1, Or.inl rfl⟩
  · exact ⟨hB1, Or.inl rfl⟩

end ObjApx
end
end Sglm
