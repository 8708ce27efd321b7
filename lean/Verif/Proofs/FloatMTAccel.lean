import Verif.Proofs.FloatMTRun
import Verif.Proofs.FloatMTVal
import Verif.Proofs.FloatAccel

/-!
# Extrapolation in the multi-task solver, in floating point
-/

set_option linter.unusedSectionVars false

namespace Sglm
open Scalar Spec

section
variable {F : Type} [Scalar F] [LawfulCmp F] {n p T : ℕ}

omit [Scalar F] [LawfulCmp F] in
theorem matOf_of_shaped {A : Mat F} (h : Shaped A n p) : ∃ x : Fin n → Fin p → F, A = matOf x := by
  obtain ⟨c, rows⟩ := A
  obtain ⟨h1, h2, h3⟩ := h
  change c = p at h2
  change rows.length = n at h1
  change ∀ x ∈ rows, x.length = p at h3
  subst h1
  subst h2
  have h4 : ∀ i : Fin rows.length, rows[i].length = c := fun i => h3 _ (List.getElem_mem _)
  refine ⟨fun i j => rows[i][j]'(by rw [h4]; exact j.isLt), ?_⟩
  unfold matOf
  congr 1
  apply List.ext_getElem (by simp)
  intro i a1 a2
  rw [List.getElem_ofFn]
  apply List.ext_getElem
  · rw [h3 _ (List.getElem_mem _), List.length_ofFn]
  · intro j b1 b2
    rw [List.getElem_ofFn]
    rfl

/-- The coordinates of the rows in a working set, in order. -/
def expand (T : ℕ) (l : List (Fin p)) : List (Fin (p * T)) := l.flatMap fun j => List.ofFn fun t : Fin T => finProdFinEquiv (j, t)

theorem expand_length (l : List (Fin p)) : (expand T l).length = l.length * T := by
  induction l with
  | nil => simp [expand]
  | cons a l ih =>
    rw [expand, List.flatMap_cons, List.length_append, List.length_ofFn, List.length_cons]
    rw [expand] at ih
    rw [ih]
    ring

theorem expand_get {l : List (Fin p)} {i : ℕ} {j : Fin p} (h : l[i]? = some j) (t : Fin T) :
    (expand T l)[i * T + t]? = some (finProdFinEquiv (j, t)) := by
  induction l generalizing i with
  | nil => simp at h
  | cons a l ih =>
    rw [expand, List.flatMap_cons]
    cases i with
    | zero =>
      simp only [List.getElem?_cons_zero, Option.some.injEq] at h
      subst h
      rw [List.getElem?_append_left (by simp)]
      simp
    | succ i =>
      rw [List.getElem?_cons_succ] at h
      rw [List.getElem?_append_right (by rw [List.length_ofFn]; nlinarith), List.length_ofFn]
      have : (i + 1) * T + t - T = i * T + t := by rw [Nat.add_mul, one_mul]; omega
      rw [this]
      exact ih h

theorem expand_flat (x : Fin p → Fin T → F) (l : List (Fin p)) :
    (l.map fun j => List.ofFn (x j)).flatten =
      (expand T l).map fun k => x (finProdFinEquiv.symm k).1 (finProdFinEquiv.symm k).2 := by
  induction l with
  | nil => rfl
  | cons a l ih =>
    rw [expand, List.flatMap_cons, List.map_append, List.map_cons, List.flatten_cons, List.map_ofFn, ih]
    congr 1
    refine congrArg List.ofFn (funext fun t => ?_)
    simp only [Function.comp_apply, Equiv.symm_apply_apply]

/-- A predicate on rows, on coordinates. -/
def onRows (T : ℕ) (Z : Fin p → Prop) (k : Fin (p * T)) : Prop := Z (finProdFinEquiv.symm k).1

theorem mapM_rows (x : Fin p → Fin T → F) (l : List (Fin p)) :
    (l.map Fin.val).mapM (fun j => (matOf x).rowM j) = .ok (l.map fun j => List.ofFn (x j)) := by
  induction l with
  | nil => rfl
  | cons a l ih =>
    rw [List.map_cons, List.mapM_cons, rowM_matOf, ih]
    rfl

theorem MT.storeIterate_buf {Z : Fin p → Prop} {K k : ℕ} {l : List (Fin p)} {b : Mat F} (hb : BufOK (onRows T Z) K (expand T l) b)
    (hk : k < K + 1) {x : Fin p → Fin T → F} (hx : ∀ j, Z j → ∀ t, Den (x j t) 0) :
    Ok (MT.storeIterate b (matOf x) (l.map Fin.val) k) (BufOK (onRows T Z) K (expand T l)) := by
  unfold MT.storeIterate
  rw [mapM_rows]
  dsimp only [bind, Except.bind]
  rw [expand_flat]
  have hlen : ((expand T l).map fun k => x (finProdFinEquiv.symm k).1 (finProdFinEquiv.symm k).2).length = b.ncols := by
    rw [List.length_map, hb.1.2.1]
  rw [if_pos hlen]
  obtain ⟨rows, hr, hs, hm⟩ := (Tri.and (hb.1.setRow hk (hlen.trans hb.1.2.1)) (Tri.setM' _ (by rw [hb.1.1]; exact hk))).exists_ok
  rw [hr]
  refine ⟨hs, fun row hrow i j y hj hy hZ => ?_⟩
  rcases hm.2 row hrow with h1 | h1
  · rw [h1, List.getElem?_map, hj] at hy
    simp only [Option.map_some, Option.some.injEq] at hy
    rw [← hy]
    exact hx _ hZ _
  · exact hb.2 row h1 i j y hj hy hZ

/-- Scattered rows. -/
theorem MT.scatter_spec {pt : List F} {l : List (Fin p)} (hpt : pt.length = l.length * T) :
    Ok (MT.scatter p T pt (l.map Fin.val)) (fun W => ∃ x : Fin p → Fin T → F, W = matOf x ∧
      ∀ j, (∀ t, x j t = zero) ∨ ∃ i : ℕ, l[i]? = some j ∧ ∀ t : Fin T, pt[i * T + t]? = some (x j t)) := by
  unfold MT.scatter Mat.fromShapeVec
  rw [if_pos (by rw [List.length_map]; exact hpt), List.length_map]
  dsimp only [bind, Except.bind, pure, Except.pure]
  refine Tri.foldlM (fun W : Mat F => ∃ x : Fin p → Fin T → F, W = matOf x ∧
      ∀ j, (∀ t, x j t = zero) ∨ ∃ i : ℕ, l[i]? = some j ∧ ∀ t : Fin T, pt[i * T + t]? = some (x j t)) _ _ (fun acc rj hrj hacc => ?_) _
    ⟨fun _ _ => zero, by simp [Mat.zeros, matOf], fun j => Or.inl fun _ => rfl⟩
  obtain ⟨x, rfl, hx⟩ := hacc
  obtain ⟨i, hi⟩ := List.mem_iff_getElem?.mp hrj
  rw [List.getElem?_zip_eq_some, List.getElem?_map] at hi
  obtain ⟨h1, h2⟩ := hi
  rw [List.getElem?_map] at h2
  obtain ⟨j, h3, h4⟩ := Option.map_eq_some_iff.mp h2
  obtain ⟨i', h5, h6⟩ := Option.map_eq_some_iff.mp h1
  have hil : i < l.length := (List.getElem?_eq_some_iff.mp h3).1
  rw [List.getElem?_range hil] at h5
  injection h5 with h5
  subst h5
  have hle : (i + 1) * T ≤ pt.length := by rw [hpt]; exact Nat.mul_le_mul_right T hil
  have hle' : i * T + T ≤ pt.length := by rw [Nat.add_mul, one_mul] at hle; exact hle
  obtain ⟨y, hy⟩ : ∃ y : Fin T → F, rj.1 = List.ofFn y ∧ ∀ t : Fin T, pt[i * T + t]? = some (y t) := by
    refine ⟨fun t => pt[i * T + t]'(by have := t.isLt; omega), ?_, fun t => List.getElem?_eq_getElem _⟩
    rw [← h6]
    apply List.ext_getElem
    · rw [List.length_take, List.length_drop, List.length_ofFn]; omega
    · intro k hk1 hk2
      simp
  rw [← h4, hy.1]
  have hset : setM (matOf x).rows j (List.ofFn y) = .ok (matOf (Function.update x j y)).rows := by
    unfold matOf
    dsimp only
    rw [setM_ofFn']
    congr 2
    funext k
    by_cases hk : k = j
    · subst hk; rw [Function.update_self, Function.update_self]
    · rw [Function.update_of_ne hk, Function.update_of_ne hk]
  rw [hset]
  refine ⟨Function.update x j y, rfl, fun j' => ?_⟩
  by_cases hj : j' = j
  · subst hj
    rw [Function.update_self]
    exact Or.inr ⟨i, h3, hy.2⟩
  · rw [Function.update_of_ne hj]
    exact hx j'

end

section
variable {F DM DF : Type} [Scalar F] [LawfulCmp F] [DesignMatrix F DM] [MTDatafit F DM DF] {n p T : ℕ}

/-- What is known of computed objectives. -/
structure ObjMT (e Bv Bu C D ρ c : ℝ) (ds : Dataset DM F) (df : DF) (al : F) (α : ℝ) (A : Fin n → Fin p → ℝ)
    (f0 : (Fin n → Fin T → ℝ) → ℝ) (R : RProb (Euc T) p) : Prop where
  prec : Precise F e
  prop : Propagates F
  samples : ds.targets.nSamples = n
  tasks : ds.targets.nTasks = T
  features : DesignMatrix.nFeatures (F := F) ds.designMatrix = .ok p
  safe : MT.SafeFit ds df n p T
  fitV : FitMTVal e Bv Bu C ds df A f0
  penV : PenMTVal p T e (2 * (c + 1)) Bv C (L21.mk al) α
  obj : ∀ w, R.F w = f0 (fitMT A fun j => (w j).ofLp) + ∑ j, α * ‖w j‖
  pos : ∀ w, 0 ≤ R.F w
  bnd : ∀ w, R.F w ≤ c → (∀ j, ‖w j‖ ≤ Bv) ∧ ∀ i t, |fitMT A (fun j => (w j).ofLp) i t| ≤ Bu
  fitb : ∀ v : Fin p → Fin T → ℝ, (∀ j t, |v j t| ≤ Bv) → ∀ i t, |fitMT A v i t| ≤ Bu
  C1 : 1 ≤ C
  c0 : 0 ≤ c
  CD : C ≤ D
  small : (4 * (C * D) + 3 * c + 4) * e ≤ ρ
  ρ1 : ρ ≤ 1

namespace ObjMT
variable {e Bv Bu C D ρ c : ℝ} {ds : Dataset DM F} {df : DF} {al : F} {α : ℝ} {A : Fin n → Fin p → ℝ} {f0 : (Fin n → Fin T → ℝ) → ℝ}
  {R : RProb (Euc T) p} (O : ObjMT e Bv Bu C D ρ c ds df al α A f0 R)
include O

theorem consts : 0 < e ∧ 0 ≤ C * D ∧ (C * D) * e ≤ 1 / 4 ∧ (c + 1) * e ≤ 1 ∧ e ≤ 1 / 4 ∧ 0 ≤ (C * D) * e ∧ 0 ≤ c * e := by
  have he := O.prec.pos
  have h1 := O.C1
  have h2 := O.CD
  have h3 := O.c0
  have hs := O.small
  have hr := O.ρ1
  have h4 : 0 ≤ C * D := mul_nonneg (by linarith) (by linarith)
  have h5 : 0 ≤ (C * D) * e := mul_nonneg h4 he.le
  have h6 : 0 ≤ c * e := mul_nonneg h3 he.le
  refine ⟨he, h4, by nlinarith, by nlinarith, by nlinarith, h5, h6⟩

/-- The objective of the current point. -/
theorem current {d : ℝ} {s : BCDState F} {v : Fin p → Euc T} (h : RepMT A e d s v) (hd : 1 ≤ d) (hD : d ≤ D) (hF : R.F v ≤ c) :
    Ok (MT.objective ds df (L21.mk al) s.W s.XW) (fun x => ∃ t, Den x t ∧ |t - R.F v| ≤ (2 * (C * D) + c + 2) * e) := by
  obtain ⟨x, u, rfl, h1, h2⟩ := h
  obtain ⟨he, k1, k2, k3, k4, k5, k6⟩ := O.consts
  obtain ⟨b1, b2⟩ := O.bnd v hF
  have hC := O.C1
  have hCd : C * d ≤ C * D := mul_le_mul_of_nonneg_left hD (by linarith)
  have hCd' := mul_le_mul_of_nonneg_right hCd he.le
  have hCe : C * e ≤ C * D * e := by
    refine mul_le_mul_of_nonneg_right ?_ he.le
    exact le_mul_of_one_le_right (by linarith) (by linarith)
  unfold MT.objective
  refine Tri.bind (O.fitV.val u _ d hd (by linarith) b2 h2) ?_
  rintro y ⟨t1, y1, y2⟩
  refine Tri.bind (O.penV.val x v h1 b1) ?_
  rintro z ⟨t2, z1, z2⟩
  show ∃ t, _
  have hF0 := O.pos v
  rw [O.obj] at hF hF0 ⊢
  have a1 := abs_le.mp y2
  have a2 := abs_le.mp z2
  have a3 : |t1 + t2 - (f0 (fitMT A fun j => (v j).ofLp) + ∑ j, α * ‖v j‖)| ≤ 2 * (C * D * e) := by
    rw [abs_le]; constructor <;> linarith
  have a4 : |t1 + t2| ≤ c + 1 := by
    have := abs_le.mp a3
    rw [abs_le]; constructor <;> linarith
  obtain ⟨r1, r2⟩ := O.prec.add _ _ _ _ y1 z1
  obtain ⟨t, ht⟩ := r1 (by rw [le_div_iff₀ he]; exact (mul_le_mul_of_nonneg_right a4 he.le).trans k3)
  refine ⟨t, ht, ?_⟩
  have a5 := r2 t ht
  have a6 : e * |t1 + t2| ≤ e * (c + 1) := mul_le_mul_of_nonneg_left a4 he.le
  have a7 := abs_le.mp (a5.trans a6)
  have a8 := abs_le.mp a3
  rw [abs_le]; constructor <;> nlinarith

/-- A candidate whose computed objective is below that of the current point. -/
theorem accepted {x : Fin p → Fin T → F} {u : Fin n → Fin T → F} {xo : F} {t₀ : ℝ} {l : List (Fin p)} (hl : l.Nodup) (ho : Den xo t₀)
    (hto : t₀ ≤ c + 1) (hoff : ∀ j ∉ l, ∀ t, x j t = zero)
    (hu : DesignMatrix.extrapolatedFitMT ds.designMatrix (l.map Fin.val) (matOf x) n T = .ok (matOf u)) :
    Ok (MT.objective ds df (L21.mk al) (matOf x) (matOf u)) (fun y => (y <. xo) = true →
      ∃ v : Fin p → Euc T, (∀ j t, Den (x j t) ((v j).ofLp t)) ∧ (∀ i t, Apx e (u i t) (fitMT A (fun j => (v j).ofLp) i t) C) ∧
        R.F v ≤ t₀ + (2 * (C * D) + 2 * (c + 1)) * e) := by
  obtain ⟨he, k1, k2, k3, k4, k5, k6⟩ := O.consts
  have hC := O.C1
  have hCD := O.CD
  unfold MT.objective
  refine Tri.bind_eq (O.fitV.nonneg u) fun y e1 hy => ?_
  refine Tri.bind_eq (Tri.and (O.penV.nonneg x) (O.penV.back x)) ?_
  rintro z e2 ⟨hz, hzb⟩
  intro hlt
  obtain ⟨a1, a2, h1, h2, h3⟩ := (LawfulCmp.lt_iff _ _).mp hlt
  rw [show LawfulCmp.key xo = _ from ho] at h2
  injection h2 with h2
  rw [← h2] at h3
  have h4 := O.prop.add_nonneg _ _ hy hz a1 h1
  obtain ⟨t, rfl⟩ : ∃ t : ℝ, a1 = (t : EReal) := by
    refine ⟨a1.toReal, (EReal.coe_toReal ?_ ?_).symm⟩
    · exact ne_top_of_lt h3
    · intro hb
      rw [hb] at h4
      exact absurd h4 (by simp)
  have ht : Den (y +. z) t := h1
  have h5 : t < t₀ := by exact_mod_cast h3
  obtain ⟨r, s, m1, m2, m3, m4, m5⟩ := add_back O.prec O.prop (by linarith) hy hz ht
  obtain ⟨v, hv1, hv2⟩ := hzb s m2 (by linarith)
  have hv0 : ∀ j ∉ l, (fun j => (v j).ofLp) j = 0 := fun j hj => by
    funext t
    have := hv1 j t
    rw [hoff j hj] at this
    exact this.unique den_zero
  have hv3 : ∀ j t, |(fun j => (v j).ofLp) j t| ≤ Bv := fun j t => (abs_le_euc (v j) t).trans (hv2 j)
  obtain ⟨u', g0, g2⟩ := O.fitV.extra l x (fun j => (v j).ofLp) hl hv1 hv3 hv0
  have hu' : u' = u := by
    rw [hu] at g0
    injection g0 with g0
    exact (matOf_inj g0).symm
  subst hu'
  refine ⟨v, hv1, g2, ?_⟩
  have hCe : C * e ≤ C * D * e := by
    refine mul_le_mul_of_nonneg_right ?_ he.le
    exact le_mul_of_one_le_right (by linarith) (by linarith)
  have hCC : C * C * e ≤ C * D * e := mul_le_mul_of_nonneg_right (mul_le_mul_of_nonneg_left hCD (by linarith)) he.le
  have q1 := (Tri.elim_ok (O.fitV.val u' _ C hC (by linarith) (O.fitb _ hv3) g2) e1).abs_le m1
  have q2 := (Tri.elim_ok (O.penV.val x v hv1 hv2) e2).abs_le m2
  have q3 := (O.prec.add _ _ _ _ m1 m2).2 t ht
  rw [abs_of_nonneg (by linarith : 0 ≤ r + s)] at q3
  have p1 := abs_le.mp q1
  have p2 := abs_le.mp q2
  have p3 := abs_le.mp q3
  have q4 : e * (r + s) ≤ e * (2 * (c + 1)) := mul_le_mul_of_nonneg_left (by linarith) he.le
  rw [O.obj]
  nlinarith

/-- One call of the extrapolation. -/
theorem accel {Z : Fin p → Prop} {K : ℕ} (hK : 0 < K) {l : List (Fin p)} (hl : l.Nodup) (hKl : K ≤ l.length * T) {d : ℝ} {s : BCDState F}
    {v : Fin p → Euc T} (h : RepMT A e d s v) (hd : 1 ≤ d) (hD : d ≤ D) (hF : R.F v ≤ c) (hZ : ∀ j, Z j → v j = 0) {b : Mat F}
    (hb : BufOK (onRows T Z) K (expand T l) b) (ep : ℕ) :
    Ok (MT.andersonAccel ds df (L21.mk al) b s (l.map Fin.val) ep K false []) (fun r => BufOK (onRows T Z) K (expand T l) r.1 ∧
      (r.2.1 = s ∨ (ep % (K + 1) = K ∧ ∃ v', RepMT A e C r.2.1 v' ∧ R.F v' ≤ R.F v + ρ ∧ (∀ j, Z j → v' j = 0) ∧ ∀ j ∉ l, v' j = 0))) := by
  have hcur := O.current h hd hD hF
  obtain ⟨he, k1, k2, k3, k4, k5, k6⟩ := O.consts
  have hsm := O.small
  have hρ := O.ρ1
  obtain ⟨x, u, rfl, h1, h2⟩ := h
  unfold MT.andersonAccel
  rw [O.features]
  refine Tri.bind (Q := fun k => k = p) rfl fun k hk => ?_
  subst hk
  rw [O.tasks, O.samples]
  refine Tri.bind (MT.storeIterate_buf hb (Nat.mod_lt _ (Nat.succ_pos _)) (x := x) fun j hj t => by
    have := h1 j t
    rw [hZ j hj] at this
    exact this) fun B1 hB1 => ?_
  split
  · rename_i hep
    have hll : (l.map Fin.val).length * T = (expand T l).length := by rw [List.length_map, expand_length]
    rw [hll]
    have hKe : K ≤ (expand T l).length := by rw [expand_length]; exact hKl
    refine Tri.bind (diffMatrix_safe hB1.1) fun U hU => ?_
    refine Tri.bind (tMulMat_safe hU hU) fun C' hC' => ?_
    refine Tri.bind (solveLinSys_safe hC' (by simpa using hK) (by simpa using hKe) (by simpa using hKe)) fun z _ => ?_
    cases z with
    | none => exact ⟨hB1, Or.inl rfl⟩
    | some z =>
      refine Tri.bind (extrapolate_zero O.prec O.prop hB1 z) fun pt hpt => ?_
      refine Tri.bind (MT.scatter_spec (l := l) (hpt.1.trans (expand_length l))) ?_
      rintro wa ⟨xa, rfl, hxa⟩
      refine Tri.bind_eq (O.safe.extra (l.map Fin.val) (matOf xa) (fun j hj => by
        obtain ⟨i, -, rfl⟩ := List.mem_map.mp hj
        exact i.isLt) (shaped_matOf xa)) fun Xa hXa hXl => ?_
      obtain ⟨ua, rfl⟩ : ∃ ua : Fin n → Fin T → F, Xa = matOf ua := matOf_of_shaped hXl
      refine Tri.bind hcur ?_
      rintro xo ⟨t₀, ho, hto⟩
      have hto' := abs_le.mp hto
      have hoff : ∀ j ∉ l, ∀ t, xa j t = zero := fun j hj => by
        rcases hxa j with h0 | ⟨i, hi, -⟩
        · exact h0
        · exact absurd (List.mem_of_getElem? hi) hj
      refine Tri.bind (O.accepted hl ho (by nlinarith) hoff hXa) fun y hy => ?_
      split
      · rename_i hlt
        obtain ⟨v', hv1, hv2, hv3⟩ := hy hlt
        refine ⟨hB1, Or.inr ⟨hep, v', ⟨xa, ua, rfl, hv1, hv2⟩, by nlinarith, fun j hj => ?_, fun j hj => ?_⟩⟩
        · ext t
          rcases hxa j with h0 | ⟨i, hi1, hi2⟩
          · have := hv1 j t
            rw [h0] at this
            exact this.unique den_zero
          · exact hpt.2 _ _ _ (expand_get hi1 t) (hi2 t) (by unfold onRows; rw [Equiv.symm_apply_apply]; exact hj) _ (hv1 j t)
        · ext t
          have := hv1 j t
          rw [hoff j hj] at this
          exact this.unique den_zero
      · exact ⟨hB1, Or.inl rfl⟩
  · exact ⟨hB1, Or.inl rfl⟩

end ObjMT
end
end Sglm
