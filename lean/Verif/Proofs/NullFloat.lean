import Verif.Spec.MonoRounding
import Verif.Proofs.FloatRun
import Verif.Proofs.FloatFit

/-!
# Fits with a large penalty, in floating point
-/

namespace Sglm
open Scalar Spec

section
variable {F : Type} [Scalar F] [LawfulCmp F] {rep : F → Prop} {n p : ℕ}

/-- The fold computing `alpha_max`. -/
theorem foldmax_den (H : MonoRounded F rep) (f : F → F → F)
    (hf : ∀ (a x : F) u v, Den a u → Den x v → Den (f a x) (max u |v|)) :
    ∀ (l : List F) (acc : F) (u : ℝ), Den acc u → (∀ x ∈ l, ∃ r, Den x r) →
      ∃ m, Den (l.foldl f acc) m ∧ u ≤ m ∧ ∀ x ∈ l, ∀ r, Den x r → |r| ≤ m
  | [], acc, u, h, _ => ⟨u, h, le_rfl, by simp⟩
  | x :: l, acc, u, h, hl => by
    obtain ⟨v, hv⟩ := hl x List.mem_cons_self
    obtain ⟨m, h1, h2, h3⟩ := foldmax_den H f hf l (f acc x) _ (hf _ _ _ _ h hv) fun y hy => hl y (List.mem_cons_of_mem _ hy)
    refine ⟨m, h1, (le_max_left _ _).trans h2, fun y hy r hr => ?_⟩
    rcases List.mem_cons.mp hy with rfl | hy
    · rw [← hv.unique hr]; exact (le_max_right _ _).trans h2
    · exact h3 y hy r hr

theorem den_fmax {a b : F} {u v : ℝ} (ha : Den a u) (hb : Den b v) : Den (fmax a b) (max u v) := by
  unfold Den
  rw [LawfulCmp.key_fmax, show LawfulCmp.key a = some (u : EReal) from ha, show LawfulCmp.key b = some (v : EReal) from hb]
  exact congrArg some (EReal.coe_strictMono.monotone.map_max).symm

/-- The score of a zero coefficient whose gradient is within the threshold. -/
theorem null_score (H : MonoRounded F rep) {z xty N m thr : F} {s ν μ θ : ℝ} (hz : Den z 0) (hr : rep xty) (hx : Den xty s)
    (hN : Den N ν) (hν : 0 < ν) (hm : Den m μ) (hsm : |s| ≤ μ) (ht : Den thr θ) (hle : (m /. N <=. thr) = true) :
    Den (fmax zero (Scalar.abs ((z -. xty) /. N) -. thr)) 0 := by
  obtain ⟨k, k', h1, h2, h3, h4⟩ := H.div_mono (z -. xty) m N (-s) μ ν (H.zero_sub _ _ _ hz hr hx) hm hN hν (by rwa [abs_neg])
  obtain ⟨a, b, ha, hb, hab⟩ := (LawfulCmp.le_iff _ _).mp hle
  rw [h2] at ha
  rw [show LawfulCmp.key thr = some (θ : EReal) from ht] at hb
  injection ha with ha
  injection hb with hb
  subst ha hb
  have hkθ := h4.trans hab
  obtain ⟨r, rfl⟩ : ∃ r : ℝ, k = (r : EReal) := by
    induction k with
    | bot => exact absurd h3 (by simp)
    | top => exact absurd hkθ (by simp)
    | coe r => exact ⟨r, rfl⟩
  obtain ⟨q, h5, h6⟩ := H.sub_nonpos _ _ r θ h1 ht (EReal.coe_le_coe_iff.mp hkθ)
  unfold Den
  rw [LawfulCmp.key_fmax, LawfulCmp.key_zero, h5]
  simp only [max_eq_left h6, EReal.coe_zero]

theorem null_foldl (H : MonoRounded F rep) {ι : Type} (x v : ι → F) (hx : ∀ i, ∃ r, Den (x i) r) (hv : ∀ i, Den (v i) 0) :
    ∀ (l : List ι) (acc : F), Den acc 0 → Den (l.foldl (fun acc i => acc +. x i *. v i) acc) 0
  | [], _, h => h
  | i :: l, acc, h => by
    obtain ⟨r, hr⟩ := hx i
    exact null_foldl H x v hx hv l _ (H.add_zero _ _ h (H.mul_zero _ _ r hr (hv i)))

theorem rep_foldl (H : MonoRounded F rep) {ι : Type} (x v : ι → F) :
    ∀ (l : List ι) (acc : F), rep acc → rep (l.foldl (fun acc i => acc +. x i *. v i) acc)
  | [], _, h => h
  | _ :: l, _, _ => rep_foldl H x v l _ (H.rep_add _ _)

omit [LawfulCmp F] in
theorem zeros_ofFn (m : ℕ) : List.replicate m (zero : F) = List.ofFn fun _ : Fin m => zero := by simp

/-- The solver stops at once if the scores at zero are zero. -/
theorem null_loop {DM DF P : Type} [DesignMatrix F DM] [Datafit F DM DF] [Penalty F P] (srt : Argsort F) (ds : Dataset DM F)
    (df df' : DF) (pn : P) (cfg : Solver F) (f : F → F → F) (hf : ∀ w g ws, Penalty.subdiffDistance pn w g ws = sepDistances f w g ws)
    (hp : DesignMatrix.nFeatures ds.designMatrix = .ok p) (hn : ds.targets.nSamples = n) (hi : Datafit.init df ds = .ok df')
    (g : Fin p → F) (hg : ∀ j : Fin p, Datafit.gradientJ df' ds (List.replicate n zero) j = .ok (g j))
    (h0 : ∀ j, Den (f zero (g j)) 0) {τ : ℝ} (ht : Den cfg.tolerance τ) (hτ : 0 ≤ τ) :
    ∃ log, coordinateDescent srt ds df pn cfg = .ok (⟨List.replicate p zero, List.replicate n zero⟩, df', log) := by
  unfold coordinateDescent
  rw [hp, hi, hn]
  simp only [bind, Except.bind]
  cases hM : cfg.maxIterations with
  | zero => exact ⟨[], rfl⟩
  | succ m =>
    unfold outerLoop
    have hv : optCondViolation ds (List.replicate p zero) (List.replicate n zero) (List.range p) df' pn =
        .ok (List.ofFn fun j => f zero (g j), maxDist (List.ofFn fun j => f zero (g j))) := by
      unfold optCondViolation constructGrad
      rw [mapM_range g hg]
      simp only [bind, Except.bind]
      rw [hf, zeros_ofFn p]
      exact sepDistances_all f _ g
    have hle : (maxDist (List.ofFn fun j => f zero (g j)) <=. cfg.tolerance) = true := by
      refine (maxDist_le (fun x hx => ?_) ht).mpr fun x hx r hr => ?_
      · obtain ⟨j, rfl⟩ := (List.mem_ofFn' _ _).mp hx
        exact ⟨0, h0 j⟩
      · obtain ⟨j, rfl⟩ := (List.mem_ofFn' _ _).mp hx
        rw [hr.unique (h0 j)]; exact hτ
    rw [hv]
    simp only [bind, Except.bind, hle, if_true]
    exact ⟨_, rfl⟩

/-- Data for which the scores vanish: dense. -/
theorem null_dense (H : MonoRounded F rep) (hn : 0 < n) (x : Fin n → Fin p → F) (y : Fin n → F) (hx : ∀ i j, ∃ r, Den (x i j) r)
    (hfin : ∀ j, ∃ r, Den (dot (List.ofFn fun i => x i j) (List.ofFn y)) r) {N : ℝ} (hN : Den (Scalar.ofNat n : F) N)
    {a thr : F} {θ : ℝ} (ha : computeAlphaMax (matOf x) (List.ofFn y) = .ok a) (ht : Den thr θ) (hle : (a <=. thr) = true)
    (srt : Argsort F) {P : Type} [Penalty F P] (pn : P) (cfg : Solver F) (f : F → F → F)
    (hf : ∀ w g ws, Penalty.subdiffDistance pn w g ws = sepDistances f w g ws)
    (hf0 : ∀ g, f zero g = fmax zero (Scalar.abs g -. thr)) {τ : ℝ} (htol : Den cfg.tolerance τ) (hτ : 0 ≤ τ) :
    ∃ st df log, coordinateDescent srt (⟨matOf x, Targets.one (List.ofFn y)⟩ : Dataset (Mat F) F) (Quadratic.new : Quadratic F) pn cfg =
      .ok (st, df, log) ∧ st.w = List.replicate p zero := by
  have hinit : Datafit.init (Quadratic.new : Quadratic F) (⟨matOf x, Targets.one (List.ofFn y)⟩ : Dataset (Mat F) F) =
      .ok (⟨List.ofFn fun j => dot (List.ofFn fun i => x i j) (List.ofFn fun i => x i j) /. Scalar.ofNat n,
        List.ofFn fun j => dot (List.ofFn fun i => x i j) (List.ofFn y)⟩ : Quadratic F) := by
    show Quadratic.initDense _ = _
    unfold Quadratic.initDense
    simp only [single_oneOf, bind, Except.bind, tMulVec_matOf, one_nSamplesOf, colSqNorms_matOf, pure, Except.pure]
  unfold computeAlphaMax at ha
  rw [tMulVec_matOf, matOf_nrows] at ha
  injection ha with ha
  obtain ⟨m, h1, h2, h3⟩ := foldmax_den H (fun max_val z => fmax (Scalar.abs z) max_val)
    (fun a z u v ha hz => by rw [max_comm]; exact den_fmax (H.abs _ _ hz) ha)
    (List.ofFn fun j => dot (List.ofFn fun i => x i j) (List.ofFn y)) zero 0 LawfulCmp.key_zero
    (fun z hz => by obtain ⟨j, rfl⟩ := (List.mem_ofFn' _ _).mp hz; exact hfin j)
  obtain ⟨log, hlog⟩ := null_loop (n := n) (p := p) srt (⟨matOf x, Targets.one (List.ofFn y)⟩ : Dataset (Mat F) F)
    (Quadratic.new : Quadratic F) _ pn cfg f hf (by show Except.ok _ = _; rfl) (one_nSamplesOf y) hinit
    (fun j => (dot (List.ofFn fun i => x i j) (List.replicate n zero) -. dot (List.ofFn fun i => x i j) (List.ofFn y)) /. Scalar.ofNat n)
    (fun j => by
      show Quadratic.gradDense _ _ _ _ = _
      unfold Quadratic.gradDense
      rw [zeros_ofFn n]
      simp only [colM_matOf, bind, Except.bind, dotM_ofFn, getM_ofFn, pure, Except.pure, one_nSamplesOf])
    (fun j => by
      rw [hf0]
      obtain ⟨s, hs⟩ := hfin j
      choose r hr using fun i => hx i j
      refine null_score H ?_ (H.rep_dot _ _) hs hN (H.ofNat n hn N hN) h1 (h3 _ ((List.mem_ofFn' _ _).mpr ⟨j, rfl⟩) s hs) ht ?_
      · rw [zeros_ofFn n]
        exact H.dot_zero n _ _ r hr fun _ => LawfulCmp.key_zero
      · rw [← ha] at hle
        exact hle) htol hτ
  exact ⟨_, _, _, hlog, rfl⟩

/-- Data for which the scores vanish: sparse. -/
theorem null_csc (H : MonoRounded F rep) (hn : 0 < n) (A : CSCData n p) (x : Fin A.nnz → F) (y : Fin n → F) (hx : ∀ k, ∃ r, Den (x k) r)
    (hfin : ∀ j, ∃ r, Den (A.colDotOf x y j) r) {N : ℝ} (hN : Den (Scalar.ofNat n : F) N)
    {a thr : F} {θ : ℝ} (ha : computeAlphaMaxSparse (A.toCSCOf x) (List.ofFn y) = .ok a) (ht : Den thr θ) (hle : (a <=. thr) = true)
    (srt : Argsort F) {P : Type} [Penalty F P] (pn : P) (cfg : Solver F) (f : F → F → F)
    (hf : ∀ w g ws, Penalty.subdiffDistance pn w g ws = sepDistances f w g ws)
    (hf0 : ∀ g, f zero g = fmax zero (Scalar.abs g -. thr)) {τ : ℝ} (htol : Den cfg.tolerance τ) (hτ : 0 ≤ τ) :
    ∃ st df log, coordinateDescent srt (⟨A.toCSCOf x, Targets.one (List.ofFn y)⟩ : Dataset (CSC F) F) (Quadratic.new : Quadratic F) pn
      cfg = .ok (st, df, log) ∧ st.w = List.replicate p zero := by
  have hinit : Datafit.init (Quadratic.new : Quadratic F) (⟨A.toCSCOf x, Targets.one (List.ofFn y)⟩ : Dataset (CSC F) F) =
      .ok (⟨List.ofFn fun j => colFold A x x j /. Scalar.ofNat n,
        List.ofFn fun j => colFold A x (fun k => y (A.row k)) j⟩ : Quadratic F) := by
    show Quadratic.initCSC _ = _
    unfold Quadratic.initCSC
    simp only [single_oneOf, one_nSamplesOf]
    rw [nFeatures_toCSCOf]
    simp only [bind, Except.bind]
    rw [mapM_range (fun j => (colFold A x x j /. Scalar.ofNat n, colFold A x (fun k => y (A.row k)) j))]
    · simp only [pure, Except.pure, List.map_ofFn]
      rfl
    · intro j
      rw [colRange_toCSCOf]
      dsimp only
      have := foldlM_col A j (fun s : F × F => s) (fun acc idx => do
          let d ← (A.toCSCOf x).dataAt idx
          let i ← (A.toCSCOf x).rowAt idx
          let yi ← getM (List.ofFn y) i
          pure (acc.1 +. d *. d, acc.2 +. d *. yi))
        (fun s k => (s.1 +. x k *. x k, s.2 +. x k *. y (A.row k))) (by
          intro t k
          simp only [dataAt_toCSCOf, rowAt_toCSCOf, bind, Except.bind, getM_ofFn]
          rfl) (zero, zero)
      simp only [bind, Except.bind] at this
      rw [this]
      simp only [foldl_pair (colList A j) (fun a k => a +. x k *. x k) (fun b k => b +. x k *. y (A.row k))]
      rfl
  have hfold : ∀ (v : Fin n → F) (j : Fin p), ((colList A j).map (fun k : Fin A.nnz => ((k : ℕ) : ℤ))).foldlM (fun acc idx => do
        let d ← (A.toCSCOf x).dataAt idx
        let i ← (A.toCSCOf x).rowAt idx
        let xw ← getM (List.ofFn v) i
        pure (acc +. d *. xw)) (zero : F) = .ok (colFold A x (fun k => v (A.row k)) j) := fun v j =>
    foldlM_col A j (fun s : F => s) _ (fun s k => s +. x k *. v (A.row k)) (by
        intro t k
        simp only [dataAt_toCSCOf, rowAt_toCSCOf, bind, Except.bind, getM_ofFn]
        rfl) zero
  unfold computeAlphaMaxSparse at ha
  rw [show subM (A.toCSCOf x).indptr.length 1 = .ok p from nFeatures_toCSCOf A x] at ha
  dsimp only [bind, Except.bind] at ha
  rw [mapM_range (fun j => colFold A x (fun k => y (A.row k)) j) (fun j => by
    rw [colRange_toCSCOf]
    exact hfold y j)] at ha
  injection ha with ha
  rw [List.length_ofFn] at ha
  obtain ⟨m, h1, h2, h3⟩ := foldmax_den H (fun max_val z => fmax max_val (Scalar.abs z))
    (fun a z u v ha hz => den_fmax ha (H.abs _ _ hz))
    (List.ofFn fun j => colFold A x (fun k => y (A.row k)) j) zero 0 LawfulCmp.key_zero
    (fun z hz => by obtain ⟨j, rfl⟩ := (List.mem_ofFn' _ _).mp hz; exact hfin j)
  obtain ⟨log, hlog⟩ := null_loop (n := n) (p := p) srt (⟨A.toCSCOf x, Targets.one (List.ofFn y)⟩ : Dataset (CSC F) F)
    (Quadratic.new : Quadratic F) _ pn cfg f hf (nFeatures_toCSCOf A x) (one_nSamplesOf y) hinit
    (fun j => (colFold A x (fun _ => zero) j -. colFold A x (fun k => y (A.row k)) j) /. Scalar.ofNat n)
    (fun j => by
      show Quadratic.gradCSC _ _ _ _ = _
      unfold Quadratic.gradCSC
      rw [zeros_ofFn n]
      simp only [one_nSamplesOf, colRange_toCSCOf, bind, Except.bind, getM_ofFn]
      have := hfold (fun _ => zero) j
      simp only [bind, Except.bind] at this
      rw [this]
      rfl)
    (fun j => by
      rw [hf0]
      obtain ⟨s, hs⟩ := hfin j
      refine null_score H ?_ (rep_foldl H _ _ _ _ H.rep_zero) hs hN (H.ofNat n hn N hN) h1
        (h3 _ ((List.mem_ofFn' _ _).mpr ⟨j, rfl⟩) s hs) ht ?_
      · exact null_foldl H x _ hx (fun _ => LawfulCmp.key_zero) _ _ LawfulCmp.key_zero
      · rw [← ha] at hle
        exact hle) htol hτ
  exact ⟨_, _, _, hlog, rfl⟩

end
end Sglm
