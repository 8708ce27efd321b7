import Verif.Model.PySim
import Verif.Proofs.Arrays

/-! # `make_correlated_data` on real numbers -/

namespace Sglm
open Scalar
variable {n p T : ℕ}

theorem randn_eq {r : Rng XR} {z : ℕ → ℝ} (hz : ∀ k, r.normal k = XR.fin (z k)) (k m : ℕ) :
    Py.randn r k m = vec (fun i : Fin m => z (k + i)) := by
  unfold Py.randn vec
  rw [range_eq_ofFn, List.map_ofFn]
  congr 1
  funext i
  exact hz _

theorem randn2_eq {r : Rng XR} {z : ℕ → ℝ} (hz : ∀ k, r.normal k = XR.fin (z k)) (k a b : ℕ) :
    Py.randn2 r k a b = mat (fun (i : Fin a) (t : Fin b) => z (k + i * b + t)) := by
  unfold Py.randn2 mat
  rw [range_eq_ofFn, List.map_ofFn]
  congr 2
  funext i
  exact randn_eq hz _ _

/-- The autoregressive columns over the reals. -/
def arX (z : ℕ → ℝ) (n : ℕ) (ρ σ : ℝ) (i : ℕ) : ℕ → ℝ
  | 0 => z i
  | j + 1 => arX z n ρ σ i j * ρ + σ * z ((j + 1) * n + i)

theorem arColumns_eq {r : Rng XR} {z : ℕ → ℝ} (hz : ∀ k, r.normal k = XR.fin (z k)) (n : ℕ) (ρ σ : ℝ) :
    ∀ m j : ℕ, Py.arColumns r n (XR.fin ρ) (XR.fin σ) j m (vec fun i : Fin n => arX z n ρ σ i j) =
      (List.range (m + 1)).map (fun l => vec fun i : Fin n => arX z n ρ σ i (j + l)) := by
  intro m
  induction m with
  | zero => intro j; rfl
  | succ m ih =>
    intro j
    rw [List.range_succ_eq_map, List.map_cons, List.map_map]
    show _ :: _ = _
    congr 1
    have h1 : Py.arStep (XR.fin ρ) (XR.fin σ) (vec fun i : Fin n => arX z n ρ σ i j) (Py.randn r ((j + 1) * n) n) =
        vec fun i : Fin n => arX z n ρ σ i (j + 1) := by
      unfold Py.arStep
      rw [randn_eq hz, zipWith_vec _ _ _ (fun u e => u * ρ + σ * e) (fun i => by rw [XR.s_mul, XR.s_mul, XR.s_add])]
      rfl
    rw [h1, ih (j + 1)]
    refine List.map_congr_left fun l _ => ?_
    show _ = vec fun i : Fin n => arX z n ρ σ i (j + (l + 1))
    rw [show j + 1 + l = j + (l + 1) by omega]

theorem tM_mat (A : Fin n → Fin p → ℝ) : (mat A).tM = .ok (mat fun j i => A i j) := by
  unfold Mat.tM
  rw [mat_ncols, mapM_range (k := p) (fun j => vec fun i => A i j) (fun j => colM_mat A j)]
  show Except.ok _ = _
  rw [mat_nrows]
  rfl

/-- The design matrix over the reals. -/
noncomputable def simX (z : ℕ → ℝ) (n p : ℕ) (ρ : ℝ) (i : Fin n) (j : Fin p) : ℝ :=
  if ρ = 0 then z (i * p + j) else arX z n ρ (Real.sqrt (1 - ρ * ρ)) i j

theorem simDesign_eq {r : Rng XR} {z : ℕ → ℝ} (hz : ∀ k, r.normal k = XR.fin (z k)) (hp : 0 < p) {ρ : ℝ} (h0 : 0 ≤ ρ)
    (h1 : ρ < 1) : Py.simDesign r n p (XR.fin ρ) = .ok (mat (simX z n p ρ)) := by
  have hb : (XR.fin ρ ==. (zero : XR)) = decide (ρ = 0) := XR.s_beq _ _
  unfold Py.simDesign
  rw [hb]
  by_cases h : ρ = 0
  · rw [decide_eq_true h, if_pos rfl, randn2_eq hz]
    congr 2
    funext i j
    unfold simX
    rw [if_pos h, zero_add]
  · rw [decide_eq_false h, if_neg (by decide)]
    obtain ⟨m, rfl⟩ : ∃ m, p = m + 1 := ⟨p - 1, by omega⟩
    dsimp only
    have hs : Scalar.sqrt ((one : XR) -. XR.fin ρ *. XR.fin ρ) = XR.fin (Real.sqrt (1 - ρ * ρ)) := by
      rw [XR.s_mul]
      show Scalar.sqrt (XR.fin 1 -. _) = _
      rw [XR.s_sub, XR.s_sqrt _ (by nlinarith)]
    have hc := arColumns_eq hz n ρ (Real.sqrt (1 - ρ * ρ)) m 0
    have hu : (vec fun i : Fin n => arX z n ρ (Real.sqrt (1 - ρ * ρ)) i 0) = Py.randn r 0 n := by
      rw [randn_eq hz]
      congr 1
      funext i
      rw [zero_add]
      rfl
    rw [hu] at hc
    rw [hs, hc]
    have : (⟨n, (List.range (m + 1)).map fun l => vec fun i : Fin n => arX z n ρ (Real.sqrt (1 - ρ * ρ)) i (0 + l)⟩ : Mat XR) =
        mat (fun (j : Fin (m + 1)) (i : Fin n) => arX z n ρ (Real.sqrt (1 - ρ * ρ)) i j) := by
      unfold mat
      rw [range_eq_ofFn, List.map_ofFn]
      congr 2
      funext l
      show vec _ = vec _
      simp
    rw [this, tM_mat]
    show Except.ok _ = _
    congr 2
    funext i j
    unfold simX
    rw [if_neg h]

theorem arX_congr {z z' : ℕ → ℝ} (n : ℕ) (ρ σ : ℝ) (i : ℕ) (hi : i < n) :
    ∀ j, (∀ k < (j + 1) * n, z k = z' k) → arX z n ρ σ i j = arX z' n ρ σ i j
  | 0, h => h i (by omega)
  | j + 1, h => by
    show arX z n ρ σ i j * ρ + σ * z ((j + 1) * n + i) = arX z' n ρ σ i j * ρ + σ * z' ((j + 1) * n + i)
    have e : (j + 1 + 1) * n = (j + 1) * n + n := by ring
    rw [arX_congr n ρ σ i hi j fun k hk => h k (by omega), h _ (by omega)]

/-- The design matrix uses the first `n * p` draws. -/
theorem simX_congr {z z' : ℕ → ℝ} (ρ : ℝ) (h : ∀ k < n * p, z k = z' k) : simX z n p ρ = simX z' n p ρ := by
  funext i j
  unfold simX
  have hi := i.isLt
  have hj := j.isLt
  have h1 : (j + 1 : ℕ) * n ≤ p * n := Nat.mul_le_mul_right n hj
  have h2 : (i + 1 : ℕ) * p ≤ n * p := Nat.mul_le_mul_right p hi
  split
  · refine h _ ?_
    rw [add_mul] at h2
    omega
  · refine arX_congr n ρ _ i hi j fun k hk => h k ?_
    rw [mul_comm n p]
    omega

theorem randn2_congr {r r' : Rng XR} {k a b : ℕ} (h : ∀ l, k ≤ l → l < k + a * b → r.normal l = r'.normal l) :
    Py.randn2 r k a b = Py.randn2 r' k a b := by
  unfold Py.randn2 Py.randn
  congr 1
  refine List.map_congr_left fun i hi => List.map_congr_left fun t ht => h _ (by omega) ?_
  rw [List.mem_range] at hi ht
  have h2 : (i + 1) * b ≤ a * b := Nat.mul_le_mul_right b hi
  rw [add_mul] at h2
  omega

/-! ## Coefficients -/

/-- Rows written one after the other. -/
theorem foldlM_rows (T : ℕ) (a : ℕ → Fin T → ℝ) : ∀ (l : List ℕ) (b : ℕ) (W : Fin p → Fin T → ℝ), l.Nodup → (∀ j ∈ l, j < p) →
    ∃ W' : Fin p → Fin T → ℝ,
      (l.zip ((List.range l.length).map fun k => vec (a (b + k)))).foldlM (fun rows (jr : ℕ × List XR) => setM rows jr.1 jr.2)
        (mat W).rows = Except.ok (mat W').rows ∧
      (∀ j : Fin p, (j : ℕ) ∉ l → W' j = W j) ∧ ∀ j : Fin p, (j : ℕ) ∈ l → ∃ k, W' j = a k
  | [], b, W, _, _ => ⟨W, rfl, fun _ _ => rfl, fun _ h => absurd h (by simp)⟩
  | j :: l, b, W, hnd, hlt => by
    rw [List.nodup_cons] at hnd
    obtain ⟨j, rfl⟩ : ∃ j' : Fin p, j = j' := ⟨⟨j, hlt j (by simp)⟩, rfl⟩
    obtain ⟨W', h1, h2, h3⟩ := foldlM_rows T a l (b + 1) (Function.update W j (a b)) hnd.2 (fun j' hj' => hlt j' (by simp [hj']))
    refine ⟨W', ?_, fun j' hj' => ?_, fun j' hj' => ?_⟩
    · rw [List.length_cons, List.range_succ_eq_map, List.map_cons, List.map_map, List.zip_cons_cons, List.foldlM_cons]
      have hset : setM (mat W).rows j (vec (a (b + 0))) = .ok (mat (Function.update W j (a b))).rows := by
        unfold mat
        dsimp only
        rw [setM_ofFn]
        congr 2
        funext k
        by_cases hk : k = j
        · subst hk; simp
        · simp [hk]
      dsimp only
      rw [hset]
      dsimp only [bind, Except.bind]
      have e : (fun k => vec (a (b + k))) ∘ Nat.succ = fun k => vec (a (b + 1 + k)) := by
        funext k
        show vec (a (b + (k + 1))) = _
        rw [show b + (k + 1) = b + 1 + k by omega]
      rw [e]
      exact h1
    · rw [List.mem_cons, not_or] at hj'
      rw [h2 j' hj'.2, Function.update_of_ne (fun h => hj'.1 (by rw [h]))]
    · by_cases hl : (j' : ℕ) ∈ l
      · exact h3 j' hl
      · rw [List.mem_cons, or_iff_left hl] at hj'
        have : j' = j := Fin.ext hj'
        subst this
        exact ⟨b, by rw [h2 j' hl, Function.update_self]⟩

theorem simCoef_eq {r : Rng XR} (hr : r.Spec) {z : ℕ → ℝ} (hz : ∀ k, r.normal k = XR.fin (z k)) (k T nnz : ℕ) (hn : nnz ≤ p) :
    ∃ W : Fin p → Fin T → ℝ, Py.simCoef r k p T nnz = .ok (mat W) ∧
      (∀ j : Fin p, (j : ℕ) ∉ r.choice p nnz → W j = 0) ∧
      ∀ j : Fin p, (j : ℕ) ∈ r.choice p nnz → ∃ c, ∀ t : Fin T, W j t = z (c + t) := by
  obtain ⟨h1, h2, h3⟩ := hr p nnz hn
  obtain ⟨W, h4, h5, h6⟩ := foldlM_rows (p := p) T (fun b t => z (k + b * T + t)) (r.choice p nnz) 0 0 h2 h3
  refine ⟨W, ?_, h5, fun j hj => ?_⟩
  · unfold Py.simCoef
    have e1 : (Py.randn2 r k nnz T).rows = (List.range (r.choice p nnz).length).map fun b => vec fun t : Fin T => z (k + (0 + b) * T + t) := by
      rw [h1]
      unfold Py.randn2
      refine List.map_congr_left fun b _ => ?_
      rw [randn_eq hz, zero_add]
    have e2 : (Mat.zeros p T : Mat XR).rows = (mat (0 : Fin p → Fin T → ℝ)).rows := by
      unfold Mat.zeros mat
      dsimp only
      rw [show List.replicate T (zero : XR) = vec (0 : Fin T → ℝ) from replicate_zero_eq_vec]
      simp
    rw [e1, e2, h4]
    rfl
  · obtain ⟨c, hc⟩ := h6 j hj
    exact ⟨k + c * T, fun t => by rw [hc]⟩

/-! ## Targets -/

theorem matmul_mat (X : Fin n → Fin p → ℝ) (W : Fin p → Fin T → ℝ) :
    Py.matmul (mat X) (.two (mat W)) = .ok (.two (mat fun i t => ∑ j, X i j * W j t)) := by
  unfold Py.matmul
  dsimp only
  rw [if_pos (by rw [mat_ncols, mat_nrows]), tM_mat]
  show Except.ok _ = _
  congr 2
  unfold mat vec
  dsimp only
  congr 1
  rw [List.map_ofFn]
  congr 1
  funext i
  show (List.ofFn _).map _ = _
  rw [List.map_ofFn]
  congr 1
  funext t
  exact mmdot_vec (X i) (fun j => W j t)

theorem frob_flat (Y : Fin n → Fin T → ℝ) :
    Py.frob (mat Y).rows.flatten = XR.fin (Real.sqrt (∑ i, ∑ t, Y i t ^ 2)) := by
  have h1 : (mat Y).rows.flatten = ((List.ofFn fun i => List.ofFn (Y i)).flatten).map XR.fin := by
    unfold mat
    dsimp only
    rw [List.map_flatten, List.map_ofFn]
    congr 2
    funext i
    exact vec_eq_map _
  have h2 : ∀ l : List ℝ, List.zipWith (· * ·) l l = l.map (fun x => x ^ 2) := by
    intro l
    induction l with
    | nil => rfl
    | cons x l ih => rw [List.zipWith_cons_cons, List.map_cons, ih, pow_two]
  have h3 : (((List.ofFn fun i => List.ofFn (Y i)).flatten).map fun x => x ^ 2).sum = ∑ i, ∑ t, Y i t ^ 2 := by
    rw [List.map_flatten, List.map_ofFn, List.sum_flatten, List.map_ofFn, List.sum_ofFn]
    refine Finset.sum_congr rfl fun i _ => ?_
    show ((List.ofFn (Y i)).map _).sum = _
    rw [List.map_ofFn, List.sum_ofFn]
    rfl
  unfold Py.frob
  rw [h1, XR.dot_map_fin, h2, h3, XR.s_sqrt _ (Finset.sum_nonneg fun _ _ => Finset.sum_nonneg fun _ _ => sq_nonneg _)]

theorem simNoise_eq (Z : Fin n → Fin T → ℝ) {a s : ℝ} (hs : s ≠ 0) (hZ : Real.sqrt (∑ i, ∑ t, Z i t ^ 2) ≠ 0) :
    Py.simNoise (mat Z) (XR.fin a) (XR.fin s) = mat (fun i t => Z i t / Real.sqrt (∑ i, ∑ t, Z i t ^ 2) * a / s) := by
  unfold Py.simNoise
  rw [frob_flat]
  unfold mat
  dsimp only
  congr 1
  rw [List.map_ofFn]
  congr 1
  funext i
  exact map_vec (Z i) _ (fun z => z / Real.sqrt (∑ i, ∑ t, Z i t ^ 2) * a / s) (fun t => by
    rw [XR.s_div _ _ hZ, XR.s_mul, XR.s_div _ _ hs])

theorem addNoise_eq (Y E : Fin n → Fin T → ℝ) :
    Py.addNoise (.two (mat Y)) (mat E) = .ok (.two (mat fun i t => Y i t + E i t)) := by
  unfold Py.addNoise
  dsimp only
  rw [mat_ncols, mat_ncols, if_pos rfl]
  congr 2
  unfold mat
  dsimp only
  congr 1
  apply List.ext_getElem (by simp)
  intro i h1 h2
  simp only [List.getElem_zipWith, List.getElem_ofFn]
  exact zipWith_vec _ _ _ (fun a b => a + b) (fun t => XR.s_add _ _)

end Sglm
