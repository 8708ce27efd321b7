import Verif.Spec.MissingSparse
import Verif.Proofs.Missing
import Verif.Proofs.StoredRows
import Verif.Proofs.SafeInst
import Verif.Proofs.Quiet

/-!
# Auxiliary lemmas: missing values in a sparse design
-/

set_option linter.unusedSectionVars false

namespace Sglm
open Scalar Spec

section
variable {F : Type} [Scalar F] {X : CSC F} {k : ℕ} {r : List Int}

theorem mem_intRange {a b i : Int} : i ∈ intRange a b ↔ a ≤ i ∧ i < b := by
  unfold intRange
  rw [List.mem_map]
  constructor
  · rintro ⟨m, hm, rfl⟩
    rw [List.mem_range] at hm
    omega
  · rintro ⟨h1, h2⟩
    exact ⟨(i - a).toNat, by rw [List.mem_range]; omega, by omega⟩

theorem colRange_ok (h : X.colRange k = .ok r) : ∃ a b : Int, X.indptr[k]? = some a ∧ X.indptr[k + 1]? = some b ∧ r = intRange a b := by
  unfold CSC.colRange getM at h
  cases h1 : X.indptr[k]? with
  | none => rw [h1] at h; cases h
  | some a =>
    cases h2 : X.indptr[k + 1]? with
    | none => rw [h1, h2] at h; cases h
    | some b =>
      rw [h1, h2] at h
      exact ⟨a, b, rfl, rfl, (Except.ok.inj h).symm⟩

theorem colRange_entry (h : X.colRange k = .ok r) {i : ℕ} : (i : Int) ∈ r ↔ EntryOf X k i := by
  obtain ⟨a, b, h1, h2, rfl⟩ := colRange_ok h
  rw [mem_intRange]
  constructor
  · rintro ⟨h3, h4⟩
    exact ⟨a, b, h1, h2, h3, h4⟩
  · rintro ⟨a', b', h3, h4, h5, h6⟩
    rw [h1] at h3; rw [h2] at h4
    cases h3; cases h4
    exact ⟨h5, h6⟩

theorem dataAt_nat (i : ℕ) : X.dataAt (i : Int) = getM X.data i := by
  unfold CSC.dataAt toIdx
  rw [if_pos (Int.natCast_nonneg i)]
  rfl

theorem dataAt_neg {idx : Int} (h : ¬ 0 ≤ idx) : X.dataAt idx = .error .index := by
  unfold CSC.dataAt toIdx
  rw [if_neg h]
  rfl

/-- A property which one step of a loop establishes and the others preserve. -/
theorem fold_sticky {α σ : Type} {Bad : σ → Prop} {f : σ → α → M σ} {l : List α} {a0 : α} (h0 : a0 ∈ l)
    (he : ∀ s, Tri (fun _ => True) (f s a0) Bad) (hk : ∀ s a, Bad s → Tri (fun _ => True) (f s a) Bad) (s : σ) :
    Tri (fun _ => True) (l.foldlM f s) Bad := by
  induction l generalizing s with
  | nil => cases h0
  | cons a l ih =>
    rw [List.foldlM_cons]
    rcases List.mem_cons.mp h0 with h1 | h1
    · subst h1
      exact Tri.bind (he s) fun s' hs' => Tri.foldlM Bad f l (fun s a _ hs => hk s a hs) s' hs'
    · exact Tri.bind Tri.triv fun s' _ => ih h1 s'

theorem mapM_range_at {β : Type} {c : ℕ → M β} {nf : ℕ} {l : List β} (h : (List.range nf).mapM c = .ok l) {k : ℕ} (hk : k < nf) :
    ∃ b, l[k]? = some b ∧ c k = .ok b := by
  have hl : l.length = nf := by
    have := mapM_length h
    rw [this, List.length_range]
  refine ⟨l[k]'(by omega), List.getElem?_eq_getElem _, ?_⟩
  exact mapM_get h k k _ (by rw [List.getElem?_range hk]) (List.getElem?_eq_getElem _)

/-- The sums over a column in the initialisation of the least squares loss. -/
def colSums (X : CSC F) (y : List F) (n k : ℕ) : M (F × F) := do
  let r ← X.colRange k
  let (nrm2, xty) ← r.foldlM (fun (acc : F × F) idx => do
    let d ← X.dataAt idx
    let i ← X.rowAt idx
    let yi ← getM y i
    pure (acc.1 +. d *. d, acc.2 +. d *. yi)) (zero, zero)
  pure (nrm2 /. ofNat n, xty)

theorem quad_init_at {y : List F} {nf : ℕ} {df : Quadratic F} (hnf : X.nFeatures = .ok nf)
    (h : Quadratic.initCSC (⟨X, Targets.one y⟩ : Dataset (CSC F) F) = .ok df) {k : ℕ} (hk : k < nf) :
    ∃ b, colSums X y y.length k = .ok b ∧ df.lipschitz[k]? = some b.1 ∧ df.Xty[k]? = some b.2 := by
  unfold Quadratic.initCSC at h
  dsimp only at h
  rw [single_one', nSamples_one, hnf] at h
  dsimp only [bind, Except.bind] at h
  split at h
  · cases h
  rename_i ps hps
  obtain ⟨b, h1, h2⟩ := mapM_range_at (c := fun k => colSums X y y.length k) hps hk
  rw [← Except.ok.inj h]
  refine ⟨b, h2, ?_, ?_⟩
  · show (ps.map Prod.fst)[k]? = _
    rw [List.getElem?_map, h1]; rfl
  · show (ps.map Prod.snd)[k]? = _
    rw [List.getElem?_map, h1]; rfl

/-- The sum over a column in the initialisation of the logistic loss. -/
def colSquares (X : CSC F) (n k : ℕ) : M F := do
  let r ← X.colRange k
  let nrm2 ← r.foldlM (fun acc idx => do
    let d ← X.dataAt idx
    pure (acc +. d *. d)) zero
  pure (nrm2 /. ofNat (4 * n))

theorem log_init_at {y : List F} {nf : ℕ} {df : Logistic F} (hnf : X.nFeatures = .ok nf)
    (h : Logistic.initCSC (⟨X, Targets.one y⟩ : Dataset (CSC F) F) = .ok df) {k : ℕ} (hk : k < nf) :
    ∃ b, colSquares X y.length k = .ok b ∧ df.lipschitz[k]? = some b := by
  unfold Logistic.initCSC at h
  dsimp only at h
  rw [nSamples_one, hnf] at h
  dsimp only [bind, Except.bind] at h
  split at h
  · cases h
  rename_i ps hps
  obtain ⟨b, h1, h2⟩ := mapM_range_at (c := fun k => colSquares X y.length k) hps hk
  rw [← Except.ok.inj h]
  exact ⟨b, h2, h1⟩

end

section
variable {X X' : CSC XR} {j k n p : ℕ} {y : List XR}

theorem blank_colRange (hb : BlankedColumn X X' j) (k : ℕ) : X.colRange k = X'.colRange k := by
  unfold CSC.colRange
  rw [hb.indptr]

theorem blank_rowAt (hb : BlankedColumn X X' j) (idx : Int) : X.rowAt idx = X'.rowAt idx := by
  unfold CSC.rowAt
  rw [hb.indices]

theorem blank_dataAt (hb : BlankedColumn X X' j) (hk : k ≠ j) {r : List Int} (hr : X.colRange k = .ok r) {idx : Int} (hi : idx ∈ r) :
    X.dataAt idx = X'.dataAt idx := by
  by_cases h0 : 0 ≤ idx
  · obtain ⟨i, rfl⟩ := Int.eq_ofNat_of_zero_le h0
    have : (Int.ofNat i) = (i : Int) := rfl
    rw [dataAt_nat, dataAt_nat]
    unfold getM
    rw [hb.other k hk i ((colRange_entry hr).mp hi)]
  · rw [dataAt_neg h0, dataAt_neg h0]

/-- In the changed array the stored values of the feature are zeros. -/
theorem blank_zero (hb : BlankedColumn X X' j) {r : List Int} (hr : X.colRange j = .ok r) {idx : Int} (hi : idx ∈ r) :
    Tri (fun _ => True) (X'.dataAt idx) (fun d => d = XR.fin 0) := by
  by_cases h0 : 0 ≤ idx
  · obtain ⟨i, rfl⟩ := Int.eq_ofNat_of_zero_le h0
    rw [dataAt_nat]
    unfold getM
    by_cases hl : i < X.data.length
    · rw [hb.blank i ((colRange_entry hr).mp hi) hl]
      rfl
    · rw [List.getElem?_eq_none (by rw [← hb.length]; omega)]
      trivial
  · rw [dataAt_neg h0]
    trivial

theorem colSums_blank (hb : BlankedColumn X X' j) (hk : k ≠ j) : colSums X y n k = colSums X' y n k := by
  unfold colSums
  rw [← blank_colRange hb]
  cases hr : X.colRange k with
  | error e => rfl
  | ok r =>
    dsimp only [bind, Except.bind]
    rw [foldlM_congr fun s idx hi => ?_]
    rw [blank_dataAt hb hk hr hi, blank_rowAt hb]

theorem colSquares_blank (hb : BlankedColumn X X' j) (hk : k ≠ j) : colSquares X n k = colSquares X' n k := by
  unfold colSquares
  rw [← blank_colRange hb]
  cases hr : X.colRange k with
  | error e => rfl
  | ok r =>
    dsimp only [bind, Except.bind]
    rw [foldlM_congr fun s idx hi => ?_]
    rw [blank_dataAt hb hk hr hi]

theorem nan_mul_xr (a : XR) : XR.mul XR.nan a = XR.nan := by cases a <;> rfl
theorem nan_add_xr (a : XR) : XR.add XR.nan a = XR.nan := by cases a <;> rfl

theorem missing_at (h : MissingStored X j) {r : List Int} (hr : X.colRange j = .ok r) :
    ∃ idx ∈ r, X.dataAt idx = .ok XR.nan := by
  obtain ⟨i, hi, hd⟩ := h
  refine ⟨i, (colRange_entry hr).mpr hi, ?_⟩
  rw [dataAt_nat]
  unfold getM
  rw [hd]

theorem colSums_nan (h : MissingStored X j) : Tri (fun _ => True) (colSums X y n j) (fun b => b.1 = XR.nan ∧ b.2 = XR.nan) := by
  unfold colSums
  cases hr : X.colRange j with
  | error e => trivial
  | ok r =>
    obtain ⟨idx, hi, hd⟩ := missing_at h hr
    refine Tri.bind (m := .ok r) (Q := fun r' => r' = r) rfl fun r' e => ?_
    subst e
    refine Tri.bind (fold_sticky (Bad := fun b : XR × XR => b.1 = XR.nan ∧ b.2 = XR.nan) hi (fun s => ?_) (fun s a hs => ?_) _) fun b hb => ?_
    · rw [hd]
      refine Tri.bind (m := .ok XR.nan) (Q := fun d => d = XR.nan) rfl fun d e => ?_
      subst e
      refine Tri.bind Tri.triv fun i _ => ?_
      refine Tri.bind Tri.triv fun yi _ => ?_
      refine ⟨?_, ?_⟩
      · show XR.add _ (XR.mul XR.nan _) = _
        rw [nan_mul_xr, XR.add_nan]
      · show XR.add _ (XR.mul XR.nan _) = _
        rw [nan_mul_xr, XR.add_nan]
    · refine Tri.bind Tri.triv fun d _ => ?_
      refine Tri.bind Tri.triv fun i _ => ?_
      refine Tri.bind Tri.triv fun yi _ => ?_
      refine ⟨?_, ?_⟩
      · show XR.add s.1 _ = _
        rw [hs.1, nan_add_xr]
      · show XR.add s.2 _ = _
        rw [hs.2, nan_add_xr]
    · refine ⟨?_, hb.2⟩
      show XR.div b.1 _ = _
      rw [hb.1, XR.nan_div]

theorem colSquares_nan (h : MissingStored X j) : Tri (fun _ => True) (colSquares X n j) (fun b => b = XR.nan) := by
  unfold colSquares
  cases hr : X.colRange j with
  | error e => trivial
  | ok r =>
    obtain ⟨idx, hi, hd⟩ := missing_at h hr
    refine Tri.bind (m := .ok r) (Q := fun r' => r' = r) rfl fun r' e => ?_
    subst e
    refine Tri.bind (fold_sticky (Bad := fun b : XR => b = XR.nan) hi (fun s => ?_) (fun s a hs => ?_) _) fun b hb => ?_
    · rw [hd]
      refine Tri.bind (m := .ok XR.nan) (Q := fun d => d = XR.nan) rfl fun d e => ?_
      subst e
      show XR.add _ (XR.mul XR.nan _) = _
      rw [nan_mul_xr, XR.add_nan]
    · refine Tri.bind Tri.triv fun d _ => ?_
      show XR.add s _ = _
      rw [hs, nan_add_xr]
    · show XR.div b _ = _
      rw [hb, XR.nan_div]

theorem zero_sq_add : XR.add (XR.fin 0) (XR.mul (XR.fin 0) (XR.fin 0)) = XR.fin 0 := by
  show XR.fin (0 + 0 * 0) = _
  norm_num

theorem zero_div_nat {m : ℕ} (hm : 0 < m) : XR.div (XR.fin 0) (ofNat m : XR) = XR.fin 0 := by
  have : (m : ℝ) ≠ 0 := by exact_mod_cast hm.ne'
  show (if (m : ℝ) = 0 then _ else XR.fin (0 / (m : ℝ))) = _
  rw [if_neg this, zero_div]

theorem colSums_zero (hb : BlankedColumn X X' j) (hn : 0 < n) :
    Tri (fun _ => True) (colSums X' y n j) (fun b => b.1 = XR.fin 0 ∧ ZeroNaN b.2) := by
  unfold colSums
  rw [← blank_colRange hb]
  cases hr : X.colRange j with
  | error e => trivial
  | ok r =>
    refine Tri.bind (m := .ok r) (Q := fun r' => r' = r) rfl fun r' e => ?_
    subst e
    refine Tri.bind (Tri.foldlM (fun b : XR × XR => b.1 = XR.fin 0 ∧ ZeroNaN b.2) _ _ (fun s idx hi hs => ?_) _ ⟨rfl, Or.inl rfl⟩) fun b hb => ?_
    · refine Tri.bind (blank_zero hb hr hi) fun d e => ?_
      subst e
      refine Tri.bind Tri.triv fun i _ => ?_
      refine Tri.bind Tri.triv fun yi _ => ?_
      refine ⟨?_, hs.2.add (ZeroNaN.zero_mul _)⟩
      show XR.add s.1 _ = _
      rw [hs.1]
      exact zero_sq_add
    · refine ⟨?_, hb.2⟩
      show XR.div b.1 _ = _
      rw [hb.1]
      exact zero_div_nat hn

theorem colSquares_zero (hb : BlankedColumn X X' j) (hn : 0 < n) : Tri (fun _ => True) (colSquares X' n j) (fun b => b = XR.fin 0) := by
  unfold colSquares
  rw [← blank_colRange hb]
  cases hr : X.colRange j with
  | error e => trivial
  | ok r =>
    refine Tri.bind (m := .ok r) (Q := fun r' => r' = r) rfl fun r' e => ?_
    subst e
    refine Tri.bind (Tri.foldlM (fun b : XR => b = XR.fin 0) _ _ (fun s idx hi hs => ?_) _ rfl) fun b hb => ?_
    · refine Tri.bind (blank_zero hb hr hi) fun d e => ?_
      subst e
      show XR.add s _ = _
      rw [hs]
      exact zero_sq_add
    · show XR.div b _ = _
      rw [hb]
      exact zero_div_nat (by omega)

theorem quad_csc_grad_nan {df : Quadratic XR} (h : MissingStored X j) (T : Targets XR) (Xw : List XR) :
    Tri (fun _ => True) (Quadratic.gradCSC df ⟨X, T⟩ Xw j) (fun g => g = XR.nan) := by
  unfold Quadratic.gradCSC
  dsimp only
  cases hr : X.colRange j with
  | error e => trivial
  | ok r =>
    obtain ⟨idx, hi, hd⟩ := missing_at h hr
    refine Tri.bind (m := .ok r) (Q := fun r' => r' = r) rfl fun r' e => ?_
    subst e
    refine Tri.bind (fold_sticky (Bad := fun b : XR => b = XR.nan) hi (fun s => ?_) (fun s a hs => ?_) _) fun b hb => ?_
    · rw [hd]
      refine Tri.bind (m := .ok XR.nan) (Q := fun d => d = XR.nan) rfl fun d e => ?_
      subst e
      refine Tri.bind Tri.triv fun i _ => ?_
      refine Tri.bind Tri.triv fun xw _ => ?_
      show XR.add _ (XR.mul XR.nan _) = _
      rw [nan_mul_xr, XR.add_nan]
    · refine Tri.bind Tri.triv fun d _ => ?_
      refine Tri.bind Tri.triv fun i _ => ?_
      refine Tri.bind Tri.triv fun xw _ => ?_
      show XR.add s _ = _
      rw [hs, nan_add_xr]
    · refine Tri.bind Tri.triv fun xty _ => ?_
      show XR.div (XR.add b _) _ = _
      rw [hb, nan_add_xr, XR.nan_div]

theorem quad_csc_grad_zero {df : Quadratic XR} (hb : BlankedColumn X X' j) (T : Targets XR) (Xw : List XR) {a : XR} (ha : df.Xty[j]? = some a)
    (hz : ZeroNaN a) : Tri (fun _ => True) (Quadratic.gradCSC df ⟨X', T⟩ Xw j) ZeroNaN := by
  unfold Quadratic.gradCSC
  dsimp only
  rw [← blank_colRange hb]
  cases hr : X.colRange j with
  | error e => trivial
  | ok r =>
    refine Tri.bind (m := .ok r) (Q := fun r' => r' = r) rfl fun r' e => ?_
    subst e
    refine Tri.bind (Tri.foldlM (fun b : XR => ZeroNaN b) _ _ (fun s idx hi hs => ?_) _ (Or.inl rfl)) fun b hb => ?_
    · refine Tri.bind (blank_zero hb hr hi) fun d e => ?_
      subst e
      refine Tri.bind Tri.triv fun i _ => ?_
      refine Tri.bind Tri.triv fun xw _ => ?_
      exact hs.add (ZeroNaN.zero_mul _)
    · unfold getM
      rw [ha]
      exact (hb.add hz.neg).div _

theorem csc_upd_blank (hb : BlankedColumn X X' j) (hk : k ≠ j) (Xw : List XR) (d : XR) :
    X.updateModelFit Xw d k = X'.updateModelFit Xw d k := by
  unfold CSC.updateModelFit
  rw [← blank_colRange hb]
  cases hr : X.colRange k with
  | error e => rfl
  | ok r =>
    dsimp only [bind, Except.bind]
    rw [foldlM_congr fun s idx hi => ?_]
    rw [blank_dataAt hb hk hr hi, blank_rowAt hb]

theorem quad_csc_grad_blank {df df' : Quadratic XR} (hb : BlankedColumn X X' j) (hk : k ≠ j) (T : Targets XR) (Xw : List XR)
    (hx : df.Xty[k]? = df'.Xty[k]?) : Quadratic.gradCSC df ⟨X, T⟩ Xw k = Quadratic.gradCSC df' ⟨X', T⟩ Xw k := by
  unfold Quadratic.gradCSC getM
  dsimp only
  rw [← blank_colRange hb, hx]
  cases hr : X.colRange k with
  | error e => rfl
  | ok r =>
    dsimp only [bind, Except.bind]
    rw [foldlM_congr fun s idx hi => ?_]
    rw [blank_dataAt hb hk hr hi, blank_rowAt hb]

theorem log_csc_grad_nan (h : MissingStored X j) (T : Targets XR) (Xw : List XR) :
    Tri (fun _ => True) (Logistic.gradCSC ⟨X, T⟩ Xw j) (fun g => g = XR.nan) := by
  unfold Logistic.gradCSC
  dsimp only
  refine Tri.bind Tri.triv fun y _ => ?_
  cases hr : X.colRange j with
  | error e => trivial
  | ok r =>
    obtain ⟨idx, hi, hd⟩ := missing_at h hr
    refine Tri.bind (m := .ok r) (Q := fun r' => r' = r) rfl fun r' e => ?_
    subst e
    refine fold_sticky (Bad := fun b : XR => b = XR.nan) hi (fun s => ?_) (fun s a hs => ?_) _
    · rw [hd]
      refine Tri.bind (m := .ok XR.nan) (Q := fun d => d = XR.nan) rfl fun d e => ?_
      subst e
      refine Tri.bind Tri.triv fun i _ => ?_
      refine Tri.bind Tri.triv fun yi _ => ?_
      refine Tri.bind Tri.triv fun xw _ => ?_
      show XR.add _ (XR.neg (XR.div (XR.mul (XR.mul XR.nan _) _) _)) = _
      rw [nan_mul_xr, nan_mul_xr, XR.nan_div]
      exact XR.add_nan _
    · refine Tri.bind Tri.triv fun d _ => ?_
      refine Tri.bind Tri.triv fun i _ => ?_
      refine Tri.bind Tri.triv fun yi _ => ?_
      refine Tri.bind Tri.triv fun xw _ => ?_
      show XR.add s _ = _
      rw [hs, nan_add_xr]

theorem zeroNaN_mul {a : XR} (h : ZeroNaN a) (b : XR) : ZeroNaN (XR.mul a b) := by
  rcases h with rfl | rfl
  · exact ZeroNaN.zero_mul b
  · rw [nan_mul_xr]; exact Or.inr rfl

theorem log_csc_grad_zero (hb : BlankedColumn X X' j) (T : Targets XR) (Xw : List XR) :
    Tri (fun _ => True) (Logistic.gradCSC ⟨X', T⟩ Xw j) ZeroNaN := by
  unfold Logistic.gradCSC
  dsimp only
  rw [← blank_colRange hb]
  refine Tri.bind Tri.triv fun y _ => ?_
  cases hr : X.colRange j with
  | error e => trivial
  | ok r =>
    refine Tri.bind (m := .ok r) (Q := fun r' => r' = r) rfl fun r' e => ?_
    subst e
    refine Tri.foldlM (fun b : XR => ZeroNaN b) _ _ (fun s idx hi hs => ?_) _ (Or.inl rfl)
    refine Tri.bind (blank_zero hb hr hi) fun d e => ?_
    subst e
    refine Tri.bind Tri.triv fun i _ => ?_
    refine Tri.bind Tri.triv fun yi _ => ?_
    refine Tri.bind Tri.triv fun xw _ => ?_
    exact hs.add ((zeroNaN_mul (ZeroNaN.zero_mul _) _).div _).neg

theorem log_csc_grad_blank (hb : BlankedColumn X X' j) (hk : k ≠ j) (T : Targets XR) (Xw : List XR) :
    Logistic.gradCSC ⟨X, T⟩ Xw k = Logistic.gradCSC ⟨X', T⟩ Xw k := by
  unfold Logistic.gradCSC
  dsimp only
  rw [← blank_colRange hb]
  cases T.single with
  | error e => rfl
  | ok y =>
    cases hr : X.colRange k with
    | error e => rfl
    | ok r =>
      dsimp only [bind, Except.bind]
      rw [foldlM_congr fun s idx hi => ?_]
      rw [blank_dataAt hb hk hr hi, blank_rowAt hb]

theorem blank_shaped (hb : BlankedColumn X X' j) (hX : ShapedCSC X n p) : ShapedCSC X' n p :=
  ⟨by rw [← hb.indptr]; exact hX.indptr, fun k a b h1 h2 i h3 h4 => by
    rw [← hb.indptr] at h1 h2
    have := hX.entry k a b h1 h2 i h3 h4
    rwa [hb.length, hb.indices] at this, fun i hi => hX.row i (by rw [hb.indices]; exact hi)⟩

theorem missing_pos (h : MissingStored X j) (hX : ShapedCSC X n p) : 0 < n := by
  obtain ⟨i, ⟨a, b, h1, h2, h3, h4⟩, -⟩ := h
  have h5 := (hX.entry j a b h1 h2 i h3 h4).2.2
  have h6 := hX.row (X.indices[i]'(by exact_mod_cast h5)) (List.getElem_mem _)
  omega

theorem tri_value {α : Type} {m : M α} {Q : α → Prop} (h1 : Ok m (fun _ => True)) (h2 : Tri (fun _ => True) m Q) : ∃ a, m = .ok a ∧ Q a := by
  obtain ⟨a, ha, -⟩ := Tri.exists_ok h1
  exact ⟨a, ha, Tri.elim_ok h2 ha⟩

/-- The least squares problem. -/
theorem quad_csc_sameBut (h : MissingStored X j) (hb : BlankedColumn X X' j) (hX : ShapedCSC X n p) (hj : j < p) (hy : y.length = n) {α : ℝ}
    (hα : 0 ≤ α) :
    ∃ df df' : Quadratic XR, Quadratic.initCSC ⟨X, Targets.one y⟩ = .ok df ∧ Quadratic.initCSC ⟨X', Targets.one y⟩ = .ok df' ∧
      SameBut (⟨X, Targets.one y⟩ : Dataset (CSC XR) XR) ⟨X', Targets.one y⟩ df df' (L1.mk (XR.fin α)) (L1.dist (L1.mk (XR.fin α))) n j := by
  have hX' := blank_shaped hb hX
  have hT : ShapedTargets (Targets.one y) n 1 := by rw [← hy]; exact shaped_one
  have hn := missing_pos h hX
  obtain ⟨df, hi, hs⟩ := Tri.exists_ok (quad_csc_safe hX hT (Quadratic.new : Quadratic XR))
  obtain ⟨df', hi', hs'⟩ := Tri.exists_ok (quad_csc_safe hX' hT (Quadratic.new : Quadratic XR))
  have hnf := ShapedCSC.nFeatures hX
  have hnf' := ShapedCSC.nFeatures hX'
  have hoff : ∀ k, k ≠ j → df.lipschitz[k]? = df'.lipschitz[k]? ∧ (k < p → df.Xty[k]? = df'.Xty[k]?) := by
    intro k hk
    by_cases hp : k < p
    · obtain ⟨b, h1, h2, h3⟩ := quad_init_at hnf hi hp
      obtain ⟨b', h1', h2', h3'⟩ := quad_init_at hnf' hi' hp
      rw [colSums_blank hb hk, h1'] at h1
      have e := Except.ok.inj h1
      rw [h2, h3, h2', h3', e]
      exact ⟨rfl, fun _ => rfl⟩
    · refine ⟨?_, fun hp' => absurd hp' hp⟩
      rw [List.getElem?_eq_none (by have := hs.step; have e : df.lipschitz.length = p := this; omega),
        List.getElem?_eq_none (by have := hs'.step; have e : df'.lipschitz.length = p := this; omega)]
  obtain ⟨b, h1, h2, h3⟩ := quad_init_at hnf hi hj
  obtain ⟨b', h1', h2', h3'⟩ := quad_init_at hnf' hi' hj
  have hnan := Tri.elim_ok (colSums_nan h) h1
  have hzero := Tri.elim_ok (colSums_zero hb (by omega)) h1'
  rw [hnan.1] at h2
  rw [hzero.1] at h2'
  refine ⟨df, df', hi, hi', rfl, fun Xw => rfl, fun k hk Xw => ?_, fun Xw hXw => ?_, fun k hk => ?_, fun k hk Xw d => csc_upd_blank hb hk Xw d,
    fun k Xw d r hr => csc_upd_length hr, fun st h4 h5 => ?_, fun st h4 h5 => ?_⟩
  · show Quadratic.gradCSC _ _ _ _ = Quadratic.gradCSC _ _ _ _
    by_cases hp : k < p
    · exact quad_csc_grad_blank hb hk _ _ ((hoff k hk).2 hp)
    · have e : X.colRange k = .error .index := by
        unfold CSC.colRange getM
        rw [List.getElem?_eq_none (l := X.indptr) (i := k + 1) (by rw [hX.indptr]; omega)]
        cases X.indptr[k]? <;> rfl
      unfold Quadratic.gradCSC
      dsimp only
      rw [← blank_colRange hb, e]
      rfl
  · obtain ⟨g, hg, e⟩ := tri_value (hs.grad Xw j hXw hj) (quad_csc_grad_nan h _ Xw)
    obtain ⟨g', hg', e'⟩ := tri_value (hs'.grad Xw j hXw hj) (quad_csc_grad_zero hb _ Xw h3' hzero.2)
    exact ⟨g, g', hg, hg', by rw [l1_dist_zeroNaN hα (Or.inr e), l1_dist_zeroNaN hα e']⟩
  · show getM df.lipschitz k = getM df'.lipschitz k
    unfold getM
    rw [(hoff k hk).1]
  · obtain ⟨g, hg, e⟩ := tri_value (hs.grad st.Xw j h5 hj) (quad_csc_grad_nan h _ st.Xw)
    subst e
    refine idle_nan ?_ hg h4
    show getM df.lipschitz j = _
    unfold getM
    rw [h2]
  · refine idle_zero ?_
    show getM df'.lipschitz j = _
    unfold getM
    rw [h2']

/-- The logistic problem. -/
theorem log_csc_sameBut (h : MissingStored X j) (hb : BlankedColumn X X' j) (hX : ShapedCSC X n p) (hj : j < p) (hy : y.length = n) {α : ℝ}
    (hα : 0 ≤ α) :
    ∃ df df' : Logistic XR, Logistic.initCSC ⟨X, Targets.one y⟩ = .ok df ∧ Logistic.initCSC ⟨X', Targets.one y⟩ = .ok df' ∧
      SameBut (⟨X, Targets.one y⟩ : Dataset (CSC XR) XR) ⟨X', Targets.one y⟩ df df' (L1.mk (XR.fin α)) (L1.dist (L1.mk (XR.fin α))) n j := by
  have hX' := blank_shaped hb hX
  have hT : ShapedTargets (Targets.one y) n 1 := by rw [← hy]; exact shaped_one
  have hn := missing_pos h hX
  obtain ⟨df, hi, hs⟩ := Tri.exists_ok (log_csc_safe hX hT (Logistic.new : Logistic XR))
  obtain ⟨df', hi', hs'⟩ := Tri.exists_ok (log_csc_safe hX' hT (Logistic.new : Logistic XR))
  have hnf := ShapedCSC.nFeatures hX
  have hnf' := ShapedCSC.nFeatures hX'
  have hoff : ∀ k, k ≠ j → df.lipschitz[k]? = df'.lipschitz[k]? := by
    intro k hk
    by_cases hp : k < p
    · obtain ⟨b, h1, h2⟩ := log_init_at hnf hi hp
      obtain ⟨b', h1', h2'⟩ := log_init_at hnf' hi' hp
      rw [colSquares_blank hb hk, h1'] at h1
      have e := Except.ok.inj h1
      rw [h2, h2', e]
    · rw [List.getElem?_eq_none (by have := hs.step; have e : df.lipschitz.length = p := this; omega),
        List.getElem?_eq_none (by have := hs'.step; have e : df'.lipschitz.length = p := this; omega)]
  obtain ⟨b, h1, h2⟩ := log_init_at hnf hi hj
  obtain ⟨b', h1', h2'⟩ := log_init_at hnf' hi' hj
  have hnan := Tri.elim_ok (colSquares_nan h) h1
  have hzero := Tri.elim_ok (colSquares_zero hb (by omega)) h1'
  rw [hnan] at h2
  rw [hzero] at h2'
  refine ⟨df, df', hi, hi', rfl, fun Xw => rfl, fun k hk Xw => log_csc_grad_blank hb hk _ _, fun Xw hXw => ?_, fun k hk => ?_,
    fun k hk Xw d => csc_upd_blank hb hk Xw d, fun k Xw d r hr => csc_upd_length hr, fun st h4 h5 => ?_, fun st h4 h5 => ?_⟩
  · obtain ⟨g, hg, e⟩ := tri_value (hs.grad Xw j hXw hj) (log_csc_grad_nan h _ Xw)
    obtain ⟨g', hg', e'⟩ := tri_value (hs'.grad Xw j hXw hj) (log_csc_grad_zero hb _ Xw)
    exact ⟨g, g', hg, hg', by rw [l1_dist_zeroNaN hα (Or.inr e), l1_dist_zeroNaN hα e']⟩
  · show getM df.lipschitz k = getM df'.lipschitz k
    unfold getM
    rw [hoff k hk]
  · obtain ⟨g, hg, e⟩ := tri_value (hs.grad st.Xw j h5 hj) (log_csc_grad_nan h _ st.Xw)
    subst e
    refine idle_nan ?_ hg h4
    show getM df.lipschitz j = _
    unfold getM
    rw [h2]
  · refine idle_zero ?_
    show getM df'.lipschitz j = _
    unfold getM
    rw [h2']

end
end Sglm
