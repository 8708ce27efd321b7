import Verif.Spec.Python
import Verif.Spec.Shapes
import Verif.Proofs.Triple
import Verif.Proofs.Arrays

/-!
# Lemmas about the Python layer
-/

namespace Sglm
open Scalar Spec
variable {F : Type} [Scalar F]

theorem Py.finite_iff (x : F) : Py.finite x = true ↔ FiniteVal x := by
  unfold Py.finite FiniteVal
  rw [Bool.and_eq_true, Bool.not_eq_true']

theorem Py.all_finite (l : List F) : l.all Py.finite = true ↔ ∀ x ∈ l, FiniteVal x := by
  rw [List.all_eq_true]
  exact forall_congr' fun x => forall_congr' fun _ => Py.finite_iff x

theorem Py.all_finite' (l : List (List F)) :
    (l.all fun r => r.all Py.finite) = true ↔ ∀ x ∈ l.flatten, FiniteVal x := by
  rw [List.all_eq_true]
  simp only [Py.all_finite, List.mem_flatten]
  exact ⟨fun h x ⟨r, hr, hx⟩ => h r hr x hx, fun h r hr x hx => h x ⟨r, hr, hx⟩⟩

/-- The dtype conversion of `check_array`. -/
def Spec.pyKept : PyDesign F → PyDesign F
  | .dense dt X => .dense dt.kept X
  | .sparse dt i n X => .sparse dt.kept i n X

/-- The index arrays are accepted. -/
def Spec.pyIndexOK (large : Bool) : PyDesign F → Prop
  | .dense _ _ => True
  | .sparse _ i _ _ => (i || large) = true

theorem Py.checkDesign_good {X : PyDesign F} (h : GoodDesign X) {large : Bool} (hi : pyIndexOK large X) :
    Py.checkDesign large X = .ok (pyKept X) := by
  cases X with
  | dense dt A =>
    obtain ⟨h1, h2⟩ := h
    unfold Py.checkDesign
    dsimp only
    rw [if_pos ((Py.all_finite' _).mpr h1), if_pos h2]; rfl
  | sparse dt i n A =>
    obtain ⟨h1, h2⟩ := h
    unfold Py.checkDesign
    dsimp only
    have hi' : (i || large) = true := hi
    have h1' : ∀ x ∈ A.data, FiniteVal x := h1
    rw [if_pos hi', if_pos ((Py.all_finite _).mpr h1'), if_pos h2]; rfl

theorem Py.checkDesign_cases (large : Bool) (X : PyDesign F) :
    (GoodDesign X ∧ pyIndexOK large X ∧ Py.checkDesign large X = .ok (pyKept X)) ∨
      (¬ (GoodDesign X ∧ pyIndexOK large X) ∧ Py.checkDesign large X = .error (.valueError "X")) := by
  by_cases h : GoodDesign X ∧ pyIndexOK large X
  · exact .inl ⟨h.1, h.2, Py.checkDesign_good h.1 h.2⟩
  · refine .inr ⟨h, ?_⟩
    cases X with
    | dense dt A =>
      unfold Py.checkDesign
      dsimp only
      split_ifs with h1 h2
      · exact absurd ⟨⟨(Py.all_finite' _).mp h1, h2⟩, trivial⟩ h
      · rfl
      · rfl
    | sparse dt i n A =>
      unfold Py.checkDesign
      dsimp only
      split_ifs with h1 h2 h3
      · exact absurd ⟨⟨(Py.all_finite _).mp h2, h3⟩, h1⟩ h
      · rfl
      · rfl
      · rfl

theorem Py.checkTargets_cases (y : PyTargets F) :
    (GoodTargets y ∧ Py.checkTargets y = .ok y) ∨ (¬ GoodTargets y ∧ Py.checkTargets y = .error (.valueError "y")) := by
  cases y with
  | one y =>
    unfold Py.checkTargets
    dsimp only
    split_ifs with h1 h2
    · exact .inl ⟨⟨(Py.all_finite _).mp h1, h2⟩, rfl⟩
    · exact .inr ⟨fun h => h2 h.2, rfl⟩
    · exact .inr ⟨fun h => h1 ((Py.all_finite _).mpr h.1), rfl⟩
  | two Y =>
    unfold Py.checkTargets
    dsimp only
    split_ifs with h1 h2
    · exact .inl ⟨⟨(Py.all_finite' _).mp h1, h2⟩, rfl⟩
    · exact .inr ⟨fun h => h2 h.2, rfl⟩
    · exact .inr ⟨fun h => h1 ((Py.all_finite' _).mpr h.1), rfl⟩

theorem Py.checkTargets_good {y : PyTargets F} (h : GoodTargets y) : Py.checkTargets y = .ok y := by
  rcases Py.checkTargets_cases y with h' | h'
  · exact h'.2
  · exact absurd h h'.1

theorem Py.validate_ok (mi me p0 K : ℕ) {tol : F} (ht : (tol <. zero) = false) (accel verbose : Bool) :
    Py.validateParams (pySettings mi me p0 K tol accel verbose) = .ok ⟨mi, me, tol, p0, K, accel, verbose⟩ := by
  have hi : ∀ (nm : String) (k : ℕ), Py.checkInt nm (PyArg.int (k : Int) : PyArg F) = .ok k := by
    intro nm k
    unfold Py.checkInt
    dsimp only
    rw [if_neg (by omega)]; rfl
  have hf : Py.checkFloat "tol" (PyArg.float tol) = .ok tol := by
    unfold Py.checkFloat
    dsimp only
    rw [ht]; rfl
  unfold Py.validateParams pySettings
  simp only [hi, hf]
  rfl

/-- Parameter checks only raise `ValueError`. -/
theorem Py.validate_error (s : PySettings F) :
    (∃ c, Py.validateParams s = .ok c) ∨ ∃ w, Py.validateParams s = .error (.valueError w) := by
  have hi : ∀ (nm : String) (a : PyArg F), (∃ k, Py.checkInt nm a = .ok k) ∨ Py.checkInt nm a = .error (.valueError nm) := by
    intro nm a
    unfold Py.checkInt
    cases a with
    | int z =>
      dsimp only
      split_ifs
      · exact .inr rfl
      · exact .inl ⟨_, rfl⟩
    | _ => exact .inr rfl
  have hf : ∀ (nm : String) (a : PyArg F), (∃ k, Py.checkFloat nm a = .ok k) ∨ Py.checkFloat nm a = .error (.valueError nm) := by
    intro nm a
    unfold Py.checkFloat
    cases a with
    | float z =>
      dsimp only
      split_ifs
      · exact .inr rfl
      · exact .inl ⟨_, rfl⟩
    | _ => exact .inr rfl
  unfold Py.validateParams
  rcases hi "K" s.K with ⟨k, h1⟩ | h1
  · rcases hi "p0" s.p0 with ⟨p, h2⟩ | h2
    · rcases hf "tol" s.tol with ⟨t, h3⟩ | h3
      · rcases hi "max_iter" s.maxIter with ⟨m, h4⟩ | h4
        · rcases hi "max_epochs" s.maxEpochs with ⟨e, h5⟩ | h5
          · rw [h1, h2, h3, h4, h5]; exact .inl ⟨_, rfl⟩
          · rw [h1, h2, h3, h4, h5]; exact .inr ⟨_, rfl⟩
        · rw [h1, h2, h3, h4]; exact .inr ⟨_, rfl⟩
      · rw [h1, h2, h3]; exact .inr ⟨_, rfl⟩
    · rw [h1, h2]; exact .inr ⟨_, rfl⟩
  · rw [h1]; exact .inr ⟨_, rfl⟩

omit [Scalar F] in
/-- A rectangular matrix has a transpose. -/
theorem shaped_tM {W : Mat F} {r c : ℕ} (h : Shaped W r c) : ∃ V, W.tM = .ok V ∧ IsTranspose V W := by
  obtain ⟨h1, h2, h3⟩ := h
  have hsh : ∃ a : Fin r → Fin c → F, W = ⟨c, List.ofFn fun i => List.ofFn (a i)⟩ := by
    obtain ⟨nc, rows⟩ := W
    dsimp only at h1 h2 h3
    subst h2
    subst h1
    refine ⟨fun i j => (rows[i.1]'i.2)[j.1]'(by rw [h3 _ (List.getElem_mem i.2)]; exact j.2), ?_⟩
    congr 1
    refine List.ext_getElem (by simp) fun i hi hi' => ?_
    simp only [List.getElem_ofFn]
    refine List.ext_getElem (by simp [h3 _ (List.getElem_mem hi)]) fun j hj hj' => ?_
    simp
  obtain ⟨a, rfl⟩ := hsh
  have hcol : ∀ j : Fin c, (⟨c, List.ofFn fun i => List.ofFn (a i)⟩ : Mat F).colM j = .ok (List.ofFn fun i => a i j) := by
    intro j
    unfold Mat.colM
    rw [if_pos j.2]
    exact mapM_ofFn _ _ fun i => getM_ofFn _ _
  refine ⟨⟨r, List.ofFn fun j => List.ofFn fun i => a i j⟩, ?_, ?_⟩
  · unfold Mat.tM
    dsimp only
    rw [mapM_range _ hcol]
    simp [Mat.nrows, bind, Except.bind, pure, Except.pure]
  · refine ⟨by simp [Mat.nrows], by simp [Mat.nrows], fun x hx => ?_, fun i hi t ht => ?_⟩
    · obtain ⟨j, rfl⟩ := (List.mem_ofFn' _ _).mp hx
      simp
    · have hi' : i < r := by simpa [Mat.nrows] using hi
      have ht' : t < c := ht
      have e1 : getM (List.ofFn fun j : Fin c => List.ofFn fun i => a i j) t = .ok (List.ofFn fun i => a i ⟨t, ht'⟩) :=
        getM_ofFn _ (⟨t, ht'⟩ : Fin c)
      have e2 : getM (List.ofFn fun i : Fin r => List.ofFn (a i)) i = .ok (List.ofFn (a ⟨i, hi'⟩)) :=
        getM_ofFn _ (⟨i, hi'⟩ : Fin r)
      unfold Mat.get2
      dsimp only
      rw [e1, e2]
      show getM (List.ofFn fun i => a i ⟨t, ht'⟩) i = getM (List.ofFn (a ⟨i, hi'⟩)) t
      rw [show getM (List.ofFn fun i => a i ⟨t, ht'⟩) i = _ from getM_ofFn _ (⟨i, hi'⟩ : Fin r),
        show getM (List.ofFn (a ⟨i, hi'⟩)) t = _ from getM_ofFn _ (⟨t, ht'⟩ : Fin c)]

end Sglm
