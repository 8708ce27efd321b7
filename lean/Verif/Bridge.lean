import Verif.XR
import Verif.Model.Mat
import Verif.Spec.Prox

/-!
# Real data as model data

How real vectors and matrices are presented to the model; used to state the theorems about exact
arithmetic.
-/

namespace Sglm

/-- A real vector as a 1-d array. -/
noncomputable def vec {n : ℕ} (f : Fin n → ℝ) : List XR := List.ofFn (fun i => XR.fin (f i))

/-- A real matrix as a 2-d array. -/
noncomputable def mat {n p : ℕ} (X : Fin n → Fin p → ℝ) : Mat XR :=
  ⟨p, List.ofFn (fun i => vec (X i))⟩

/-- A Euclidean vector as a 1-d array. -/
noncomputable abbrev evec {n : ℕ} (v : Spec.Euc n) : List XR := vec v.ofLp

/-- A matrix given by its rows. -/
noncomputable abbrev emat {n p : ℕ} (W : Fin n → Spec.Euc p) : Mat XR := mat (fun j => (W j).ofLp)

/-- A working set of features, as the model sees it. -/
def idx {k p : ℕ} (ws : Fin k → Fin p) : List ℕ := List.ofFn (fun i => (ws i : ℕ))

/-- `m` is the reported maximum of the scores `d`: the largest score, `-inf` when there is none. -/
def IsMaxScore {k : ℕ} (d : Fin k → ℝ) (m : XR) : Prop :=
  (k = 0 ∧ m = XR.ninf) ∨ ∃ r, m = XR.fin r ∧ IsGreatest (Set.range d) r

end Sglm
