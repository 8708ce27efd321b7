import Verif.Spec.Problem
import Verif.Spec.Rounding
import Verif.Spec.Run

/-!
# Specification: calls with floating point data

The real problem `(D, y, k, pen)` is given to the crate with its numbers stored in the format `F`.
-/

namespace Sglm.Spec
variable {F : Type} {n p : ℕ}

/-- What is assumed about the arithmetic: precision `e`, and non-finite values propagate; for the logistic loss also the precision
of the exponential and the logarithm. -/
structure FloatLaws (k : LossKind) (F : Type) [Scalar F] [LawfulCmp F] (e : ℝ) : Prop where
  precise : Precise F e
  propagates : Propagates F
  explog : k = .logistic → PreciseExp F e

/-- A matrix of numbers of the format. -/
def matOf (x : Fin n → Fin p → F) : Mat F := ⟨p, List.ofFn fun i => List.ofFn (x i)⟩

/-- Sparse arrays with the given stored entries. -/
def CSCData.toCSCOf (A : CSCData n p) (x : Fin A.nnz → F) : CSC F :=
  ⟨List.ofFn x, List.ofFn (fun k => ((A.row k : ℕ) : ℤ)), List.ofFn (fun j => (A.ptr j : ℤ))⟩

/-- The stored entries of a design matrix. -/
def Design.Entries (F : Type) : Design n p → Type
  | .dense _ => Fin n → Fin p → F
  | .csc A => Fin A.nnz → F

/-- The entries are stored with precision `e`. -/
def Design.StoredAs [Scalar F] [LawfulCmp F] (e : ℝ) : (D : Design n p) → D.Entries F → Prop
  | .dense X, x => ∀ i j, Stores e (x i j) (X i j)
  | .csc A, x => ∀ k, Stores e (x k) (A.data k)

/-- The convex penalties with hyperparameters of the format. -/
inductive PenOf (F : Type) where
  | l1 (α : F)
  | enet (α ρ : F)

/-- The hyperparameters are stored with precision `e`; the ratio of the elastic net is stored as a number in `[0, 1]`. -/
def PenOf.Stored [Scalar F] [LawfulCmp F] (e : ℝ) : PenOf F → Pen → Prop
  | .l1 a, .l1 α => Stores e a α
  | .enet a r, .enet α ρ => Stores e a α ∧ Stores e r ρ ∧ ∃ t, Den r t ∧ 0 ≤ t ∧ t ≤ 1
  | _, _ => False

/-- Give the dataset, a fresh datafit object and the penalty object to `run`. -/
def callOf [Scalar F] {α : Type} (D : Design n p) (x : D.Entries F) (y : Fin n → F) (k : LossKind) (pen : PenOf F)
    (run : ∀ {DM DF P : Type} [DesignMatrix F DM] [Datafit F DM DF] [Penalty F P], Dataset DM F → DF → P → α) : α :=
  let go : ∀ {P : Type} [Penalty F P], P → α := fun pn =>
    match D, x, k with
    | .dense _, x, .quadratic => run (⟨matOf x, Targets.one (List.ofFn y)⟩ : Dataset (Mat F) F) (Quadratic.new : Quadratic F) pn
    | .dense _, x, .logistic => run (⟨matOf x, Targets.one (List.ofFn y)⟩ : Dataset (Mat F) F) (Logistic.new : Logistic F) pn
    | .csc A, x, .quadratic => run (⟨A.toCSCOf x, Targets.one (List.ofFn y)⟩ : Dataset (CSC F) F) (Quadratic.new : Quadratic F) pn
    | .csc A, x, .logistic => run (⟨A.toCSCOf x, Targets.one (List.ofFn y)⟩ : Dataset (CSC F) F) (Logistic.new : Logistic F) pn
  match pen with
  | .l1 a => go (L1.mk a)
  | .enet a r => go (L1PlusL2.mk a r)

/-- `Solver::solve` with floating point data. -/
def solveOf [Scalar F] (srt : Argsort F) (cfg : Solver F) (D : Design n p) (x : D.Entries F) (y : Fin n → F) (k : LossKind)
    (pen : PenOf F) : M (List F) :=
  callOf D x y k pen fun ds df pn => cfg.solve srt ds df pn

/-- The same run, returning also the printed lines. -/
def traceOf [Scalar F] (srt : Argsort F) (cfg : Solver F) (D : Design n p) (x : D.Entries F) (y : Fin n → F) (k : LossKind)
    (pen : PenOf F) : M (CDState F × List (Event F)) :=
  callOf D x y k pen fun ds df pn => do
    let (st, _, log) ← coordinateDescent srt ds df pn cfg
    pure (st, log)

/-- Settings which do not make the crate panic (C26). -/
structure SettingsOK (cfg : Solver F) (p : ℕ) : Prop where
  ws : 0 < cfg.wsStartSize
  accel : cfg.useAcceleration = true → 0 < cfg.K ∧ cfg.K ≤ cfg.wsStartSize ∧ cfg.K ≤ p

/-- Epochs without extrapolation. -/
def PlainEp (cfg : Solver F) (i : ℕ) : Prop := cfg.useAcceleration = false ∨ i % (cfg.K + 1) ≠ cfg.K

/-- The call returns finite coefficients, whose values are `v`; the verbose run prints `m` iterations. -/
def RunsTo [Scalar F] [LawfulCmp F] (srt : Argsort F) (cfg : Solver F) (D : Design n p) (x : D.Entries F) (y : Fin n → F)
    (k : LossKind) (pen : PenOf F) (v : Fin p → ℝ) (m : ℕ) : Prop :=
  ∃ w : Fin p → F, (∀ j, Den (w j) (v j)) ∧ solveOf srt cfg D x y k pen = .ok (List.ofFn w) ∧
    ∃ st log, traceOf srt (cfg.setVerbose true) D x y k pen = .ok (st, log) ∧ st.w = List.ofFn w ∧ iterationsPrinted log = m

/-- `LassoParams::fit` with floating point data. -/
def fitLassoOf [Scalar F] (srt : Argsort F) (ps : LassoParams F) (D : Design n p) (x : D.Entries F) (y : Fin n → F) :
    M (Except (EstimatorError F) (List F)) :=
  match D, x with
  | .dense _, x => Lasso.fit srt ps ⟨matOf x, Targets.one (List.ofFn y)⟩
  | .csc A, x => Lasso.fit srt ps ⟨A.toCSCOf x, Targets.one (List.ofFn y)⟩

/-- `ElasticNetParams::fit` with floating point data. -/
def fitElasticNetOf [Scalar F] (srt : Argsort F) (ps : ElasticNetParams F) (D : Design n p) (x : D.Entries F) (y : Fin n → F) :
    M (Except (EstimatorError F) (List F)) :=
  match D, x with
  | .dense _, x => ElasticNet.fit srt ps ⟨matOf x, Targets.one (List.ofFn y)⟩
  | .csc A, x => ElasticNet.fit srt ps ⟨A.toCSCOf x, Targets.one (List.ofFn y)⟩

end Sglm.Spec
