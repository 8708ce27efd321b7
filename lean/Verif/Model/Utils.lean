import Verif.Model.Mat

/-!
# `/repo/src/utils/mod.rs`
-/

namespace Sglm
open Scalar
variable {F : Type} [Scalar F]

/-- `soft_thresholding`, `/repo/src/utils/mod.rs` lines 11-19. -/
def softThresholding (x threshold : F) : F :=
  if threshold <. x then x -. threshold
  else if x <. (-.threshold) then x +. threshold
  else zero

/-- `block_soft_thresholding`, `/repo/src/utils/mod.rs` lines 23-30. -/
def blockSoftThresholding (x : List F) (threshold : F) : List F :=
  let norm_x := sqrt (sum (x.map sq))
  if norm_x <. threshold then List.replicate x.length zero
  else
    let scale := one -. threshold /. norm_x
    x.map (fun xi => xi *. scale)

/-- `prox_05`, `/repo/src/utils/mod.rs` lines 33-48. -/
def prox05 (x threshold : F) : F :=
  let t := lit 3 2 *. powf threshold (lit 2 3)
  if abs x <. t then zero
  else
    x *. lit 2 3 *.
      (one +. cos (lit 2 3 *.
        acos ((-.(powf (lit 3 1) (lit 3 2) /. lit 4 1)) *. threshold *. powf (abs x) (lit (-3) 2))))

/-- `compute_alpha_max`, `/repo/src/utils/mod.rs` lines 63-68. -/
def computeAlphaMax (X : Mat F) (y : List F) : M F := do
  let n_samples : F := ofNat X.nrows
  let Xty ← tMulVec X y
  let alpha_max := Xty.foldl (fun max_val x => fmax (abs x) max_val) zero
  pure (alpha_max /. n_samples)

/-- `compute_alpha_max_mtl`, `/repo/src/utils/mod.rs` lines 72-78. -/
def computeAlphaMaxMtl (X Y : Mat F) : M F := do
  let n_samples := X.nrows
  let XtY ← tMulMat X Y
  let norms := XtY.rows.map (fun xtyj => sqrt (dot xtyj xtyj))
  let alpha_max := norms.foldl (fun max_val xty => fmax max_val (abs xty)) zero
  pure (alpha_max /. ofNat n_samples)

/-- `sigmoid`, `/repo/src/utils/mod.rs` lines 170-172. -/
def sigmoid (x : F) : F := one /. (one +. exp (-.x))

/-! ## Sorting

`argsort_by` (lines 101-109) sorts the indices with the standard library's `sort_unstable_by` and the
comparison `b.partial_cmp(a).expect(..)` supplied by `construct_ws_from_kkt`.  The standard library
algorithm is external: the model takes the argsort function as a parameter `srt` and assumes only its
documented contract `ArgsortSpec`. -/

/-- An implementation of `argsort_by(kkt, descending)`. -/
abbrev Argsort (F : Type) := List F → M (List Nat)

/-- Contract of `sort_unstable_by` under the comparison of `construct_ws_from_kkt`
(`/repo/src/utils/mod.rs` 101-109, `/repo/src/solvers/anderson_cd/mod.rs` 83-86).
On arrays without NaN: a permutation of the indices, sorted in descending order, ties in arbitrary
order.  With a NaN and at least two elements: every element takes part in at least one comparison of
any correct sort, so the comparison closure panics.  Arrays of length < 2 are not compared at all. -/
structure ArgsortSpec (srt : Argsort F) : Prop where
  sorted : ∀ l : List F, (l.length < 2 ∨ ∀ x ∈ l, isNaN x = false) →
    ∃ π : List Nat, srt l = .ok π ∧ π.Perm (List.range l.length) ∧
      π.Pairwise (fun i j => ∀ a b, l[i]? = some a → l[j]? = some b → (a <. b) = false)
  nan : ∀ l : List F, 2 ≤ l.length → (∃ x ∈ l, isNaN x = true) → srt l = .error .nanCompare

/-- A further assumption on the sort, used by C61 only: it accesses the elements through the comparison only, so
that the order it finds (including that of ties) is determined by the outcome of the comparisons.
(`sort_unstable_by` is deterministic.) -/
def SortsByComparison (srt : Argsort F) : Prop :=
  ∀ l l' : List F, l.length = l'.length →
    (∀ (i j : Nat) (a b a' b' : F), l[i]? = some a → l[j]? = some b → l'[i]? = some a' → l'[j]? = some b' →
      (a <. b) = (a' <. b') ∧ isNaN a = isNaN a') → srt l = srt l'

/-! ## Linear system -/

/-- Row operation of the elimination (lines 134-137): `row_dst -= (row_dst[i]/row_i[i]) * row_i`, for the
columns listed in `ks`, one element at a time. -/
def elimRow (sys : Mat F) (dst i : Nat) (ks : List Nat) : M (Mat F) := do
  let a ← sys.get2 dst i
  let p ← sys.get2 i i
  let factor := a /. p
  ks.foldlM (fun s k => do
    let x ← s.get2 dst k
    let y ← s.get2 i k
    s.set2 dst k (x -. factor *. y)) sys

/-- Concatenation `[A | b]`, `/repo/src/utils/mod.rs` lines 120-126. -/
def augment (A : Mat F) (b : List F) : M (Mat F) := do
  let size := b.length
  let rows ← (List.range size).mapM (fun i =>
    (List.range (size + 1)).mapM (fun j => if j = size then getM b i else A.get2 i j))
  pure ⟨size + 1, rows⟩

/-- Echelon form, `/repo/src/utils/mod.rs` lines 129-140.  `m = size - 1`. -/
def echelon (size m : Nat) (sys : Mat F) : M (Mat F) :=
  (List.range m).foldlM (fun s i =>
    (List.range' i (m - i)).foldlM (fun s j => do
      let p ← s.get2 i i
      if p ==. zero then pure s
      else elimRow s (j + 1) i (List.range' i (size + 1 - i))) s) sys

/-- Backward elimination, `/repo/src/utils/mod.rs` lines 143-154. -/
def backElim (size : Nat) (sys : Mat F) : M (Mat F) :=
  (List.range' 1 (size - 1)).reverse.foldlM (fun s i => do
    let p ← s.get2 i i
    if p ==. zero then pure s
    else
      (List.range' 1 i).reverse.foldlM (fun s j =>
        elimRow s (j - 1) i (List.range (size + 1)).reverse) s) sys

/-- Reading off the solution, `/repo/src/utils/mod.rs` lines 156-167.  The result `none` stands for
`Err("Infinitely many solutions or singular matrix")`.  The writes to `system` in lines 161-162 are to
row `i` only, after its last use, and are not kept. -/
def readSolution (size : Nat) (sys : Mat F) : M (Option (List F)) :=
  (List.range size).foldlM (fun acc i =>
    match acc with
    | none => pure none
    | some x => do
      let p ← sys.get2 i i
      if p ==. zero then pure none
      else do
        let r ← sys.get2 i size
        pure (some (x ++ [r /. p]))) (some [])

/-- `solve_lin_sys`, `/repo/src/utils/mod.rs` lines 115-168 (`none` is the `Err` result).  For
`size = 0` the bound `size - 1` of line 129 underflows. -/
def solveLinSys (A : Mat F) (b : List F) : M (Option (List F)) := do
  let size := b.length
  let sys ← augment A b
  let m ← subM size 1
  let sys ← echelon size m sys
  let sys ← backElim size sys
  readSolution size sys

end Sglm
