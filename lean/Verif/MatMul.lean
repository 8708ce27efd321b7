import Verif.IEEE

/-!
# Entries of matrix products

ndarray computes products of two matrices with the crate matrixmultiply (not part of the repository), whose kernels use fused
multiply-add where the processor has it, sum in blocks, and multiply results by one.  `DotOf` admits all of this.
-/

namespace Sglm
noncomputable section
open Classical
variable {f : Format}

namespace Num

/-- Fused multiply-add `x * y + z`, rounded once. -/
def fma : Num f → Num f → Num f → Num f
  | fin s x _ _, fin s' x' _ _, fin s'' x'' _ _ => ofReal ((s ^^ s') && s'') (signed s x * signed s' x' + signed s'' x'')
  | fin .., fin .., inf s => inf s
  | x, y, z => add (mul x y) z

/-- `s` is a sum of the products of the pairs in the list, computed in some order, with or without fused operations. -/
inductive DotOf : List (Num f × Num f) → Num f → Prop
  | zero : DotOf [] zero
  | mul (x y : Num f) : DotOf [(x, y)] (mul x y)
  | add {l l' : List (Num f × Num f)} {a b : Num f} : DotOf l a → DotOf l' b → DotOf (l ++ l') (add a b)
  | fma (x y : Num f) {l : List (Num f × Num f)} {a : Num f} : DotOf l a → DotOf ((x, y) :: l) (fma x y a)
  | one {l : List (Num f × Num f)} {a : Num f} : DotOf l a → DotOf l (Num.mul one a)
  | perm {l l' : List (Num f × Num f)} {a : Num f} : DotOf l a → l.Perm l' → DotOf l' a

theorem dotOf_foldl : ∀ (l l₀ : List (Num f × Num f)) (a : Num f), DotOf l₀ a →
    DotOf (l₀ ++ l) (l.foldl (fun s q => Num.add s (Num.mul q.1 q.2)) a)
  | [], l₀, a, h => by simpa using h
  | q :: l, l₀, a, h => by
    have := dotOf_foldl l (l₀ ++ [q]) _ (.add h (.mul q.1 q.2))
    simpa using this

theorem dotOf_foldl_fma : ∀ (l l₀ : List (Num f × Num f)) (a : Num f), DotOf l₀ a →
    DotOf (l₀ ++ l) (l.foldl (fun s q => Num.fma q.1 q.2 s) a)
  | [], l₀, a, h => by simpa using h
  | q :: l, l₀, a, h => by
    have h1 : DotOf (l₀ ++ [q]) (Num.fma q.1 q.2 a) := (DotOf.fma q.1 q.2 h).perm (List.perm_append_comm (l₁ := [q]))
    have := dotOf_foldl_fma l (l₀ ++ [q]) _ h1
    simpa using this

end Num

/-- The matrix products of the summation scheme are sums of products. -/
def Summation.MatMul (S : Summation f) : Prop := ∀ a b : List (Num f), Num.DotOf (a.zip b) (S.mmdot a b)

/-- The given scheme, with matrix products by fused multiply-adds one after the other. -/
def Summation.withFMA (S : Summation f) : Summation f :=
  { S with mmdot := fun a b => (a.zip b).foldl (fun s q => Num.fma q.1 q.2 s) Num.zero }

theorem Summation.withFMA_matMul (S : Summation f) : S.withFMA.MatMul := fun a b => by
  have := Num.dotOf_foldl_fma (a.zip b) [] _ .zero
  rwa [List.nil_append] at this

end
end Sglm
