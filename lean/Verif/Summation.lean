import Verif.IEEE
import Mathlib.Algebra.Order.Group.Multiset
import Mathlib.Tactic.Abel

/-!
# Summation schemes

Two ways of computing sums and dot products: one after the other, and the eightfold unrolled loop which ndarray 0.15 uses for
contiguous arrays (`ndarray::numeric_util::unrolled_fold`, `unrolled_dot`; not part of the repository, recorded from its
documentation).  The theorems about IEEE arithmetic hold for any `Summation`; these show that the notion is inhabited.
-/

namespace Sglm
noncomputable section
open Classical
variable {f : Format}

namespace Num

theorem sumOf_foldl : ∀ (l l₀ : List (Num f)) (a : Num f), SumOf l₀ a → SumOf (l₀ ++ l) (l.foldl add a)
  | [], l₀, a, h => by simpa using h
  | x :: l, l₀, a, h => by
    have := sumOf_foldl l (l₀ ++ [x]) (add a x) (.add h (.single x))
    simpa using this

/-- The eight partial sums and the rest of the array. -/
def lanes : Num f → Num f → Num f → Num f → Num f → Num f → Num f → Num f → List (Num f) → Num f
  | p0, p1, p2, p3, p4, p5, p6, p7, x0 :: x1 :: x2 :: x3 :: x4 :: x5 :: x6 :: x7 :: xs =>
    lanes (add p0 x0) (add p1 x1) (add p2 x2) (add p3 x3) (add p4 x4) (add p5 x5) (add p6 x6) (add p7 x7) xs
  | p0, p1, p2, p3, p4, p5, p6, p7, xs =>
    xs.foldl add (add (add (add (add zero (add p0 p4)) (add p1 p5)) (add p2 p6)) (add p3 p7))

theorem sumOf_lanes : ∀ (p0 p1 p2 p3 p4 p5 p6 p7 : Num f) (l : List (Num f)) (l0 l1 l2 l3 l4 l5 l6 l7 : List (Num f)),
    SumOf l0 p0 → SumOf l1 p1 → SumOf l2 p2 → SumOf l3 p3 → SumOf l4 p4 → SumOf l5 p5 → SumOf l6 p6 → SumOf l7 p7 →
    SumOf (l0 ++ l1 ++ l2 ++ l3 ++ l4 ++ l5 ++ l6 ++ l7 ++ l) (lanes p0 p1 p2 p3 p4 p5 p6 p7 l) := by
  intro p0 p1 p2 p3 p4 p5 p6 p7 l
  induction p0, p1, p2, p3, p4, p5, p6, p7, l using lanes.induct with
  | case1 p0 p1 p2 p3 p4 p5 p6 p7 x0 x1 x2 x3 x4 x5 x6 x7 xs ih =>
    intro l0 l1 l2 l3 l4 l5 l6 l7 h0 h1 h2 h3 h4 h5 h6 h7
    rw [lanes]
    refine (ih _ _ _ _ _ _ _ _ (.add h0 (.single x0)) (.add h1 (.single x1)) (.add h2 (.single x2)) (.add h3 (.single x3))
      (.add h4 (.single x4)) (.add h5 (.single x5)) (.add h6 (.single x6)) (.add h7 (.single x7))).perm ?_
    rw [← Multiset.coe_eq_coe]
    simp only [← Multiset.coe_add, ← Multiset.cons_coe, ← Multiset.singleton_add, Multiset.coe_nil]
    abel
  | case2 p0 p1 p2 p3 p4 p5 p6 p7 xs hne =>
    intro l0 l1 l2 l3 l4 l5 l6 l7 h0 h1 h2 h3 h4 h5 h6 h7
    rw [lanes]
    · refine (sumOf_foldl xs _ _ (.add (.add (.add (.add .zero (.add h0 h4)) (.add h1 h5)) (.add h2 h6)) (.add h3 h7))).perm ?_
      rw [← Multiset.coe_eq_coe]
      simp only [← Multiset.coe_add, Multiset.coe_nil]
      abel
    · exact hne

end Num

/-- One after the other, from the left. -/
def Summation.sequential (f : Format) : Summation f where
  sum l := l.foldl Num.add Num.zero
  dot a b := (List.zipWith Num.mul a b).foldl Num.add Num.zero
  mmdot a b := (List.zipWith Num.mul a b).foldl Num.add Num.zero
  sum_spec l := Num.sumOf_foldl l [] _ .zero
  dot_spec _ _ := Num.sumOf_foldl _ [] _ .zero

/-- Eight partial sums. -/
def Summation.unrolled (f : Format) : Summation f where
  sum l := Num.lanes .zero .zero .zero .zero .zero .zero .zero .zero l
  dot a b := Num.lanes .zero .zero .zero .zero .zero .zero .zero .zero (List.zipWith Num.mul a b)
  mmdot a b := (List.zipWith Num.mul a b).foldl Num.add Num.zero
  sum_spec l := Num.sumOf_lanes _ _ _ _ _ _ _ _ l [] [] [] [] [] [] [] [] .zero .zero .zero .zero .zero .zero .zero .zero
  dot_spec _ _ := Num.sumOf_lanes _ _ _ _ _ _ _ _ _ [] [] [] [] [] [] [] [] .zero .zero .zero .zero .zero .zero .zero .zero

end
end Sglm
