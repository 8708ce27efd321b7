import Verif.Model.Utils

/-!
# `/repo/src/penalties`
-/

namespace Sglm
open Scalar

/-- Trait `Penalty`, `/repo/src/penalties/separable/mod.rs` lines 11-34. -/
class Penalty (F : outParam Type) (P : Type) where
  value : P → (w : List F) → M F
  prox : P → (value stepSize : F) → M F
  subdiffDistance : P → (w grad : List F) → (ws : List Nat) → M (List F × F)

/-- Trait `MultiTaskPenalty`, `/repo/src/penalties/block_separable/mod.rs` lines 11-34. -/
class MTPenalty (F : outParam Type) (P : Type) where
  value : P → (W : Mat F) → M F
  prox : P → (value : List F) → (stepSize : F) → M (List F)
  subdiffDistance : P → (W grad : Mat F) → (ws : List Nat) → M (List F × F)

section
variable {F : Type} [Scalar F]

/-- `subdiff_dist.fold(F::neg_infinity(), |max_val, &dist| F::max(max_val, dist))`. -/
def maxDist (l : List F) : F := l.foldl fmax negInf

/-- The common shape of the separable `subdiff_distance` methods: zip the gradient with the working set,
look up `w[j]`, apply the per-coordinate formula, and take the maximum. -/
def sepDistances (f : F → F → F) (w grad : List F) (ws : List Nat) : M (List F × F) := do
  let ds ← (grad.zip ws).mapM (fun gj => do
    let wj ← getM w gj.2
    pure (f wj gj.1))
  pure (ds, maxDist ds)

/-- The common shape of the block `subdiff_distance` methods: zip the gradient rows with the working set,
slice `W[j, ..]`, apply the per-row formula, and take the maximum. -/
def blockDistances (f : List F → List F → M F) (W grad : Mat F) (ws : List Nat) :
    M (List F × F) := do
  let ds ← (grad.rows.zip ws).mapM (fun gj => do
    let Wj ← W.rowM gj.2
    f Wj gj.1)
  pure (ds, maxDist ds)

/-! ## Separable penalties -/

/-- `/repo/src/penalties/separable/mod.rs` lines 42-44. -/
structure L1 (F : Type) where
  alpha : F

namespace L1
/-- `/repo/src/penalties/separable/mod.rs` lines 55-57. -/
def value (p : L1 F) (w : List F) : F := p.alpha *. iterSum (w.map abs)
/-- `/repo/src/penalties/separable/mod.rs` lines 60-62. -/
def prox (p : L1 F) (v s : F) : F := softThresholding v (p.alpha *. s)
/-- Closure of `/repo/src/penalties/separable/mod.rs` lines 78-81. -/
def dist (p : L1 F) (wj g : F) : F :=
  if wj ==. zero then fmax zero (abs g -. p.alpha)
  else abs ((-.g) -. signum wj *. p.alpha)
end L1

/-- `/repo/src/penalties/separable/mod.rs` lines 53-87. -/
instance : Penalty F (L1 F) where
  value p w := .ok (p.value w)
  prox p v s := .ok (p.prox v s)
  subdiffDistance p := sepDistances p.dist

/-- `/repo/src/penalties/separable/mod.rs` lines 95-98. -/
structure L1PlusL2 (F : Type) where
  alpha : F
  l1Ratio : F

namespace L1PlusL2
/-- `/repo/src/penalties/separable/mod.rs` lines 113-117. -/
def value (p : L1PlusL2 F) (w : List F) : F :=
  p.alpha *. (p.l1Ratio *. iterSum (w.map abs) +. lit 1 2 *. (one -. p.l1Ratio) *. dot w w)
/-- `/repo/src/penalties/separable/mod.rs` lines 120-123. -/
def prox (p : L1PlusL2 F) (v s : F) : F :=
  let prox := softThresholding v (p.l1Ratio *. p.alpha *. s)
  prox /. (one +. s *. (one -. p.l1Ratio) *. p.alpha)
/-- Closure of `/repo/src/penalties/separable/mod.rs` lines 140-146. -/
def dist (p : L1PlusL2 F) (wj g : F) : F :=
  if wj ==. zero then fmax zero (abs g -. p.alpha *. p.l1Ratio)
  else abs ((-.g) -. p.alpha *. (signum wj *. p.l1Ratio +. (one -. p.l1Ratio) *. wj))
end L1PlusL2

/-- `/repo/src/penalties/separable/mod.rs` lines 109-152. -/
instance : Penalty F (L1PlusL2 F) where
  value p w := .ok (p.value w)
  prox p v s := .ok (p.prox v s)
  subdiffDistance p := sepDistances p.dist

/-- `/repo/src/penalties/separable/mod.rs` lines 159-162. -/
structure MCP (F : Type) where
  alpha : F
  gamma : F

namespace MCP
/-- `/repo/src/penalties/separable/mod.rs` lines 179-187. -/
def value (p : MCP F) (w : List F) : F :=
  let cast2 : F := lit 2 1
  iterSum (w.map (fun wj =>
    if abs wj <. p.gamma *. p.alpha then p.alpha *. abs wj -. sq wj /. (cast2 *. p.gamma)
    else p.gamma *. sq p.alpha /. cast2))
/-- `/repo/src/penalties/separable/mod.rs` lines 195-205. -/
def prox (p : MCP F) (v s : F) : F :=
  let tau := p.alpha *. s
  let g := p.gamma /. s
  if abs v <=. tau then zero
  else if g *. tau <. abs v then v
  else signum v *. (abs v -. tau) /. (one -. one /. g)
/-- Closure of `/repo/src/penalties/separable/mod.rs` lines 221-229. -/
def dist (p : MCP F) (wj g : F) : F :=
  if wj ==. zero then fmax zero (abs g -. p.alpha)
  else if abs wj <. p.alpha *. p.gamma then
    abs (g +. p.alpha *. signum wj -. wj /. p.gamma)
  else abs g
end MCP

/-- `/repo/src/penalties/separable/mod.rs` lines 172-235. -/
instance : Penalty F (MCP F) where
  value p w := .ok (p.value w)
  prox p v s := .ok (p.prox v s)
  subdiffDistance p := sepDistances p.dist

/-- `/repo/src/penalties/separable/mod.rs` lines 242-244. -/
structure L05 (F : Type) where
  alpha : F

namespace L05
/-- `/repo/src/penalties/separable/mod.rs` lines 257-259. -/
def value (p : L05 F) (w : List F) : F := p.alpha *. sum (w.map (fun wj => sqrt (abs wj)))
/-- `/repo/src/penalties/separable/mod.rs` lines 262-264. -/
def prox (p : L05 F) (v s : F) : F := prox05 v (s *. p.alpha)
end L05

/-- `/repo/src/penalties/separable/mod.rs` lines 253-279; `subdiff_distance` (271-278) is constantly
zero. -/
instance : Penalty F (L05 F) where
  value p w := .ok (p.value w)
  prox p v s := .ok (p.prox v s)
  subdiffDistance _ _ _ ws := .ok (List.replicate ws.length zero, zero)

/-! ## Block separable penalties -/

/-- `||v||` as `v.dot(&v).sqrt()`. -/
def norm2 (v : List F) : F := sqrt (dot v v)

/-- `W_j.iter().any(|&w_ij| w_ij != F::zero())`. -/
def anyNonzero (v : List F) : Bool := v.any (fun x => !(x ==. zero))

/-- `/repo/src/penalties/block_separable/mod.rs` lines 41-43. -/
structure L21 (F : Type) where
  alpha : F

namespace L21
/-- `/repo/src/penalties/block_separable/mod.rs` lines 56-58. -/
def value (p : L21 F) (W : Mat F) : F := p.alpha *. sum (W.rows.map norm2)
/-- `/repo/src/penalties/block_separable/mod.rs` lines 61-63. -/
def prox (p : L21 F) (v : List F) (s : F) : List F := blockSoftThresholding v (p.alpha *. s)
/-- Closure of `/repo/src/penalties/block_separable/mod.rs` lines 77-96. -/
def dist (p : L21 F) (Wj g : List F) : M F :=
  if anyNonzero Wj then
    let norm_W_j := norm2 Wj
    .ok (sqrt ((g.zip Wj).foldl (fun s gw => s +. sq (gw.1 +. p.alpha *. gw.2 /. norm_W_j)) zero))
  else .ok (fmax zero (norm2 g -. p.alpha))
end L21

/-- `/repo/src/penalties/block_separable/mod.rs` lines 52-101. -/
instance : MTPenalty F (L21 F) where
  value p W := .ok (p.value W)
  prox p v s := .ok (p.prox v s)
  subdiffDistance p := blockDistances p.dist

/-- `/repo/src/penalties/block_separable/mod.rs` lines 109-112. -/
structure BlockL1PlusL2 (F : Type) where
  alpha : F
  l21Ratio : F

namespace BlockL1PlusL2
/-- `/repo/src/penalties/block_separable/mod.rs` lines 127-132. -/
def value (p : BlockL1PlusL2 F) (W : Mat F) : F :=
  let norms := W.rows.map norm2
  p.alpha *. (p.l21Ratio *. sum norms +. (one -. p.l21Ratio) *. lit 1 2 *. dot norms norms)
/-- `/repo/src/penalties/block_separable/mod.rs` lines 135-138. -/
def prox (p : BlockL1PlusL2 F) (v : List F) (s : F) : List F :=
  let prox := blockSoftThresholding v (p.alpha *. s *. p.l21Ratio)
  let c := one +. s *. (one -. p.l21Ratio) *. p.alpha
  prox.map (fun x => x /. c)
/-- Closure of `/repo/src/penalties/block_separable/mod.rs` lines 153-176.  Line 172 has no `sqrt`. -/
def dist (p : BlockL1PlusL2 F) (Wj g : List F) : M F :=
  if anyNonzero Wj then
    let norm_W_j := norm2 Wj
    .ok (sqrt ((g.zip Wj).foldl (fun s gw =>
      s +. sq (gw.1 +. p.alpha *. (gw.2 /. norm_W_j *. p.l21Ratio +. (one -. p.l21Ratio) *. gw.2)))
      zero))
  else
    let norm_grad_j := dot g g
    .ok (fmax zero (norm_grad_j -. p.alpha *. p.l21Ratio))
end BlockL1PlusL2

/-- `/repo/src/penalties/block_separable/mod.rs` lines 123-181. -/
instance : MTPenalty F (BlockL1PlusL2 F) where
  value p W := .ok (p.value W)
  prox p v s := .ok (p.prox v s)
  subdiffDistance p := blockDistances p.dist

/-- `/repo/src/penalties/block_separable/mod.rs` lines 188-191. -/
structure BlockMCP (F : Type) where
  alpha : F
  gamma : F

namespace BlockMCP
/-- `/repo/src/penalties/block_separable/mod.rs` lines 210-220. -/
def value (p : BlockMCP F) (W : Mat F) : F :=
  let cast2 : F := lit 2 1
  iterSum ((W.rows.map norm2).map (fun nrm =>
    if nrm <. p.alpha *. p.gamma then p.alpha *. nrm -. sq nrm /. (cast2 *. p.gamma)
    else p.gamma *. sq p.alpha /. cast2))
/-- `/repo/src/penalties/block_separable/mod.rs` lines 228-245. -/
def prox (p : BlockMCP F) (v : List F) (s : F) : List F :=
  let cast1 : F := lit 1 1
  let tau := p.alpha *. s
  let g := p.gamma /. s
  let nv := norm2 v
  if nv <=. tau then List.replicate v.length zero
  else if g *. tau <. nv then v
  else v.map (fun x => (cast1 -. tau /. nv) *. x /. (cast1 -. cast1 /. g))
/-- Closure of `/repo/src/penalties/block_separable/mod.rs` lines 259-280.  The middle branch
(lines 270-273) does not use the gradient. -/
def dist (p : BlockMCP F) (Wj g : List F) : M F :=
  let norm_W_j := norm2 Wj
  if anyNonzero Wj then
    if norm_W_j <. p.alpha *. p.gamma then
      let scale := p.alpha /. norm_W_j -. one /. p.gamma
      .ok (sqrt (sum (Wj.map (fun x => sq (x *. scale)))))
    else .ok (norm2 g)
  else .ok (fmax zero (norm2 g -. p.alpha))
end BlockMCP

/-- `/repo/src/penalties/block_separable/mod.rs` lines 201-285. -/
instance : MTPenalty F (BlockMCP F) where
  value p W := .ok (p.value W)
  prox p v s := .ok (p.prox v s)
  subdiffDistance p := blockDistances p.dist

end
end Sglm
