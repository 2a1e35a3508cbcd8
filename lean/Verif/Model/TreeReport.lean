import Verif.Model.DynamicTree

/-!
The figures that a dynamic tree reports about its shape. `none` is a panic.
-/
namespace B2.Tree

section
variable {F D : Type} [LinearOrder F]

/-- One turn of the loop of `get_max_balance` (private/collision/b2_dynamic_tree.rs 638-651). -/
def maxBalanceStep (t : Tree F D) (acc : Int) (i : Nat) : Option Int := do
  let node ← t.get i
  if node.height ≤ 1 then return acc
  if node.isLeaf then none
  let child1 ← t.getR node.child1
  let child2 ← t.getR node.child2
  return max acc |child2.height - child1.height|

/-- `get_max_balance` (private/collision/b2_dynamic_tree.rs 636-654, b2_dynamic_tree.rs 138-140). -/
def getMaxBalance (t : Tree F D) : Option Int := (List.range t.cap).foldlM t.maxBalanceStep 0

end

section
variable {F D : Type} [LinearOrder F] [Add F] [Sub F] [Mul F] [Lit F] [Div F]

/-- One turn of the loop of `get_area_ratio` (private/collision/b2_dynamic_tree.rs 509-517). -/
def areaStep (t : Tree F D) (acc : F) (i : Nat) : Option F := do
  let node ← t.get i
  if node.height < 0 then return acc
  return acc + node.aabb.perimeter

/-- `get_area_ratio` (private/collision/b2_dynamic_tree.rs 500-520, b2_dynamic_tree.rs 143-145). -/
def getAreaRatio (t : Tree F D) : Option F :=
  match t.root with
  | none => some (lit 0)
  | some r => do
    let root ← t.get r
    let total ← (List.range t.cap).foldlM t.areaStep (lit 0)
    return total / root.aabb.perimeter

end
end B2.Tree
