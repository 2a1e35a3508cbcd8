import Verif.Model.DynamicTree
import Verif.Model.Collision

/-!
# Ray casts in the dynamic tree

Models `ray_cast` of `src/b2_dynamic_tree.rs` (269-347), in exact arithmetic.
-/
namespace B2.Tree
variable {F D : Type} [Field F] [LinearOrder F]

/-- The box of the segment from `p1` to `p1 + maxFraction * (p2 - p1)` (b2_dynamic_tree.rs 290-296 and 334-337). -/
def segmentAabb (p1 p2 : Vec2 F) (maxFraction : F) : AABB F :=
  let t := p1 + maxFraction * (p2 - p1)
  ⟨minV p1 t, maxV p1 t⟩

/-- Does a node survive both tests of the loop (b2_dynamic_tree.rs 309-320)? -/
def raySurvives (box : AABB F) (p1 v absv : Vec2 F) (segment : AABB F) : Bool :=
  if AABB.overlap box segment = false then false
  else
    let c := box.center
    let h := box.extents
    let separation := |dot v (p1 - c)| - dot absv h
    if separation > 0 then false else true

/-- The `while` of `ray_cast` (b2_dynamic_tree.rs 301-345); the callback has state `S`, is given the sub-input and
the proxy id, and answers with a number. -/
def rayCastLoop {S : Type} (t : Tree F D) (cb : S → RayIn F → Nat → S × F) (p1 p2 v absv : Vec2 F) :
    Nat → GStack.State Ref → F → AABB F → S → Option S
  | 0, _, _, _, _ => none
  | fuel + 1, stack, maxFraction, segment, s =>
    if GStack.getCount stack > 0 then do
      let (ref, stack) ← GStack.pop 256 stack
      match ref with
      | none => rayCastLoop t cb p1 p2 v absv fuel stack maxFraction segment s
      | some id =>
        let node ← t.get id
        if raySurvives node.aabb p1 v absv segment then
          if node.isLeaf then
            let (s, value) := cb s ⟨p1, p2, maxFraction⟩ id
            if value = 0 then return s
            else if value > 0 then
              rayCastLoop t cb p1 p2 v absv fuel stack value (segmentAabb p1 p2 value) s
            else rayCastLoop t cb p1 p2 v absv fuel stack maxFraction segment s
          else
            let stack ← GStack.push 256 stack node.child1
            let stack ← GStack.push 256 stack node.child2
            rayCastLoop t cb p1 p2 v absv fuel stack maxFraction segment s
        else rayCastLoop t cb p1 p2 v absv fuel stack maxFraction segment s
    else some s

/-- `ray_cast` (b2_dynamic_tree.rs 269-347); asserts that the two points differ. -/
def rayCast {S : Type} [Elem F] (t : Tree F D) (cb : S → RayIn F → Nat → S × F) (input : RayIn F) (s : S) : Option S := do
  let r := input.p2 - input.p1
  if r.lengthSquared > 0 then
    let r := r.normalize.1
    let v := crossSV 1 r
    let absv := absV v
    let stack ← GStack.push 256 (GStack.new none) t.root
    rayCastLoop t cb input.p1 input.p2 v absv (t.cap + 2) stack input.maxFraction
      (segmentAabb input.p1 input.p2 input.maxFraction) s
  else none

end B2.Tree
