import Verif.Model.Base
import Verif.Model.Vec
import Verif.Model.GrowableStack

/-!
# Dynamic AABB tree

Models `src/b2_dynamic_tree.rs` and `src/private/collision/b2_dynamic_tree.rs`, on the level of the node
pool. Node indices are `Nat`, `B2_NULL_NODE = -1` is `none`. A result `none` is a panic (failed `b2_assert`,
index out of range - in particular every use of `-1` as an index) or a loop that ran out of fuel; all
fuels are bounds on the number of nodes, so "the result is `some`" also means that the loop ends.
`m_node_capacity` and `m_nodes.len()` are always changed together and are one field, `cap`.
32-bit overflow of the counters is not modelled.
-/
namespace B2

/-- A possibly-null node index. -/
abbrev Ref := Option Nat

/-- `B2treeNode` (b2_dynamic_tree.rs 11-32); `parent` doubles as the free list link. -/
structure Node (F D : Type) where
  aabb : AABB F
  userData : Option D
  parent : Ref
  child1 : Ref
  child2 : Ref
  height : Int
  moved : Bool

/-- `is_leaf` (b2_dynamic_tree.rs 35-37). -/
def Node.isLeaf {F D : Type} (n : Node F D) : Bool := n.child1.isNone

/-- `B2dynamicTree` (b2_dynamic_tree.rs 49-59). -/
structure Tree (F D : Type) where
  root : Ref
  nodes : Nat → Node F D
  cap : Nat
  count : Nat
  free : Ref
  insertions : Nat

/-- `B2_AABB_EXTENSION` (b2_common.rs 30). -/
def aabbExtension {F : Type} [Lit F] : F := lit (1/10)
/-- `B2_AABB_MULTIPLIER` (b2_common.rs 35). -/
def aabbMultiplier {F : Type} [Lit F] : F := lit 4

namespace Tree
variable {F D : Type} [LinearOrder F] [Add F] [Sub F] [Mul F] [Lit F]

/-- The derived `Default` of `B2treeNode` (b2_dynamic_tree.rs 10): all zero, so `child1 = child2 = parent = 0`. -/
def defaultNode : Node F D :=
  { aabb := ⟨⟨lit 0, lit 0⟩, ⟨lit 0, lit 0⟩⟩, userData := none, parent := some 0, child1 := some 0,
    child2 := some 0, height := 0, moved := false }

/-- `b2_dynamic_tree()` (private/collision/b2_dynamic_tree.rs 7-31). -/
def new : Tree F D :=
  { root := none
    cap := 16
    count := 0
    nodes := fun i => { defaultNode with parent := if i < 15 then some (i + 1) else none, height := -1 }
    free := some 0
    insertions := 0 }

/-- `m_nodes[i]` for reading. -/
def get (t : Tree F D) (i : Nat) : Option (Node F D) := if i < t.cap then some (t.nodes i) else none

/-- `m_nodes[r as usize]` where `r` may be -1. -/
def getR (t : Tree F D) (r : Ref) : Option (Node F D) := r.bind t.get

/-- Assignment to (fields of) `m_nodes[i]`. -/
def modify (t : Tree F D) (i : Nat) (f : Node F D → Node F D) : Option (Tree F D) :=
  if i < t.cap then some { t with nodes := upd t.nodes i (f (t.nodes i)) } else none

/-- Lines 36-53 of `allocate_node`: when the free list is empty double the pool and chain the new
nodes (private/collision/b2_dynamic_tree.rs 36-53). -/
def grow (t : Tree F D) : Option (Tree F D) :=
  if t.free.isNone then
    if t.count = t.cap then
      let cap' := t.cap * 2
      if cap' - 1 < cap' then
        some { t with
          cap := cap'
          nodes := fun i =>
            let old := if i < t.cap then t.nodes i else defaultNode
            if t.count ≤ i ∧ i < cap' - 1 then { old with parent := some (i + 1), height := -1 }
            else if i = cap' - 1 then { old with parent := none, height := -1 }
            else old
          free := some t.count }
      else none
    else none
  else some t

/-- Lines 56-65 of `allocate_node`: peel a node off the free list
(private/collision/b2_dynamic_tree.rs 55-65). The node keeps its old `aabb`. -/
def peel (t : Tree F D) : Option (Tree F D × Nat) := do
  let id ← t.free
  let n ← t.get id
  let t ← t.modify id fun m =>
    { m with parent := none, child1 := none, child2 := none, height := 0, userData := none, moved := false }
  return ({ t with free := n.parent, count := t.count + 1 }, id)

/-- `allocate_node` (private/collision/b2_dynamic_tree.rs 34-66). -/
def allocateNode (t : Tree F D) : Option (Tree F D × Nat) := t.grow.bind peel

/-- `free_node` (private/collision/b2_dynamic_tree.rs 69-76). -/
def freeNode (t : Tree F D) (id : Nat) : Option (Tree F D) :=
  if id < t.cap ∧ 0 < t.count then
    some { t with
      nodes := upd t.nodes id { t.nodes id with parent := t.free, height := -1 }
      free := some id
      count := t.count - 1 }
  else none

/-- `m_nodes[p].child1 == old ? child1 = new : child2 = new`: the relinking used by `insert_leaf`
(private/collision/b2_dynamic_tree.rs 254-258) and `remove_leaf` (317-321). -/
def replaceChild (t : Tree F D) (p old new : Nat) : Option (Tree F D) :=
  t.modify p fun n => if n.child1 = some old then { n with child1 := some new } else { n with child2 := some new }

/-- Relinking inside `balance`, which asserts that the second child is the old one
(private/collision/b2_dynamic_tree.rs 392-401 and 447-456). -/
def relinkParent (t : Tree F D) (p : Ref) (old new : Nat) : Option (Tree F D) :=
  match p with
  | none => some { t with root := some new }
  | some p => do
    let n ← t.get p
    if n.child1 = some old then t.modify p fun n => { n with child1 := some new }
    else if n.child2 = some old then t.modify p fun n => { n with child2 := some new }
    else none

/-- "Rotate c up": lines 379-430 of `balance` (private/collision/b2_dynamic_tree.rs). `a`, `b`, `c` are the
clones made before; the assignments to the fields of a clone are collected in one record update each. -/
def rotateCUp (t : Tree F D) (iA iC : Nat) (a b c : Node F D) : Option (Tree F D × Nat) := do
  let iF ← c.child1
  let iG ← c.child2
  let f ← t.get iF
  let g ← t.get iG
  let t ← t.relinkParent a.parent iA iC
  if f.height > g.height then
    let a' := { a with
      parent := some iC, child2 := some iG, aabb := AABB.combine b.aabb g.aabb,
      height := 1 + max b.height g.height }
    let c' := { c with
      child1 := some iA, parent := a.parent, child2 := some iF, aabb := AABB.combine a'.aabb f.aabb,
      height := 1 + max a'.height f.height }
    let g' := { g with parent := some iA }
    return ({ t with nodes := upd (upd (upd (upd t.nodes iA a') iC c') iF f) iG g' }, iC)
  else
    let a' := { a with
      parent := some iC, child2 := some iF, aabb := AABB.combine b.aabb f.aabb,
      height := 1 + max b.height f.height }
    let c' := { c with
      child1 := some iA, parent := a.parent, child2 := some iG, aabb := AABB.combine a'.aabb g.aabb,
      height := 1 + max a'.height g.height }
    let f' := { f with parent := some iA }
    return ({ t with nodes := upd (upd (upd (upd t.nodes iA a') iC c') iF f') iG g }, iC)

/-- "Rotate b up": lines 434-485 of `balance` (private/collision/b2_dynamic_tree.rs). -/
def rotateBUp (t : Tree F D) (iA iB : Nat) (a b c : Node F D) : Option (Tree F D × Nat) := do
  let iD ← b.child1
  let iE ← b.child2
  let d ← t.get iD
  let e ← t.get iE
  let t ← t.relinkParent a.parent iA iB
  if d.height > e.height then
    let a' := { a with
      parent := some iB, child1 := some iE, aabb := AABB.combine c.aabb e.aabb,
      height := 1 + max c.height e.height }
    let b' := { b with
      child1 := some iA, parent := a.parent, child2 := some iD, aabb := AABB.combine a'.aabb d.aabb,
      height := 1 + max a'.height d.height }
    let e' := { e with parent := some iA }
    return ({ t with nodes := upd (upd (upd (upd t.nodes iA a') iB b') iE e') iD d }, iB)
  else
    let a' := { a with
      parent := some iB, child1 := some iD, aabb := AABB.combine c.aabb d.aabb,
      height := 1 + max c.height d.height }
    let b' := { b with
      child1 := some iA, parent := a.parent, child2 := some iE, aabb := AABB.combine a'.aabb e.aabb,
      height := 1 + max a'.height e.height }
    let d' := { d with parent := some iA }
    return ({ t with nodes := upd (upd (upd (upd t.nodes iA a') iB b') iE e) iD d' }, iB)

/-- `balance` (private/collision/b2_dynamic_tree.rs 357-489). Clones of the nodes are changed and written
back at the end, as in the source. -/
def balance (t : Tree F D) (iA : Nat) : Option (Tree F D × Nat) := do
  let a ← t.get iA
  if a.isLeaf ∨ a.height < 2 then return (t, iA)
  let iB ← a.child1
  let iC ← a.child2
  let b ← t.get iB
  let c ← t.get iC
  if c.height - b.height > 1 then t.rotateCUp iA iC a b c
  else if c.height - b.height < -1 then t.rotateBUp iA iB a b c
  else return (t, iA)

/-- The loop walking back up the tree, fixing heights and boxes: lines 275-295 of `insert_leaf`, and 327-345
of `remove_leaf` (private/collision/b2_dynamic_tree.rs). The two differ only in the order of the two
assignments and in explicit assertions that the children are not null, which an index panic implies. -/
def fixUp : Nat → Tree F D → Ref → Option (Tree F D)
  | _, t, none => some t
  | 0, _, some _ => none
  | fuel + 1, t, some index => do
    let (t, index) ← t.balance index
    let n ← t.get index
    let c1 ← t.getR n.child1
    let c2 ← t.getR n.child2
    let t ← t.modify index fun n =>
      { n with height := 1 + max c1.height c2.height, aabb := AABB.combine c1.aabb c2.aabb }
    let n ← t.get index
    fixUp fuel t n.parent

/-- Cost of descending into a child (private/collision/b2_dynamic_tree.rs 198-224). -/
def childCost (leafAabb : AABB F) (c : Node F D) (inheritance : F) : F :=
  let aabb := AABB.combine leafAabb c.aabb
  if c.isLeaf then aabb.perimeter + inheritance
  else (aabb.perimeter - c.aabb.perimeter) + inheritance

/-- The descent looking for the best sibling (private/collision/b2_dynamic_tree.rs 181-237). -/
def findSibling : Nat → Tree F D → AABB F → Nat → Option Nat
  | 0, _, _, _ => none
  | fuel + 1, t, leafAabb, index => do
    let n ← t.get index
    if n.isLeaf then return index
    let area := n.aabb.perimeter
    let combinedArea := (AABB.combine n.aabb leafAabb).perimeter
    let cost := lit 2 * combinedArea
    let inheritance := lit 2 * (combinedArea - area)
    let c1 ← t.getR n.child1
    let cost1 := childCost leafAabb c1 inheritance
    let c2 ← t.getR n.child2
    let cost2 := childCost leafAabb c2 inheritance
    if cost < cost1 ∧ cost < cost2 then return index
    if cost1 < cost2 then
      let i ← n.child1
      findSibling fuel t leafAabb i
    else
      let i ← n.child2
      findSibling fuel t leafAabb i

/-- Creating the new parent, linking it, and fixing the ancestors: lines 239-298 of `insert_leaf`
(private/collision/b2_dynamic_tree.rs), after the node `newParent` has been allocated. -/
def linkLeaf (t : Tree F D) (leaf : Nat) (leafAabb : AABB F) (sibling : Nat) (oldParent : Ref) (newParent : Nat) :
    Option (Tree F D) := do
  let sib ← t.get sibling
  let t ← t.modify newParent fun n =>
    { n with parent := oldParent, userData := none, aabb := AABB.combine leafAabb sib.aabb,
             height := sib.height + 1 }
  let t ← match oldParent with
    | some p => t.replaceChild p sibling newParent
    | none => some t
  let t ← t.modify newParent fun n => { n with child1 := some sibling, child2 := some leaf }
  let t ← t.modify sibling fun n => { n with parent := some newParent }
  let t ← t.modify leaf fun n => { n with parent := some newParent }
  let t := match oldParent with
    | some _ => t
    | none => { t with root := some newParent }
  let n ← t.get leaf
  fixUp (t.cap + 1) t n.parent

/-- `insert_leaf` (private/collision/b2_dynamic_tree.rs 170-298). -/
def insertLeaf (t : Tree F D) (leaf : Nat) : Option (Tree F D) := do
  let t := { t with insertions := t.insertions + 1 }
  match t.root with
  | none =>
    let t := { t with root := some leaf }
    t.modify leaf fun n => { n with parent := none }
  | some root =>
    let leafNode ← t.get leaf
    let sibling ← findSibling (t.cap + 1) t leafNode.aabb root
    let sib ← t.get sibling
    let (t, newParent) ← t.allocateNode
    t.linkLeaf leaf leafNode.aabb sibling sib.parent newParent

/-- `remove_leaf` (private/collision/b2_dynamic_tree.rs 300-353). -/
def removeLeaf (t : Tree F D) (leaf : Nat) : Option (Tree F D) := do
  if t.root = some leaf then return { t with root := none }
  let n ← t.get leaf
  let parent ← n.parent
  let p ← t.get parent
  let grandParent := p.parent
  let sibling ← (if p.child1 = some leaf then p.child2 else p.child1 : Ref)
  match grandParent with
  | some gp =>
    let t ← t.replaceChild gp parent sibling
    let t ← t.modify sibling fun n => { n with parent := some gp }
    let t ← t.freeNode parent
    fixUp (t.cap + 1) t (some gp)
  | none =>
    let t := { t with root := some sibling }
    let t ← t.modify sibling fun n => { n with parent := none }
    t.freeNode parent

/-- The fattened box of a new proxy (private/collision/b2_dynamic_tree.rs 89-91). -/
def fatten (aabb : AABB F) : AABB F :=
  let r : Vec2 F := ⟨aabbExtension, aabbExtension⟩
  ⟨aabb.lo - r, aabb.hi + r⟩

/-- `create_proxy` (private/collision/b2_dynamic_tree.rs 81-99). -/
def createProxy (t : Tree F D) (aabb : AABB F) (d : D) : Option (Tree F D × Nat) := do
  let (t, id) ← t.allocateNode
  let t ← t.modify id fun n =>
    { n with aabb := fatten aabb, userData := some d, height := 0, moved := true }
  let t ← t.insertLeaf id
  return (t, id)

/-- `destroy_proxy` (private/collision/b2_dynamic_tree.rs 101-107). -/
def destroyProxy (t : Tree F D) (id : Nat) : Option (Tree F D) := do
  let n ← t.get id
  if n.isLeaf then
    let t ← t.removeLeaf id
    t.freeNode id
  else none

/-- The predicted box of a moved proxy (private/collision/b2_dynamic_tree.rs 118-138). -/
def fatMoved (aabb : AABB F) (displacement : Vec2 F) : AABB F :=
  let fat := fatten aabb
  let d : Vec2 F := (aabbMultiplier : F) * displacement
  let fat := if d.x < lit 0 then { fat with lo := { fat.lo with x := fat.lo.x + d.x } }
    else { fat with hi := { fat.hi with x := fat.hi.x + d.x } }
  if d.y < lit 0 then { fat with lo := { fat.lo with y := fat.lo.y + d.y } }
    else { fat with hi := { fat.hi with y := fat.hi.y + d.y } }

/-- The "huge" box against which an existing fat box is compared
(private/collision/b2_dynamic_tree.rs 145-148). -/
def hugeOf (fat : AABB F) : AABB F :=
  let r : Vec2 F := ⟨aabbExtension, aabbExtension⟩
  ⟨fat.lo - (lit 4 : F) * r, fat.hi + (lit 4 : F) * r⟩

/-- `move_proxy` (private/collision/b2_dynamic_tree.rs 109-168). -/
def moveProxy (t : Tree F D) (id : Nat) (aabb : AABB F) (displacement : Vec2 F) :
    Option (Tree F D × Bool) := do
  let n ← t.get id
  if n.isLeaf then
    let fat := fatMoved aabb displacement
    let treeAabb := n.aabb
    if treeAabb.contains aabb && (hugeOf fat).contains treeAabb then return (t, false)
    let t ← t.removeLeaf id
    let t ← t.modify id fun n => { n with aabb := fat }
    let t ← t.insertLeaf id
    let t ← t.modify id fun n => { n with moved := true }
    return (t, true)
  else none

/-- `get_user_data` (b2_dynamic_tree.rs 207-213). -/
def getUserData (t : Tree F D) (id : Nat) : Option (Option D) := (t.get id).map (·.userData)
/-- `was_moved` (b2_dynamic_tree.rs 215-221). -/
def wasMoved (t : Tree F D) (id : Nat) : Option Bool := (t.get id).map (·.moved)
/-- `clear_moved` (b2_dynamic_tree.rs 223-229). -/
def clearMoved (t : Tree F D) (id : Nat) : Option (Tree F D) := t.modify id fun n => { n with moved := false }
/-- `get_fat_aabb` (b2_dynamic_tree.rs 231-237). -/
def getFatAabb (t : Tree F D) (id : Nat) : Option (AABB F) := (t.get id).map (·.aabb)

/-- The `while` of `query` (b2_dynamic_tree.rs 247-266), with a callback that has state `S`. -/
def queryLoop {S : Type} (t : Tree F D) (cb : S → Nat → S × Bool) (aabb : AABB F) :
    Nat → GStack.State Ref → S → Option S
  | 0, _, _ => none
  | fuel + 1, stack, s =>
    if GStack.getCount stack > 0 then do
      let (ref, stack) ← GStack.pop 256 stack
      match ref with
      | none => queryLoop t cb aabb fuel stack s
      | some id =>
        let node ← t.get id
        if AABB.overlap node.aabb aabb then
          if node.isLeaf then
            let (s, proceed) := cb s id
            if proceed then queryLoop t cb aabb fuel stack s else return s
          else
            let stack ← GStack.push 256 stack node.child1
            let stack ← GStack.push 256 stack node.child2
            queryLoop t cb aabb fuel stack s
        else queryLoop t cb aabb fuel stack s
    else some s

/-- `query` (b2_dynamic_tree.rs 239-267). -/
def query {S : Type} (t : Tree F D) (cb : S → Nat → S × Bool) (aabb : AABB F) (s : S) : Option S := do
  let stack ← GStack.push 256 (GStack.new none) t.root
  queryLoop t cb aabb (t.cap + 2) stack s

/-- `get_height` (private/collision/b2_dynamic_tree.rs 491-497). -/
def getHeight (t : Tree F D) : Option Int :=
  match t.root with
  | none => some 0
  | some r => (t.get r).map (·.height)

/-- `compute_height_by_node` (private/collision/b2_dynamic_tree.rs 523-537). -/
def computeHeightBy : Nat → Tree F D → Ref → Option Int
  | 0, _, _ => none
  | fuel + 1, t, r => do
    let id ← r
    let n ← t.get id
    if n.isLeaf then return 0
    let h1 ← computeHeightBy fuel t n.child1
    let h2 ← computeHeightBy fuel t n.child2
    return 1 + max h1 h2

/-- `compute_height` (private/collision/b2_dynamic_tree.rs 539-542). -/
def computeHeight (t : Tree F D) : Option Int := computeHeightBy (t.cap + 1) t t.root

/-- `validate_structure` (private/collision/b2_dynamic_tree.rs 544-575); `some ()` = all assertions hold. -/
def validateStructure : Nat → Tree F D → Ref → Option Unit
  | 0, _, _ => none
  | fuel + 1, t, r =>
    match r with
    | none => some ()
    | some index => do
      let n ← t.get index
      if t.root = some index ∧ n.parent ≠ none then none
      else if n.isLeaf then
        if n.child1 = none ∧ n.child2 = none ∧ n.height = 0 then some () else none
      else do
        let c1 ← t.getR n.child1
        let c2 ← t.getR n.child2
        if c1.parent = some index ∧ c2.parent = some index then
          validateStructure fuel t n.child1
          validateStructure fuel t n.child2
        else none

/-- `validate_metrics` (private/collision/b2_dynamic_tree.rs 577-614). -/
def validateMetrics : Nat → Tree F D → Ref → Option Unit
  | 0, _, _ => none
  | fuel + 1, t, r =>
    match r with
    | none => some ()
    | some index => do
      let n ← t.get index
      if n.isLeaf then
        if n.child1 = none ∧ n.child2 = none ∧ n.height = 0 then some () else none
      else do
        let c1 ← t.getR n.child1
        let c2 ← t.getR n.child2
        if n.height = 1 + max c1.height c2.height ∧ n.aabb = AABB.combine c1.aabb c2.aabb then
          validateMetrics fuel t n.child1
          validateMetrics fuel t n.child2
        else none

/-- The free list walk of `validate` (private/collision/b2_dynamic_tree.rs 622-628): number of free nodes. -/
def freeCount : Nat → Tree F D → Ref → Option Nat
  | _, _, none => some 0
  | 0, _, some _ => none
  | fuel + 1, t, some i => do
    let n ← t.get i
    let k ← freeCount fuel t n.parent
    return k + 1

/-- `validate` in a debug build (private/collision/b2_dynamic_tree.rs 616-634). -/
def validate (t : Tree F D) : Option Unit := do
  validateStructure (t.cap + 1) t t.root
  validateMetrics (t.cap + 1) t t.root
  let fc ← freeCount (t.cap + 1) t t.free
  let h ← t.getHeight
  let h' ← t.computeHeight
  if h = h' ∧ t.count + fc = t.cap then some () else none

/-- `B2_MAX_FLOAT = f32::MAX` (b2_common.rs 17). -/
def maxFloat {F : Type} [Lit F] : F := lit ((2 ^ 24 - 1) * 2 ^ 104)

/-- One turn of the first loop of `rebuild_bottom_up` (private/collision/b2_dynamic_tree.rs 662-675). The
array `nodes`, of fixed size `size`, is modelled by the list of its entries written so far. -/
def collectStep (size : Nat) (s : Tree F D × List Nat) (i : Nat) : Option (Tree F D × List Nat) := do
  let n ← s.1.get i
  if n.height < 0 then return s
  else if n.isLeaf then
    let t ← s.1.modify i fun n => { n with parent := none }
    if s.2.length < size then return (t, s.2 ++ [i]) else none
  else
    let t ← s.1.freeNode i
    return (t, s.2)

/-- The pairs `i < j < n` in the order of the nested loops (private/collision/b2_dynamic_tree.rs 681-684). -/
def pairs (n : Nat) : List (Nat × Nat) :=
  (List.range n).flatMap fun i => (List.range' (i + 1) (n - (i + 1))).map fun j => (i, j)

/-- Body of the nested loops (private/collision/b2_dynamic_tree.rs 682-694). -/
def pairStep (t : Tree F D) (nodes : List Nat) (s : F × Option (Nat × Nat)) (ij : Nat × Nat) :
    Option (F × Option (Nat × Nat)) := do
  let a ← t.getR nodes[ij.1]?
  let b ← t.getR nodes[ij.2]?
  let cost := (AABB.combine a.aabb b.aabb).perimeter
  return if cost < s.1 then (cost, some ij) else s

/-- One turn of the `while count > 1` of `rebuild_bottom_up`
(private/collision/b2_dynamic_tree.rs 677-717). `count` is the length of the list. -/
def mergeStep (t : Tree F D) (nodes : List Nat) : Option (Tree F D × List Nat) := do
  let best ← (pairs nodes.length).foldlM (pairStep t nodes) (maxFloat, none)
  let ij ← best.2
  let index1 ← nodes[ij.1]?
  let index2 ← nodes[ij.2]?
  let child1 ← t.get index1
  let child2 ← t.get index2
  let (t, p) ← t.allocateNode
  let t ← t.modify p fun n =>
    { n with child1 := some index1, child2 := some index2, height := 1 + max child1.height child2.height,
             aabb := AABB.combine child1.aabb child2.aabb, parent := none }
  let t ← t.modify index1 fun _ => { child1 with parent := some p }
  let t ← t.modify index2 fun _ => { child2 with parent := some p }
  let last ← nodes.getLast?
  return (t, ((nodes.set ij.2 last).set ij.1 p).dropLast)

/-- The `while count > 1` loop (private/collision/b2_dynamic_tree.rs 677-717). -/
def mergeLoop : Nat → Tree F D → List Nat → Option (Tree F D × List Nat)
  | 0, t, nodes => if nodes.length > 1 then none else some (t, nodes)
  | fuel + 1, t, nodes =>
    if nodes.length > 1 then do
      let (t, nodes) ← t.mergeStep nodes
      mergeLoop fuel t nodes
    else some (t, nodes)

/-- `rebuild_bottom_up` (private/collision/b2_dynamic_tree.rs 656-724). -/
def rebuildBottomUp (t : Tree F D) : Option (Tree F D) := do
  let (t, nodes) ← (List.range t.cap).foldlM (collectStep t.count) (t, [])
  let (t, nodes) ← mergeLoop nodes.length t nodes
  let root ← nodes[0]?
  let t := { t with root := some root }
  t.validate
  return t

/-- `shift_origin` (private/collision/b2_dynamic_tree.rs 726-735): every node of the pool. -/
def shiftOrigin (t : Tree F D) (newOrigin : Vec2 F) : Tree F D :=
  { t with nodes := fun i =>
      if i < t.cap then
        { t.nodes i with aabb := ⟨(t.nodes i).aabb.lo - newOrigin, (t.nodes i).aabb.hi - newOrigin⟩ }
      else t.nodes i }

end Tree
end B2
