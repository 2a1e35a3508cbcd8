import Verif.Model.DynamicTree

/-!
# Broad-phase

Models `src/b2_broad_phase.rs` and `src/private/collision/b2_broad_phase.rs`. `E_NULL_PROXY = -1` is `none`.
-/
namespace B2

/-- A growable array with a fill count: `m_move_buffer`/`m_move_capacity`/`m_move_count` and the three fields of
`B2broadPhasePairs` (b2_broad_phase.rs 26-39). The `Vec` always has length `cap`. -/
structure Buf (α : Type) where
  data : Nat → α
  cap : Nat
  count : Nat

namespace Buf
variable {α : Type}

/-- `buffer[i]` for reading. -/
def get (b : Buf α) (i : Nat) : Option α := if i < b.cap then some (b.data i) else none
/-- `buffer[i] = x`. -/
def set (b : Buf α) (i : Nat) (x : α) : Option (Buf α) :=
  if i < b.cap then some { b with data := upd b.data i x } else none
/-- Grow to `newCap` when full (`resize_with`, new entries `dflt`), write at `count`, increment `count`: the body of
`buffer_move` (private/collision/b2_broad_phase.rs 68-77) and the end of `query_callback` (101-109). -/
def push (b : Buf α) (dflt : α) (newCap : Nat) (x : α) : Option (Buf α) := do
  let b := if b.count = b.cap then
      { b with cap := newCap, data := fun i => if i < b.cap then b.data i else dflt } else b
  let b ← b.set b.count x
  return { b with count := b.count + 1 }

end Buf

/-- `B2broadPhase` (b2_broad_phase.rs 21-31). -/
structure BroadPhase (F D : Type) where
  tree : Tree F D
  proxyCount : Int
  moves : Buf Ref
  pairs : Buf (Nat × Nat)

namespace BroadPhase
variable {F D : Type} [LinearOrder F] [Add F] [Sub F] [Mul F] [Lit F]

/-- `b2_broad_phase()` (private/collision/b2_broad_phase.rs 6-31). -/
def new : BroadPhase F D :=
  { tree := Tree.new, proxyCount := 0
    moves := ⟨fun _ => some 0, 16, 0⟩
    pairs := ⟨fun _ => (0, 0), 16, 0⟩ }

/-- `buffer_move` (private/collision/b2_broad_phase.rs 68-77). -/
def bufferMove (bp : BroadPhase F D) (id : Nat) : Option (BroadPhase F D) := do
  let moves ← bp.moves.push (some 0) (bp.moves.cap * 2) (some id)
  return { bp with moves := moves }

/-- `un_buffer_move` (private/collision/b2_broad_phase.rs 79-85). -/
def unBufferMove (bp : BroadPhase F D) (id : Nat) : Option (BroadPhase F D) := do
  let moves ← (List.range bp.moves.count).foldlM (fun m i => do
    let x ← m.get i
    if x = some id then m.set i none else some m) bp.moves
  return { bp with moves := moves }

/-- `create_proxy` (private/collision/b2_broad_phase.rs 33-42). -/
def createProxy (bp : BroadPhase F D) (aabb : AABB F) (d : D) : Option (BroadPhase F D × Nat) := do
  let (tree, id) ← bp.tree.createProxy aabb d
  let bp := { bp with tree := tree, proxyCount := bp.proxyCount + 1 }
  let bp ← bp.bufferMove id
  return (bp, id)

/-- `destroy_proxy` (private/collision/b2_broad_phase.rs 44-48). -/
def destroyProxy (bp : BroadPhase F D) (id : Nat) : Option (BroadPhase F D) := do
  let bp ← bp.unBufferMove id
  let bp := { bp with proxyCount := bp.proxyCount - 1 }
  let tree ← bp.tree.destroyProxy id
  return { bp with tree := tree }

/-- `move_proxy` (private/collision/b2_broad_phase.rs 50-60). -/
def moveProxy (bp : BroadPhase F D) (id : Nat) (aabb : AABB F) (displacement : Vec2 F) : Option (BroadPhase F D) := do
  let (tree, buffer) ← bp.tree.moveProxy id aabb displacement
  let bp := { bp with tree := tree }
  if buffer then bp.bufferMove id else some bp

/-- `touch_proxy` (private/collision/b2_broad_phase.rs 62-64). -/
def touchProxy (bp : BroadPhase F D) (id : Nat) : Option (BroadPhase F D) := bp.bufferMove id

/-- `query_callback` (private/collision/b2_broad_phase.rs 88-112); it always returns true. -/
def queryCallback (pairs : Buf (Nat × Nat)) (queryId proxyId : Nat) (moved : Bool) : Option (Buf (Nat × Nat)) :=
  if proxyId = queryId then some pairs
  else if moved ∧ proxyId > queryId then some pairs
  else pairs.push (0, 0) (pairs.cap + pairs.cap / 2) (min proxyId queryId, max proxyId queryId)

/-- The first loop of `update_pairs`: tree queries for all buffered proxies (b2_broad_phase.rs 205-224). The
closure passed to the tree query looks up the moved flag of the proxy found. -/
def gatherPairs (tree : Tree F D) (moves : Buf Ref) (pairs : Buf (Nat × Nat)) : Option (Buf (Nat × Nat)) :=
  (List.range moves.count).foldlM (fun pairs i => do
    let q ← moves.get i
    match q with
    | none => some pairs
    | some q =>
      let fat ← tree.getFatAabb q
      let r ← tree.query (fun s id => (s.bind fun pairs => do
        let moved ← tree.wasMoved id
        queryCallback pairs q id moved, true)) fat (some pairs)
      r) pairs

/-- The second loop: the pairs are sent to the caller (b2_broad_phase.rs 227-233). -/
def sendPairs {C : Type} (tree : Tree F D) (pairs : Buf (Nat × Nat)) (addPair : C → Option D → Option D → C) (c : C) : Option C :=
  (List.range pairs.count).foldlM (fun c i => do
    let p ← pairs.get i
    let a ← tree.getUserData p.1
    let b ← tree.getUserData p.2
    return addPair c a b) c

/-- The third loop: moved flags are cleared (b2_broad_phase.rs 236-243). -/
def clearFlags (tree : Tree F D) (moves : Buf Ref) : Option (Tree F D) :=
  (List.range moves.count).foldlM (fun t i => do
    let q ← moves.get i
    match q with
    | none => some t
    | some q => t.clearMoved q) tree

/-- `update_pairs` (b2_broad_phase.rs 198-247); `addPair` is the callback with its state `C`. -/
def updatePairs {C : Type} (bp : BroadPhase F D) (addPair : C → Option D → Option D → C) (c : C) :
    Option (BroadPhase F D × C) := do
  let pairs ← gatherPairs bp.tree bp.moves { bp.pairs with count := 0 }
  let c ← sendPairs bp.tree pairs addPair c
  let tree ← clearFlags bp.tree bp.moves
  return ({ bp with tree := tree, pairs := pairs, moves := { bp.moves with count := 0 } }, c)

/-- `test_overlap` (b2_broad_phase.rs 166-174). -/
def testOverlap (bp : BroadPhase F D) (a b : Nat) : Option Bool := do
  let x ← bp.tree.getFatAabb a
  let y ← bp.tree.getFatAabb b
  return AABB.overlap x y

/-- `get_proxy_count` (b2_broad_phase.rs 180-182). -/
def getProxyCount (bp : BroadPhase F D) : Int := bp.proxyCount

/-- `shift_origin` (b2_broad_phase.rs 265-270). -/
def shiftOrigin (bp : BroadPhase F D) (o : Vec2 F) : BroadPhase F D := { bp with tree := bp.tree.shiftOrigin o }

/-- `get_tree_mut().rebuild_bottom_up()` (b2_broad_phase.rs 136-138). -/
def rebuild (bp : BroadPhase F D) : Option (BroadPhase F D) := do
  let t ← bp.tree.rebuildBottomUp
  return { bp with tree := t }

end BroadPhase
end B2
