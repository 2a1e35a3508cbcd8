import Verif.Model.Base

/-!
# Intrusive linked lists

Models `src/b2rs_linked_list.rs` and `src/b2rs_double_linked_list.rs`.
Nodes are ids; the heap is the pair of maps `next`, `prev`. `Rc`/`Weak` ownership is not modelled.
`none` as a result of an operation is a panic (or a loop that never ends).
-/
namespace B2

/-! ## Singly linked list -/
namespace SList

/-- `LinkedList` (b2rs_linked_list.rs 16-18) together with the heap its nodes live in.
`size` is a ghost bound on the ids of nodes ever linked; it is only used as loop fuel. -/
structure State where
  head : Option Nat
  next : Nat → Option Nat
  size : Nat

/-- `Default` (b2rs_linked_list.rs 20-24). -/
def init : State := { head := none, next := fun _ => none, size := 0 }

/-- `push_front` (b2rs_linked_list.rs 100-103). -/
def pushFront (s : State) (n : Nat) : State :=
  { head := some n, next := upd s.next n s.head, size := max s.size (n + 1) }

/-- The `loop` of `remove` (b2rs_linked_list.rs 72-91) starting at `node`; the result is the new
`next` map, `none` when the end is reached without finding the target (`assert!(found)`, line 97)
or when the fuel runs out. -/
def removeLoop (next : Nat → Option Nat) (target : Nat) : Nat → Nat → Option (Nat → Option Nat)
  | 0, _ => none
  | fuel + 1, node =>
    match next node with
    | some nx => if nx = target then some (upd next node (next target)) else removeLoop next target fuel nx
    | none => none

/-- `remove` (b2rs_linked_list.rs 63-98). -/
def remove (s : State) (n : Nat) : Option State :=
  match s.head with
  | none => none
  | some h =>
    if h = n then some { s with head := s.next h }
    else (removeLoop s.next n s.size h).map fun nx => { s with next := nx }

/-- The `while` of `remove_all` (b2rs_linked_list.rs 57-60): take the `next` of each node in turn. -/
def removeAllLoop : Nat → (Nat → Option Nat) → Option Nat → Option (Nat → Option Nat)
  | _, next, none => some next
  | 0, _, some _ => none
  | fuel + 1, next, some n => removeAllLoop fuel (upd next n none) (next n)

/-- `remove_all` (b2rs_linked_list.rs 56-61). -/
def removeAll (s : State) : Option State :=
  (removeAllLoop s.size s.next s.head).map fun nx => { s with head := none, next := nx }

/-- `clear` (b2rs_linked_list.rs 112-114): only the head is dropped. -/
def clear (s : State) : State := { s with head := none }

/-- Everything an `Iter` started at `it` yields (b2rs_linked_list.rs 115-120, 129-140). -/
def iterFrom (next : Nat → Option Nat) : Nat → Option Nat → Option (List Nat)
  | _, none => some []
  | 0, some _ => none
  | fuel + 1, some n => (iterFrom next fuel (next n)).map (n :: ·)

/-- `list.iter().collect()`. -/
def toList (s : State) : Option (List Nat) := iterFrom s.next s.size s.head

end SList

/-! ## Doubly linked list -/
namespace DList

/-- `DoubleLinkedList` (b2rs_double_linked_list.rs 19-21) with its heap; `size` as in `SList.State`. -/
structure State where
  head : Option Nat
  next : Nat → Option Nat
  prev : Nat → Option Nat
  size : Nat

/-- `Default` (b2rs_double_linked_list.rs 39-43). -/
def init : State := { head := none, next := fun _ => none, prev := fun _ => none, size := 0 }

/-- `push_front`: the old head's `prev` becomes the node, the node's `prev` is cleared and its `next`
is the old head (b2rs_double_linked_list.rs 200-219). -/
def pushFront (s : State) (n : Nat) : State :=
  let prev := match s.head with
    | some h => upd s.prev h (some n)
    | none => s.prev
  { head := some n, next := upd s.next n s.head, prev := upd prev n none, size := max s.size (n + 1) }

/-- `remove` (b2rs_double_linked_list.rs 82-123): uses the node's own links, no membership test; the only
assertion is that the list is not empty (line 116). The removed node keeps its links. -/
def remove (s : State) (n : Nat) : Option State :=
  let prev := s.prev n
  let next := s.next n
  let nextMap := match prev with
    | some p => upd s.next p next
    | none => s.next
  let prevMap := match next with
    | some x => upd s.prev x prev
    | none => s.prev
  match s.head with
  | none => none
  | some h =>
    if h = n then some { s with head := nextMap h, next := nextMap, prev := prevMap }
    else some { s with next := nextMap, prev := prevMap }

/-- `remove_all` (b2rs_double_linked_list.rs 76-81): the `next` links are taken, the `prev` links stay. -/
def removeAll (s : State) : Option State :=
  (SList.removeAllLoop s.size s.next s.head).map fun nx => { s with head := none, next := nx }

/-- `clear` (b2rs_double_linked_list.rs 221-223): only the head is dropped. -/
def clear (s : State) : State := { s with head := none }

/-- `list.iter().collect()` (b2rs_double_linked_list.rs 224-248). -/
def toList (s : State) : Option (List Nat) := SList.iterFrom s.next s.size s.head

/-- `for x in list.iter() { if rem x { list.remove(x) } }` - the iterator fetches the successor before
the element is handed out (`Iter::next`, b2rs_double_linked_list.rs 243-248), as in the contact loops of `set_type`
(private/dynamics/b2_body.rs) and `destroy_body` (private/dynamics/b2_world.rs 122-128).
Returns the visited elements and the final state. -/
def iterRemove (rem : Nat → Bool) : Nat → State → Option Nat → Option (List Nat × State)
  | _, s, none => some ([], s)
  | 0, _, some _ => none
  | fuel + 1, s, some n =>
    let it := s.next n
    if rem n then
      match remove s n with
      | none => none
      | some s' => (iterRemove rem fuel s' it).map fun r => (n :: r.1, r.2)
    else (iterRemove rem fuel s it).map fun r => (n :: r.1, r.2)

end DList
end B2
