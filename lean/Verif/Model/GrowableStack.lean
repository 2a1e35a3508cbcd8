import Verif.Model.Base

/-!
# Growable stack

Models `src/b2_growable_stack.rs`.
-/
namespace B2.GStack

/-- `B2growableStack<T, N>` (b2_growable_stack.rs 12-28): an inline array of `N` slots with a count, or a
heap vector. The array is a map from indices to values; only indices below `N` may be used. -/
inductive State (T : Type) where
  | stack (array : Nat → T) (count : Nat)
  | dynVec (v : List T)

variable {T : Type}

/-- `new` (b2_growable_stack.rs 30-37): `d` is `T::default()`. -/
def new (d : T) : State T := .stack (fun _ => d) 0

/-- `push` (b2_growable_stack.rs 39-57) for inline capacity `N`: when the array is full, *all* `N` slots
are copied to a vector and the element appended. The write `m_array[m_count]` needs `m_count < N`. -/
def push (N : Nat) (s : State T) (x : T) : Option (State T) :=
  match s with
  | .stack array count =>
    if count ≥ N then some (.dynVec ((List.range N).map array ++ [x]))
    else if count < N then some (.stack (upd array count x) (count + 1)) else none
  | .dynVec v => some (.dynVec (v ++ [x]))

/-- `pop` (b2_growable_stack.rs 59-72): asserts the stack is not empty. -/
def pop (N : Nat) (s : State T) : Option (T × State T) :=
  match s with
  | .stack array count =>
    if count > 0 then
      if count - 1 < N then some (array (count - 1), .stack array (count - 1)) else none
    else none
  | .dynVec v => v.getLast?.map fun x => (x, .dynVec v.dropLast)

/-- `get_count` (b2_growable_stack.rs 74-84). -/
def getCount (s : State T) : Nat :=
  match s with
  | .stack _ count => count
  | .dynVec v => v.length

end B2.GStack
