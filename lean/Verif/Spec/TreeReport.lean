import Verif.Spec.Tree

/-! Nodes of a tree and the unevenness of a node. -/
namespace B2.Spec
variable {F D : Type} [LinearOrder F]

/-- Node `i` is in the tree below node `r`: it is `r`, or it is below one of the children. -/
inductive InTree (t : Tree F D) : Nat → Nat → Prop
  | here {r} : InTree t r r
  | left {r n a i} : t.get r = some n → n.child1 = some a → InTree t a i → InTree t r i
  | right {r n b i} : t.get r = some n → n.child2 = some b → InTree t b i → InTree t r i

/-- The subtrees of the inner node `i` differ by `k` in depth. -/
def Uneven (t : Tree F D) (i : Nat) (k : Int) : Prop :=
  ∃ n a b da db la lb, t.get i = some n ∧ n.child1 = some a ∧ n.child2 = some b ∧
    WellFormed t a (some i) da la ∧ WellFormed t b (some i) db lb ∧ k = |(da : Int) - db|

end B2.Spec
