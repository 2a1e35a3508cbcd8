/-!
# Shared basics of the model

Stores are functions from ids to node contents; `upd` is the single-cell write.
-/
namespace B2

/-- Write one cell of a store (models every `node.field = value` / `RefCell` write in the crate). -/
def upd {α : Type u} (f : Nat → α) (i : Nat) (v : α) : Nat → α := fun j => if j = i then v else f j

@[simp] theorem upd_same {α : Type u} (f : Nat → α) (i : Nat) (v : α) : upd f i v i = v := by
  simp [upd]

theorem upd_other {α : Type u} (f : Nat → α) {i j : Nat} (v : α) (h : j ≠ i) : upd f i v j = f j := by
  simp [upd, h]

end B2
