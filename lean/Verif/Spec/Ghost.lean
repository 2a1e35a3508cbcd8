import Verif.Model.Collide
import Verif.Model.ContactSolver
import Verif.Spec.Collide

/-! # Specification: chains that run straight, and corners -/
namespace B2.Spec
section
variable {F : Type} [Field F] [LinearOrder F] [IsStrictOrderedRing F]

/-- From `p` to `q` it is at least `EPSILON`, in direction `d`. -/
def Onward (d p q : Vec2 F) : Prop := ∃ t : F, epsilon ≤ t ∧ q = p + t * d

/-- The edge and the two ghost edges beside it lie on one line, in direction `d`, and the edge collides on its right side only. -/
structure Flat (e : Edge F) (d : Vec2 F) : Prop where
  oneSided : e.oneSided = true
  unit : dot d d = 1
  before : Onward d e.v0 e.v1
  along : Onward d e.v1 e.v2
  after : Onward d e.v2 e.v3

/-- The chain, with its ghost vertices, is a straight line in direction `d`. -/
structure StraightChain (c : Chain F) (d : Vec2 F) : Prop where
  unit : dot d d = 1
  line : List.IsChain (Onward d) (c.prev :: c.vertices ++ [c.next])

/-- The edge runs in direction `d1` after a ghost edge in direction `d0` and before one in direction `d2`; it collides on its right side only. -/
structure Bent (e : Edge F) (d0 d1 d2 : Vec2 F) : Prop where
  oneSided : e.oneSided = true
  unit : dot d0 d0 = 1 ∧ dot d1 d1 = 1 ∧ dot d2 d2 = 1
  before : Onward d0 e.v0 e.v1
  along : Onward d1 e.v1 e.v2
  after : Onward d2 e.v2 e.v3

/-- The direction across an edge that runs in direction `d`, to its right: the side a chain collides on. -/
def rightOf (d : Vec2 F) : Vec2 F := ⟨d.y, -d.x⟩

end
end B2.Spec
