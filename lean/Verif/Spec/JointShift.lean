import Verif.Model.JointDef
import Verif.Spec.Joint

/-!
# Moving the origin
-/
namespace B2

section
variable {F : Type} [Field F]

/-- A position seen from the new origin `o`. -/
def Pos.seenFrom (o : Vec2 F) (p : Pos F) : Pos F := ⟨p.c - o, p.a⟩
/-- All positions seen from the new origin `o`. -/
def seenFrom (o : Vec2 F) (pos : Arr (Pos F)) : Arr (Pos F) := ⟨pos.len, fun i => (pos.at' i).seenFrom o⟩

end
end B2
