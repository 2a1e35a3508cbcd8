import Verif.Model.Engine
import Verif.Spec.World
import Verif.Spec.WorldMotion
import Verif.Spec.Joint

/-! # What is asked of the joints of a world -/
namespace B2.Spec
section
variable {F : Type} [Field F] [LinearOrder F] [IsStrictOrderedRing F] [Elem F]

/-- Every joint works on the bodies it was created with. This leaves out a gear joint whose two joints have other ground bodies. -/
def Seated (E : Engine F) : Prop := ∀ (w : World F) j, ∀ b ∈ (E.joint w j).touched, b = (w.g.joints j).a ∨ b = (w.g.joints j).b

/-- Mouse joints hold bodies that have mass. -/
def MouseHasMass (E : Engine F) : Prop :=
  ∀ (w : World F) j m, E.joint w j = .mouse m → (w.phys m.bodyB).invMass ≠ 0 ∨ (w.phys m.bodyB).invI ≠ 0

/-- Steps one after the other, each with its own time and numbers of iterations; `none` if one of them panics. -/
def steps (E : Engine F) (w : World F) (l : List (F × Nat × Nat)) : Option (World F) :=
  l.foldlM (fun w s => w.step E.env s.1 s.2.1 s.2.2) w

end
end B2.Spec
