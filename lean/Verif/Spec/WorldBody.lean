import Verif.Model.World

/-! What the numbers of a body have to do with one another. -/
namespace B2.Spec
set_option linter.unusedSectionVars false

variable {F : Type} [Field F] [LinearOrder F] [Elem F]

/-- A number and its inverse as the solver uses them: either the number counts as infinite (inverse zero), or it is positive and
the other is its inverse. -/
def Inverses (m inv : F) : Prop := inv = 0 ∨ (0 < m ∧ inv * m = 1)

/-- The numbers of a body agree. -/
structure Consistent (t : BodyType) (p : Phys F) : Prop where
  /-- The rotation is that of the angle. -/
  rotation : p.xf.q = Rot.ofAngle p.sweep.a
  /-- The world center is where the transform takes the local center. -/
  center : p.sweep.c = p.xf.mulV p.sweep.localCenter
  /-- The inverse mass is that of the mass. -/
  mass : Inverses p.mass p.invMass
  /-- The inverse inertia is that of the inertia. -/
  inertia : Inverses p.i p.invI
  /-- A body of fixed rotation has no rotational response. -/
  fixed : p.fixedRotation = true → p.invI = 0
  /-- Static and kinematic bodies have no mass and respond to nothing. -/
  heavy : t ≠ .dynamic → p.mass = 0 ∧ p.invMass = 0 ∧ p.i = 0 ∧ p.invI = 0

end B2.Spec
