import Verif.Model.BodyGet

/-! # Specification: momentum and energy of one body, in terms of what the body tells about itself -/
namespace B2.Spec
variable {F : Type} [Field F]

/-- The momentum of a body. -/
def momentumIn (p : Phys F) : Vec2 F := ⟨p.mass * p.v.x, p.mass * p.v.y⟩

/-- The angular momentum of a body about the point `o`: that of its center of mass, and that of its spin. -/
def angularIn (p : Phys F) (o : Vec2 F) : F :=
  p.mass * ((p.sweep.c.x - o.x) * p.v.y - (p.sweep.c.y - o.y) * p.v.x) + p.i * p.w

/-- Twice the kinetic energy of a body. -/
def energyIn (p : Phys F) : F := p.mass * (p.v.x ^ 2 + p.v.y ^ 2) + p.i * p.w ^ 2

/-- All is the same but, perhaps, the place at which the body was when the last step began. -/
def SameButStart (p p' : Phys F) : Prop := p' = { p with sweep := { p.sweep with c0 := p'.sweep.c0 } }

end B2.Spec
