import Verif.Model.Body

/-!
# What body functions should do
-/
namespace B2.Spec
variable {F : Type} [Field F] [LinearOrder F] [Elem F]

/-- A fixture's contribution to the mass of its body: nothing when the density is zero. -/
def fixtureMass (x : F × Shape F) : Option (MassData F) :=
  if x.1 = 0 then some ⟨0, ⟨0, 0⟩, 0⟩ else x.2.computeMass x.1

/-- Total mass, first moment and second moment (about the body origin) of a list of parts. -/
def totalMass (ms : List (MassData F)) : F := (ms.map (·.mass)).sum
def momentX (ms : List (MassData F)) : F := (ms.map fun m => m.mass * m.center.x).sum
def momentY (ms : List (MassData F)) : F := (ms.map fun m => m.mass * m.center.y).sum
def inertia (ms : List (MassData F)) : F := (ms.map (·.i)).sum

/-- The body, woken if it slept. -/
def woken (p : Phys F) : Phys F := if p.awake then p else { p with awake := true, sleepTime := 0 }

/-- What each `apply_*` call adds to an awake dynamic body; other calls are not described here. -/
def amount (p : Phys F) : BodyOp F → Phys F
  | .applyForce f x _ => { p with
      force := ⟨p.force.x + f.x, p.force.y + f.y⟩
      torque := p.torque + ((x.x - p.sweep.c.x) * f.y - (x.y - p.sweep.c.y) * f.x) }
  | .applyForceToCenter f _ => { p with force := ⟨p.force.x + f.x, p.force.y + f.y⟩ }
  | .applyTorque t _ => { p with torque := p.torque + t }
  | .applyLinearImpulse j x _ => { p with
      v := ⟨p.v.x + p.invMass * j.x, p.v.y + p.invMass * j.y⟩
      w := p.w + p.invI * ((x.x - p.sweep.c.x) * j.y - (x.y - p.sweep.c.y) * j.x) }
  | .applyLinearImpulseToCenter j _ => { p with v := ⟨p.v.x + p.invMass * j.x, p.v.y + p.invMass * j.y⟩ }
  | .applyAngularImpulse j _ => { p with w := p.w + p.invI * j }
  | _ => p

/-- The wake argument of an `apply_*` call; `none` for other calls. -/
def wakeArg : BodyOp F → Option Bool
  | .applyForce _ _ k | .applyForceToCenter _ k | .applyTorque _ k | .applyLinearImpulse _ _ k
  | .applyLinearImpulseToCenter _ k | .applyAngularImpulse _ k => some k
  | _ => none

end B2.Spec
