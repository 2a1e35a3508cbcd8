import Verif.Model.Shapes

/-!
# Bodies: numeric state and the functions that touch nothing else

Models the numeric part of `src/b2_body.rs` and `src/private/dynamics/b2_body.rs`: velocities, forces, flags and
mass data of one body. Exact arithmetic. The lists of a body (fixtures, joints, contacts), its type and its
enabled flag are in Model/World.lean.
-/
namespace B2

/-- `B2bodyType` (b2_body.rs 25-31). -/
inductive BodyType | static | kinematic | dynamic
deriving DecidableEq

/-- The numeric fields and flags of `B2body` (b2_body.rs 152-199): all but the type, the enabled flag, the
lists and the user data. -/
structure Phys (F : Type) where
  awake : Bool
  island : Bool
  autoSleep : Bool
  bullet : Bool
  fixedRotation : Bool
  islandIndex : Int
  xf : Xf F
  sweep : Sweep F
  v : Vec2 F
  w : F
  force : Vec2 F
  torque : F
  mass : F
  invMass : F
  i : F
  invI : F
  linearDamping : F
  angularDamping : F
  gravityScale : F
  sleepTime : F

/-- `B2bodyDef` (b2_body.rs 91-147) without user data. -/
structure BodyDef (F : Type) where
  type : BodyType
  position : Vec2 F
  angle : F
  linearVelocity : Vec2 F
  angularVelocity : F
  linearDamping : F
  angularDamping : F
  allowSleep : Bool
  awake : Bool
  fixedRotation : Bool
  bullet : Bool
  enabled : Bool
  gravityScale : F

section
variable {F : Type} [Field F] [LinearOrder F] [Elem F]

/-- The numeric part of the constructor `b2_body` (private/dynamics/b2_body.rs 15-89). The finiteness assertions are
vacuous in exact arithmetic; the damping assertions remain. -/
def Phys.new (d : BodyDef F) : Option (Phys F) :=
  if d.angularDamping ≥ 0 ∧ d.linearDamping ≥ 0 then
    some
      { awake := d.awake && decide (d.type ≠ .static)
        island := false, autoSleep := d.allowSleep, bullet := d.bullet, fixedRotation := d.fixedRotation
        islandIndex := -1
        xf := ⟨d.position, Rot.ofAngle d.angle⟩
        sweep := ⟨⟨0, 0⟩, d.position, d.position, d.angle, d.angle, 0⟩
        v := d.linearVelocity, w := d.angularVelocity
        force := ⟨0, 0⟩, torque := 0, mass := 0, invMass := 0, i := 0, invI := 0
        linearDamping := d.linearDamping, angularDamping := d.angularDamping
        gravityScale := d.gravityScale, sleepTime := 0 }
  else none

/-- `set_awake` (b2_body.rs 783-801). -/
def Phys.setAwake (t : BodyType) (p : Phys F) (flag : Bool) : Phys F :=
  if t = .static then p
  else if flag then { p with awake := true, sleepTime := 0 }
  else { p with awake := false, sleepTime := 0, v := ⟨0, 0⟩, w := 0, force := ⟨0, 0⟩, torque := 0 }

/-- `set_linear_velocity` (b2_body.rs 672-682). -/
def Phys.setLinearVelocity (t : BodyType) (p : Phys F) (v : Vec2 F) : Phys F :=
  if t = .static then p
  else
    let p := if dot v v > 0 then p.setAwake t true else p
    { p with v := v }

/-- `set_angular_velocity` (b2_body.rs 688-698). -/
def Phys.setAngularVelocity (t : BodyType) (p : Phys F) (w : F) : Phys F :=
  if t = .static then p
  else
    let p := if w * w > 0 then p.setAwake t true else p
    { p with w := w }

/-- The common prefix of the `apply_*` functions (b2_body.rs 869-971): the body, woken if requested, and whether
the amount is to be added (dynamic and awake). -/
def Phys.applyGate (t : BodyType) (p : Phys F) (wake : Bool) : Phys F × Bool :=
  if t ≠ .dynamic then (p, false)
  else
    let p := if wake && !p.awake then p.setAwake t true else p
    (p, p.awake)

/-- `apply_force` (b2_body.rs 869-888). -/
def Phys.applyForce (t : BodyType) (p : Phys F) (force point : Vec2 F) (wake : Bool) : Phys F :=
  let r := p.applyGate t wake
  if r.2 then { r.1 with force := r.1.force + force, torque := r.1.torque + cross (point - r.1.sweep.c) force } else r.1

/-- `apply_force_to_center` (b2_body.rs 890-903). -/
def Phys.applyForceToCenter (t : BodyType) (p : Phys F) (force : Vec2 F) (wake : Bool) : Phys F :=
  let r := p.applyGate t wake
  if r.2 then { r.1 with force := r.1.force + force } else r.1

/-- `apply_torque` (b2_body.rs 905-918). -/
def Phys.applyTorque (t : BodyType) (p : Phys F) (torque : F) (wake : Bool) : Phys F :=
  let r := p.applyGate t wake
  if r.2 then { r.1 with torque := r.1.torque + torque } else r.1

/-- `apply_linear_impulse` (b2_body.rs 920-939). -/
def Phys.applyLinearImpulse (t : BodyType) (p : Phys F) (impulse point : Vec2 F) (wake : Bool) : Phys F :=
  let r := p.applyGate t wake
  if r.2 then
    { r.1 with v := r.1.v + r.1.invMass * impulse, w := r.1.w + r.1.invI * cross (point - r.1.sweep.c) impulse }
  else r.1

/-- `apply_linear_impulse_to_center` (b2_body.rs 941-957). -/
def Phys.applyLinearImpulseToCenter (t : BodyType) (p : Phys F) (impulse : Vec2 F) (wake : Bool) : Phys F :=
  let r := p.applyGate t wake
  if r.2 then { r.1 with v := r.1.v + r.1.invMass * impulse } else r.1

/-- `apply_angular_impulse` (b2_body.rs 959-972). -/
def Phys.applyAngularImpulse (t : BodyType) (p : Phys F) (impulse : F) (wake : Bool) : Phys F :=
  let r := p.applyGate t wake
  if r.2 then { r.1 with w := r.1.w + r.1.invI * impulse } else r.1

/-- `set_sleeping_allowed` (b2_body.rs 815-821). -/
def Phys.setSleepingAllowed (t : BodyType) (p : Phys F) (flag : Bool) : Phys F :=
  let p := { p with autoSleep := flag }
  if flag then p else p.setAwake t true

/-- `synchronize_transform` (b2_body.rs 974-977). -/
def Phys.synchronizeTransform (p : Phys F) : Phys F :=
  let q := Rot.ofAngle p.sweep.a
  { p with xf := ⟨p.sweep.c - q.mulV p.sweep.localCenter, q⟩ }

/-- `advance` (b2_body.rs 979-986). -/
def Phys.advance (p : Phys F) (alpha : F) : Option (Phys F) := do
  let s ← p.sweep.advance alpha
  let s := { s with c := s.c0, a := s.a0 }
  return Phys.synchronizeTransform { p with sweep := s }

/-- The fixture loop of `reset_mass_data` (private/dynamics/b2_body.rs 308-322): mass, mass-weighted center and inertia
accumulated over the fixtures, given by density and shape. -/
def massLoop : List (F × Shape F) → MassData F → Option (MassData F)
  | [], acc => some acc
  | (density, shape) :: l, acc =>
    if density = 0 then massLoop l acc
    else do
      let m ← shape.computeMass density
      massLoop l { mass := acc.mass + m.mass, center := acc.center + m.mass * m.center, i := acc.i + m.i }

/-- The end of `reset_mass_data` and `set_mass_data` (private/dynamics/b2_body.rs 340-349, 378-388): the center of
mass is moved and the velocity updated. -/
def Phys.moveCenter (p : Phys F) (localCenter : Vec2 F) : Phys F :=
  let oldCenter := p.sweep.c
  let c := p.xf.mulV localCenter
  { p with sweep := { p.sweep with localCenter := localCenter, c0 := c, c := c }
           v := p.v + crossSV p.w (c - oldCenter) }

/-- `reset_mass_data` (private/dynamics/b2_body.rs 292-350); the body's fixtures are given by density and shape, in
list order. -/
def Phys.resetMassData (t : BodyType) (fs : List (F × Shape F)) (p : Phys F) : Option (Phys F) :=
  let p := { p with mass := 0, invMass := 0, i := 0, invI := 0, sweep := { p.sweep with localCenter := ⟨0, 0⟩ } }
  if t = .static ∨ t = .kinematic then
    some { p with sweep := { p.sweep with c0 := p.xf.p, c := p.xf.p, a0 := p.sweep.a } }
  else do
    let acc ← massLoop fs ⟨0, ⟨0, 0⟩, 0⟩
    let invMass := if acc.mass > 0 then 1 / acc.mass else 0
    let center := if acc.mass > 0 then invMass * acc.center else acc.center
    let p := { p with mass := acc.mass, invMass := invMass }
    if acc.i > 0 ∧ p.fixedRotation = false then
      let i := acc.i - acc.mass * dot center center
      if i > 0 then some (Phys.moveCenter { p with i := i, invI := 1 / i } center) else none
    else some (Phys.moveCenter { p with i := 0, invI := 0 } center)

/-- `set_mass_data` (private/dynamics/b2_body.rs 352-389) after the lock check. -/
def Phys.setMassData (t : BodyType) (m : MassData F) (p : Phys F) : Option (Phys F) :=
  if t ≠ .dynamic then some p
  else
    let mass := if m.mass ≤ 0 then 1 else m.mass
    let p := { p with mass := mass, invMass := 1 / mass, i := 0, invI := 0 }
    if m.i > 0 ∧ p.fixedRotation = false then
      let i := m.i - mass * dot m.center m.center
      if i > 0 then some (Phys.moveCenter { p with i := i, invI := 1 / i } m.center) else none
    else some (Phys.moveCenter p m.center)

/-- `set_fixed_rotation` (private/dynamics/b2_body.rs 529-541). -/
def Phys.setFixedRotation (t : BodyType) (fs : List (F × Shape F)) (p : Phys F) (flag : Bool) : Option (Phys F) :=
  if p.fixedRotation = flag then some p
  else Phys.resetMassData t fs { p with fixedRotation := flag, w := 0 }

/-- The public functions of a body that use nothing but the body and its fixtures' shapes and densities. -/
inductive BodyOp (F : Type)
  | setAwake (flag : Bool)
  | setLinearVelocity (v : Vec2 F)
  | setAngularVelocity (w : F)
  | applyForce (force point : Vec2 F) (wake : Bool)
  | applyForceToCenter (force : Vec2 F) (wake : Bool)
  | applyTorque (torque : F) (wake : Bool)
  | applyLinearImpulse (impulse point : Vec2 F) (wake : Bool)
  | applyLinearImpulseToCenter (impulse : Vec2 F) (wake : Bool)
  | applyAngularImpulse (impulse : F) (wake : Bool)
  | setBullet (flag : Bool)
  | setSleepingAllowed (flag : Bool)
  | setLinearDamping (x : F)
  | setAngularDamping (x : F)
  | setGravityScale (x : F)
  | setFixedRotation (flag : Bool)
  | resetMassData

/-- Dispatch of `BodyOp`; the one-line setters are b2_body.rs 755-777. -/
def BodyOp.run (t : BodyType) (fs : List (F × Shape F)) (p : Phys F) : BodyOp F → Option (Phys F)
  | .setAwake flag => some (p.setAwake t flag)
  | .setLinearVelocity v => some (p.setLinearVelocity t v)
  | .setAngularVelocity w => some (p.setAngularVelocity t w)
  | .applyForce f x wake => some (p.applyForce t f x wake)
  | .applyForceToCenter f wake => some (p.applyForceToCenter t f wake)
  | .applyTorque x wake => some (p.applyTorque t x wake)
  | .applyLinearImpulse i x wake => some (p.applyLinearImpulse t i x wake)
  | .applyLinearImpulseToCenter i wake => some (p.applyLinearImpulseToCenter t i wake)
  | .applyAngularImpulse i wake => some (p.applyAngularImpulse t i wake)
  | .setBullet flag => some { p with bullet := flag }
  | .setSleepingAllowed flag => some (p.setSleepingAllowed t flag)
  | .setLinearDamping x => some { p with linearDamping := x }
  | .setAngularDamping x => some { p with angularDamping := x }
  | .setGravityScale x => some { p with gravityScale := x }
  | .setFixedRotation flag => p.setFixedRotation t fs flag
  | .resetMassData => p.resetMassData t fs

end
end B2
