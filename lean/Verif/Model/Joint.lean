import Verif.Model.ContactSolver

/-!
# Joints

Models the solver functions of `src/private/dynamics/joints/*.rs` and the functions of `src/joints/*.rs` that change
or report the state of a joint. Arithmetic is exact. A panic is `none`.

Every joint copies the velocities (or positions) of its bodies to local variables, works on the copies and writes
them back. Here the work on the copies is a function of a `Two` (or `TwoP`), and reading and writing back is done once
for all joints by `loadTwo` and `storeTwo`. `v += m * (-p)` is written for `v -= m * p` where it lets one
definition serve several blocks. Drawing and the user data of a joint are left out. Waking up the bodies by a
setter is the `true` in its result (`World.setAwake` does it).
-/
namespace B2

section
variable {F : Type} [Field F] [LinearOrder F]

/-- `B2_ANGULAR_SLOP` (b2_common.rs 43). -/
def angularSlop [Elem F] : F := 2 / 180 * Elem.pi
/-- `B2_MAX_ANGULAR_CORRECTION` (b2_common.rs 64). -/
def maxAngularCorrection [Elem F] : F := 8 / 180 * Elem.pi

/-- The fields of `B2timeStep` (b2_time_step.rs 17-26) that joints read. -/
structure JStep (F : Type) where
  dt : F
  invDt : F
  dtRatio : F
  warmStarting : Bool

/-- What a joint reads of a body when it is initialized: `m_island_index`, `m_sweep.local_center`, `m_inv_mass` and
`m_inv_i` (for example b2_revolute_joint.rs 27-36). -/
structure JBody (F : Type) where
  index : Nat
  localCenter : Vec2 F
  invMass : F
  invI : F

/-- `JBody` before initialization: all zero. -/
def JBody.zero : JBody F := ⟨0, ⟨0, 0⟩, 0, 0⟩

/-- The copies `m_index_a`, `m_local_center_a`, `m_inv_mass_a`, `m_inv_ia` and the same for body B. -/
structure PairFrame (F : Type) where
  a : JBody F
  b : JBody F

/-- The positions of the two bodies of a joint, held in local variables. -/
structure TwoP (F : Type) where
  a : Pos F
  b : Pos F

/-- `v_a -= m_a p`, `w_a -= i_a la`, `v_b += m_b p`, `w_b += i_b lb`. -/
def PairFrame.kick (f : PairFrame F) (p : Vec2 F) (la lb : F) (s : Two F) : Two F :=
  ⟨⟨s.a.v - f.a.invMass * p, s.a.w - f.a.invI * la⟩, ⟨s.b.v + f.b.invMass * p, s.b.w + f.b.invI * lb⟩⟩
/-- `w_a -= i_a l`, `w_b += i_b l`. -/
def PairFrame.twist (f : PairFrame F) (l : F) (s : Two F) : Two F :=
  ⟨⟨s.a.v, s.a.w - f.a.invI * l⟩, ⟨s.b.v, s.b.w + f.b.invI * l⟩⟩
/-- `c_a -= m_a p`, `a_a -= i_a la`, `c_b += m_b p`, `a_b += i_b lb`. -/
def PairFrame.move (f : PairFrame F) (p : Vec2 F) (la lb : F) (s : TwoP F) : TwoP F :=
  ⟨⟨s.a.c - f.a.invMass * p, s.a.a - f.a.invI * la⟩, ⟨s.b.c + f.b.invMass * p, s.b.a + f.b.invI * lb⟩⟩

/-- The vector from a body's centre of mass to a point with local coordinates `anchor`, when the body's angle is `a`
(for example b2_revolute_joint.rs 52). -/
def JBody.arm [Elem F] (b : JBody F) (a : F) (anchor : Vec2 F) : Vec2 F := (Rot.ofAngle a).mulV (anchor - b.localCenter)

/-- The effective mass matrix of a point-to-point constraint (b2_revolute_joint.rs 67-70, 279-282;
b2_weld_joint.rs 71-75; b2_friction_joint.rs 63-66; b2_motor_joint.rs 72-75). -/
def PairFrame.pointK (f : PairFrame F) (rA rB : Vec2 F) : Mat22 F :=
  let kxy := -f.a.invI * rA.x * rA.y - f.b.invI * rB.x * rB.y
  ⟨⟨f.a.invMass + f.b.invMass + f.a.invI * rA.y * rA.y + f.b.invI * rB.y * rB.y, kxy⟩,
   ⟨kxy, f.a.invMass + f.b.invMass + f.a.invI * rA.x * rA.x + f.b.invI * rB.x * rB.x⟩⟩

/-! ## Revolute joint -/

/-- `B2revoluteJoint` (joints/b2_revolute_joint.rs 99-134). -/
structure Revolute (F : Type) where
  bodyA : Nat
  bodyB : Nat
  localAnchorA : Vec2 F
  localAnchorB : Vec2 F
  referenceAngle : F
  enableLimit : Bool
  lowerAngle : F
  upperAngle : F
  enableMotor : Bool
  motorSpeed : F
  maxMotorTorque : F
  impulse : Vec2 F
  motorImpulse : F
  lowerImpulse : F
  upperImpulse : F
  frame : PairFrame F
  rA : Vec2 F
  rB : Vec2 F
  k : Mat22 F
  angle : F
  axialMass : F

/-- The part of `init_velocity_constraints` before warm starting (b2_revolute_joint.rs 27-89). -/
def Revolute.prepare [Elem F] (bodies : Nat → JBody F) (j : Revolute F) (p : TwoP F) : Revolute F :=
  let f : PairFrame F := ⟨bodies j.bodyA, bodies j.bodyB⟩
  let rA := f.a.arm p.a.a j.localAnchorA
  let rB := f.b.arm p.b.a j.localAnchorB
  let m := f.a.invI + f.b.invI
  let fixedRotation := !decide (m > 0)
  let noLimit := !j.enableLimit || fixedRotation
  { j with
    frame := f, rA := rA, rB := rB, k := f.pointK rA rB
    axialMass := if m > 0 then 1 / m else m
    angle := p.b.a - p.a.a - j.referenceAngle
    lowerImpulse := if noLimit then 0 else j.lowerImpulse
    upperImpulse := if noLimit then 0 else j.upperImpulse
    motorImpulse := if !j.enableMotor || fixedRotation then 0 else j.motorImpulse }

/-- Warm starting (b2_revolute_joint.rs 91-113). -/
def Revolute.warm (st : JStep F) (j : Revolute F) (s : Two F) : Revolute F × Two F :=
  if st.warmStarting then
    let j := { j with
      impulse := st.dtRatio * j.impulse, motorImpulse := j.motorImpulse * st.dtRatio
      lowerImpulse := j.lowerImpulse * st.dtRatio, upperImpulse := j.upperImpulse * st.dtRatio }
    let axial := j.motorImpulse + j.lowerImpulse - j.upperImpulse
    (j, j.frame.kick j.impulse (cross j.rA j.impulse + axial) (cross j.rB j.impulse + axial) s)
  else ({ j with impulse := ⟨0, 0⟩, motorImpulse := 0, lowerImpulse := 0, upperImpulse := 0 }, s)

/-- `init_velocity_constraints` (b2_revolute_joint.rs 21-117). -/
def Revolute.initVel [Elem F] (st : JStep F) (bodies : Nat → JBody F) (j : Revolute F) (p : TwoP F) (s : Two F) :
    Revolute F × Two F := (j.prepare bodies p).warm st s

/-- The motor constraint (b2_revolute_joint.rs 145-155). -/
def Revolute.motor (st : JStep F) (j : Revolute F) (s : Two F) : Revolute F × Two F :=
  let cdot := s.b.w - s.a.w - j.motorSpeed
  let impulse := -j.axialMass * cdot
  let maxImpulse := st.dt * j.maxMotorTorque
  let new := b2clamp (j.motorImpulse + impulse) (-maxImpulse) maxImpulse
  ({ j with motorImpulse := new }, j.frame.twist (new - j.motorImpulse) s)

/-- The lower limit (b2_revolute_joint.rs 159-169). -/
def Revolute.lower (st : JStep F) (j : Revolute F) (s : Two F) : Revolute F × Two F :=
  let c := j.angle - j.lowerAngle
  let cdot := s.b.w - s.a.w
  let impulse := -j.axialMass * (cdot + b2max c 0 * st.invDt)
  let new := b2max (j.lowerImpulse + impulse) 0
  ({ j with lowerImpulse := new }, j.frame.twist (new - j.lowerImpulse) s)

/-- The upper limit (b2_revolute_joint.rs 174-184). -/
def Revolute.upper (st : JStep F) (j : Revolute F) (s : Two F) : Revolute F × Two F :=
  let c := j.upperAngle - j.angle
  let cdot := s.a.w - s.b.w
  let impulse := -j.axialMass * (cdot + b2max c 0 * st.invDt)
  let new := b2max (j.upperImpulse + impulse) 0
  ({ j with upperImpulse := new }, j.frame.twist (-(new - j.upperImpulse)) s)

/-- The point-to-point constraint (b2_revolute_joint.rs 187-201). -/
def Revolute.point (j : Revolute F) (s : Two F) : Revolute F × Two F :=
  let cdot := relVel s.a s.b j.rA j.rB
  let impulse := j.k.solve (-cdot)
  ({ j with impulse := j.impulse + impulse }, j.frame.kick impulse (cross j.rA impulse) (cross j.rB impulse) s)

/-- `solve_velocity_constraints` (b2_revolute_joint.rs 119-206). -/
def Revolute.solveVel (st : JStep F) (j : Revolute F) (s : Two F) : Revolute F × Two F :=
  let fixedRotation := decide (j.frame.a.invI + j.frame.b.invI = 0)
  let r := if j.enableMotor && !fixedRotation then j.motor st s else (j, s)
  let r := if j.enableLimit && !fixedRotation then
      let l := r.1.lower st r.2
      l.1.upper st l.2
    else r
  r.1.point r.2

/-- The correction of the angular limit: `c` (b2_revolute_joint.rs 231-255). -/
def Revolute.limitError [Elem F] (j : Revolute F) (p : TwoP F) : F :=
  let angle := p.b.a - p.a.a - j.referenceAngle
  if |j.upperAngle - j.lowerAngle| < 2 * angularSlop then
    b2clamp (angle - j.lowerAngle) (-maxAngularCorrection) maxAngularCorrection
  else if angle ≤ j.lowerAngle then b2clamp (angle - j.lowerAngle + angularSlop) (-maxAngularCorrection) 0
  else if angle ≥ j.upperAngle then b2clamp (angle - j.upperAngle - angularSlop) 0 maxAngularCorrection
  else 0

/-- The angular limit (b2_revolute_joint.rs 230-261): the new positions and the angular error. -/
def Revolute.posLimit [Elem F] (j : Revolute F) (p : TwoP F) : TwoP F × F :=
  if j.enableLimit && !decide (j.frame.a.invI + j.frame.b.invI = 0) then
    let c := j.limitError p
    let limitImpulse := -j.axialMass * c
    (⟨⟨p.a.c, p.a.a - j.frame.a.invI * limitImpulse⟩, ⟨p.b.c, p.b.a + j.frame.b.invI * limitImpulse⟩⟩, |c|)
  else (p, 0)

/-- The point-to-point part (b2_revolute_joint.rs 264-291): the new positions and the position error. -/
def Revolute.posPoint [Elem F] (j : Revolute F) (p : TwoP F) : TwoP F × F :=
  let rA := j.frame.a.arm p.a.a j.localAnchorA
  let rB := j.frame.b.arm p.b.a j.localAnchorB
  let c := p.b.c + rB - p.a.c - rA
  let impulse := -((j.frame.pointK rA rB).solve c)
  (j.frame.move impulse (cross rA impulse) (cross rB impulse) p, c.length)

/-- `solve_position_constraints` (b2_revolute_joint.rs 208-296). -/
def Revolute.solvePos [Elem F] (j : Revolute F) (p : TwoP F) : TwoP F × Bool :=
  let l := j.posLimit p
  let q := j.posPoint l.1
  (q.1, decide (q.2 ≤ linearSlop) && decide (l.2 ≤ angularSlop))

/-- `enable_limit` (joints/b2_revolute_joint.rs 171-180): the joint, and whether the bodies are woken up. -/
def Revolute.setEnableLimit (j : Revolute F) (flag : Bool) : Revolute F × Bool :=
  if flag ≠ j.enableLimit then ({ j with enableLimit := flag, lowerImpulse := 0, upperImpulse := 0 }, true) else (j, false)
/-- `set_limits` (joints/b2_revolute_joint.rs 193-205). -/
def Revolute.setLimits (j : Revolute F) (lower upper : F) : Option (Revolute F × Bool) :=
  if lower ≤ upper then
    if lower ≠ j.lowerAngle ∨ upper ≠ j.upperAngle then
      some ({ j with lowerImpulse := 0, upperImpulse := 0, lowerAngle := lower, upperAngle := upper }, true)
    else some (j, false)
  else none
/-- `get_reaction_force` (joints/b2_revolute_joint.rs 312-315). -/
def Revolute.reactionForce (j : Revolute F) (invDt : F) : Vec2 F := invDt * j.impulse
/-- `get_reaction_torque` (joints/b2_revolute_joint.rs 319-321). -/
def Revolute.reactionTorque (j : Revolute F) (invDt : F) : F := invDt * (j.motorImpulse + j.lowerImpulse - j.upperImpulse)
/-- `get_motor_torque` (joints/b2_revolute_joint.rs 249-251). -/
def Revolute.motorTorque (j : Revolute F) (invDt : F) : F := invDt * j.motorImpulse

/-! ## Distance joint -/

/-- `B2distanceJoint` (joints/b2_distance_joint.rs 214-251). -/
structure DistanceJ (F : Type) where
  bodyA : Nat
  bodyB : Nat
  localAnchorA : Vec2 F
  localAnchorB : Vec2 F
  stiffness : F
  damping : F
  length : F
  minLength : F
  maxLength : F
  impulse : F
  lowerImpulse : F
  upperImpulse : F
  frame : PairFrame F
  bias : F
  gamma : F
  u : Vec2 F
  rA : Vec2 F
  rB : Vec2 F
  currentLength : F
  mass : F
  softMass : F

/-- `b2_distance_joint_new` (b2_distance_joint.rs 42-76). -/
def DistanceJ.new (bodyA bodyB : Nat) (localAnchorA localAnchorB : Vec2 F)
    (length minLength maxLength stiffness damping : F) : DistanceJ F :=
  { bodyA := bodyA, bodyB := bodyB, localAnchorA := localAnchorA, localAnchorB := localAnchorB
    stiffness := stiffness, damping := damping, length := b2max length linearSlop
    minLength := b2max minLength linearSlop, maxLength := b2max maxLength (b2max minLength linearSlop)
    impulse := 0, lowerImpulse := 0, upperImpulse := 0, frame := ⟨JBody.zero, JBody.zero⟩
    bias := 0, gamma := 0, u := ⟨0, 0⟩, rA := ⟨0, 0⟩, rB := ⟨0, 0⟩, currentLength := 0, mass := 0, softMass := 0 }

/-- `set_length` (b2_distance_joint.rs 351-355): the joint and the length returned. -/
def DistanceJ.setLength (j : DistanceJ F) (length : F) : DistanceJ F × F :=
  let l := b2max linearSlop length
  ({ j with impulse := 0, length := l }, l)
/-- `set_min_length` (b2_distance_joint.rs 357-361). -/
def DistanceJ.setMinLength (j : DistanceJ F) (minLength : F) : DistanceJ F × F :=
  let l := b2clamp minLength linearSlop j.maxLength
  ({ j with lowerImpulse := 0, minLength := l }, l)
/-- `set_max_length` (b2_distance_joint.rs 363-367). -/
def DistanceJ.setMaxLength (j : DistanceJ F) (maxLength : F) : DistanceJ F × F :=
  let l := b2max maxLength j.minLength
  ({ j with upperImpulse := 0, maxLength := l }, l)

/-- The part of `init_velocity_constraints` up to `m_mass` (b2_distance_joint.rs 84-131). -/
def DistanceJ.prepare [Elem F] (bodies : Nat → JBody F) (j : DistanceJ F) (p : TwoP F) : DistanceJ F :=
  let f : PairFrame F := ⟨bodies j.bodyA, bodies j.bodyB⟩
  let rA := f.a.arm p.a.a j.localAnchorA
  let rB := f.b.arm p.b.a j.localAnchorB
  let u := p.b.c + rB - p.a.c - rA
  let len := u.length
  let ok := decide (len > linearSlop)
  let u : Vec2 F := if ok then (1 / len) * u else ⟨0, 0⟩
  let invMass := f.a.invMass + f.a.invI * cross rA u * cross rA u + f.b.invMass + f.b.invI * cross rB u * cross rB u
  { j with
    frame := f, rA := rA, rB := rB, u := u, currentLength := len
    mass := if invMass ≠ 0 then 1 / invMass else 0
    impulse := if ok then j.impulse else 0
    lowerImpulse := if ok then j.lowerImpulse else 0
    upperImpulse := if ok then j.upperImpulse else 0 }

/-- The spring parameters (b2_distance_joint.rs 133-160). -/
def DistanceJ.soften (st : JStep F) (j : DistanceJ F) : DistanceJ F :=
  if j.stiffness > 0 ∧ j.minLength < j.maxLength then
    let c := j.currentLength - j.length
    let h := st.dt
    let gamma := h * (j.damping + h * j.stiffness)
    let gamma := if gamma ≠ 0 then 1 / gamma else 0
    let invMass := j.frame.a.invMass + j.frame.a.invI * cross j.rA j.u * cross j.rA j.u + j.frame.b.invMass
      + j.frame.b.invI * cross j.rB j.u * cross j.rB j.u + gamma
    { j with gamma := gamma, bias := c * h * j.stiffness * gamma, softMass := if invMass ≠ 0 then 1 / invMass else 0 }
  else { j with gamma := 0, bias := 0, softMass := j.mass }

/-- Applying the impulse `x` along `u` (for example b2_distance_joint.rs 204-208). -/
def DistanceJ.push (j : DistanceJ F) (x : F) (s : Two F) : Two F :=
  let p := x * j.u
  j.frame.kick p (cross j.rA p) (cross j.rB p) s

/-- Warm starting (b2_distance_joint.rs 162-175): without it only `m_impulse` is set to zero. -/
def DistanceJ.warm (st : JStep F) (j : DistanceJ F) (s : Two F) : DistanceJ F × Two F :=
  if st.warmStarting then
    let j := { j with
      impulse := j.impulse * st.dtRatio, lowerImpulse := j.lowerImpulse * st.dtRatio
      upperImpulse := j.upperImpulse * st.dtRatio }
    (j, j.push (j.impulse + j.lowerImpulse - j.upperImpulse) s)
  else ({ j with impulse := 0 }, s)

/-- `init_velocity_constraints` (b2_distance_joint.rs 78-181). -/
def DistanceJ.initVel [Elem F] (st : JStep F) (bodies : Nat → JBody F) (j : DistanceJ F) (p : TwoP F) (s : Two F) :
    DistanceJ F × Two F := ((j.prepare bodies p).soften st).warm st s

/-- `cdot` (b2_distance_joint.rs 196-198): the speed of B's anchor relative to A's along `u`. -/
def DistanceJ.speed (j : DistanceJ F) (s : Two F) : F :=
  dot j.u ((s.b.v + crossSV s.b.w j.rB) - (s.a.v + crossSV s.a.w j.rA))

/-- The spring (b2_distance_joint.rs 194-209). -/
def DistanceJ.spring (j : DistanceJ F) (s : Two F) : DistanceJ F × Two F :=
  let impulse := -j.softMass * (j.speed s + j.bias + j.gamma * j.impulse)
  ({ j with impulse := j.impulse + impulse }, j.push impulse s)

/-- The minimum length (b2_distance_joint.rs 212-230). -/
def DistanceJ.lower (st : JStep F) (j : DistanceJ F) (s : Two F) : DistanceJ F × Two F :=
  let c := j.currentLength - j.minLength
  let bias := b2max 0 c * st.invDt
  let impulse := -j.mass * (j.speed s + bias)
  let new := b2max 0 (j.lowerImpulse + impulse)
  ({ j with lowerImpulse := new }, j.push (new - j.lowerImpulse) s)

/-- The maximum length (b2_distance_joint.rs 233-251). -/
def DistanceJ.upper (st : JStep F) (j : DistanceJ F) (s : Two F) : DistanceJ F × Two F :=
  let c := j.maxLength - j.currentLength
  let bias := b2max 0 c * st.invDt
  let cdot := dot j.u ((s.a.v + crossSV s.a.w j.rA) - (s.b.v + crossSV s.b.w j.rB))
  let impulse := -j.mass * (cdot + bias)
  let new := b2max 0 (j.upperImpulse + impulse)
  ({ j with upperImpulse := new }, j.push (-(new - j.upperImpulse)) s)

/-- Equal limits (b2_distance_joint.rs 253-268). -/
def DistanceJ.rigid (j : DistanceJ F) (s : Two F) : DistanceJ F × Two F :=
  let impulse := -j.mass * j.speed s
  ({ j with impulse := j.impulse + impulse }, j.push impulse s)

/-- `solve_velocity_constraints` (b2_distance_joint.rs 183-274). -/
def DistanceJ.solveVel (st : JStep F) (j : DistanceJ F) (s : Two F) : DistanceJ F × Two F :=
  if j.minLength < j.maxLength then
    let r := if j.stiffness > 0 then j.spring s else (j, s)
    let r := r.1.lower st r.2
    r.1.upper st r.2
  else j.rigid s

/-- The length error `c` that is corrected, `none` when the function returns early (b2_distance_joint.rs 294-303). -/
def DistanceJ.posError (j : DistanceJ F) (length : F) : Option F :=
  if j.minLength = j.maxLength then some (length - j.minLength)
  else if length < j.minLength then some (length - j.minLength)
  else if j.maxLength < length then some (length - j.maxLength)
  else none

/-- `solve_position_constraints` (b2_distance_joint.rs 276-319). -/
def DistanceJ.solvePos [Elem F] (j : DistanceJ F) (p : TwoP F) : TwoP F × Bool :=
  let rA := j.frame.a.arm p.a.a j.localAnchorA
  let rB := j.frame.b.arm p.b.a j.localAnchorB
  let n := (p.b.c + rB - p.a.c - rA).normalize
  match j.posError n.2 with
  | none => (p, true)
  | some c =>
    let impulse := -j.mass * c
    let P := impulse * n.1
    (j.frame.move P (cross rA P) (cross rB P) p, decide (|c| < linearSlop))

/-- `get_reaction_force` (b2_distance_joint.rs 337-344). -/
def DistanceJ.reactionForce (j : DistanceJ F) (invDt : F) : Vec2 F :=
  (invDt * (j.impulse + j.lowerImpulse - j.upperImpulse)) * j.u
/-- `get_reaction_torque` (b2_distance_joint.rs 346-349). -/
def DistanceJ.reactionTorque (_j : DistanceJ F) (_invDt : F) : F := 0

/-! ## Prismatic joint -/

/-- `B2prismaticJoint` (joints/b2_prismatic_joint.rs 104-141). -/
structure Prismatic (F : Type) where
  bodyA : Nat
  bodyB : Nat
  localAnchorA : Vec2 F
  localAnchorB : Vec2 F
  localXAxisA : Vec2 F
  localYAxisA : Vec2 F
  referenceAngle : F
  lowerTranslation : F
  upperTranslation : F
  maxMotorForce : F
  motorSpeed : F
  enableLimit : Bool
  enableMotor : Bool
  impulse : Vec2 F
  motorImpulse : F
  lowerImpulse : F
  upperImpulse : F
  frame : PairFrame F
  axis : Vec2 F
  perp : Vec2 F
  s1 : F
  s2 : F
  a1 : F
  a2 : F
  k : Mat22 F
  translation : F
  axialMass : F

/-- `new` (b2_prismatic_joint.rs 54-118): the axis is normalized; asserts that the lower limit is not above the upper
one. -/
def Prismatic.new [Elem F] (bodyA bodyB : Nat) (localAnchorA localAnchorB localAxisA : Vec2 F)
    (referenceAngle lower upper maxMotorForce motorSpeed : F) (enableLimit enableMotor : Bool) : Option (Prismatic F) :=
  let x := localAxisA.normalize.1
  if lower ≤ upper then
    some { bodyA := bodyA, bodyB := bodyB, localAnchorA := localAnchorA, localAnchorB := localAnchorB
           localXAxisA := x, localYAxisA := crossSV 1 x, referenceAngle := referenceAngle
           lowerTranslation := lower, upperTranslation := upper, maxMotorForce := maxMotorForce
           motorSpeed := motorSpeed, enableLimit := enableLimit, enableMotor := enableMotor
           impulse := ⟨0, 0⟩, motorImpulse := 0, lowerImpulse := 0, upperImpulse := 0
           frame := ⟨JBody.zero, JBody.zero⟩, axis := ⟨0, 0⟩, perp := ⟨0, 0⟩, s1 := 0, s2 := 0, a1 := 0, a2 := 0
           k := ⟨⟨0, 0⟩, ⟨0, 0⟩⟩, translation := 0, axialMass := 0 }
  else none

/-- The matrix of the prismatic constraint (b2_prismatic_joint.rs 178-187, 425-435). -/
def PairFrame.slideK (f : PairFrame F) (s1 s2 : F) : Mat22 F :=
  let k11 := f.a.invMass + f.b.invMass + f.a.invI * s1 * s1 + f.b.invI * s2 * s2
  let k12 := f.a.invI * s1 + f.b.invI * s2
  let k22 := f.a.invI + f.b.invI
  ⟨⟨k11, k12⟩, ⟨k12, if k22 = 0 then 1 else k22⟩⟩

/-- The part of `init_velocity_constraints` before warm starting (b2_prismatic_joint.rs 126-199). -/
def Prismatic.prepare [Elem F] (bodies : Nat → JBody F) (j : Prismatic F) (p : TwoP F) : Prismatic F :=
  let f : PairFrame F := ⟨bodies j.bodyA, bodies j.bodyB⟩
  let rA := f.a.arm p.a.a j.localAnchorA
  let rB := f.b.arm p.b.a j.localAnchorB
  let d := (p.b.c - p.a.c) + rB - rA
  let axis := (Rot.ofAngle p.a.a).mulV j.localXAxisA
  let a1 := cross (d + rA) axis
  let a2 := cross rB axis
  let m := f.a.invMass + f.b.invMass + f.a.invI * a1 * a1 + f.b.invI * a2 * a2
  let perp := (Rot.ofAngle p.a.a).mulV j.localYAxisA
  let s1 := cross (d + rA) perp
  let s2 := cross rB perp
  { j with
    frame := f, axis := axis, a1 := a1, a2 := a2, axialMass := if m > 0 then 1 / m else m
    perp := perp, s1 := s1, s2 := s2, k := f.slideK s1 s2
    translation := if j.enableLimit then dot axis d else j.translation
    lowerImpulse := if j.enableLimit then j.lowerImpulse else 0
    upperImpulse := if j.enableLimit then j.upperImpulse else 0
    motorImpulse := if j.enableMotor then j.motorImpulse else 0 }

/-- Warm starting (b2_prismatic_joint.rs 201-223). -/
def Prismatic.warm (st : JStep F) (j : Prismatic F) (s : Two F) : Prismatic F × Two F :=
  if st.warmStarting then
    let j := { j with
      impulse := st.dtRatio * j.impulse, motorImpulse := j.motorImpulse * st.dtRatio
      lowerImpulse := j.lowerImpulse * st.dtRatio, upperImpulse := j.upperImpulse * st.dtRatio }
    let axial := j.motorImpulse + j.lowerImpulse - j.upperImpulse
    (j, j.frame.kick (j.impulse.x * j.perp + axial * j.axis)
      (j.impulse.x * j.s1 + j.impulse.y + axial * j.a1) (j.impulse.x * j.s2 + j.impulse.y + axial * j.a2) s)
  else ({ j with impulse := ⟨0, 0⟩, motorImpulse := 0, lowerImpulse := 0, upperImpulse := 0 }, s)

/-- `init_velocity_constraints` (b2_prismatic_joint.rs 120-229). -/
def Prismatic.initVel [Elem F] (st : JStep F) (bodies : Nat → JBody F) (j : Prismatic F) (p : TwoP F) (s : Two F) :
    Prismatic F × Two F := (j.prepare bodies p).warm st s

/-- Applying the impulse `x` along the axis (for example b2_prismatic_joint.rs 255-262). -/
def Prismatic.slide (j : Prismatic F) (x : F) (s : Two F) : Two F := j.frame.kick (x * j.axis) (x * j.a1) (x * j.a2) s

/-- The motor (b2_prismatic_joint.rs 247-263). -/
def Prismatic.motor (st : JStep F) (j : Prismatic F) (s : Two F) : Prismatic F × Two F :=
  let cdot := dot j.axis (s.b.v - s.a.v) + j.a2 * s.b.w - j.a1 * s.a.w
  let impulse := j.axialMass * (j.motorSpeed - cdot)
  let maxImpulse := st.dt * j.maxMotorForce
  let new := b2clamp (j.motorImpulse + impulse) (-maxImpulse) maxImpulse
  ({ j with motorImpulse := new }, j.slide (new - j.motorImpulse) s)

/-- The lower limit (b2_prismatic_joint.rs 267-283). -/
def Prismatic.lower (st : JStep F) (j : Prismatic F) (s : Two F) : Prismatic F × Two F :=
  let c := j.translation - j.lowerTranslation
  let cdot := dot j.axis (s.b.v - s.a.v) + j.a2 * s.b.w - j.a1 * s.a.w
  let impulse := -j.axialMass * (cdot + b2max c 0 * st.invDt)
  let new := b2max (j.lowerImpulse + impulse) 0
  ({ j with lowerImpulse := new }, j.slide (new - j.lowerImpulse) s)

/-- The upper limit (b2_prismatic_joint.rs 288-304). -/
def Prismatic.upper (st : JStep F) (j : Prismatic F) (s : Two F) : Prismatic F × Two F :=
  let c := j.upperTranslation - j.translation
  let cdot := dot j.axis (s.a.v - s.b.v) + j.a1 * s.a.w - j.a2 * s.b.w
  let impulse := -j.axialMass * (cdot + b2max c 0 * st.invDt)
  let new := b2max (j.upperImpulse + impulse) 0
  ({ j with upperImpulse := new }, j.slide (-(new - j.upperImpulse)) s)

/-- The block of the perpendicular and angular constraints (b2_prismatic_joint.rs 308-326). -/
def Prismatic.block (j : Prismatic F) (s : Two F) : Prismatic F × Two F :=
  let cdot : Vec2 F := ⟨dot j.perp (s.b.v - s.a.v) + j.s2 * s.b.w - j.s1 * s.a.w, s.b.w - s.a.w⟩
  let df := j.k.solve (-cdot)
  ({ j with impulse := j.impulse + df },
   j.frame.kick (df.x * j.perp) (df.x * j.s1 + df.y) (df.x * j.s2 + df.y) s)

/-- `solve_velocity_constraints` (b2_prismatic_joint.rs 231-332). -/
def Prismatic.solveVel (st : JStep F) (j : Prismatic F) (s : Two F) : Prismatic F × Two F :=
  let r := if j.enableMotor then j.motor st s else (j, s)
  let r := if j.enableLimit then
      let l := r.1.lower st r.2
      l.1.upper st l.2
    else r
  r.1.block r.2

/-- The limit in `solve_position_constraints` (b2_prismatic_joint.rs 377-397): whether it is active, `c2`, and the
linear error, of which `e` is the part from the perpendicular constraint. With (almost) equal limits `c2` is the
translation itself. -/
def Prismatic.limitError (j : Prismatic F) (translation e : F) : Bool × F × F :=
  if j.enableLimit then
    if |j.upperTranslation - j.lowerTranslation| < 2 * linearSlop then (true, translation, b2max e |translation|)
    else if translation ≤ j.lowerTranslation then
      (true, b2min (translation - j.lowerTranslation) 0, b2max e (j.lowerTranslation - translation))
    else if translation ≥ j.upperTranslation then
      (true, b2max (translation - j.upperTranslation) 0, b2max e (translation - j.upperTranslation))
    else (false, 0, e)
  else (false, 0, e)

/-- The matrix with an active limit (b2_prismatic_joint.rs 400-415). -/
def PairFrame.slideK3 (f : PairFrame F) (s1 s2 a1 a2 : F) : Mat33 F :=
  let k11 := f.a.invMass + f.b.invMass + f.a.invI * s1 * s1 + f.b.invI * s2 * s2
  let k12 := f.a.invI * s1 + f.b.invI * s2
  let k13 := f.a.invI * s1 * a1 + f.b.invI * s2 * a2
  let k22 := f.a.invI + f.b.invI
  let k22 := if k22 = 0 then 1 else k22
  let k23 := f.a.invI * a1 + f.b.invI * a2
  let k33 := f.a.invMass + f.b.invMass + f.a.invI * a1 * a1 + f.b.invI * a2 * a2
  ⟨⟨k11, k12, k13⟩, ⟨k12, k22, k23⟩, ⟨k13, k23, k33⟩⟩

/-- `solve_position_constraints` (b2_prismatic_joint.rs 341-460). -/
def Prismatic.solvePos [Elem F] (j : Prismatic F) (p : TwoP F) : TwoP F × Bool :=
  let f := j.frame
  let rA := f.a.arm p.a.a j.localAnchorA
  let rB := f.b.arm p.b.a j.localAnchorB
  let d := p.b.c + rB - p.a.c - rA
  let axis := (Rot.ofAngle p.a.a).mulV j.localXAxisA
  let a1 := cross (d + rA) axis
  let a2 := cross rB axis
  let perp := (Rot.ofAngle p.a.a).mulV j.localYAxisA
  let s1 := cross (d + rA) perp
  let s2 := cross rB perp
  let c1 : Vec2 F := ⟨dot perp d, p.b.a - p.a.a - j.referenceAngle⟩
  let l := j.limitError (dot axis d) |c1.x|
  let impulse : Vec3 F :=
    if l.1 then (f.slideK3 s1 s2 a1 a2).solve33 ⟨-c1.x, -c1.y, -l.2.1⟩
    else
      let i1 := (f.slideK s1 s2).solve (-c1)
      ⟨i1.x, i1.y, 0⟩
  (f.move (impulse.x * perp + impulse.z * axis) (impulse.x * s1 + impulse.y + impulse.z * a1)
     (impulse.x * s2 + impulse.y + impulse.z * a2) p,
   decide (l.2.2 ≤ linearSlop) && decide (|c1.y| ≤ angularSlop))

/-- `enable_limit` (joints/b2_prismatic_joint.rs 180-188). -/
def Prismatic.setEnableLimit (j : Prismatic F) (flag : Bool) : Prismatic F × Bool :=
  if flag ≠ j.enableLimit then ({ j with enableLimit := flag, lowerImpulse := 0, upperImpulse := 0 }, true) else (j, false)
/-- `set_limits` (joints/b2_prismatic_joint.rs 201-211). -/
def Prismatic.setLimits (j : Prismatic F) (lower upper : F) : Option (Prismatic F × Bool) :=
  if lower ≤ upper then
    if lower ≠ j.lowerTranslation ∨ upper ≠ j.upperTranslation then
      some ({ j with lowerImpulse := 0, upperImpulse := 0, lowerTranslation := lower, upperTranslation := upper }, true)
    else some (j, false)
  else none
/-- `get_reaction_force` (joints/b2_prismatic_joint.rs 287-291). -/
def Prismatic.reactionForce (j : Prismatic F) (invDt : F) : Vec2 F :=
  invDt * (j.impulse.x * j.perp + (j.motorImpulse + j.lowerImpulse - j.upperImpulse) * j.axis)
/-- `get_reaction_torque` (joints/b2_prismatic_joint.rs 293-295). -/
def Prismatic.reactionTorque (j : Prismatic F) (invDt : F) : F := invDt * j.impulse.y
/-- `get_motor_force` (joints/b2_prismatic_joint.rs 255-257). -/
def Prismatic.motorForce (j : Prismatic F) (invDt : F) : F := invDt * j.motorImpulse

/-! ## Weld joint -/

/-- `B2weldJoint` (joints/b2_weld_joint.rs 74-99). -/
structure Weld (F : Type) where
  bodyA : Nat
  bodyB : Nat
  localAnchorA : Vec2 F
  localAnchorB : Vec2 F
  referenceAngle : F
  stiffness : F
  damping : F
  impulse : Vec3 F
  frame : PairFrame F
  bias : F
  gamma : F
  rA : Vec2 F
  rB : Vec2 F
  mass : Mat33 F

/-- The effective mass matrix of a weld (b2_weld_joint.rs 70-79, 234-243). -/
def PairFrame.weldK (f : PairFrame F) (rA rB : Vec2 F) : Mat33 F :=
  let m := f.a.invMass + f.b.invMass
  let eyx := -rA.y * rA.x * f.a.invI - rB.y * rB.x * f.b.invI
  let ezx := -rA.y * f.a.invI - rB.y * f.b.invI
  let ezy := rA.x * f.a.invI + rB.x * f.b.invI
  ⟨⟨m + rA.y * rA.y * f.a.invI + rB.y * rB.y * f.b.invI, eyx, ezx⟩,
   ⟨eyx, m + rA.x * rA.x * f.a.invI + rB.x * rB.x * f.b.invI, ezy⟩,
   ⟨ezx, ezy, f.a.invI + f.b.invI⟩⟩

/-- The part of `init_velocity_constraints` before warm starting (b2_weld_joint.rs 27-114). -/
def Weld.prepare [Elem F] (st : JStep F) (bodies : Nat → JBody F) (j : Weld F) (p : TwoP F) : Weld F :=
  let f : PairFrame F := ⟨bodies j.bodyA, bodies j.bodyB⟩
  let rA := f.a.arm p.a.a j.localAnchorA
  let rB := f.b.arm p.b.a j.localAnchorB
  let k := f.weldK rA rB
  let j := { j with frame := f, rA := rA, rB := rB }
  if j.stiffness > 0 then
    let m := k.inverse22
    let c := p.b.a - p.a.a - j.referenceAngle
    let h := st.dt
    let gamma := h * (j.damping + h * j.stiffness)
    let gamma := if gamma ≠ 0 then 1 / gamma else 0
    let invM := f.a.invI + f.b.invI + gamma
    { j with
      gamma := gamma, bias := c * h * j.stiffness * gamma
      mass := { m with ez := { m.ez with z := if invM ≠ 0 then 1 / invM else 0 } } }
  else if k.ez.z = 0 then { j with mass := k.inverse22, gamma := 0, bias := 0 }
  else { j with mass := k.symInverse33, gamma := 0, bias := 0 }

/-- Warm starting (b2_weld_joint.rs 116-129). -/
def Weld.warm (st : JStep F) (j : Weld F) (s : Two F) : Weld F × Two F :=
  if st.warmStarting then
    let j := { j with impulse := st.dtRatio * j.impulse }
    let P : Vec2 F := ⟨j.impulse.x, j.impulse.y⟩
    (j, j.frame.kick P (cross j.rA P + j.impulse.z) (cross j.rB P + j.impulse.z) s)
  else ({ j with impulse := ⟨0, 0, 0⟩ }, s)

/-- `init_velocity_constraints` (b2_weld_joint.rs 21-133). -/
def Weld.initVel [Elem F] (st : JStep F) (bodies : Nat → JBody F) (j : Weld F) (p : TwoP F) (s : Two F) :
    Weld F × Two F := (j.prepare st bodies p).warm st s

/-- The soft case (b2_weld_joint.rs 159-181). -/
def Weld.soft (j : Weld F) (s : Two F) : Weld F × Two F :=
  let i2 := -j.mass.ez.z * (s.b.w - s.a.w + j.bias + j.gamma * j.impulse.z)
  let s := j.frame.twist i2 s
  let cdot1 := relVel s.a s.b j.rA j.rB
  let i1 := -(j.mass.mul22 cdot1)
  ({ j with impulse := ⟨j.impulse.x + i1.x, j.impulse.y + i1.y, j.impulse.z + i2⟩ },
   j.frame.kick i1 (cross j.rA i1) (cross j.rB i1) s)

/-- The rigid case (b2_weld_joint.rs 183-197). -/
def Weld.rigid (j : Weld F) (s : Two F) : Weld F × Two F :=
  let cdot1 := relVel s.a s.b j.rA j.rB
  let r := j.mass.mulV ⟨cdot1.x, cdot1.y, s.b.w - s.a.w⟩
  let i : Vec3 F := ⟨-r.x, -r.y, -r.z⟩
  let P : Vec2 F := ⟨i.x, i.y⟩
  ({ j with impulse := j.impulse + i }, j.frame.kick P (cross j.rA P + i.z) (cross j.rB P + i.z) s)

/-- `solve_velocity_constraints` (b2_weld_joint.rs 135-202). -/
def Weld.solveVel (j : Weld F) (s : Two F) : Weld F × Two F := if j.stiffness > 0 then j.soft s else j.rigid s

/-- `solve_position_constraints` (b2_weld_joint.rs 204-287). -/
def Weld.solvePos [Elem F] (j : Weld F) (p : TwoP F) : TwoP F × Bool :=
  let f := j.frame
  let rA := f.a.arm p.a.a j.localAnchorA
  let rB := f.b.arm p.b.a j.localAnchorB
  let k := f.weldK rA rB
  let c1 := p.b.c + rB - p.a.c - rA
  if j.stiffness > 0 then
    let P := -(k.solve22 c1)
    (f.move P (cross rA P) (cross rB P) p, decide (c1.length ≤ linearSlop) && decide ((0 : F) ≤ angularSlop))
  else
    let c2 := p.b.a - p.a.a - j.referenceAngle
    let i : Vec3 F :=
      if k.ez.z > 0 then
        let r := k.solve33 ⟨c1.x, c1.y, c2⟩
        ⟨-r.x, -r.y, -r.z⟩
      else
        let r := -(k.solve22 c1)
        ⟨r.x, r.y, 0⟩
    let P : Vec2 F := ⟨i.x, i.y⟩
    (f.move P (cross rA P + i.z) (cross rB P + i.z) p, decide (c1.length ≤ linearSlop) && decide (|c2| ≤ angularSlop))

/-- `get_reaction_force` (joints/b2_weld_joint.rs 181-184). -/
def Weld.reactionForce (j : Weld F) (invDt : F) : Vec2 F := invDt * (⟨j.impulse.x, j.impulse.y⟩ : Vec2 F)
/-- `get_reaction_torque` (joints/b2_weld_joint.rs 186-188). -/
def Weld.reactionTorque (j : Weld F) (invDt : F) : F := invDt * j.impulse.z

/-! ## Wheel joint -/

/-- `B2wheelJoint` (joints/b2_wheel_joint.rs 108-158). -/
structure Wheel (F : Type) where
  bodyA : Nat
  bodyB : Nat
  localAnchorA : Vec2 F
  localAnchorB : Vec2 F
  localXAxisA : Vec2 F
  localYAxisA : Vec2 F
  lowerTranslation : F
  upperTranslation : F
  maxMotorTorque : F
  motorSpeed : F
  enableLimit : Bool
  enableMotor : Bool
  stiffness : F
  damping : F
  impulse : F
  motorImpulse : F
  springImpulse : F
  lowerImpulse : F
  upperImpulse : F
  translation : F
  frame : PairFrame F
  ax : Vec2 F
  ay : Vec2 F
  sAx : F
  sBx : F
  sAy : F
  sBy : F
  mass : F
  motorMass : F
  axialMass : F
  springMass : F
  bias : F
  gamma : F

/-- `new` (joints/b2_wheel_joint.rs 329-380): the axis is taken as it is. -/
def Wheel.new (bodyA bodyB : Nat) (localAnchorA localAnchorB localAxisA : Vec2 F)
    (lower upper maxMotorTorque motorSpeed stiffness damping : F) (enableLimit enableMotor : Bool) : Wheel F :=
  { bodyA := bodyA, bodyB := bodyB, localAnchorA := localAnchorA, localAnchorB := localAnchorB
    localXAxisA := localAxisA, localYAxisA := crossSV 1 localAxisA, lowerTranslation := lower, upperTranslation := upper
    maxMotorTorque := maxMotorTorque, motorSpeed := motorSpeed, enableLimit := enableLimit, enableMotor := enableMotor
    stiffness := stiffness, damping := damping, impulse := 0, motorImpulse := 0, springImpulse := 0
    lowerImpulse := 0, upperImpulse := 0, translation := 0, frame := ⟨JBody.zero, JBody.zero⟩
    ax := ⟨0, 0⟩, ay := ⟨0, 0⟩, sAx := 0, sBx := 0, sAy := 0, sBy := 0, mass := 0, motorMass := 0, axialMass := 0
    springMass := 0, bias := 0, gamma := 0 }

/-- `if m > 0 { 1 / m } else { m }`, as many joints do in place. -/
def invIfPos (m : F) : F := if m > 0 then 1 / m else m

/-- The part of `init_velocity_constraints` before warm starting (b2_wheel_joint.rs 30-134). -/
def Wheel.prepare [Elem F] (st : JStep F) (bodies : Nat → JBody F) (j : Wheel F) (p : TwoP F) : Wheel F :=
  let f : PairFrame F := ⟨bodies j.bodyA, bodies j.bodyB⟩
  let rA := f.a.arm p.a.a j.localAnchorA
  let rB := f.b.arm p.b.a j.localAnchorB
  let d := p.b.c + rB - p.a.c - rA
  let ay := (Rot.ofAngle p.a.a).mulV j.localYAxisA
  let sAy := cross (d + rA) ay
  let sBy := cross rB ay
  let ax := (Rot.ofAngle p.a.a).mulV j.localXAxisA
  let sAx := cross (d + rA) ax
  let sBx := cross rB ax
  let invMass := f.a.invMass + f.b.invMass + f.a.invI * sAx * sAx + f.b.invI * sBx * sBx
  let soft := decide (j.stiffness > 0 ∧ invMass > 0)
  let c := dot d ax
  let h := st.dt
  let gamma := invIfPos (h * (j.damping + h * j.stiffness))
  { j with
    frame := f, ay := ay, sAy := sAy, sBy := sBy
    mass := invIfPos (f.a.invMass + f.b.invMass + f.a.invI * sAy * sAy + f.b.invI * sBy * sBy)
    ax := ax, sAx := sAx, sBx := sBx
    axialMass := if invMass > 0 then 1 / invMass else 0
    gamma := if soft then gamma else 0
    bias := if soft then c * h * j.stiffness * gamma else 0
    springMass := if soft then invIfPos (invMass + gamma) else 0
    springImpulse := if soft then j.springImpulse else 0
    translation := if j.enableLimit then dot ax d else j.translation
    lowerImpulse := if j.enableLimit then j.lowerImpulse else 0
    upperImpulse := if j.enableLimit then j.upperImpulse else 0
    motorMass := if j.enableMotor then invIfPos (f.a.invI + f.b.invI) else 0
    motorImpulse := if j.enableMotor then j.motorImpulse else 0 }

/-- Warm starting (b2_wheel_joint.rs 136-158): the limit impulses are not scaled. -/
def Wheel.warm (st : JStep F) (j : Wheel F) (s : Two F) : Wheel F × Two F :=
  if st.warmStarting then
    let j := { j with
      impulse := j.impulse * st.dtRatio, springImpulse := j.springImpulse * st.dtRatio
      motorImpulse := j.motorImpulse * st.dtRatio }
    let axial := j.springImpulse + j.lowerImpulse - j.upperImpulse
    (j, j.frame.kick (j.impulse * j.ay + axial * j.ax)
      (j.impulse * j.sAy + axial * j.sAx + j.motorImpulse) (j.impulse * j.sBy + axial * j.sBx + j.motorImpulse) s)
  else ({ j with impulse := 0, springImpulse := 0, motorImpulse := 0, lowerImpulse := 0, upperImpulse := 0 }, s)

/-- `init_velocity_constraints` (b2_wheel_joint.rs 24-162). -/
def Wheel.initVel [Elem F] (st : JStep F) (bodies : Nat → JBody F) (j : Wheel F) (p : TwoP F) (s : Two F) :
    Wheel F × Two F := (j.prepare st bodies p).warm st s

/-- Applying the impulse `x` along the axis (for example b2_wheel_joint.rs 186-194). -/
def Wheel.slide (j : Wheel F) (x : F) (s : Two F) : Two F := j.frame.kick (x * j.ax) (x * j.sAx) (x * j.sBx) s

/-- The spring (b2_wheel_joint.rs 180-195). -/
def Wheel.spring (j : Wheel F) (s : Two F) : Wheel F × Two F :=
  let cdot := dot j.ax (s.b.v - s.a.v) + j.sBx * s.b.w - j.sAx * s.a.w
  let impulse := -j.springMass * (cdot + j.bias + j.gamma * j.springImpulse)
  ({ j with springImpulse := j.springImpulse + impulse }, j.slide impulse s)

/-- The motor (b2_wheel_joint.rs 198-209). -/
def Wheel.motor (st : JStep F) (j : Wheel F) (s : Two F) : Wheel F × Two F :=
  let cdot := s.b.w - s.a.w - j.motorSpeed
  let impulse := -j.motorMass * cdot
  let maxImpulse := st.dt * j.maxMotorTorque
  let new := b2clamp (j.motorImpulse + impulse) (-maxImpulse) maxImpulse
  ({ j with motorImpulse := new }, j.frame.twist (new - j.motorImpulse) s)

/-- The lower limit (b2_wheel_joint.rs 213-229). -/
def Wheel.lower (st : JStep F) (j : Wheel F) (s : Two F) : Wheel F × Two F :=
  let c := j.translation - j.lowerTranslation
  let cdot := dot j.ax (s.b.v - s.a.v) + j.sBx * s.b.w - j.sAx * s.a.w
  let impulse := -j.axialMass * (cdot + b2max c 0 * st.invDt)
  let new := b2max (j.lowerImpulse + impulse) 0
  ({ j with lowerImpulse := new }, j.slide (new - j.lowerImpulse) s)

/-- The upper limit (b2_wheel_joint.rs 234-250). -/
def Wheel.upper (st : JStep F) (j : Wheel F) (s : Two F) : Wheel F × Two F :=
  let c := j.upperTranslation - j.translation
  let cdot := dot j.ax (s.a.v - s.b.v) + j.sAx * s.a.w - j.sBx * s.b.w
  let impulse := -j.axialMass * (cdot + b2max c 0 * st.invDt)
  let new := b2max (j.upperImpulse + impulse) 0
  ({ j with upperImpulse := new }, j.slide (-(new - j.upperImpulse)) s)

/-- The point-to-line constraint (b2_wheel_joint.rs 254-268). -/
def Wheel.line (j : Wheel F) (s : Two F) : Wheel F × Two F :=
  let cdot := dot j.ay (s.b.v - s.a.v) + j.sBy * s.b.w - j.sAy * s.a.w
  let impulse := -j.mass * cdot
  ({ j with impulse := j.impulse + impulse },
   j.frame.kick (impulse * j.ay) (impulse * j.sAy) (impulse * j.sBy) s)

/-- `solve_velocity_constraints` (b2_wheel_joint.rs 164-272). -/
def Wheel.solveVel (st : JStep F) (j : Wheel F) (s : Two F) : Wheel F × Two F :=
  let r := j.spring s
  let r := r.1.motor st r.2
  let r := if j.enableLimit then
      let l := r.1.lower st r.2
      l.1.upper st l.2
    else r
  r.1.line r.2

/-- The limit in `solve_position_constraints` (b2_wheel_joint.rs 301-309): `c`. -/
def Wheel.limitError (j : Wheel F) (translation : F) : F :=
  if |j.upperTranslation - j.lowerTranslation| < 2 * linearSlop then translation
  else if translation ≤ j.lowerTranslation then b2min (translation - j.lowerTranslation) 0
  else if translation ≥ j.upperTranslation then b2max (translation - j.upperTranslation) 0
  else 0

/-- The limit part (b2_wheel_joint.rs 290-332): the new positions and the linear error. The arms of the impulse are
taken with the axis `m_ax` of the velocity phase, its direction is the axis now. -/
def Wheel.posLimit [Elem F] (j : Wheel F) (p : TwoP F) : TwoP F × F :=
  if j.enableLimit then
    let rA := j.frame.a.arm p.a.a j.localAnchorA
    let rB := j.frame.b.arm p.b.a j.localAnchorB
    let d := (p.b.c - p.a.c) + rB - rA
    let ax := (Rot.ofAngle p.a.a).mulV j.localXAxisA
    let sAx := cross (d + rA) j.ax
    let sBx := cross rB j.ax
    let c := j.limitError (dot ax d)
    if c ≠ 0 then
      let invMass := j.frame.a.invMass + j.frame.b.invMass + j.frame.a.invI * sAx * sAx + j.frame.b.invI * sBx * sBx
      let impulse := if invMass ≠ 0 then -c / invMass else 0
      (j.frame.move (impulse * ax) (impulse * sAx) (impulse * sBx) p, |c|)
    else (p, 0)
  else (p, 0)

/-- The perpendicular part (b2_wheel_joint.rs 335-369): the new positions and `|c|`. The effective mass is made with
the arms `m_s_ay` and `m_s_by` of the velocity phase. -/
def Wheel.posLine [Elem F] (j : Wheel F) (p : TwoP F) : TwoP F × F :=
  let rA := j.frame.a.arm p.a.a j.localAnchorA
  let rB := j.frame.b.arm p.b.a j.localAnchorB
  let d := (p.b.c - p.a.c) + rB - rA
  let ay := (Rot.ofAngle p.a.a).mulV j.localYAxisA
  let sAy := cross (d + rA) ay
  let sBy := cross rB ay
  let c := dot d ay
  let invMass := j.frame.a.invMass + j.frame.b.invMass + j.frame.a.invI * j.sAy * j.sAy + j.frame.b.invI * j.sBy * j.sBy
  let impulse := if invMass ≠ 0 then -c / invMass else 0
  (j.frame.move (impulse * ay) (impulse * sAy) (impulse * sBy) p, |c|)

/-- `solve_position_constraints` (b2_wheel_joint.rs 274-375). -/
def Wheel.solvePos [Elem F] (j : Wheel F) (p : TwoP F) : TwoP F × Bool :=
  let l := j.posLimit p
  let q := j.posLine l.1
  (q.1, decide (b2max l.2 q.2 ≤ linearSlop))

/-- `enable_limit` (joints/b2_wheel_joint.rs 235-243). -/
def Wheel.setEnableLimit (j : Wheel F) (flag : Bool) : Wheel F × Bool :=
  if flag ≠ j.enableLimit then ({ j with enableLimit := flag, lowerImpulse := 0, upperImpulse := 0 }, true) else (j, false)
/-- `set_limits` (joints/b2_wheel_joint.rs 256-266). -/
def Wheel.setLimits (j : Wheel F) (lower upper : F) : Option (Wheel F × Bool) :=
  if lower ≤ upper then
    if lower ≠ j.lowerTranslation ∨ upper ≠ j.upperTranslation then
      some ({ j with lowerImpulse := 0, upperImpulse := 0, lowerTranslation := lower, upperTranslation := upper }, true)
    else some (j, false)
  else none
/-- `get_reaction_force` (joints/b2_wheel_joint.rs 407-409). -/
def Wheel.reactionForce (j : Wheel F) (invDt : F) : Vec2 F :=
  invDt * (j.impulse * j.ay + (j.springImpulse + j.lowerImpulse - j.upperImpulse) * j.ax)
/-- `get_reaction_torque` (joints/b2_wheel_joint.rs 411-413). -/
def Wheel.reactionTorque (j : Wheel F) (invDt : F) : F := invDt * j.motorImpulse
/-- `get_motor_torque` (joints/b2_wheel_joint.rs 309-311). -/
def Wheel.motorTorque (j : Wheel F) (invDt : F) : F := invDt * j.motorImpulse

/-! ## Friction joint and motor joint -/

/-- The clamp on the linear impulse (b2_friction_joint.rs 139-142, b2_motor_joint.rs 171-174). -/
def clampImpulse [Elem F] (v : Vec2 F) (maxImpulse : F) : Vec2 F :=
  if v.lengthSquared > maxImpulse * maxImpulse then maxImpulse * v.normalize.1 else v

/-- `B2frictionJoint` (joints/b2_friction_joint.rs 63-87). -/
structure FrictionJ (F : Type) where
  bodyA : Nat
  bodyB : Nat
  localAnchorA : Vec2 F
  localAnchorB : Vec2 F
  maxForce : F
  maxTorque : F
  linearImpulse : Vec2 F
  angularImpulse : F
  frame : PairFrame F
  rA : Vec2 F
  rB : Vec2 F
  linearMass : Mat22 F
  angularMass : F

/-- The part of `init_velocity_constraints` before warm starting (b2_friction_joint.rs 25-73). -/
def FrictionJ.prepare [Elem F] (bodies : Nat → JBody F) (j : FrictionJ F) (p : TwoP F) : FrictionJ F :=
  let f : PairFrame F := ⟨bodies j.bodyA, bodies j.bodyB⟩
  let rA := f.a.arm p.a.a j.localAnchorA
  let rB := f.b.arm p.b.a j.localAnchorB
  { j with
    frame := f, rA := rA, rB := rB, linearMass := (f.pointK rA rB).inverse
    angularMass := invIfPos (f.a.invI + f.b.invI) }

/-- Warm starting (b2_friction_joint.rs 75-88). -/
def FrictionJ.warm (st : JStep F) (j : FrictionJ F) (s : Two F) : FrictionJ F × Two F :=
  if st.warmStarting then
    let j := { j with linearImpulse := st.dtRatio * j.linearImpulse, angularImpulse := j.angularImpulse * st.dtRatio }
    (j, j.frame.kick j.linearImpulse (cross j.rA j.linearImpulse + j.angularImpulse)
      (cross j.rB j.linearImpulse + j.angularImpulse) s)
  else ({ j with linearImpulse := ⟨0, 0⟩, angularImpulse := 0 }, s)

/-- `init_velocity_constraints` (b2_friction_joint.rs 19-94). -/
def FrictionJ.initVel [Elem F] (st : JStep F) (bodies : Nat → JBody F) (j : FrictionJ F) (p : TwoP F) (s : Two F) :
    FrictionJ F × Two F := (j.prepare bodies p).warm st s

/-- The angular part (b2_friction_joint.rs 114-126). -/
def FrictionJ.turn (st : JStep F) (j : FrictionJ F) (s : Two F) : FrictionJ F × Two F :=
  let cdot := s.b.w - s.a.w
  let impulse := -j.angularMass * cdot
  let maxImpulse := st.dt * j.maxTorque
  let new := b2clamp (j.angularImpulse + impulse) (-maxImpulse) maxImpulse
  ({ j with angularImpulse := new }, j.frame.twist (new - j.angularImpulse) s)

/-- The linear part (b2_friction_joint.rs 129-151). -/
def FrictionJ.slip [Elem F] (st : JStep F) (j : FrictionJ F) (s : Two F) : FrictionJ F × Two F :=
  let cdot := relVel s.a s.b j.rA j.rB
  let impulse := -(j.linearMass.mulV cdot)
  let new := clampImpulse (j.linearImpulse + impulse) (st.dt * j.maxForce)
  let impulse := new - j.linearImpulse
  ({ j with linearImpulse := new }, j.frame.kick impulse (cross j.rA impulse) (cross j.rB impulse) s)

/-- `solve_velocity_constraints` (b2_friction_joint.rs 96-157). -/
def FrictionJ.solveVel [Elem F] (st : JStep F) (j : FrictionJ F) (s : Two F) : FrictionJ F × Two F :=
  let r := j.turn st s
  r.1.slip st r.2

/-- `set_max_force` (joints/b2_friction_joint.rs 99-102). -/
def FrictionJ.setMaxForce (j : FrictionJ F) (force : F) : Option (FrictionJ F) :=
  if force ≥ 0 then some { j with maxForce := force } else none
/-- `set_max_torque` (joints/b2_friction_joint.rs 110-113). -/
def FrictionJ.setMaxTorque (j : FrictionJ F) (torque : F) : Option (FrictionJ F) :=
  if torque ≥ 0 then some { j with maxTorque := torque } else none
/-- `get_reaction_force` (joints/b2_friction_joint.rs 172-174). -/
def FrictionJ.reactionForce (j : FrictionJ F) (invDt : F) : Vec2 F := invDt * j.linearImpulse
/-- `get_reaction_torque` (joints/b2_friction_joint.rs 176-178). -/
def FrictionJ.reactionTorque (j : FrictionJ F) (invDt : F) : F := invDt * j.angularImpulse

/-- `B2motorJoint` (joints/b2_motor_joint.rs 209-236). -/
structure MotorJ (F : Type) where
  bodyA : Nat
  bodyB : Nat
  linearOffset : Vec2 F
  angularOffset : F
  maxForce : F
  maxTorque : F
  correctionFactor : F
  linearImpulse : Vec2 F
  angularImpulse : F
  frame : PairFrame F
  rA : Vec2 F
  rB : Vec2 F
  linearError : Vec2 F
  angularError : F
  linearMass : Mat22 F
  angularMass : F

/-- The part of `init_velocity_constraints` before warm starting (b2_motor_joint.rs 28-85). -/
def MotorJ.prepare [Elem F] (bodies : Nat → JBody F) (j : MotorJ F) (p : TwoP F) : MotorJ F :=
  let f : PairFrame F := ⟨bodies j.bodyA, bodies j.bodyB⟩
  let rA := f.a.arm p.a.a j.linearOffset
  let rB := (Rot.ofAngle p.b.a).mulV (-f.b.localCenter)
  { j with
    frame := f, rA := rA, rB := rB, linearMass := (f.pointK rA rB).inverse
    angularMass := invIfPos (f.a.invI + f.b.invI)
    linearError := p.b.c + rB - p.a.c - rA
    angularError := p.b.a - p.a.a - j.angularOffset }

/-- Warm starting (b2_motor_joint.rs 87-100). -/
def MotorJ.warm (st : JStep F) (j : MotorJ F) (s : Two F) : MotorJ F × Two F :=
  if st.warmStarting then
    let j := { j with linearImpulse := st.dtRatio * j.linearImpulse, angularImpulse := j.angularImpulse * st.dtRatio }
    (j, j.frame.kick j.linearImpulse (cross j.rA j.linearImpulse + j.angularImpulse)
      (cross j.rB j.linearImpulse + j.angularImpulse) s)
  else ({ j with linearImpulse := ⟨0, 0⟩, angularImpulse := 0 }, s)

/-- `init_velocity_constraints` (b2_motor_joint.rs 22-106). -/
def MotorJ.initVel [Elem F] (st : JStep F) (bodies : Nat → JBody F) (j : MotorJ F) (p : TwoP F) (s : Two F) :
    MotorJ F × Two F := (j.prepare bodies p).warm st s

/-- The angular part (b2_motor_joint.rs 145-157). -/
def MotorJ.turn (st : JStep F) (j : MotorJ F) (s : Two F) : MotorJ F × Two F :=
  let cdot := s.b.w - s.a.w + st.invDt * j.correctionFactor * j.angularError
  let impulse := -j.angularMass * cdot
  let maxImpulse := st.dt * j.maxTorque
  let new := b2clamp (j.angularImpulse + impulse) (-maxImpulse) maxImpulse
  ({ j with angularImpulse := new }, j.frame.twist (new - j.angularImpulse) s)

/-- The linear part (b2_motor_joint.rs 160-183). -/
def MotorJ.slip [Elem F] (st : JStep F) (j : MotorJ F) (s : Two F) : MotorJ F × Two F :=
  let cdot := relVel s.a s.b j.rA j.rB + (st.invDt * j.correctionFactor) * j.linearError
  let impulse := -(j.linearMass.mulV cdot)
  let new := clampImpulse (j.linearImpulse + impulse) (st.dt * j.maxForce)
  let impulse := new - j.linearImpulse
  ({ j with linearImpulse := new }, j.frame.kick impulse (cross j.rA impulse) (cross j.rB impulse) s)

/-- `solve_velocity_constraints` (b2_motor_joint.rs 108-189). -/
def MotorJ.solveVel [Elem F] (st : JStep F) (j : MotorJ F) (s : Two F) : MotorJ F × Two F :=
  let r := j.turn st s
  r.1.slip st r.2

/-- `set_max_force` (joints/b2_motor_joint.rs 143-146). -/
def MotorJ.setMaxForce (j : MotorJ F) (force : F) : Option (MotorJ F) :=
  if force ≥ 0 then some { j with maxForce := force } else none
/-- `set_max_torque` (joints/b2_motor_joint.rs 154-157). -/
def MotorJ.setMaxTorque (j : MotorJ F) (torque : F) : Option (MotorJ F) :=
  if torque ≥ 0 then some { j with maxTorque := torque } else none
/-- `set_correction_factor` (joints/b2_motor_joint.rs 165-168). -/
def MotorJ.setCorrectionFactor (j : MotorJ F) (factor : F) : Option (MotorJ F) :=
  if 0 ≤ factor ∧ factor ≤ 1 then some { j with correctionFactor := factor } else none
/-- `get_reaction_force` (joints/b2_motor_joint.rs 86-88). -/
def MotorJ.reactionForce (j : MotorJ F) (invDt : F) : Vec2 F := invDt * j.linearImpulse
/-- `get_reaction_torque` (joints/b2_motor_joint.rs 90-92). -/
def MotorJ.reactionTorque (j : MotorJ F) (invDt : F) : F := invDt * j.angularImpulse

/-! ## Mouse joint -/

/-- `B2mouseJoint` (joints/b2_mouse_joint.rs 177-199). Body A of a mouse joint is only in its base. -/
structure Mouse (F : Type) where
  bodyA : Nat
  bodyB : Nat
  localAnchorB : Vec2 F
  target : Vec2 F
  stiffness : F
  damping : F
  maxForce : F
  impulse : Vec2 F
  frame : JBody F
  beta : F
  gamma : F
  rB : Vec2 F
  mass : Mat22 F
  c : Vec2 F

/-- The part of `init_velocity_constraints` before warm starting (b2_mouse_joint.rs 17-61). -/
def Mouse.prepare [Elem F] (st : JStep F) (bodies : Nat → JBody F) (j : Mouse F) (p : Pos F) : Mouse F :=
  let b := bodies j.bodyB
  let h := st.dt
  let gamma := h * (j.damping + h * j.stiffness)
  let gamma := if gamma ≠ 0 then 1 / gamma else gamma
  let beta := h * j.stiffness * gamma
  let rB := b.arm p.a j.localAnchorB
  let kxy := -b.invI * rB.x * rB.y
  let k : Mat22 F := ⟨⟨b.invMass + b.invI * rB.y * rB.y + gamma, kxy⟩, ⟨kxy, b.invMass + b.invI * rB.x * rB.x + gamma⟩⟩
  { j with
    frame := b, gamma := gamma, beta := beta, rB := rB, mass := k.inverse
    c := beta * (p.c + rB - j.target) }

/-- `v_b += m_b p`, `w_b += i_b (r_b × p)` (b2_mouse_joint.rs 69-70, 99-100). -/
def Mouse.push (j : Mouse F) (p : Vec2 F) (s : Vel F) : Vel F :=
  ⟨s.v + j.frame.invMass * p, s.w + j.frame.invI * cross j.rB p⟩

/-- Damping and warm starting (b2_mouse_joint.rs 63-75). -/
def Mouse.warm (st : JStep F) (j : Mouse F) (s : Vel F) : Mouse F × Vel F :=
  let s : Vel F := ⟨s.v, s.w * (98 / 100)⟩
  if st.warmStarting then
    let j := { j with impulse := st.dtRatio * j.impulse }
    (j, j.push j.impulse s)
  else ({ j with impulse := ⟨0, 0⟩ }, s)

/-- `init_velocity_constraints` (b2_mouse_joint.rs 15-79). -/
def Mouse.initVel [Elem F] (st : JStep F) (bodies : Nat → JBody F) (j : Mouse F) (p : Pos F) (s : Vel F) :
    Mouse F × Vel F := (j.prepare st bodies p).warm st s

/-- `solve_velocity_constraints` (b2_mouse_joint.rs 81-104). -/
def Mouse.solveVel [Elem F] (st : JStep F) (j : Mouse F) (s : Vel F) : Mouse F × Vel F :=
  let cdot := s.v + crossSV s.w j.rB
  let impulse := j.mass.mulV (-(cdot + j.c + j.gamma * j.impulse))
  let new := j.impulse + impulse
  let maxImpulse := st.dt * j.maxForce
  let new := if new.lengthSquared > maxImpulse * maxImpulse then (maxImpulse / new.length) * new else new
  ({ j with impulse := new }, j.push (new - j.impulse) s)

/-- `get_reaction_force` (joints/b2_mouse_joint.rs 74-76). -/
def Mouse.reactionForce (j : Mouse F) (invDt : F) : Vec2 F := invDt * j.impulse

/-! ## Pulley joint -/

/-- `B2pulleyJoint` (joints/b2_pulley_joint.rs 221-249). -/
structure Pulley (F : Type) where
  bodyA : Nat
  bodyB : Nat
  groundAnchorA : Vec2 F
  groundAnchorB : Vec2 F
  lengthA : F
  lengthB : F
  localAnchorA : Vec2 F
  localAnchorB : Vec2 F
  constant : F
  ratio : F
  impulse : F
  frame : PairFrame F
  uA : Vec2 F
  uB : Vec2 F
  rA : Vec2 F
  rB : Vec2 F
  mass : F

/-- `new` (b2_pulley_joint.rs 20-63). -/
def Pulley.new (bodyA bodyB : Nat) (groundAnchorA groundAnchorB localAnchorA localAnchorB : Vec2 F)
    (lengthA lengthB ratio : F) : Option (Pulley F) :=
  if ratio ≠ 0 then
    some { bodyA := bodyA, bodyB := bodyB, groundAnchorA := groundAnchorA, groundAnchorB := groundAnchorB
           lengthA := lengthA, lengthB := lengthB, localAnchorA := localAnchorA, localAnchorB := localAnchorB
           constant := lengthA + ratio * lengthB, ratio := ratio, impulse := 0, frame := ⟨JBody.zero, JBody.zero⟩
           uA := ⟨0, 0⟩, uB := ⟨0, 0⟩, rA := ⟨0, 0⟩, rB := ⟨0, 0⟩, mass := 0 }
  else none

/-- The axis of one side of a pulley (b2_pulley_joint.rs 112-128, 228-244). -/
def pulleyAxis [Elem F] (u : Vec2 F) : Vec2 F := if u.length > 10 * linearSlop then (1 / u.length) * u else ⟨0, 0⟩

/-- The effective mass of a pulley before it is inverted (b2_pulley_joint.rs 131-137, 247-253). -/
def PairFrame.pulleyMass (f : PairFrame F) (ratio : F) (rA rB uA uB : Vec2 F) : F :=
  (f.a.invMass + f.a.invI * cross rA uA * cross rA uA) +
    ratio * ratio * (f.b.invMass + f.b.invI * cross rB uB * cross rB uB)

/-- The part of `init_velocity_constraints` before warm starting (b2_pulley_joint.rs 71-142). -/
def Pulley.prepare [Elem F] (bodies : Nat → JBody F) (j : Pulley F) (p : TwoP F) : Pulley F :=
  let f : PairFrame F := ⟨bodies j.bodyA, bodies j.bodyB⟩
  let rA := f.a.arm p.a.a j.localAnchorA
  let rB := f.b.arm p.b.a j.localAnchorB
  let uA := pulleyAxis (p.a.c + rA - j.groundAnchorA)
  let uB := pulleyAxis (p.b.c + rB - j.groundAnchorB)
  { j with frame := f, rA := rA, rB := rB, uA := uA, uB := uB, mass := invIfPos (f.pulleyMass j.ratio rA rB uA uB) }

/-- Applying the impulse `x` of a pulley (b2_pulley_joint.rs 150-156, 189-194). -/
def Pulley.push (j : Pulley F) (x : F) (s : Two F) : Two F :=
  let pA := -x * j.uA
  let pB := (-j.ratio * x) * j.uB
  ⟨⟨s.a.v + j.frame.a.invMass * pA, s.a.w + j.frame.a.invI * cross j.rA pA⟩,
   ⟨s.b.v + j.frame.b.invMass * pB, s.b.w + j.frame.b.invI * cross j.rB pB⟩⟩

/-- Warm starting (b2_pulley_joint.rs 144-161). -/
def Pulley.warm (st : JStep F) (j : Pulley F) (s : Two F) : Pulley F × Two F :=
  if st.warmStarting then
    let j := { j with impulse := j.impulse * st.dtRatio }
    (j, j.push j.impulse s)
  else ({ j with impulse := 0 }, s)

/-- `init_velocity_constraints` (b2_pulley_joint.rs 65-165). -/
def Pulley.initVel [Elem F] (st : JStep F) (bodies : Nat → JBody F) (j : Pulley F) (p : TwoP F) (s : Two F) :
    Pulley F × Two F := (j.prepare bodies p).warm st s

/-- `solve_velocity_constraints` (b2_pulley_joint.rs 167-198). -/
def Pulley.solveVel (j : Pulley F) (s : Two F) : Pulley F × Two F :=
  let vpA := s.a.v + crossSV s.a.w j.rA
  let vpB := s.b.v + crossSV s.b.w j.rB
  let cdot := -(dot j.uA vpA) - j.ratio * dot j.uB vpB
  let impulse := -j.mass * cdot
  ({ j with impulse := j.impulse + impulse }, j.push impulse s)

/-- `solve_position_constraints` (b2_pulley_joint.rs 200-276). -/
def Pulley.solvePos [Elem F] (j : Pulley F) (p : TwoP F) : TwoP F × Bool :=
  let rA := j.frame.a.arm p.a.a j.localAnchorA
  let rB := j.frame.b.arm p.b.a j.localAnchorB
  let dA := p.a.c + rA - j.groundAnchorA
  let dB := p.b.c + rB - j.groundAnchorB
  let uA := pulleyAxis dA
  let uB := pulleyAxis dB
  let mass := invIfPos (j.frame.pulleyMass j.ratio rA rB uA uB)
  let c := j.constant - dA.length - j.ratio * dB.length
  let impulse := -mass * c
  let pA := -impulse * uA
  let pB := (-j.ratio * impulse) * uB
  (⟨⟨p.a.c + j.frame.a.invMass * pA, p.a.a + j.frame.a.invI * cross rA pA⟩,
    ⟨p.b.c + j.frame.b.invMass * pB, p.b.a + j.frame.b.invI * cross rB pB⟩⟩, decide (|c| < linearSlop))

/-- `get_reaction_force` (joints/b2_pulley_joint.rs 118-121). -/
def Pulley.reactionForce (j : Pulley F) (invDt : F) : Vec2 F := invDt * (j.impulse * j.uB)

/-! ## Gear joint -/

/-- `B2gearJoint` (joints/b2_gear_joint.rs 145-200). `slideA` says that the first joint is prismatic (otherwise it is
revolute), `slideB` the same of the second. -/
structure Gear (F : Type) where
  bodyA : Nat
  bodyB : Nat
  bodyC : Nat
  bodyD : Nat
  slideA : Bool
  slideB : Bool
  localAnchorA : Vec2 F
  localAnchorB : Vec2 F
  localAnchorC : Vec2 F
  localAnchorD : Vec2 F
  localAxisC : Vec2 F
  localAxisD : Vec2 F
  referenceAngleA : F
  referenceAngleB : F
  constant : F
  ratio : F
  impulse : F
  fA : JBody F
  fB : JBody F
  fC : JBody F
  fD : JBody F
  jvAC : Vec2 F
  jvBD : Vec2 F
  jwA : F
  jwB : F
  jwC : F
  jwD : F
  mass : F

/-- Four velocities in local variables. -/
structure Four (F : Type) where
  a : Vel F
  b : Vel F
  c : Vel F
  d : Vel F
/-- Four positions in local variables. -/
structure FourP (F : Type) where
  a : Pos F
  b : Pos F
  c : Pos F
  d : Pos F

/-- One side of a gear (b2_gear_joint.rs 231-247, and 249-266 with the ratio): the linear part of the Jacobian and its
angular parts for the moving body (A or B) and for the other one (C or D). -/
def gearSide [Elem F] (slide : Bool) (ratio : F) (f g : JBody F) (anchorF anchorG axisG : Vec2 F) (aF aG : F) :
    Vec2 F × F × F :=
  if slide then
    let u := (Rot.ofAngle aG).mulV axisG
    let rG := g.arm aG anchorG
    let rF := f.arm aF anchorF
    (ratio * u, ratio * cross rF u, ratio * cross rG u)
  else (⟨0, 0⟩, ratio, ratio)

/-- What one side adds to the effective mass (b2_gear_joint.rs 236, 246, 254, 264-265). -/
def gearMass (slide : Bool) (ratio : F) (f g : JBody F) (jwF jwG : F) : F :=
  if slide then ratio * ratio * (g.invMass + f.invMass) + g.invI * jwG * jwG + f.invI * jwF * jwF
  else ratio * ratio * (f.invI + g.invI)

/-- The part of `init_velocity_constraints` before warm starting (b2_gear_joint.rs 190-269). The code does not multiply
by the ratio on side A; here the ratio of side A is 1. -/
def Gear.prepare [Elem F] (bodies : Nat → JBody F) (j : Gear F) (p : FourP F) : Gear F :=
  let fA := bodies j.bodyA
  let fB := bodies j.bodyB
  let fC := bodies j.bodyC
  let fD := bodies j.bodyD
  let sa := gearSide j.slideA 1 fA fC j.localAnchorA j.localAnchorC j.localAxisC p.a.a p.c.a
  let sb := gearSide j.slideB j.ratio fB fD j.localAnchorB j.localAnchorD j.localAxisD p.b.a p.d.a
  let m := gearMass j.slideA 1 fA fC sa.2.1 sa.2.2 + gearMass j.slideB j.ratio fB fD sb.2.1 sb.2.2
  { j with
    fA := fA, fB := fB, fC := fC, fD := fD, jvAC := sa.1, jwA := sa.2.1, jwC := sa.2.2
    jvBD := sb.1, jwB := sb.2.1, jwD := sb.2.2, mass := if m > 0 then 1 / m else 0 }

/-- Applying the impulse `x` of a gear (b2_gear_joint.rs 273-280, 315-322). -/
def Gear.push (j : Gear F) (x : F) (s : Four F) : Four F :=
  ⟨⟨s.a.v + (j.fA.invMass * x) * j.jvAC, s.a.w + j.fA.invI * x * j.jwA⟩,
   ⟨s.b.v + (j.fB.invMass * x) * j.jvBD, s.b.w + j.fB.invI * x * j.jwB⟩,
   ⟨s.c.v - (j.fC.invMass * x) * j.jvAC, s.c.w - j.fC.invI * x * j.jwC⟩,
   ⟨s.d.v - (j.fD.invMass * x) * j.jvBD, s.d.w - j.fD.invI * x * j.jwD⟩⟩

/-- Warm starting (b2_gear_joint.rs 271-285): the impulse is not scaled. -/
def Gear.warm (st : JStep F) (j : Gear F) (s : Four F) : Gear F × Four F :=
  if st.warmStarting then (j, j.push j.impulse s) else ({ j with impulse := 0 }, s)

/-- `init_velocity_constraints` (b2_gear_joint.rs 187-295). -/
def Gear.initVel [Elem F] (st : JStep F) (bodies : Nat → JBody F) (j : Gear F) (p : FourP F) (s : Four F) :
    Gear F × Four F := (j.prepare bodies p).warm st s

/-- `solve_velocity_constraints` (b2_gear_joint.rs 297-332). -/
def Gear.solveVel (j : Gear F) (s : Four F) : Gear F × Four F :=
  let cdot := dot j.jvAC (s.a.v - s.c.v) + dot j.jvBD (s.b.v - s.d.v)
  let cdot := cdot + ((j.jwA * s.a.w - j.jwC * s.c.w) + (j.jwB * s.b.w - j.jwD * s.d.w))
  let impulse := -j.mass * cdot
  ({ j with impulse := j.impulse + impulse }, j.push impulse s)

/-- The coordinate of one side of a gear (b2_gear_joint.rs 368, 380-382, 392, 404-406). -/
def gearCoordinate [Elem F] (slide : Bool) (f g : JBody F) (anchorF anchorG axisG : Vec2 F) (referenceAngle : F)
    (pF pG : Pos F) : F :=
  if slide then
    let rF := f.arm pF.a anchorF
    let pG' := anchorG - g.localCenter
    let pF' := (Rot.ofAngle pG.a).mulTV (rF + (pF.c - pG.c))
    dot (pF' - pG') axisG
  else pF.a - pG.a - referenceAngle

/-- `solve_position_constraints` (b2_gear_joint.rs 334-436): the linear error is the constant 0. -/
def Gear.solvePos [Elem F] (j : Gear F) (p : FourP F) : FourP F × Bool :=
  let sa := gearSide j.slideA 1 j.fA j.fC j.localAnchorA j.localAnchorC j.localAxisC p.a.a p.c.a
  let sb := gearSide j.slideB j.ratio j.fB j.fD j.localAnchorB j.localAnchorD j.localAxisD p.b.a p.d.a
  let mass := gearMass j.slideA 1 j.fA j.fC sa.2.1 sa.2.2 + gearMass j.slideB j.ratio j.fB j.fD sb.2.1 sb.2.2
  let coordinateA := gearCoordinate j.slideA j.fA j.fC j.localAnchorA j.localAnchorC j.localAxisC j.referenceAngleA p.a p.c
  let coordinateB := gearCoordinate j.slideB j.fB j.fD j.localAnchorB j.localAnchorD j.localAxisD j.referenceAngleB p.b p.d
  let c := (coordinateA + j.ratio * coordinateB) - j.constant
  let x := if mass > 0 then -c / mass else 0
  (⟨⟨p.a.c + (j.fA.invMass * x) * sa.1, p.a.a + j.fA.invI * x * sa.2.1⟩,
    ⟨p.b.c + (j.fB.invMass * x) * sb.1, p.b.a + j.fB.invI * x * sb.2.1⟩,
    ⟨p.c.c - (j.fC.invMass * x) * sa.1, p.c.a - j.fC.invI * x * sa.2.2⟩,
    ⟨p.d.c - (j.fD.invMass * x) * sb.1, p.d.a - j.fD.invI * x * sb.2.2⟩⟩, decide ((0 : F) < linearSlop))

/-- `get_reaction_force` (joints/b2_gear_joint.rs 75-78). -/
def Gear.reactionForce (j : Gear F) (invDt : F) : Vec2 F := invDt * (j.impulse * j.jvAC)
/-- `get_reaction_torque` (joints/b2_gear_joint.rs 80-83). -/
def Gear.reactionTorque (j : Gear F) (invDt : F) : F := invDt * (j.impulse * j.jwA)

/-! ## All joints, on the arrays of an island -/

/-- A joint: `dyn B2jointTraitDyn` (b2_joint.rs). -/
inductive Joint (F : Type) where
  | revolute (j : Revolute F)
  | prismatic (j : Prismatic F)
  | distance (j : DistanceJ F)
  | weld (j : Weld F)
  | wheel (j : Wheel F)
  | friction (j : FrictionJ F)
  | motor (j : MotorJ F)
  | pulley (j : Pulley F)
  | mouse (j : Mouse F)
  | gear (j : Gear F)

/-- Reading two velocities. -/
def loadTwo (vel : Arr (Vel F)) (a b : Nat) : Option (Two F) := do
  let x ← vel.get a
  let y ← vel.get b
  return ⟨x, y⟩
/-- Writing two velocities back. -/
def storeTwo (vel : Arr (Vel F)) (a b : Nat) (s : Two F) : Option (Arr (Vel F)) := do
  let vel ← vel.set a s.a
  vel.set b s.b
/-- Reading two positions. -/
def loadTwoP (pos : Arr (Pos F)) (a b : Nat) : Option (TwoP F) := do
  let x ← pos.get a
  let y ← pos.get b
  return ⟨x, y⟩
/-- Writing two positions back. -/
def storeTwoP (pos : Arr (Pos F)) (a b : Nat) (s : TwoP F) : Option (Arr (Pos F)) := do
  let pos ← pos.set a s.a
  pos.set b s.b
/-- Reading four velocities. -/
def loadFour (vel : Arr (Vel F)) (a b c d : Nat) : Option (Four F) := do
  let x ← vel.get a
  let y ← vel.get b
  let z ← vel.get c
  let t ← vel.get d
  return ⟨x, y, z, t⟩
/-- Writing four velocities back, A first and D last (b2_gear_joint.rs 287-294, 324-331). -/
def storeFour (vel : Arr (Vel F)) (a b c d : Nat) (s : Four F) : Option (Arr (Vel F)) := do
  let vel ← vel.set a s.a
  let vel ← vel.set b s.b
  let vel ← vel.set c s.c
  vel.set d s.d
/-- Reading four positions. -/
def loadFourP (pos : Arr (Pos F)) (a b c d : Nat) : Option (FourP F) := do
  let x ← pos.get a
  let y ← pos.get b
  let z ← pos.get c
  let t ← pos.get d
  return ⟨x, y, z, t⟩
/-- Writing four positions back (b2_gear_joint.rs 426-433). -/
def storeFourP (pos : Arr (Pos F)) (a b c d : Nat) (s : FourP F) : Option (Arr (Pos F)) := do
  let pos ← pos.set a s.a
  let pos ← pos.set b s.b
  let pos ← pos.set c s.c
  pos.set d s.d

/-- A function on local copies of two velocities, on the array; the joint is rebuilt with `mk`. -/
def onTwo {α : Type} (mk : α → Joint F) (vel : Arr (Vel F)) (a b : Nat) (f : Two F → α × Two F) :
    Option (Joint F × Arr (Vel F)) := do
  let s ← loadTwo vel a b
  let vel ← storeTwo vel a b (f s).2
  return (mk (f s).1, vel)
/-- A function on local copies of two positions, on the array. -/
def onTwoP (pos : Arr (Pos F)) (a b : Nat) (f : TwoP F → TwoP F × Bool) : Option (Arr (Pos F) × Bool) := do
  let s ← loadTwoP pos a b
  let pos ← storeTwoP pos a b (f s).1
  return (pos, (f s).2)

/-- `init_velocity_constraints` of a joint. `bodies` gives what the joint reads of its bodies. -/
def Joint.initVel [Elem F] (st : JStep F) (bodies : Nat → JBody F) (pos : Arr (Pos F)) (j : Joint F) (vel : Arr (Vel F)) :
    Option (Joint F × Arr (Vel F)) :=
  let two {α : Type} (mk : α → Joint F) (a b : Nat) (f : TwoP F → Two F → α × Two F) :
      Option (Joint F × Arr (Vel F)) := do
    let p ← loadTwoP pos (bodies a).index (bodies b).index
    onTwo mk vel (bodies a).index (bodies b).index (f p)
  match j with
  | .revolute j => two .revolute j.bodyA j.bodyB (j.initVel st bodies)
  | .prismatic j => two .prismatic j.bodyA j.bodyB (j.initVel st bodies)
  | .distance j => two .distance j.bodyA j.bodyB (j.initVel st bodies)
  | .weld j => two .weld j.bodyA j.bodyB (j.initVel st bodies)
  | .wheel j => two .wheel j.bodyA j.bodyB (j.initVel st bodies)
  | .friction j => two .friction j.bodyA j.bodyB (j.initVel st bodies)
  | .motor j => two .motor j.bodyA j.bodyB (j.initVel st bodies)
  | .pulley j => two .pulley j.bodyA j.bodyB (j.initVel st bodies)
  | .mouse j => do
    let p ← pos.get (bodies j.bodyB).index
    let s ← vel.get (bodies j.bodyB).index
    let vel ← vel.set (bodies j.bodyB).index (j.initVel st bodies p s).2
    return (.mouse (j.initVel st bodies p s).1, vel)
  | .gear j => do
    let a := (bodies j.bodyA).index
    let b := (bodies j.bodyB).index
    let c := (bodies j.bodyC).index
    let d := (bodies j.bodyD).index
    let p ← loadFourP pos a b c d
    let s ← loadFour vel a b c d
    let vel ← storeFour vel a b c d (j.initVel st bodies p s).2
    return (.gear (j.initVel st bodies p s).1, vel)

/-- `solve_velocity_constraints` of a joint. -/
def Joint.solveVel [Elem F] (st : JStep F) (j : Joint F) (vel : Arr (Vel F)) : Option (Joint F × Arr (Vel F)) :=
  match j with
  | .revolute j => onTwo .revolute vel j.frame.a.index j.frame.b.index (j.solveVel st)
  | .prismatic j => onTwo .prismatic vel j.frame.a.index j.frame.b.index (j.solveVel st)
  | .distance j => onTwo .distance vel j.frame.a.index j.frame.b.index (j.solveVel st)
  | .weld j => onTwo .weld vel j.frame.a.index j.frame.b.index j.solveVel
  | .wheel j => onTwo .wheel vel j.frame.a.index j.frame.b.index (j.solveVel st)
  | .friction j => onTwo .friction vel j.frame.a.index j.frame.b.index (j.solveVel st)
  | .motor j => onTwo .motor vel j.frame.a.index j.frame.b.index (j.solveVel st)
  | .pulley j => onTwo .pulley vel j.frame.a.index j.frame.b.index j.solveVel
  | .mouse j => do
    let s ← vel.get j.frame.index
    let vel ← vel.set j.frame.index (j.solveVel st s).2
    return (.mouse (j.solveVel st s).1, vel)
  | .gear j => do
    let s ← loadFour vel j.fA.index j.fB.index j.fC.index j.fD.index
    let vel ← storeFour vel j.fA.index j.fB.index j.fC.index j.fD.index (j.solveVel s).2
    return (.gear (j.solveVel s).1, vel)

/-- `solve_position_constraints` of a joint. Friction, motor and mouse joints do nothing
(b2_friction_joint.rs 159-167, b2_motor_joint.rs 191-199, b2_mouse_joint.rs 106-110). No joint changes its own state. -/
def Joint.solvePos [Elem F] (j : Joint F) (pos : Arr (Pos F)) : Option (Arr (Pos F) × Bool) :=
  match j with
  | .revolute j => onTwoP pos j.frame.a.index j.frame.b.index j.solvePos
  | .prismatic j => onTwoP pos j.frame.a.index j.frame.b.index j.solvePos
  | .distance j => onTwoP pos j.frame.a.index j.frame.b.index j.solvePos
  | .weld j => onTwoP pos j.frame.a.index j.frame.b.index j.solvePos
  | .wheel j => onTwoP pos j.frame.a.index j.frame.b.index j.solvePos
  | .pulley j => onTwoP pos j.frame.a.index j.frame.b.index j.solvePos
  | .friction _ => some (pos, true)
  | .motor _ => some (pos, true)
  | .mouse _ => some (pos, true)
  | .gear j => do
    let p ← loadFourP pos j.fA.index j.fB.index j.fC.index j.fD.index
    let pos ← storeFourP pos j.fA.index j.fB.index j.fC.index j.fD.index (j.solvePos p).1
    return (pos, (j.solvePos p).2)

/-- `get_reaction_force` of a joint: "the reaction force on body_b at the joint anchor" (b2_joint.rs 252-253). -/
def Joint.reactionForce (j : Joint F) (invDt : F) : Vec2 F :=
  match j with
  | .revolute j => j.reactionForce invDt
  | .prismatic j => j.reactionForce invDt
  | .distance j => j.reactionForce invDt
  | .weld j => j.reactionForce invDt
  | .wheel j => j.reactionForce invDt
  | .friction j => j.reactionForce invDt
  | .motor j => j.reactionForce invDt
  | .pulley j => j.reactionForce invDt
  | .mouse j => j.reactionForce invDt
  | .gear j => j.reactionForce invDt

/-- `get_reaction_torque` of a joint: "the reaction torque on body_b" (b2_joint.rs 255-256;
joints/b2_mouse_joint.rs 80-82; joints/b2_pulley_joint.rs 123-126). -/
def Joint.reactionTorque (j : Joint F) (invDt : F) : F :=
  match j with
  | .revolute j => j.reactionTorque invDt
  | .prismatic j => j.reactionTorque invDt
  | .distance j => j.reactionTorque invDt
  | .weld j => j.reactionTorque invDt
  | .wheel j => j.reactionTorque invDt
  | .friction j => j.reactionTorque invDt
  | .motor j => j.reactionTorque invDt
  | .pulley _ => 0
  | .mouse _ => invDt * 0
  | .gear j => j.reactionTorque invDt

/-- Initializing the joints of an island, one after the other (b2_island_private.rs 198-201). -/
def initJoints [Elem F] (st : JStep F) (bodies : Nat → JBody F) (pos : Arr (Pos F)) :
    List (Joint F) → Arr (Vel F) → Option (List (Joint F) × Arr (Vel F))
  | [], vel => some ([], vel)
  | j :: l, vel => do
    let r ← j.initVel st bodies pos vel
    let r' ← initJoints st bodies pos l r.2
    return (r.1 :: r'.1, r'.2)

/-- One velocity iteration over the joints of an island (b2_island_private.rs 209-212). -/
def solveJoints [Elem F] (st : JStep F) : List (Joint F) → Arr (Vel F) → Option (List (Joint F) × Arr (Vel F))
  | [], vel => some ([], vel)
  | j :: l, vel => do
    let r ← j.solveVel st vel
    let r' ← solveJoints st l r.2
    return (r.1 :: r'.1, r'.2)

/-- One position iteration over the joints of an island: the positions and `joints_okay`
(b2_island_private.rs 261-266). -/
def solvePosJoints [Elem F] : List (Joint F) → Arr (Pos F) → Option (Arr (Pos F) × Bool)
  | [], pos => some (pos, true)
  | j :: l, pos => do
    let r ← j.solvePos pos
    let r' ← solvePosJoints l r.1
    return (r'.1, r.2 && r'.2)

/-! ## Joints and contacts of an island together -/

/-- The velocity iterations: all joints, then all contacts (b2_island_private.rs 207-215). -/
def islandIterate [Elem F] (st : JStep F) (block : Bool) : Nat → List (Joint F) → List (VConstraint F) → Arr (Vel F) →
    Option (List (Joint F) × List (VConstraint F) × Arr (Vel F))
  | 0, js, l, vel => some (js, l, vel)
  | n + 1, js, l, vel => do
    let r ← solveJoints st js vel
    let q ← solveVelocities block l r.2
    islandIterate st block n r.1 q.1 q.2

/-- The velocity phase of an island with its joints (b2_island_private.rs 181-218): the joints, the final velocities,
and the contacts' manifolds with the impulses stored. -/
def islandVelocity [Elem F] (st : JStep F) (block : Bool) (iterations : Nat) (bodies : Nat → JBody F) (pos : Arr (Pos F))
    (vel : Arr (Vel F)) (contacts : List (ContactIn F)) (joints : List (Joint F)) :
    Option (List (Joint F) × Arr (Vel F) × List (Manifold F)) := do
  let cs ← setUp st.warmStarting st.dtRatio block pos vel contacts
  let vcs := cs.map (·.1)
  let vel ← warmIf st.warmStarting vcs vel
  let js ← initJoints st bodies pos joints vel
  let r ← islandIterate st block iterations js.1 vcs js.2
  return (r.1, r.2.2, (r.2.1.zip contacts).map fun x => storeInto x.1 x.2.manifold)

/-- The position iterations (b2_island_private.rs 255-274): the positions and `position_solved`. -/
def islandPositions [Elem F] (joints : List (Joint F)) (l : List (PConstraint F)) :
    Nat → Arr (Pos F) → Option (Arr (Pos F) × Bool)
  | 0, pos => some (pos, false)
  | n + 1, pos => do
    let q ← solvePositions l pos
    let r ← solvePosJoints joints q.2
    if q.1 && r.2 then return (r.1, true) else islandPositions joints l n r.1

/-! ## The coordinates of joints, and gears made of joints -/

/-- `get_joint_angle` of a revolute joint (joints/b2_revolute_joint.rs 153-157). -/
def Revolute.jointAngle (bodies : Nat → JBody F) (pos : Arr (Pos F)) (j : Revolute F) : F :=
  (pos.at' (bodies j.bodyB).index).a - (pos.at' (bodies j.bodyA).index).a - j.referenceAngle
/-- `get_joint_speed` of a revolute joint (joints/b2_revolute_joint.rs 160-164). -/
def Revolute.jointSpeed (bodies : Nat → JBody F) (vel : Arr (Vel F)) (j : Revolute F) : F :=
  (vel.at' (bodies j.bodyB).index).w - (vel.at' (bodies j.bodyA).index).w
/-- `get_joint_translation` of a prismatic joint (b2_prismatic_joint.rs 462-482). -/
def Prismatic.jointTranslation [Elem F] (bodies : Nat → JBody F) (pos : Arr (Pos F)) (j : Prismatic F) : F :=
  let a := bodies j.bodyA
  let b := bodies j.bodyB
  let pA := ((pos.at' a.index).xf a.localCenter).mulV j.localAnchorA
  let pB := ((pos.at' b.index).xf b.localCenter).mulV j.localAnchorB
  dot (pB - pA) ((Rot.ofAngle (pos.at' a.index).a).mulV j.localXAxisA)
/-- `get_joint_speed` of a prismatic joint (b2_prismatic_joint.rs 484-508). -/
def Prismatic.jointSpeed [Elem F] (bodies : Nat → JBody F) (pos : Arr (Pos F)) (vel : Arr (Vel F)) (j : Prismatic F) : F :=
  let a := bodies j.bodyA
  let b := bodies j.bodyB
  let rA := a.arm (pos.at' a.index).a j.localAnchorA
  let rB := b.arm (pos.at' b.index).a j.localAnchorB
  let p1 := (pos.at' a.index).c + rA
  let p2 := (pos.at' b.index).c + rB
  let d := p2 - p1
  let axis := (Rot.ofAngle (pos.at' a.index).a).mulV j.localXAxisA
  let wA := (vel.at' a.index).w
  let wB := (vel.at' b.index).w
  dot d (crossSV wA axis) + dot axis ((vel.at' b.index).v + crossSV wB rB - (vel.at' a.index).v - crossSV wA rA)

/-- What a gear takes from one of its joints (b2_gear_joint.rs 46-84): the bodies C and A, whether the joint is
prismatic, the anchors on A and C, the axis on C, the reference angle and the coordinate. `none` (a panic) for other
joints. -/
def gearJoint [Elem F] (bodies : Nat → JBody F) (pos : Arr (Pos F)) :
    Joint F → Option (Nat × Nat × Bool × Vec2 F × Vec2 F × Vec2 F × F × F)
  | .revolute j => some (j.bodyA, j.bodyB, false, j.localAnchorB, j.localAnchorA, ⟨0, 0⟩, j.referenceAngle,
      (pos.at' (bodies j.bodyB).index).a - (pos.at' (bodies j.bodyA).index).a - j.referenceAngle)
  | .prismatic j =>
    let xfA := (pos.at' (bodies j.bodyB).index).xf (bodies j.bodyB).localCenter
    let xfC := (pos.at' (bodies j.bodyA).index).xf (bodies j.bodyA).localCenter
    let pA := xfC.q.mulTV (xfA.q.mulV j.localAnchorB + (xfA.p - xfC.p))
    some (j.bodyA, j.bodyB, true, j.localAnchorB, j.localAnchorA, j.localXAxisA, j.referenceAngle,
      dot (pA - j.localAnchorA) j.localXAxisA)
  | _ => none

/-- `new` (b2_gear_joint.rs 30-185). The bodies A and B of the gear are those of the definition; the second bodies of
the two joints (`m_body_a`, `m_body_b` in the code) must be dynamic and are used for the geometry only. -/
def Gear.new [Elem F] (bodies : Nat → JBody F) (pos : Arr (Pos F)) (dynamic : Nat → Bool) (bodyA bodyB : Nat)
    (joint1 joint2 : Joint F) (ratio : F) : Option (Gear F) := do
  let x ← gearJoint bodies pos joint1
  if dynamic x.2.1 then
    let y ← gearJoint bodies pos joint2
    if dynamic y.2.1 then
      return { bodyA := bodyA, bodyB := bodyB, bodyC := x.1, bodyD := y.1, slideA := x.2.2.1, slideB := y.2.2.1
               localAnchorA := x.2.2.2.1, localAnchorB := y.2.2.2.1, localAnchorC := x.2.2.2.2.1
               localAnchorD := y.2.2.2.2.1, localAxisC := x.2.2.2.2.2.1, localAxisD := y.2.2.2.2.2.1
               referenceAngleA := x.2.2.2.2.2.2.1, referenceAngleB := y.2.2.2.2.2.2.1
               constant := x.2.2.2.2.2.2.2 + ratio * y.2.2.2.2.2.2.2, ratio := ratio, impulse := 0
               fA := JBody.zero, fB := JBody.zero, fC := JBody.zero, fD := JBody.zero, jvAC := ⟨0, 0⟩, jvBD := ⟨0, 0⟩
               jwA := 0, jwB := 0, jwC := 0, jwD := 0, mass := 0 }
    else none
  else none

end
end B2
