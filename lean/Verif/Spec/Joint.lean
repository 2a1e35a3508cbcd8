import Verif.Model.Joint
import Verif.Spec.ContactSolver

/-!
# What joints are for

Where a joint holds its bodies, what its bodies got from it, and how the points of a body move.
-/
namespace B2

section
variable {F : Type} [Field F] [LinearOrder F]

/-! ## The bodies and the anchors of a joint -/

/-- The first body of a joint. -/
def Joint.bodyA : Joint F → Nat
  | .revolute j => j.bodyA | .prismatic j => j.bodyA | .distance j => j.bodyA | .weld j => j.bodyA
  | .wheel j => j.bodyA | .friction j => j.bodyA | .motor j => j.bodyA | .pulley j => j.bodyA
  | .mouse j => j.bodyA | .gear j => j.bodyA
/-- The second body of a joint. -/
def Joint.bodyB : Joint F → Nat
  | .revolute j => j.bodyB | .prismatic j => j.bodyB | .distance j => j.bodyB | .weld j => j.bodyB
  | .wheel j => j.bodyB | .friction j => j.bodyB | .motor j => j.bodyB | .pulley j => j.bodyB
  | .mouse j => j.bodyB | .gear j => j.bodyB

/-- The bodies that a joint acts on. -/
def Joint.touched : Joint F → List Nat
  | .mouse j => [j.bodyB]
  | .gear j => [j.bodyA, j.bodyB, j.bodyC, j.bodyD]
  | j => [j.bodyA, j.bodyB]

/-- All kinds of joints but pulleys, mouse joints and gears: the joints that hold one body to another. -/
def Joint.plain : Joint F → Bool
  | .pulley _ | .mouse _ | .gear _ => false
  | _ => true

/-- The anchor on body A in the coordinates of body A. A motor joint holds the origin of body B at its linear offset. -/
def Joint.localAnchorA : Joint F → Vec2 F
  | .revolute j => j.localAnchorA | .prismatic j => j.localAnchorA | .distance j => j.localAnchorA
  | .weld j => j.localAnchorA | .wheel j => j.localAnchorA | .friction j => j.localAnchorA | .motor j => j.linearOffset
  | .pulley j => j.localAnchorA | .mouse _ => ⟨0, 0⟩ | .gear j => j.localAnchorA
/-- The anchor on body B in the coordinates of body B. -/
def Joint.localAnchorB : Joint F → Vec2 F
  | .revolute j => j.localAnchorB | .prismatic j => j.localAnchorB | .distance j => j.localAnchorB
  | .weld j => j.localAnchorB | .wheel j => j.localAnchorB | .friction j => j.localAnchorB | .motor _ => ⟨0, 0⟩
  | .pulley j => j.localAnchorB | .mouse j => j.localAnchorB | .gear j => j.localAnchorB

/-- Where the point of body `b` with local coordinates `x` is in the world. -/
def JBody.worldPoint [Elem F] (b : JBody F) (pos : Arr (Pos F)) (x : Vec2 F) : Vec2 F :=
  ((pos.at' b.index).xf b.localCenter).mulV x
/-- The anchor on body A in the world. -/
def Joint.anchorA [Elem F] (j : Joint F) (bodies : Nat → JBody F) (pos : Arr (Pos F)) : Vec2 F :=
  (bodies j.bodyA).worldPoint pos j.localAnchorA
/-- The anchor on body B in the world. -/
def Joint.anchorB [Elem F] (j : Joint F) (bodies : Nat → JBody F) (pos : Arr (Pos F)) : Vec2 F :=
  (bodies j.bodyB).worldPoint pos j.localAnchorB

/-- The point where a joint pushes on body A. A joint that lets its anchors be apart (prismatic, wheel and distance
joints) pushes on A on the line of its force through the anchor of B; the others push at the anchor of A. -/
def Joint.pushPointA [Elem F] (j : Joint F) (bodies : Nat → JBody F) (pos : Arr (Pos F)) : Vec2 F :=
  match j with
  | .prismatic _ | .wheel _ | .distance _ => j.anchorB bodies pos
  | _ => j.anchorA bodies pos

/-! ## What a joint does in a step -/

/-- The solver functions of a joint called on arrays of velocities `vs`, one after the other. Between the calls anything
may happen to the velocities. For each call: the velocities before and after. -/
def Joint.solves [Elem F] (st : JStep F) (j : Joint F) :
    List (Arr (Vel F)) → Option (Joint F × List (Arr (Vel F) × Arr (Vel F)))
  | [] => some (j, [])
  | v :: vs => do
    let r ← j.solveVel st v
    let r' ← r.1.solves st vs
    return (r'.1, (v, r.2) :: r'.2)

/-- What a joint does in the velocity phase of a step: it is initialized once, then solved any number of times. For
each call: the velocities before and after. -/
def Joint.calls [Elem F] (st : JStep F) (bodies : Nat → JBody F) (pos : Arr (Pos F)) (j : Joint F) (v : Arr (Vel F))
    (vs : List (Arr (Vel F))) : Option (Joint F × List (Arr (Vel F) × Arr (Vel F))) := do
  let r ← j.initVel st bodies pos v
  let r' ← r.1.solves st vs
  return (r'.1, (v, r.2) :: r'.2)

/-- The momentum that body `i` of mass `m` got in a list of calls. -/
def momentumGained (m : F) (i : Nat) (log : List (Arr (Vel F) × Arr (Vel F))) : Vec2 F :=
  ⟨(log.map fun e => m * ((e.2.at' i).v.x - (e.1.at' i).v.x)).sum,
   (log.map fun e => m * ((e.2.at' i).v.y - (e.1.at' i).v.y)).sum⟩
/-- The angular momentum about its centre of mass that body `i` with moment of inertia `I` got in a list of calls. -/
def spinGained (I : F) (i : Nat) (log : List (Arr (Vel F) × Arr (Vel F))) : F :=
  (log.map fun e => I * ((e.2.at' i).w - (e.1.at' i).w)).sum

/-- The velocity of the point of body `i` that is at `x`. -/
def velocityAt (pos : Arr (Pos F)) (vel : Arr (Vel F)) (i : Nat) (x : Vec2 F) : Vec2 F :=
  ⟨(vel.at' i).v.x - (vel.at' i).w * (x.y - (pos.at' i).c.y), (vel.at' i).v.y + (vel.at' i).w * (x.x - (pos.at' i).c.x)⟩

/-- A joint as it is handed to the solver of an island of `n` bodies: its bodies are two different bodies of the
island, inverse masses and moments of inertia are not negative and at least one mass is finite. -/
structure Joint.Ok (n : Nat) (bodies : Nat → JBody F) (j : Joint F) : Prop where
  indexA : (bodies j.bodyA).index < n
  indexB : (bodies j.bodyB).index < n
  ne : (bodies j.bodyA).index ≠ (bodies j.bodyB).index
  massA : 0 ≤ (bodies j.bodyA).invMass
  massB : 0 ≤ (bodies j.bodyB).invMass
  mass : 0 < (bodies j.bodyA).invMass + (bodies j.bodyB).invMass
  inertiaA : 0 ≤ (bodies j.bodyA).invI
  inertiaB : 0 ≤ (bodies j.bodyB).invI

/-- The most that the motors and the friction of a joint may do is not negative, and its limits only push. -/
def Joint.Sane : Joint F → Prop
  | .revolute j => 0 ≤ j.maxMotorTorque
  | .prismatic j => 0 ≤ j.maxMotorForce
  | .wheel j => 0 ≤ j.maxMotorTorque
  | .distance j => 0 ≤ j.lowerImpulse ∧ 0 ≤ j.upperImpulse
  | .friction j => 0 ≤ j.maxForce ∧ 0 ≤ j.maxTorque
  | .motor j => 0 ≤ j.maxForce ∧ 0 ≤ j.maxTorque
  | .mouse j => 0 ≤ j.maxForce
  | _ => True

/-- A joint keeps to its bounds: a motor, a friction, motor or mouse joint uses no more force and torque than it may, a
motor that is disabled uses none, limits only push, and a limit that is disabled does nothing. -/
def Joint.Within (invDt : F) : Joint F → Prop
  | .revolute j => |j.motorTorque invDt| ≤ j.maxMotorTorque ∧ (j.enableMotor = false → j.motorTorque invDt = 0) ∧
      (0 ≤ j.lowerImpulse ∧ 0 ≤ j.upperImpulse) ∧ (j.enableLimit = false → j.lowerImpulse = 0 ∧ j.upperImpulse = 0)
  | .prismatic j => |j.motorForce invDt| ≤ j.maxMotorForce ∧ (j.enableMotor = false → j.motorForce invDt = 0) ∧
      (0 ≤ j.lowerImpulse ∧ 0 ≤ j.upperImpulse) ∧ (j.enableLimit = false → j.lowerImpulse = 0 ∧ j.upperImpulse = 0)
  | .wheel j => |j.motorTorque invDt| ≤ j.maxMotorTorque ∧ (j.enableMotor = false → j.motorTorque invDt = 0) ∧
      (0 ≤ j.lowerImpulse ∧ 0 ≤ j.upperImpulse) ∧ (j.enableLimit = false → j.lowerImpulse = 0 ∧ j.upperImpulse = 0)
  | .distance j => 0 ≤ j.lowerImpulse ∧ 0 ≤ j.upperImpulse
  | .friction j => (j.reactionForce invDt).lengthSquared ≤ j.maxForce ^ 2 ∧ |j.reactionTorque invDt| ≤ j.maxTorque
  | .motor j => (j.reactionForce invDt).lengthSquared ≤ j.maxForce ^ 2 ∧ |j.reactionTorque invDt| ≤ j.maxTorque
  | .mouse j => (j.reactionForce invDt).lengthSquared ≤ j.maxForce ^ 2
  | _ => True

/-- The bodies move as the joint asks, at the positions `pos`.

* A revolute joint holds its two anchors together: their velocities are equal. So does a weld, and if it is rigid and a
  body can turn, both bodies turn at the same rate.
* A prismatic joint and a wheel let the anchor of B move along the axis only, as seen from A. With a prismatic joint both
  bodies turn at the same rate, if one can turn.
* A distance joint keeps the distance of the anchors if its limits are equal; otherwise the distance does not grow beyond
  the upper limit within a step, and the joint pulls only when it would.
* A friction joint stops the motion of its anchors against each other, or pushes with all its force. A motor joint makes
  its anchors meet at the speed it asks for, or pushes with all its force.
* A pulley keeps the length of one side plus the ratio times the length of the other.

Nothing is said of mouse joints and gears. -/
def Joint.Settled [Elem F] (st : JStep F) (bodies : Nat → JBody F) (pos : Arr (Pos F)) (vel : Arr (Vel F)) (j : Joint F) :
    Prop :=
  let a := bodies j.bodyA
  let b := bodies j.bodyB
  let xA := j.anchorA bodies pos
  let xB := j.anchorB bodies pos
  let vA := velocityAt pos vel a.index xA
  let vB := velocityAt pos vel b.index xB
  let world := (Rot.ofAngle (pos.at' a.index).a).mulV
  let canTurn := 0 < a.invI + b.invI
  let sameTurn := (vel.at' a.index).w = (vel.at' b.index).w
  match j with
  | .revolute _ => vA = vB
  | .weld j => vA = vB ∧ (j.stiffness ≤ 0 → canTurn → sameTurn)
  | .prismatic j => dot (world j.localYAxisA) (vB - velocityAt pos vel a.index xB) = 0 ∧ (canTurn → sameTurn)
  | .wheel j => dot (world j.localYAxisA) (vB - velocityAt pos vel a.index xB) = 0
  | .distance j => linearSlop < (xB - xA).length →
      if j.minLength < j.maxLength then
        let slack := max 0 (j.maxLength - (xB - xA).length) * st.invDt
        dot (xB - xA) (vB - vA) ≤ (xB - xA).length * slack ∧
          (j.upperImpulse = 0 ∨ dot (xB - xA) (vB - vA) = (xB - xA).length * slack)
      else dot (xB - xA) (vB - vA) = 0
  | .friction j => vA = vB ∨ (j.reactionForce st.invDt).lengthSquared = j.maxForce ^ 2
  | .motor j => vB - vA = (-(st.invDt * j.correctionFactor)) * (xB - xA) ∨
      (j.reactionForce st.invDt).lengthSquared = j.maxForce ^ 2
  | .pulley j =>
      let dA := xA - j.groundAnchorA
      let dB := xB - j.groundAnchorB
      10 * linearSlop < dA.length → 10 * linearSlop < dB.length →
        dot dA vA / dA.length + j.ratio * (dot dB vB / dB.length) = 0
  | .mouse _ => True
  | .gear _ => True

/-- What a joint must satisfy besides `Joint.Ok` to be solved: axes of length one, a pulley with a ratio that is not 0,
and a friction or motor joint that may push with more than the smallest float in a step. -/
def Joint.Solvable [Elem F] (st : JStep F) : Joint F → Prop
  | .prismatic j => j.localYAxisA.lengthSquared = 1
  | .wheel j => j.localYAxisA.lengthSquared = 1
  | .friction j => epsilon ≤ st.dt * j.maxForce
  | .motor j => epsilon ≤ st.dt * j.maxForce
  | .pulley j => j.ratio ≠ 0
  | _ => True

/-- A joint that only holds its bodies: it has no motor that is on, no spring and no target, and its axes have length
one. (A spring of a distance joint does nothing if its limits are equal.) -/
def Joint.Passive : Joint F → Prop
  | .revolute j => j.enableMotor = false
  | .prismatic j => j.enableMotor = false ∧ j.localXAxisA.lengthSquared = 1 ∧ j.localYAxisA.lengthSquared = 1
  | .wheel j => (j.enableMotor = false ∧ 0 ≤ j.maxMotorTorque) ∧ j.stiffness ≤ 0 ∧ j.localXAxisA.lengthSquared = 1 ∧
      j.localYAxisA.lengthSquared = 1
  | .distance j => j.minLength < j.maxLength → j.stiffness ≤ 0
  | .weld j => j.stiffness ≤ 0
  | .pulley _ => True
  | .gear j => (j.slideA = true → j.localAxisC.lengthSquared = 1) ∧ (j.slideB = true → j.localAxisD.lengthSquared = 1)
  | .friction _ | .motor _ | .mouse _ => False

/-- The masses that a joint finds at its bodies are those of the island, and its bodies are different ones, or the same
static body (both joints of a gear are often on the ground). -/
def Joint.Knows (bodies : Nat → JBody F) (invM invI : Nat → F) (j : Joint F) : Prop :=
  (j.touched.Pairwise fun a b => (bodies a).index ≠ (bodies b).index ∨ (bodies a).invMass = 0 ∧ (bodies a).invI = 0) ∧
  ∀ b ∈ j.touched, (bodies b).invMass = invM (bodies b).index ∧ (bodies b).invI = invI (bodies b).index

/-! ## Gears -/

/-- The joints that a gear can be made of. -/
def Joint.geared : Joint F → Bool
  | .revolute _ | .prismatic _ => true
  | _ => false

/-- `get_joint_speed` of a revolute or prismatic joint: how fast its angle or its translation grows. -/
def Joint.speed [Elem F] (bodies : Nat → JBody F) (pos : Arr (Pos F)) (vel : Arr (Vel F)) : Joint F → F
  | .revolute j => j.jointSpeed bodies vel
  | .prismatic j => j.jointSpeed bodies pos vel
  | _ => 0

/-- A prismatic joint holds its anchors on its axis. -/
def Joint.Aligned [Elem F] (bodies : Nat → JBody F) (pos : Arr (Pos F)) : Joint F → Prop
  | .prismatic j => ∃ t : F, (Joint.prismatic j).anchorB bodies pos - (Joint.prismatic j).anchorA bodies pos =
      t * (Rot.ofAngle (pos.at' (bodies j.bodyA).index).a).mulV j.localXAxisA
  | _ => True

/-- The bodies of a revolute joint are not both unable to turn; those of a prismatic joint not both unable to move. -/
def Joint.Movable (bodies : Nat → JBody F) : Joint F → Prop
  | .revolute j => 0 < (bodies j.bodyA).invI + (bodies j.bodyB).invI
  | .prismatic j => 0 < (bodies j.bodyA).invMass + (bodies j.bodyB).invMass
  | _ => False

/-- The axis of a prismatic joint has length one, as `new` makes it. -/
def Joint.UnitAxis : Joint F → Prop
  | .prismatic j => j.localXAxisA.lengthSquared = 1
  | _ => True

/-- `get_joint_angle` of a revolute joint, `get_joint_translation` of a prismatic joint. -/
def Joint.coordinate [Elem F] (bodies : Nat → JBody F) (pos : Arr (Pos F)) : Joint F → F
  | .revolute j => j.jointAngle bodies pos
  | .prismatic j => j.jointTranslation bodies pos
  | _ => 0

end
end B2
