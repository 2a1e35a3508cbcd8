import Verif.Proofs.JointGear
import Mathlib.Data.Rat.Sqrt

/-!
# Joints to compute with

Rational bodies at angle 0. The square root is exact on squares, sine and cosine are exact at 0; no example asks for
other values.
-/
namespace B2

/-- Square roots of squares, sine and cosine of 0. -/
@[reducible] def jElem : Elem ℚ := ⟨Rat.sqrt, fun x => x, fun x => 1 - x * x / 2, fun x => x, 3⟩
attribute [local instance] jElem

namespace JEx

/-- Body 0 of mass 1 and moment of inertia 1, body 1 of mass 1/2 and moment of inertia 1/3; bodies 2 and 3 likewise;
body 4 is static. -/
def bodies : Nat → JBody ℚ
  | 0 => ⟨0, ⟨0, 0⟩, 1, 1⟩
  | 1 => ⟨1, ⟨0, 0⟩, 2, 3⟩
  | 2 => ⟨2, ⟨0, 0⟩, 1, 1⟩
  | 3 => ⟨3, ⟨0, 0⟩, 2, 3⟩
  | _ => ⟨4, ⟨0, 0⟩, 0, 0⟩
/-- Where they are. -/
def pos : Arr (Pos ℚ) := ⟨5, fun i => match i with
  | 0 => ⟨⟨0, 0⟩, 0⟩ | 1 => ⟨⟨4, 0⟩, 0⟩ | 2 => ⟨⟨0, 6⟩, 0⟩ | 3 => ⟨⟨4, 6⟩, 0⟩ | _ => ⟨⟨0, -5⟩, 0⟩⟩
/-- How they move. -/
def vel : Arr (Vel ℚ) := ⟨5, fun i => match i with
  | 0 => ⟨⟨1, 0⟩, 1⟩ | 1 => ⟨⟨0, 1⟩, 2⟩ | 2 => ⟨⟨1, 3⟩, 0⟩ | 3 => ⟨⟨-1, 0⟩, 1⟩ | _ => ⟨⟨0, 0⟩, 0⟩⟩
/-- A step of 1/2. -/
def st : JStep ℚ := ⟨1 / 2, 2, 1, true⟩
def zf : PairFrame ℚ := ⟨JBody.zero, JBody.zero⟩
def zm : Mat22 ℚ := ⟨⟨0, 0⟩, ⟨0, 0⟩⟩

/-- A hinge half way between bodies 0 and 1, with a motor and a limit. -/
def revolute : Revolute ℚ :=
  { bodyA := 0, bodyB := 1, localAnchorA := ⟨2, 0⟩, localAnchorB := ⟨-2, 0⟩, referenceAngle := 0
    enableLimit := true, lowerAngle := -1, upperAngle := 0, enableMotor := true, motorSpeed := 3, maxMotorTorque := 1
    impulse := ⟨1, 0⟩, motorImpulse := 1 / 4, lowerImpulse := 0, upperImpulse := 1
    frame := zf, rA := ⟨0, 0⟩, rB := ⟨0, 0⟩, k := zm, angle := 0, axialMass := 0 }
/-- A slider along the line of bodies 0 and 1. -/
def prismatic : Prismatic ℚ :=
  { bodyA := 0, bodyB := 1, localAnchorA := ⟨1, 0⟩, localAnchorB := ⟨-1, 0⟩, localXAxisA := ⟨1, 0⟩, localYAxisA := ⟨0, 1⟩
    referenceAngle := 0, lowerTranslation := 0, upperTranslation := 2, maxMotorForce := 1, motorSpeed := 3
    enableLimit := true, enableMotor := true, impulse := ⟨1, 0⟩, motorImpulse := 1 / 4, lowerImpulse := 0, upperImpulse := 1
    frame := zf, axis := ⟨0, 0⟩, perp := ⟨0, 0⟩, s1 := 0, s2 := 0, a1 := 0, a2 := 0, k := zm, translation := 0, axialMass := 0 }
/-- A rod between the centres of bodies 0 and 1. -/
def distance : DistanceJ ℚ := DistanceJ.new 0 1 ⟨0, 0⟩ ⟨0, 0⟩ 4 4 4 0 0
/-- A spring between the centres of bodies 0 and 1, with limits; the impulses of an earlier step are kept. -/
def spring : DistanceJ ℚ := { DistanceJ.new 0 1 ⟨0, 0⟩ ⟨0, 0⟩ 3 1 4 10 1 with impulse := 1, upperImpulse := 2 }
/-- A weld half way between bodies 0 and 1. -/
def weld : Weld ℚ :=
  { bodyA := 0, bodyB := 1, localAnchorA := ⟨2, 0⟩, localAnchorB := ⟨-2, 0⟩, referenceAngle := 0, stiffness := 0, damping := 0
    impulse := ⟨1, 0, 2⟩, frame := zf, bias := 0, gamma := 0, rA := ⟨0, 0⟩, rB := ⟨0, 0⟩
    mass := ⟨⟨0, 0, 0⟩, ⟨0, 0, 0⟩, ⟨0, 0, 0⟩⟩ }
/-- A wheel: body 1 on an axis of body 0. -/
def wheel : Wheel ℚ :=
  { Wheel.new 0 1 ⟨1, 0⟩ ⟨0, 0⟩ ⟨1, 0⟩ (-1) 3 1 3 10 1 true true with impulse := 1, upperImpulse := 1 }
/-- Friction between bodies 0 and 1. -/
def friction : FrictionJ ℚ :=
  { bodyA := 0, bodyB := 1, localAnchorA := ⟨2, 0⟩, localAnchorB := ⟨-2, 0⟩, maxForce := 2, maxTorque := 1
    linearImpulse := ⟨0, 0⟩, angularImpulse := 0, frame := zf, rA := ⟨0, 0⟩, rB := ⟨0, 0⟩, linearMass := zm, angularMass := 0 }
/-- A motor joint that wants body 1 where it is. -/
def motor : MotorJ ℚ :=
  { bodyA := 0, bodyB := 1, linearOffset := ⟨4, 0⟩, angularOffset := 0, maxForce := 100, maxTorque := 1
    correctionFactor := 1 / 4, linearImpulse := ⟨0, 0⟩, angularImpulse := 0, frame := zf, rA := ⟨0, 0⟩, rB := ⟨0, 0⟩
    linearError := ⟨0, 0⟩, angularError := 0, linearMass := zm, angularMass := 0 }
/-- A pulley: body 0 hangs 3 below its ground anchor, body 1 hangs 4 below its one. -/
def pulley : Pulley ℚ :=
  { bodyA := 0, bodyB := 1, groundAnchorA := ⟨0, 3⟩, groundAnchorB := ⟨4, 4⟩, lengthA := 3, lengthB := 4
    localAnchorA := ⟨0, 0⟩, localAnchorB := ⟨0, 0⟩, constant := 11, ratio := 2, impulse := 0, frame := zf, uA := ⟨0, 0⟩
    uB := ⟨0, 0⟩, rA := ⟨0, 0⟩, rB := ⟨0, 0⟩, mass := 0 }
/-- A mouse joint on body 1. -/
def mouse : Mouse ℚ :=
  { bodyA := 0, bodyB := 1, localAnchorB := ⟨0, 0⟩, target := ⟨4, 1⟩, stiffness := 10, damping := 1, maxForce := 100
    impulse := ⟨0, 0⟩, frame := JBody.zero, beta := 0, gamma := 0, rB := ⟨0, 0⟩, mass := zm, c := ⟨0, 0⟩ }
/-- A gear between a revolute joint of bodies 2 and 0 and a prismatic joint of bodies 3 and 1. -/
def gear : Gear ℚ :=
  { bodyA := 0, bodyB := 1, bodyC := 2, bodyD := 3, slideA := false, slideB := true
    localAnchorA := ⟨0, 0⟩, localAnchorB := ⟨0, 0⟩, localAnchorC := ⟨0, -6⟩, localAnchorD := ⟨0, -6⟩
    localAxisC := ⟨0, 0⟩, localAxisD := ⟨1, 0⟩, referenceAngleA := 0, referenceAngleB := 0, constant := 0, ratio := 2
    impulse := 0, fA := JBody.zero, fB := JBody.zero, fC := JBody.zero, fD := JBody.zero
    jvAC := ⟨0, 0⟩, jvBD := ⟨0, 0⟩, jwA := 0, jwB := 0, jwC := 0, jwD := 0, mass := 0 }

/-- All of them. -/
def all : List (Joint ℚ) :=
  [.revolute revolute, .prismatic prismatic, .distance distance, .distance spring, .weld weld, .wheel wheel,
   .friction friction, .motor motor, .pulley pulley, .mouse mouse, .gear gear]

end JEx
end B2
