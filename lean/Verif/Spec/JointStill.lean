import Verif.Spec.JointDef

/-!
# A joint with nothing to do
-/
namespace B2

section
variable {F : Type} [Field F] [LinearOrder F]

/-- Where the bodies are the joint is satisfied. (Limits that are almost equal apart, and no gears.)

* The anchors of a revolute joint and of a weld coincide, and those of a motor joint; the angle of a revolute joint is within the
  limits, the angle of a stiff weld and of a motor joint is the one asked for.
* Body B of a prismatic or wheel joint is on the axis and within the limits; the angle of a prismatic joint is the one asked for.
* The length of a distance joint is within its limits, and the rope of a pulley has its length.
* The anchor of a mouse joint is at the target. -/
def Joint.Satisfied [Elem F] (bodies : Nat → JBody F) (pos : Arr (Pos F)) (j : Joint F) : Prop :=
  let xA := j.anchorA bodies pos
  let xB := j.anchorB bodies pos
  let world := (Rot.ofAngle (pos.at' (bodies j.bodyA).index).a).mulV
  let angle := (pos.at' (bodies j.bodyB).index).a - (pos.at' (bodies j.bodyA).index).a
  match j with
  | .revolute j => xA = xB ∧ (j.enableLimit = true → 2 * angularSlop ≤ j.upperAngle - j.lowerAngle ∧
      j.lowerAngle ≤ angle - j.referenceAngle ∧ angle - j.referenceAngle ≤ j.upperAngle)
  | .weld j => xA = xB ∧ (j.stiffness ≤ 0 → angle = j.referenceAngle)
  | .prismatic j => dot (world j.localYAxisA) (xB - xA) = 0 ∧ angle = j.referenceAngle ∧
      (j.enableLimit = true → 2 * linearSlop ≤ j.upperTranslation - j.lowerTranslation ∧
        j.lowerTranslation ≤ dot (world j.localXAxisA) (xB - xA) ∧ dot (world j.localXAxisA) (xB - xA) ≤ j.upperTranslation)
  | .wheel j => dot (world j.localYAxisA) (xB - xA) = 0 ∧
      (j.enableLimit = true → 2 * linearSlop ≤ j.upperTranslation - j.lowerTranslation ∧
        j.lowerTranslation ≤ dot (world j.localXAxisA) (xB - xA) ∧ dot (world j.localXAxisA) (xB - xA) ≤ j.upperTranslation)
  | .distance j => epsilon ≤ (xB - xA).length ∧ j.minLength ≤ (xB - xA).length ∧ (xB - xA).length ≤ j.maxLength
  | .pulley j => (xA - j.groundAnchorA).length + j.ratio * (xB - j.groundAnchorB).length = j.constant
  | .motor j => xA = xB ∧ angle = j.angularOffset
  | .mouse j => xB = j.target
  | .friction _ => True
  | .gear _ => False

/-- No motor and no spring of the joint acts: motors are off or have the speed zero, springs have their rest length or angle. -/
def Joint.Relaxed [Elem F] (bodies : Nat → JBody F) (pos : Arr (Pos F)) (j : Joint F) : Prop :=
  let xA := j.anchorA bodies pos
  let xB := j.anchorB bodies pos
  let world := (Rot.ofAngle (pos.at' (bodies j.bodyA).index).a).mulV
  let angle := (pos.at' (bodies j.bodyB).index).a - (pos.at' (bodies j.bodyA).index).a
  match j with
  | .revolute j => j.enableMotor = true → j.motorSpeed = 0
  | .prismatic j => j.enableMotor = true → j.motorSpeed = 0
  | .wheel j => (j.enableMotor = true → j.motorSpeed = 0) ∧ (0 < j.stiffness → dot (xB - xA) (world j.localXAxisA) = 0)
  | .distance j => 0 < j.stiffness → j.minLength < j.maxLength → (xB - xA).length = j.length
  | .weld j => 0 < j.stiffness → angle = j.referenceAngle
  | _ => True

/-- The bodies of the joint have no velocity. -/
def Joint.AtRest (bodies : Nat → JBody F) (j : Joint F) (vel : Arr (Vel F)) : Prop :=
  ∀ b ∈ j.touched, vel.at' (bodies b).index = ⟨⟨0, 0⟩, 0⟩

end
end B2
