import Verif.Model.Joint

/-!
# Definitions of joints: `initialize`, constructors, writing and reading

Models the definitions `B2...JointDef` of `src/joints/*.rs`, their `initialize` functions, the constructors that `Model/Joint.lean` does not
have, and `src/joints/serialize/*.rs`. Of the base of a definition (`B2jointDef`) only the two bodies are kept; how bodies are written as
numbers and found again is in `Model/Serialize.lean`. What is written is a list of named values together with the number of
fields that is announced to the format before them. A sequence format keeps the values only, a map format the names too; a value of another
type or a missing value or an unknown name is an error (`none`). Gear joints are in `Model/Serialize.lean`; mouse joints are not written.
-/
namespace B2

section
variable {F : Type} [Field F] [LinearOrder F]

/-- A value as the format keeps it: the base of a definition, a number, a vector or a flag. -/
inductive Val (F : Type)
  | base (a b : Nat)
  | num (x : F)
  | vec (v : Vec2 F)
  | flag (b : Bool)

/-- A structure as it is written with `serialize_struct` and `serialize_field`. -/
structure Written (F : Type) where
  announced : Nat
  fields : List (String × Val F)

/-- The transform and the angle of body `b` (`get_transform`, `get_angle`, b2_body.rs 275-291), whose centre of mass and angle are in `pos`. -/
def bodyXf [Elem F] (bodies : Nat → JBody F) (pos : Arr (Pos F)) (b : Nat) : Xf F := (pos.at' (bodies b).index).xf (bodies b).localCenter
def bodyAngle (bodies : Nat → JBody F) (pos : Arr (Pos F)) (b : Nat) : F := (pos.at' (bodies b).index).a
/-- `get_local_point` and `get_local_vector` (b2_body.rs 728-734). -/
def localPoint [Elem F] (bodies : Nat → JBody F) (pos : Arr (Pos F)) (b : Nat) (x : Vec2 F) : Vec2 F := (bodyXf bodies pos b).mulTV x
def localVector [Elem F] (bodies : Nat → JBody F) (pos : Arr (Pos F)) (b : Nat) (x : Vec2 F) : Vec2 F := (bodyXf bodies pos b).q.mulTV x

/-! ## Revolute joint -/

/-- `B2revoluteJointDef` (joints/b2_revolute_joint.rs 41-71). -/
structure RevoluteDef (F : Type) where
  bodyA : Nat
  bodyB : Nat
  localAnchorA : Vec2 F
  localAnchorB : Vec2 F
  referenceAngle : F
  enableLimit : Bool
  lowerAngle : F
  upperAngle : F
  enableMotor : Bool
  motorSpeed : F
  maxMotorTorque : F

/-- `default` (joints/b2_revolute_joint.rs 10-28). The bodies are `None` in the code. -/
def RevoluteDef.default : RevoluteDef F :=
  { bodyA := 0, bodyB := 0
    localAnchorA := ⟨0, 0⟩, localAnchorB := ⟨0, 0⟩, referenceAngle := 0, enableLimit := false, lowerAngle := 0, upperAngle := 0, enableMotor := false
    motorSpeed := 0, maxMotorTorque := 0 }

/-- `get_def` (joints/serialize/serialize_b2_revolute_joint.rs 23-38). -/
def Revolute.getDef (j : Revolute F) : RevoluteDef F :=
  { bodyA := j.bodyA, bodyB := j.bodyB
    localAnchorA := j.localAnchorA, localAnchorB := j.localAnchorB, referenceAngle := j.referenceAngle, enableLimit := j.enableLimit
    lowerAngle := j.lowerAngle, upperAngle := j.upperAngle, enableMotor := j.enableMotor, motorSpeed := j.motorSpeed, maxMotorTorque := j.maxMotorTorque }

/-- Writing (joints/serialize/serialize_b2_revolute_joint.rs 40-58). -/
def RevoluteDef.write (d : RevoluteDef F) : Written F :=
  ⟨10, [("base", .base d.bodyA d.bodyB),
     ("local_anchor_a", .vec d.localAnchorA), ("local_anchor_b", .vec d.localAnchorB), ("reference_angle", .num d.referenceAngle),
     ("enable_limit", .flag d.enableLimit), ("lower_angle", .num d.lowerAngle), ("upper_angle", .num d.upperAngle),
     ("enable_motor", .flag d.enableMotor), ("motor_speed", .num d.motorSpeed), ("max_motor_torque", .num d.maxMotorTorque)]⟩

/-- Reading a sequence (joints/serialize/serialize_b2_revolute_joint.rs 98-147). -/
def RevoluteDef.readSeq : List (Val F) → Option (RevoluteDef F)
  | [.base a b, .vec x0, .vec x1, .num x2, .flag x3, .num x4, .num x5, .flag x6, .num x7, .num x8] =>
    some { bodyA := a, bodyB := b
           localAnchorA := x0, localAnchorB := x1, referenceAngle := x2, enableLimit := x3, lowerAngle := x4, upperAngle := x5, enableMotor := x6
           motorSpeed := x7, maxMotorTorque := x8 }
  | _ => none

/-- Reading one entry of a map (joints/serialize/serialize_b2_revolute_joint.rs 149-192). -/
def RevoluteDef.readField (d : RevoluteDef F) : String × Val F → Option (RevoluteDef F)
  | ("base", .base a b) => some { d with bodyA := a, bodyB := b }
  | ("local_anchor_a", .vec x) => some { d with localAnchorA := x }
  | ("local_anchor_b", .vec x) => some { d with localAnchorB := x }
  | ("reference_angle", .num x) => some { d with referenceAngle := x }
  | ("enable_limit", .flag x) => some { d with enableLimit := x }
  | ("lower_angle", .num x) => some { d with lowerAngle := x }
  | ("upper_angle", .num x) => some { d with upperAngle := x }
  | ("enable_motor", .flag x) => some { d with enableMotor := x }
  | ("motor_speed", .num x) => some { d with motorSpeed := x }
  | ("max_motor_torque", .num x) => some { d with maxMotorTorque := x }
  | _ => none

/-- Reading a map (joints/serialize/serialize_b2_revolute_joint.rs 149-192). -/
def RevoluteDef.readMap (es : List (String × Val F)) : Option (RevoluteDef F) := es.foldlM readField default

/-- `initialize` (joints/b2_revolute_joint.rs 76-82). -/
def RevoluteDef.initialize [Elem F] (d : RevoluteDef F) (bodies : Nat → JBody F) (pos : Arr (Pos F)) (bodyA bodyB : Nat) (anchor : Vec2 F) : RevoluteDef F :=
  { d with bodyA := bodyA, bodyB := bodyB
           localAnchorA := localPoint bodies pos bodyA anchor, localAnchorB := localPoint bodies pos bodyB anchor
           referenceAngle := bodyAngle bodies pos bodyB - bodyAngle bodies pos bodyA }

/-- `new` (joints/b2_revolute_joint.rs 253-287). -/
def Revolute.ofDef (d : RevoluteDef F) : Revolute F :=
  { bodyA := d.bodyA, bodyB := d.bodyB, localAnchorA := d.localAnchorA, localAnchorB := d.localAnchorB
    impulse := ⟨0, 0⟩, axialMass := 0, motorImpulse := 0, lowerImpulse := 0, upperImpulse := 0
    enableMotor := d.enableMotor, maxMotorTorque := d.maxMotorTorque, motorSpeed := d.motorSpeed
    enableLimit := d.enableLimit, referenceAngle := d.referenceAngle, lowerAngle := d.lowerAngle, upperAngle := d.upperAngle
    frame := ⟨JBody.zero, JBody.zero⟩, rA := ⟨0, 0⟩, rB := ⟨0, 0⟩, k := ⟨⟨0, 0⟩, ⟨0, 0⟩⟩, angle := 0 }

/-! ## Prismatic joint -/

/-- `B2prismaticJointDef` (joints/b2_prismatic_joint.rs 38-70). -/
structure PrismaticDef (F : Type) where
  bodyA : Nat
  bodyB : Nat
  localAnchorA : Vec2 F
  localAnchorB : Vec2 F
  localAxisA : Vec2 F
  referenceAngle : F
  enableLimit : Bool
  lowerTranslation : F
  upperTranslation : F
  enableMotor : Bool
  motorSpeed : F
  maxMotorForce : F

/-- `default` (joints/b2_prismatic_joint.rs 10-29). The bodies are `None` in the code. -/
def PrismaticDef.default : PrismaticDef F :=
  { bodyA := 0, bodyB := 0
    localAnchorA := ⟨0, 0⟩, localAnchorB := ⟨0, 0⟩, localAxisA := ⟨1, 0⟩, referenceAngle := 0, enableLimit := false, lowerTranslation := 0
    upperTranslation := 0, enableMotor := false, motorSpeed := 0, maxMotorForce := 0 }

/-- `get_def` (joints/serialize/serialize_b2_prismatic_joint.rs 23-39). -/
def Prismatic.getDef (j : Prismatic F) : PrismaticDef F :=
  { bodyA := j.bodyA, bodyB := j.bodyB
    localAnchorA := j.localAnchorA, localAnchorB := j.localAnchorB, localAxisA := j.localXAxisA, referenceAngle := j.referenceAngle
    enableLimit := j.enableLimit, lowerTranslation := j.lowerTranslation, upperTranslation := j.upperTranslation, enableMotor := j.enableMotor
    motorSpeed := j.motorSpeed, maxMotorForce := j.maxMotorForce }

/-- Writing (joints/serialize/serialize_b2_prismatic_joint.rs 41-60). -/
def PrismaticDef.write (d : PrismaticDef F) : Written F :=
  ⟨11, [("base", .base d.bodyA d.bodyB),
     ("local_anchor_a", .vec d.localAnchorA), ("local_anchor_b", .vec d.localAnchorB), ("local_axis_a", .vec d.localAxisA),
     ("reference_angle", .num d.referenceAngle), ("enable_limit", .flag d.enableLimit), ("lower_translation", .num d.lowerTranslation),
     ("upper_translation", .num d.upperTranslation), ("enable_motor", .flag d.enableMotor), ("motor_speed", .num d.motorSpeed),
     ("max_motor_force", .num d.maxMotorForce)]⟩

/-- Reading a sequence (joints/serialize/serialize_b2_prismatic_joint.rs 101-154). -/
def PrismaticDef.readSeq : List (Val F) → Option (PrismaticDef F)
  | [.base a b, .vec x0, .vec x1, .vec x2, .num x3, .flag x4, .num x5, .num x6, .flag x7, .num x8, .num x9] =>
    some { bodyA := a, bodyB := b
           localAnchorA := x0, localAnchorB := x1, localAxisA := x2, referenceAngle := x3, enableLimit := x4, lowerTranslation := x5, upperTranslation := x6
           enableMotor := x7, motorSpeed := x8, maxMotorForce := x9 }
  | _ => none

/-- Reading one entry of a map (joints/serialize/serialize_b2_prismatic_joint.rs 156-202). -/
def PrismaticDef.readField (d : PrismaticDef F) : String × Val F → Option (PrismaticDef F)
  | ("base", .base a b) => some { d with bodyA := a, bodyB := b }
  | ("local_anchor_a", .vec x) => some { d with localAnchorA := x }
  | ("local_anchor_b", .vec x) => some { d with localAnchorB := x }
  | ("local_axis_a", .vec x) => some { d with localAxisA := x }
  | ("reference_angle", .num x) => some { d with referenceAngle := x }
  | ("enable_limit", .flag x) => some { d with enableLimit := x }
  | ("lower_translation", .num x) => some { d with lowerTranslation := x }
  | ("upper_translation", .num x) => some { d with upperTranslation := x }
  | ("enable_motor", .flag x) => some { d with enableMotor := x }
  | ("motor_speed", .num x) => some { d with motorSpeed := x }
  | ("max_motor_force", .num x) => some { d with maxMotorForce := x }
  | _ => none

/-- Reading a map (joints/serialize/serialize_b2_prismatic_joint.rs 156-202). -/
def PrismaticDef.readMap (es : List (String × Val F)) : Option (PrismaticDef F) := es.foldlM readField default

/-- `initialize` (joints/b2_prismatic_joint.rs 75-88). -/
def PrismaticDef.initialize [Elem F] (d : PrismaticDef F) (bodies : Nat → JBody F) (pos : Arr (Pos F)) (bodyA bodyB : Nat) (anchor axis : Vec2 F) : PrismaticDef F :=
  { d with bodyA := bodyA, bodyB := bodyB
           localAnchorA := localPoint bodies pos bodyA anchor, localAnchorB := localPoint bodies pos bodyB anchor
           localAxisA := localVector bodies pos bodyA axis
           referenceAngle := bodyAngle bodies pos bodyB - bodyAngle bodies pos bodyA }

/-- `new` of a definition (`Prismatic.new`). -/
def Prismatic.ofDef [Elem F] (d : PrismaticDef F) : Option (Prismatic F) :=
  Prismatic.new d.bodyA d.bodyB d.localAnchorA d.localAnchorB d.localAxisA d.referenceAngle d.lowerTranslation d.upperTranslation
    d.maxMotorForce d.motorSpeed d.enableLimit d.enableMotor

/-! ## Wheel joint -/

/-- `B2wheelJointDef` (joints/b2_wheel_joint.rs 39-74). -/
structure WheelDef (F : Type) where
  bodyA : Nat
  bodyB : Nat
  localAnchorA : Vec2 F
  localAnchorB : Vec2 F
  localAxisA : Vec2 F
  enableLimit : Bool
  lowerTranslation : F
  upperTranslation : F
  enableMotor : Bool
  motorSpeed : F
  maxMotorTorque : F
  stiffness : F
  damping : F

/-- `default` (joints/b2_wheel_joint.rs 10-30). The bodies are `None` in the code. -/
def WheelDef.default : WheelDef F :=
  { bodyA := 0, bodyB := 0
    localAnchorA := ⟨0, 0⟩, localAnchorB := ⟨0, 0⟩, localAxisA := ⟨1, 0⟩, enableLimit := false, lowerTranslation := 0, upperTranslation := 0
    enableMotor := false, motorSpeed := 0, maxMotorTorque := 0, stiffness := 0, damping := 0 }

/-- `get_def` (joints/serialize/serialize_b2_wheel_joint.rs 23-40). -/
def Wheel.getDef (j : Wheel F) : WheelDef F :=
  { bodyA := j.bodyA, bodyB := j.bodyB
    localAnchorA := j.localAnchorA, localAnchorB := j.localAnchorB, localAxisA := j.localXAxisA, enableLimit := j.enableLimit
    lowerTranslation := j.lowerTranslation, upperTranslation := j.upperTranslation, enableMotor := j.enableMotor, motorSpeed := j.motorSpeed
    maxMotorTorque := j.maxMotorTorque, stiffness := j.stiffness, damping := j.damping }

/-- Writing (joints/serialize/serialize_b2_wheel_joint.rs 42-62). -/
def WheelDef.write (d : WheelDef F) : Written F :=
  ⟨12, [("base", .base d.bodyA d.bodyB),
     ("local_anchor_a", .vec d.localAnchorA), ("local_anchor_b", .vec d.localAnchorB), ("local_axis_a", .vec d.localAxisA),
     ("enable_limit", .flag d.enableLimit), ("lower_translation", .num d.lowerTranslation), ("upper_translation", .num d.upperTranslation),
     ("enable_motor", .flag d.enableMotor), ("motor_speed", .num d.motorSpeed), ("max_motor_torque", .num d.maxMotorTorque),
     ("stiffness", .num d.stiffness), ("damping", .num d.damping)]⟩

/-- Reading a sequence (joints/serialize/serialize_b2_wheel_joint.rs 104-160). -/
def WheelDef.readSeq : List (Val F) → Option (WheelDef F)
  | [.base a b, .vec x0, .vec x1, .vec x2, .flag x3, .num x4, .num x5, .flag x6, .num x7, .num x8, .num x9, .num x10] =>
    some { bodyA := a, bodyB := b
           localAnchorA := x0, localAnchorB := x1, localAxisA := x2, enableLimit := x3, lowerTranslation := x4, upperTranslation := x5, enableMotor := x6
           motorSpeed := x7, maxMotorTorque := x8, stiffness := x9, damping := x10 }
  | _ => none

/-- Reading one entry of a map (joints/serialize/serialize_b2_wheel_joint.rs 162-211). -/
def WheelDef.readField (d : WheelDef F) : String × Val F → Option (WheelDef F)
  | ("base", .base a b) => some { d with bodyA := a, bodyB := b }
  | ("local_anchor_a", .vec x) => some { d with localAnchorA := x }
  | ("local_anchor_b", .vec x) => some { d with localAnchorB := x }
  | ("local_axis_a", .vec x) => some { d with localAxisA := x }
  | ("enable_limit", .flag x) => some { d with enableLimit := x }
  | ("lower_translation", .num x) => some { d with lowerTranslation := x }
  | ("upper_translation", .num x) => some { d with upperTranslation := x }
  | ("enable_motor", .flag x) => some { d with enableMotor := x }
  | ("motor_speed", .num x) => some { d with motorSpeed := x }
  | ("max_motor_torque", .num x) => some { d with maxMotorTorque := x }
  | ("stiffness", .num x) => some { d with stiffness := x }
  | ("damping", .num x) => some { d with damping := x }
  | _ => none

/-- Reading a map (joints/serialize/serialize_b2_wheel_joint.rs 162-211). -/
def WheelDef.readMap (es : List (String × Val F)) : Option (WheelDef F) := es.foldlM readField default

/-- `initialize` (joints/b2_wheel_joint.rs 79-91). -/
def WheelDef.initialize [Elem F] (d : WheelDef F) (bodies : Nat → JBody F) (pos : Arr (Pos F)) (bodyA bodyB : Nat) (anchor axis : Vec2 F) : WheelDef F :=
  { d with bodyA := bodyA, bodyB := bodyB
           localAnchorA := localPoint bodies pos bodyA anchor, localAnchorB := localPoint bodies pos bodyB anchor
           localAxisA := localVector bodies pos bodyA axis }

/-- `new` of a definition (`Wheel.new`). -/
def Wheel.ofDef (d : WheelDef F) : Wheel F :=
  Wheel.new d.bodyA d.bodyB d.localAnchorA d.localAnchorB d.localAxisA d.lowerTranslation d.upperTranslation d.maxMotorTorque
    d.motorSpeed d.stiffness d.damping d.enableLimit d.enableMotor

/-! ## Distance joint -/

/-- `B2distanceJointDef` (joints/b2_distance_joint.rs 34-58). -/
structure DistanceDef (F : Type) where
  bodyA : Nat
  bodyB : Nat
  localAnchorA : Vec2 F
  localAnchorB : Vec2 F
  length : F
  minLength : F
  maxLength : F
  stiffness : F
  damping : F

/-- `default` (joints/b2_distance_joint.rs 11-27). The bodies are `None` in the code. -/
def DistanceDef.default : DistanceDef F :=
  { bodyA := 0, bodyB := 0
    localAnchorA := ⟨0, 0⟩, localAnchorB := ⟨0, 0⟩, length := 1, minLength := 0, maxLength := (2 ^ 24 - 1) * 2 ^ 104, stiffness := 0, damping := 0 }

/-- `get_def` (joints/serialize/serialize_b2_distance_joint.rs 23-36). -/
def DistanceJ.getDef (j : DistanceJ F) : DistanceDef F :=
  { bodyA := j.bodyA, bodyB := j.bodyB
    localAnchorA := j.localAnchorA, localAnchorB := j.localAnchorB, length := j.length, minLength := j.minLength, maxLength := j.maxLength
    stiffness := j.stiffness, damping := j.damping }

/-- Writing (joints/serialize/serialize_b2_distance_joint.rs 38-54). -/
def DistanceDef.write (d : DistanceDef F) : Written F :=
  ⟨6, [("base", .base d.bodyA d.bodyB),
     ("local_anchor_a", .vec d.localAnchorA), ("local_anchor_b", .vec d.localAnchorB), ("length", .num d.length),
     ("min_length", .num d.minLength), ("max_length", .num d.maxLength), ("stiffness", .num d.stiffness), ("damping", .num d.damping)]⟩

/-- Reading a sequence (joints/serialize/serialize_b2_distance_joint.rs 92-134). -/
def DistanceDef.readSeq : List (Val F) → Option (DistanceDef F)
  | [.base a b, .vec x0, .vec x1, .num x2, .num x3, .num x4, .num x5, .num x6] =>
    some { bodyA := a, bodyB := b
           localAnchorA := x0, localAnchorB := x1, length := x2, minLength := x3, maxLength := x4, stiffness := x5, damping := x6 }
  | _ => none

/-- Reading one entry of a map (joints/serialize/serialize_b2_distance_joint.rs 136-174). -/
def DistanceDef.readField (d : DistanceDef F) : String × Val F → Option (DistanceDef F)
  | ("base", .base a b) => some { d with bodyA := a, bodyB := b }
  | ("local_anchor_a", .vec x) => some { d with localAnchorA := x }
  | ("local_anchor_b", .vec x) => some { d with localAnchorB := x }
  | ("length", .num x) => some { d with length := x }
  | ("min_length", .num x) => some { d with minLength := x }
  | ("max_length", .num x) => some { d with maxLength := x }
  | ("stiffness", .num x) => some { d with stiffness := x }
  | ("damping", .num x) => some { d with damping := x }
  | _ => none

/-- Reading a map (joints/serialize/serialize_b2_distance_joint.rs 136-174). -/
def DistanceDef.readMap (es : List (String × Val F)) : Option (DistanceDef F) := es.foldlM readField default

/-- `initialize` (private/dynamics/joints/b2_distance_joint.rs 25-40). -/
def DistanceDef.initialize [Elem F] (d : DistanceDef F) (bodies : Nat → JBody F) (pos : Arr (Pos F)) (bodyA bodyB : Nat) (anchorA anchorB : Vec2 F) : DistanceDef F :=
  let length := b2max (anchorB - anchorA).length linearSlop
  { d with bodyA := bodyA, bodyB := bodyB
           localAnchorA := localPoint bodies pos bodyA anchorA, localAnchorB := localPoint bodies pos bodyB anchorB
           length := length, minLength := length, maxLength := length }

/-- `new` of a definition (`DistanceJ.new`). -/
def DistanceJ.ofDef (d : DistanceDef F) : DistanceJ F :=
  DistanceJ.new d.bodyA d.bodyB d.localAnchorA d.localAnchorB d.length d.minLength d.maxLength d.stiffness d.damping

/-! ## Weld joint -/

/-- `B2weldJointDef` (joints/b2_weld_joint.rs 28-47). -/
structure WeldDef (F : Type) where
  bodyA : Nat
  bodyB : Nat
  localAnchorA : Vec2 F
  localAnchorB : Vec2 F
  referenceAngle : F
  stiffness : F
  damping : F

/-- `default` (joints/b2_weld_joint.rs 8-22). The bodies are `None` in the code. -/
def WeldDef.default : WeldDef F :=
  { bodyA := 0, bodyB := 0
    localAnchorA := ⟨0, 0⟩, localAnchorB := ⟨0, 0⟩, referenceAngle := 0, stiffness := 0, damping := 0 }

/-- `get_def` (joints/serialize/serialize_b2_weld_joint.rs 23-34). -/
def Weld.getDef (j : Weld F) : WeldDef F :=
  { bodyA := j.bodyA, bodyB := j.bodyB
    localAnchorA := j.localAnchorA, localAnchorB := j.localAnchorB, referenceAngle := j.referenceAngle, stiffness := j.stiffness, damping := j.damping }

/-- Writing (joints/serialize/serialize_b2_weld_joint.rs 36-50). -/
def WeldDef.write (d : WeldDef F) : Written F :=
  ⟨6, [("base", .base d.bodyA d.bodyB),
     ("local_anchor_a", .vec d.localAnchorA), ("local_anchor_b", .vec d.localAnchorB), ("reference_angle", .num d.referenceAngle),
     ("stiffness", .num d.stiffness), ("damping", .num d.damping)]⟩

/-- Reading a sequence (joints/serialize/serialize_b2_weld_joint.rs 86-119). -/
def WeldDef.readSeq : List (Val F) → Option (WeldDef F)
  | [.base a b, .vec x0, .vec x1, .num x2, .num x3, .num x4] =>
    some { bodyA := a, bodyB := b
           localAnchorA := x0, localAnchorB := x1, referenceAngle := x2, stiffness := x3, damping := x4 }
  | _ => none

/-- Reading one entry of a map (joints/serialize/serialize_b2_weld_joint.rs 121-152). -/
def WeldDef.readField (d : WeldDef F) : String × Val F → Option (WeldDef F)
  | ("base", .base a b) => some { d with bodyA := a, bodyB := b }
  | ("local_anchor_a", .vec x) => some { d with localAnchorA := x }
  | ("local_anchor_b", .vec x) => some { d with localAnchorB := x }
  | ("reference_angle", .num x) => some { d with referenceAngle := x }
  | ("stiffness", .num x) => some { d with stiffness := x }
  | ("damping", .num x) => some { d with damping := x }
  | _ => none

/-- Reading a map (joints/serialize/serialize_b2_weld_joint.rs 121-152). -/
def WeldDef.readMap (es : List (String × Val F)) : Option (WeldDef F) := es.foldlM readField default

/-- `initialize` (joints/b2_weld_joint.rs 54-60). -/
def WeldDef.initialize [Elem F] (d : WeldDef F) (bodies : Nat → JBody F) (pos : Arr (Pos F)) (bodyA bodyB : Nat) (anchor : Vec2 F) : WeldDef F :=
  { d with bodyA := bodyA, bodyB := bodyB
           localAnchorA := localPoint bodies pos bodyA anchor, localAnchorB := localPoint bodies pos bodyB anchor
           referenceAngle := bodyAngle bodies pos bodyB - bodyAngle bodies pos bodyA }

/-- `new` (joints/b2_weld_joint.rs 126-154). -/
def Weld.ofDef (d : WeldDef F) : Weld F :=
  { bodyA := d.bodyA, bodyB := d.bodyB, localAnchorA := d.localAnchorA, localAnchorB := d.localAnchorB
    stiffness := d.stiffness, damping := d.damping, bias := 0, referenceAngle := d.referenceAngle, gamma := 0, impulse := ⟨0, 0, 0⟩
    frame := ⟨JBody.zero, JBody.zero⟩, rA := ⟨0, 0⟩, rB := ⟨0, 0⟩, mass := ⟨⟨0, 0, 0⟩, ⟨0, 0, 0⟩, ⟨0, 0, 0⟩⟩ }

/-! ## Friction joint -/

/-- `B2frictionJointDef` (joints/b2_friction_joint.rs 26-39). -/
structure FrictionDef (F : Type) where
  bodyA : Nat
  bodyB : Nat
  localAnchorA : Vec2 F
  localAnchorB : Vec2 F
  maxForce : F
  maxTorque : F

/-- `default` (joints/b2_friction_joint.rs 9-22). The bodies are `None` in the code. -/
def FrictionDef.default : FrictionDef F :=
  { bodyA := 0, bodyB := 0
    localAnchorA := ⟨0, 0⟩, localAnchorB := ⟨0, 0⟩, maxForce := 0, maxTorque := 0 }

/-- `get_def` (joints/serialize/serialize_b2_friction_joint.rs 23-33). -/
def FrictionJ.getDef (j : FrictionJ F) : FrictionDef F :=
  { bodyA := j.bodyA, bodyB := j.bodyB
    localAnchorA := j.localAnchorA, localAnchorB := j.localAnchorB, maxForce := j.maxForce, maxTorque := j.maxTorque }

/-- Writing (joints/serialize/serialize_b2_friction_joint.rs 35-48). -/
def FrictionDef.write (d : FrictionDef F) : Written F :=
  ⟨5, [("base", .base d.bodyA d.bodyB),
     ("local_anchor_a", .vec d.localAnchorA), ("local_anchor_b", .vec d.localAnchorB), ("max_force", .num d.maxForce),
     ("max_torque", .num d.maxTorque)]⟩

/-- Reading a sequence (joints/serialize/serialize_b2_friction_joint.rs 83-114). -/
def FrictionDef.readSeq : List (Val F) → Option (FrictionDef F)
  | [.base a b, .vec x0, .vec x1, .num x2, .num x3] =>
    some { bodyA := a, bodyB := b
           localAnchorA := x0, localAnchorB := x1, maxForce := x2, maxTorque := x3 }
  | _ => none

/-- Reading one entry of a map (joints/serialize/serialize_b2_friction_joint.rs 116-145). -/
def FrictionDef.readField (d : FrictionDef F) : String × Val F → Option (FrictionDef F)
  | ("base", .base a b) => some { d with bodyA := a, bodyB := b }
  | ("local_anchor_a", .vec x) => some { d with localAnchorA := x }
  | ("local_anchor_b", .vec x) => some { d with localAnchorB := x }
  | ("max_force", .num x) => some { d with maxForce := x }
  | ("max_torque", .num x) => some { d with maxTorque := x }
  | _ => none

/-- Reading a map (joints/serialize/serialize_b2_friction_joint.rs 116-145). -/
def FrictionDef.readMap (es : List (String × Val F)) : Option (FrictionDef F) := es.foldlM readField default

/-- `initialize` (joints/b2_friction_joint.rs 44-49). -/
def FrictionDef.initialize [Elem F] (d : FrictionDef F) (bodies : Nat → JBody F) (pos : Arr (Pos F)) (bodyA bodyB : Nat) (anchor : Vec2 F) : FrictionDef F :=
  { d with bodyA := bodyA, bodyB := bodyB
           localAnchorA := localPoint bodies pos bodyA anchor, localAnchorB := localPoint bodies pos bodyB anchor }

/-- `new` (joints/b2_friction_joint.rs 120-145). -/
def FrictionJ.ofDef (d : FrictionDef F) : FrictionJ F :=
  { bodyA := d.bodyA, bodyB := d.bodyB, localAnchorA := d.localAnchorA, localAnchorB := d.localAnchorB
    linearImpulse := ⟨0, 0⟩, angularImpulse := 0, maxForce := d.maxForce, maxTorque := d.maxTorque
    frame := ⟨JBody.zero, JBody.zero⟩, rA := ⟨0, 0⟩, rB := ⟨0, 0⟩, linearMass := ⟨⟨0, 0⟩, ⟨0, 0⟩⟩, angularMass := 0 }

/-! ## Motor joint -/

/-- `B2motorJointDef` (joints/b2_motor_joint.rs 27-43). -/
structure MotorDef (F : Type) where
  bodyA : Nat
  bodyB : Nat
  linearOffset : Vec2 F
  angularOffset : F
  maxForce : F
  maxTorque : F
  correctionFactor : F

/-- `default` (joints/b2_motor_joint.rs 9-23). The bodies are `None` in the code. -/
def MotorDef.default : MotorDef F :=
  { bodyA := 0, bodyB := 0
    linearOffset := ⟨0, 0⟩, angularOffset := 0, maxForce := 1, maxTorque := 1, correctionFactor := 3 / 10 }

/-- `get_def` (joints/serialize/serialize_b2_motor_joint.rs 23-34). -/
def MotorJ.getDef (j : MotorJ F) : MotorDef F :=
  { bodyA := j.bodyA, bodyB := j.bodyB
    linearOffset := j.linearOffset, angularOffset := j.angularOffset, maxForce := j.maxForce, maxTorque := j.maxTorque
    correctionFactor := j.correctionFactor }

/-- Writing (joints/serialize/serialize_b2_motor_joint.rs 36-50). -/
def MotorDef.write (d : MotorDef F) : Written F :=
  ⟨6, [("base", .base d.bodyA d.bodyB),
     ("linear_offset", .vec d.linearOffset), ("angular_offset", .num d.angularOffset), ("max_force", .num d.maxForce),
     ("max_torque", .num d.maxTorque), ("correction_factor", .num d.correctionFactor)]⟩

/-- Reading a sequence (joints/serialize/serialize_b2_motor_joint.rs 86-119). -/
def MotorDef.readSeq : List (Val F) → Option (MotorDef F)
  | [.base a b, .vec x0, .num x1, .num x2, .num x3, .num x4] =>
    some { bodyA := a, bodyB := b
           linearOffset := x0, angularOffset := x1, maxForce := x2, maxTorque := x3, correctionFactor := x4 }
  | _ => none

/-- Reading one entry of a map (joints/serialize/serialize_b2_motor_joint.rs 121-152). -/
def MotorDef.readField (d : MotorDef F) : String × Val F → Option (MotorDef F)
  | ("base", .base a b) => some { d with bodyA := a, bodyB := b }
  | ("linear_offset", .vec x) => some { d with linearOffset := x }
  | ("angular_offset", .num x) => some { d with angularOffset := x }
  | ("max_force", .num x) => some { d with maxForce := x }
  | ("max_torque", .num x) => some { d with maxTorque := x }
  | ("correction_factor", .num x) => some { d with correctionFactor := x }
  | _ => none

/-- Reading a map (joints/serialize/serialize_b2_motor_joint.rs 121-152). -/
def MotorDef.readMap (es : List (String × Val F)) : Option (MotorDef F) := es.foldlM readField default

/-- `initialize` (joints/b2_motor_joint.rs 48-58). -/
def MotorDef.initialize [Elem F] (d : MotorDef F) (bodies : Nat → JBody F) (pos : Arr (Pos F)) (bodyA bodyB : Nat) : MotorDef F :=
  { d with bodyA := bodyA, bodyB := bodyB
           linearOffset := localPoint bodies pos bodyA (bodyXf bodies pos bodyB).p
           angularOffset := bodyAngle bodies pos bodyB - bodyAngle bodies pos bodyA }

/-- `new` (joints/b2_motor_joint.rs 175-203). -/
def MotorJ.ofDef (d : MotorDef F) : MotorJ F :=
  { bodyA := d.bodyA, bodyB := d.bodyB, linearOffset := d.linearOffset, angularOffset := d.angularOffset
    linearImpulse := ⟨0, 0⟩, angularImpulse := 0, maxForce := d.maxForce, maxTorque := d.maxTorque, correctionFactor := d.correctionFactor
    frame := ⟨JBody.zero, JBody.zero⟩, rA := ⟨0, 0⟩, rB := ⟨0, 0⟩, linearError := ⟨0, 0⟩, angularError := 0
    linearMass := ⟨⟨0, 0⟩, ⟨0, 0⟩⟩, angularMass := 0 }

/-! ## Pulley joint -/

/-- `B2pulleyJointDef` (joints/b2_pulley_joint.rs 33-55). -/
structure PulleyDef (F : Type) where
  bodyA : Nat
  bodyB : Nat
  groundAnchorA : Vec2 F
  groundAnchorB : Vec2 F
  localAnchorA : Vec2 F
  localAnchorB : Vec2 F
  lengthA : F
  lengthB : F
  ratio : F

/-- `default` (joints/b2_pulley_joint.rs 11-28). The bodies are `None` in the code. -/
def PulleyDef.default : PulleyDef F :=
  { bodyA := 0, bodyB := 0
    groundAnchorA := ⟨-1, 1⟩, groundAnchorB := ⟨1, 1⟩, localAnchorA := ⟨-1, 0⟩, localAnchorB := ⟨1, 0⟩, lengthA := 0, lengthB := 0, ratio := 1 }

/-- `get_def` (joints/serialize/serialize_b2_pulley_joint.rs 23-36). -/
def Pulley.getDef (j : Pulley F) : PulleyDef F :=
  { bodyA := j.bodyA, bodyB := j.bodyB
    groundAnchorA := j.groundAnchorA, groundAnchorB := j.groundAnchorB, localAnchorA := j.localAnchorA, localAnchorB := j.localAnchorB
    lengthA := j.lengthA, lengthB := j.lengthB, ratio := j.ratio }

/-- Writing (joints/serialize/serialize_b2_pulley_joint.rs 38-54). -/
def PulleyDef.write (d : PulleyDef F) : Written F :=
  ⟨8, [("base", .base d.bodyA d.bodyB),
     ("ground_anchor_a", .vec d.groundAnchorA), ("ground_anchor_b", .vec d.groundAnchorB), ("local_anchor_a", .vec d.localAnchorA),
     ("local_anchor_b", .vec d.localAnchorB), ("length_a", .num d.lengthA), ("length_b", .num d.lengthB), ("ratio", .num d.ratio)]⟩

/-- Reading a sequence (joints/serialize/serialize_b2_pulley_joint.rs 92-133). -/
def PulleyDef.readSeq : List (Val F) → Option (PulleyDef F)
  | [.base a b, .vec x0, .vec x1, .vec x2, .vec x3, .num x4, .num x5, .num x6] =>
    some { bodyA := a, bodyB := b
           groundAnchorA := x0, groundAnchorB := x1, localAnchorA := x2, localAnchorB := x3, lengthA := x4, lengthB := x5, ratio := x6 }
  | _ => none

/-- Reading one entry of a map (joints/serialize/serialize_b2_pulley_joint.rs 135-172). -/
def PulleyDef.readField (d : PulleyDef F) : String × Val F → Option (PulleyDef F)
  | ("base", .base a b) => some { d with bodyA := a, bodyB := b }
  | ("ground_anchor_a", .vec x) => some { d with groundAnchorA := x }
  | ("ground_anchor_b", .vec x) => some { d with groundAnchorB := x }
  | ("local_anchor_a", .vec x) => some { d with localAnchorA := x }
  | ("local_anchor_b", .vec x) => some { d with localAnchorB := x }
  | ("length_a", .num x) => some { d with lengthA := x }
  | ("length_b", .num x) => some { d with lengthB := x }
  | ("ratio", .num x) => some { d with ratio := x }
  | _ => none

/-- Reading a map (joints/serialize/serialize_b2_pulley_joint.rs 135-172). -/
def PulleyDef.readMap (es : List (String × Val F)) : Option (PulleyDef F) := es.foldlM readField default

/-- `initialize` (joints/b2_pulley_joint.rs 59-82): asserts that the ratio is above the machine epsilon. -/
def PulleyDef.initialize [Elem F] (d : PulleyDef F) (bodies : Nat → JBody F) (pos : Arr (Pos F)) (bodyA bodyB : Nat)
    (groundAnchorA groundAnchorB anchorA anchorB : Vec2 F) (ratio : F) : Option (PulleyDef F) :=
  if ratio > epsilon then
    some { d with bodyA := bodyA, bodyB := bodyB, groundAnchorA := groundAnchorA, groundAnchorB := groundAnchorB
                  localAnchorA := localPoint bodies pos bodyA anchorA, localAnchorB := localPoint bodies pos bodyB anchorB
                  lengthA := (anchorA - groundAnchorA).length, lengthB := (anchorB - groundAnchorB).length, ratio := ratio }
  else none

/-- `new` of a definition (`Pulley.new`). -/
def Pulley.ofDef (d : PulleyDef F) : Option (Pulley F) :=
  Pulley.new d.bodyA d.bodyB d.groundAnchorA d.groundAnchorB d.localAnchorA d.localAnchorB d.lengthA d.lengthB d.ratio
/-- `shift_origin` (joints/b2_pulley_joint.rs 151-154). -/
def Pulley.shiftOrigin (j : Pulley F) (o : Vec2 F) : Pulley F :=
  { j with groundAnchorA := j.groundAnchorA - o, groundAnchorB := j.groundAnchorB - o }

/-! ## Mouse joint -/

/-- `B2mouseJointDef` (joints/b2_mouse_joint.rs 35-57). -/
structure MouseDef (F : Type) where
  bodyA : Nat
  bodyB : Nat
  target : Vec2 F
  maxForce : F
  stiffness : F
  damping : F

/-- `new` (joints/b2_mouse_joint.rs 141-167). -/
def Mouse.ofDef [Elem F] (bodies : Nat → JBody F) (pos : Arr (Pos F)) (d : MouseDef F) : Mouse F :=
  { bodyA := d.bodyA, bodyB := d.bodyB, target := d.target, localAnchorB := (bodyXf bodies pos d.bodyB).mulTV d.target
    maxForce := d.maxForce, impulse := ⟨0, 0⟩, stiffness := d.stiffness, damping := d.damping, beta := 0, gamma := 0
    frame := JBody.zero, rB := ⟨0, 0⟩, mass := ⟨⟨0, 0⟩, ⟨0, 0⟩⟩, c := ⟨0, 0⟩ }
/-- `shift_origin` (joints/b2_mouse_joint.rs 108-110). -/
def Mouse.shiftOrigin (j : Mouse F) (o : Vec2 F) : Mouse F := { j with target := j.target - o }

/-- `shift_origin` of any joint (b2_joint.rs 259-261): most joints do nothing. -/
def Joint.shiftOrigin (o : Vec2 F) : Joint F → Joint F
  | .pulley j => .pulley (j.shiftOrigin o)
  | .mouse j => .mouse (j.shiftOrigin o)
  | j => j

/-! ## Any joint -/

/-- `B2JointDefEnum` (b2_joint.rs 30-43) without mouse and gear joints. -/
inductive JointDef (F : Type)
  | revolute (d : RevoluteDef F)
  | prismatic (d : PrismaticDef F)
  | distance (d : DistanceDef F)
  | weld (d : WeldDef F)
  | wheel (d : WheelDef F)
  | friction (d : FrictionDef F)
  | motor (d : MotorDef F)
  | pulley (d : PulleyDef F)

/-- The name under which a definition is written (serialize/serialize_b2_world.rs 63-127). -/
inductive JointKind | revolute | prismatic | distance | weld | wheel | friction | motor | pulley

/-- `get_def` of the class of a joint. -/
def Joint.getDef : Joint F → Option (JointDef F)
  | .revolute j => some (.revolute j.getDef)
  | .prismatic j => some (.prismatic j.getDef)
  | .distance j => some (.distance j.getDef)
  | .weld j => some (.weld j.getDef)
  | .wheel j => some (.wheel j.getDef)
  | .friction j => some (.friction j.getDef)
  | .motor j => some (.motor j.getDef)
  | .pulley j => some (.pulley j.getDef)
  | .mouse _ | .gear _ => none

/-- What is written of a definition: its class and its fields. -/
def JointDef.write : JointDef F → JointKind × Written F
  | .revolute d => (.revolute, d.write)
  | .prismatic d => (.prismatic, d.write)
  | .distance d => (.distance, d.write)
  | .weld d => (.weld, d.write)
  | .wheel d => (.wheel, d.write)
  | .friction d => (.friction, d.write)
  | .motor d => (.motor, d.write)
  | .pulley d => (.pulley, d.write)

/-- Reading a definition of a class from a format that keeps the values in order (serialize/serialize_b2_body.rs 313-395). -/
def JointDef.readSeq (vs : List (Val F)) : JointKind → Option (JointDef F)
  | .revolute => (RevoluteDef.readSeq vs).map .revolute
  | .prismatic => (PrismaticDef.readSeq vs).map .prismatic
  | .distance => (DistanceDef.readSeq vs).map .distance
  | .weld => (WeldDef.readSeq vs).map .weld
  | .wheel => (WheelDef.readSeq vs).map .wheel
  | .friction => (FrictionDef.readSeq vs).map .friction
  | .motor => (MotorDef.readSeq vs).map .motor
  | .pulley => (PulleyDef.readSeq vs).map .pulley

/-- Reading a definition of a class from a format that keeps the names. -/
def JointDef.readMap (es : List (String × Val F)) : JointKind → Option (JointDef F)
  | .revolute => (RevoluteDef.readMap es).map .revolute
  | .prismatic => (PrismaticDef.readMap es).map .prismatic
  | .distance => (DistanceDef.readMap es).map .distance
  | .weld => (WeldDef.readMap es).map .weld
  | .wheel => (WheelDef.readMap es).map .wheel
  | .friction => (FrictionDef.readMap es).map .friction
  | .motor => (MotorDef.readMap es).map .motor
  | .pulley => (PulleyDef.readMap es).map .pulley

/-- `create` (private/dynamics/b2_joint.rs 73-87). -/
def JointDef.create [Elem F] : JointDef F → Option (Joint F)
  | .revolute d => some (.revolute (.ofDef d))
  | .prismatic d => (Prismatic.ofDef d).map .prismatic
  | .distance d => some (.distance (.ofDef d))
  | .weld d => some (.weld (.ofDef d))
  | .wheel d => some (.wheel (.ofDef d))
  | .friction d => some (.friction (.ofDef d))
  | .motor d => some (.motor (.ofDef d))
  | .pulley d => (Pulley.ofDef d).map .pulley

/-- The functions with which a user changes a joint. -/
inductive JointCall (F : Type)
  | enableLimit (flag : Bool)
  | setLimits (lower upper : F)
  | enableMotor (flag : Bool)
  | setMotorSpeed (speed : F)
  | setMaxMotor (x : F)
  | setStiffness (x : F)
  | setDamping (x : F)
  | setLength (x : F)
  | setMinLength (x : F)
  | setMaxLength (x : F)
  | setMaxForce (x : F)
  | setMaxTorque (x : F)
  | setLinearOffset (v : Vec2 F)
  | setAngularOffset (x : F)
  | setCorrectionFactor (x : F)

/-- A call on a joint that is not a mouse or gear joint: the joint after it, `none` if an assertion fails or the class has no such function.
Waking up the bodies is left out. The functions that are not in `Model/Joint.lean` set one field (joints/b2_revolute_joint.rs 213-242,
b2_prismatic_joint.rs 219-248, b2_wheel_joint.rs 274-324, b2_weld_joint.rs 118-122, b2_distance_joint.rs 192-202, b2_motor_joint.rs 119-137). -/
def Joint.call : Joint F → JointCall F → Option (Joint F)
  | .revolute j, .enableLimit f => some (.revolute (j.setEnableLimit f).1)
  | .revolute j, .setLimits l u => (j.setLimits l u).map fun r => .revolute r.1
  | .revolute j, .enableMotor f => some (.revolute { j with enableMotor := f })
  | .revolute j, .setMotorSpeed x => some (.revolute { j with motorSpeed := x })
  | .revolute j, .setMaxMotor x => some (.revolute { j with maxMotorTorque := x })
  | .prismatic j, .enableLimit f => some (.prismatic (j.setEnableLimit f).1)
  | .prismatic j, .setLimits l u => (j.setLimits l u).map fun r => .prismatic r.1
  | .prismatic j, .enableMotor f => some (.prismatic { j with enableMotor := f })
  | .prismatic j, .setMotorSpeed x => some (.prismatic { j with motorSpeed := x })
  | .prismatic j, .setMaxMotor x => some (.prismatic { j with maxMotorForce := x })
  | .wheel j, .enableLimit f => some (.wheel (j.setEnableLimit f).1)
  | .wheel j, .setLimits l u => (j.setLimits l u).map fun r => .wheel r.1
  | .wheel j, .enableMotor f => some (.wheel { j with enableMotor := f })
  | .wheel j, .setMotorSpeed x => some (.wheel { j with motorSpeed := x })
  | .wheel j, .setMaxMotor x => some (.wheel { j with maxMotorTorque := x })
  | .wheel j, .setStiffness x => some (.wheel { j with stiffness := x })
  | .wheel j, .setDamping x => some (.wheel { j with damping := x })
  | .distance j, .setLength x => some (.distance (j.setLength x).1)
  | .distance j, .setMinLength x => some (.distance (j.setMinLength x).1)
  | .distance j, .setMaxLength x => some (.distance (j.setMaxLength x).1)
  | .distance j, .setStiffness x => some (.distance { j with stiffness := x })
  | .distance j, .setDamping x => some (.distance { j with damping := x })
  | .weld j, .setStiffness x => some (.weld { j with stiffness := x })
  | .weld j, .setDamping x => some (.weld { j with damping := x })
  | .friction j, .setMaxForce x => (j.setMaxForce x).map .friction
  | .friction j, .setMaxTorque x => (j.setMaxTorque x).map .friction
  | .motor j, .setMaxForce x => (j.setMaxForce x).map .motor
  | .motor j, .setMaxTorque x => (j.setMaxTorque x).map .motor
  | .motor j, .setCorrectionFactor x => (j.setCorrectionFactor x).map .motor
  | .motor j, .setLinearOffset v => some (.motor { j with linearOffset := v })
  | .motor j, .setAngularOffset x => some (.motor { j with angularOffset := x })
  | _, _ => none

end
end B2
