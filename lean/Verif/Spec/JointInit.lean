import Verif.Spec.JointStill

/-!
# Joints that were defined where the bodies are
-/
namespace B2

section
variable {F : Type} [Field F] [LinearOrder F]

/-- `j.DefinedAt bodies pos a b x y`: the bodies are at `pos`, the function `initialize` of some definition was called with the bodies `a` and `b` and
the points `x` of body `a` and `y` of body `b` in the world (for most joints one point, for a motor joint the position of body `b`), and `j`
is the joint that is made of it. The other parameters of the definition are any. A mouse joint has only the point `y`, its target. -/
inductive Joint.DefinedAt [Elem F] (bodies : Nat → JBody F) (pos : Arr (Pos F)) : Joint F → Nat → Nat → Vec2 F → Vec2 F → Prop
  | revolute (d : RevoluteDef F) (a b : Nat) (x : Vec2 F) : DefinedAt bodies pos (.revolute (.ofDef (d.initialize bodies pos a b x))) a b x x
  | prismatic (d : PrismaticDef F) (a b : Nat) (x axis : Vec2 F) (j : Prismatic F) (h : Prismatic.ofDef (d.initialize bodies pos a b x axis) = some j) :
      DefinedAt bodies pos (.prismatic j) a b x x
  | wheel (d : WheelDef F) (a b : Nat) (x axis : Vec2 F) : DefinedAt bodies pos (.wheel (.ofDef (d.initialize bodies pos a b x axis))) a b x x
  | weld (d : WeldDef F) (a b : Nat) (x : Vec2 F) : DefinedAt bodies pos (.weld (.ofDef (d.initialize bodies pos a b x))) a b x x
  | friction (d : FrictionDef F) (a b : Nat) (x : Vec2 F) : DefinedAt bodies pos (.friction (.ofDef (d.initialize bodies pos a b x))) a b x x
  | distance (d : DistanceDef F) (a b : Nat) (x y : Vec2 F) : DefinedAt bodies pos (.distance (.ofDef (d.initialize bodies pos a b x y))) a b x y
  | motor (d : MotorDef F) (a b : Nat) : DefinedAt bodies pos (.motor (.ofDef (d.initialize bodies pos a b))) a b
      ((bodies b).worldPoint pos ⟨0, 0⟩) ((bodies b).worldPoint pos ⟨0, 0⟩)
  | pulley (d d' : PulleyDef F) (a b : Nat) (gx gy x y : Vec2 F) (ratio : F) (j : Pulley F)
      (h : d.initialize bodies pos a b gx gy x y ratio = some d') (h' : Pulley.ofDef d' = some j) : DefinedAt bodies pos (.pulley j) a b x y
  | mouse (d : MouseDef F) (x : Vec2 F) : DefinedAt bodies pos (.mouse (.ofDef bodies pos d)) d.bodyA d.bodyB x d.target

/-- There is room for the joint where the bodies are: zero is between the limits, which are not almost equal, and the ends of a distance joint
are `linear_slop` apart or more. -/
def Joint.Room (x y : Vec2 F) [Elem F] : Joint F → Prop
  | .revolute j => j.enableLimit = true → 2 * angularSlop ≤ j.upperAngle - j.lowerAngle ∧ j.lowerAngle ≤ 0 ∧ 0 ≤ j.upperAngle
  | .prismatic j => j.enableLimit = true → 2 * linearSlop ≤ j.upperTranslation - j.lowerTranslation ∧ j.lowerTranslation ≤ 0 ∧ 0 ≤ j.upperTranslation
  | .wheel j => j.enableLimit = true → 2 * linearSlop ≤ j.upperTranslation - j.lowerTranslation ∧ j.lowerTranslation ≤ 0 ∧ 0 ≤ j.upperTranslation
  | .distance _ => linearSlop ≤ (y - x).length
  | _ => True

/-- The motor of the joint, if it has one that is on, has the speed zero. -/
def Joint.MotorIdle : Joint F → Prop
  | .revolute j => j.enableMotor = true → j.motorSpeed = 0
  | .prismatic j => j.enableMotor = true → j.motorSpeed = 0
  | .wheel j => j.enableMotor = true → j.motorSpeed = 0
  | _ => True

end
end B2
