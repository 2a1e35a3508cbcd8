import Verif.Spec.Engine
import Verif.Spec.Joint
import Verif.Spec.WorldMotion
import Verif.Spec.Momentum
import Verif.Spec.ContactSolver

/-! # Specification: two bodies that only meet each other -/
namespace B2.Spec
section
variable {F : Type} [Field F] [LinearOrder F] [IsStrictOrderedRing F] [Elem F]

/-- The velocity a body has in a step before contacts and joints act on it: gravity, its force and its damping have acted on a dynamic body; nothing
acts on others. -/
def drivenVel (dt : F) (w : World F) (b : Nat) : Vel F :=
  if w.typeOf b = .dynamic then ⟨freeV dt w.gravity (w.phys b), freeW dt (w.phys b)⟩ else ⟨(w.phys b).v, (w.phys b).w⟩

/-- The velocity of a body. -/
def velOf (w : World F) (b : Nat) : Vel F := ⟨(w.phys b).v, (w.phys b).w⟩

/-- The body moves and turns less in one step than the engine's limits. -/
def UnderLimits (dt : F) (v : Vel F) : Prop := BelowLimit dt v.v ∧ dt * v.w * (dt * v.w) < maxRotation * maxRotation

/-- In a step that ends in `w'`, contact `c` joins the bodies `x` and `y`, in this order, and is solved; and neither of them, unless static, has another contact
that is solved, or a joint. -/
structure OnlyMeet (w' : World F) (c x y : Nat) : Prop where
  transmits : Transmits w' c
  bodyA : (w'.g.fixtures (w'.g.contacts c).fA).body = some x
  bodyB : (w'.g.fixtures (w'.g.contacts c).fB).body = some y
  only : ∀ z, z = x ∨ z = y → w'.typeOf z ≠ .static → ∀ c', Transmits w' c' → OfBody w' c' z → c' = c
  joints : ∀ z, z = x ∨ z = y → w'.typeOf z ≠ .static → ∀ j ∈ w'.g.jointList, (w'.g.joints j).a ≠ z ∧ (w'.g.joints j).b ≠ z

/-- A manifold as the narrow phase makes them: one or two points, one if it is of circles, and otherwise a unit normal. -/
structure Sound (m : Manifold F) : Prop where
  points : m.points.length = 1 ∨ m.points.length = 2
  circles : m.type = .circles → m.points.length = 1
  normal : m.type ≠ .circles → m.localNormal.x ^ 2 + m.localNormal.y ^ 2 = 1

/-- The speed at which restitution asks the bodies of a contact to separate, if they were to meet with the separating speed `v0`: if they approach faster than
the threshold, the speed of approach times the restitution. -/
def CState.bounce (s : CState F) (v0 : F) : F := if v0 < -s.restitutionThreshold then -s.restitution * v0 else 0

/-- In a step from `w` to `w'` the bodies `x` and `y` of contact `c` obeyed the law of impact: of the contact's first point, seen from where the bodies were,
the impulse `p.normalImpulse` pushes or is zero, the bodies end separating at least as fast as restitution asks, and exactly that fast if the impulse is not zero. -/
def ObeysImpact (dt : F) (w w' : World F) (c x y : Nat) : Prop :=
  ∃ wm p, worldManifold (w'.cst c).manifold (w.phys x).xf (w'.g.fixtures (w'.g.contacts c).fA).shape.radius (w.phys y).xf (w'.g.fixtures (w'.g.contacts c).fB).shape.radius = some wm ∧
    (w'.cst c).manifold.points[0]? = some p ∧
    ContactCondition p.normalImpulse (separatingSpeed wm.normal wm.p1 (w.phys x).sweep.c (w.phys y).sweep.c (velOf w' x) (velOf w' y))
      (CState.bounce (w'.cst c) (separatingSpeed wm.normal wm.p1 (w.phys x).sweep.c (w.phys y).sweep.c (drivenVel dt w x) (drivenVel dt w y)))

end
end B2.Spec
