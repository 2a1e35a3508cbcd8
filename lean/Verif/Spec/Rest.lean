import Verif.Spec.Bounce
import Verif.Spec.Viewpoint

/-! # Specification: a body that rests on another -/
namespace B2.Spec
section
variable {F : Type} [Field F] [LinearOrder F] [IsStrictOrderedRing F] [Elem F]

/-- The acceleration gravity and the applied force give a body. -/
def pull (w : World F) (b : Nat) : Vec2 F :=
  (w.phys b).invMass * (((w.phys b).gravityScale * (w.phys b).mass) * w.gravity + (w.phys b).force)

/-- Body `z` does not move, and contact `c` does not drag at it. -/
structure AtRest (w : World F) (c z : Nat) : Prop where
  still : (w.phys z).v = ⟨0, 0⟩
  unturned : (w.phys z).w = 0
  grip : ∀ p ∈ (w.cst c).manifold.points, p.tangentImpulse = 0

/-- Body `z` is where it was: its centre of mass, its angle and its transform are the same. -/
structure SamePlace (w w' : World F) (z : Nat) : Prop where
  c : (w'.phys z).sweep.c = (w.phys z).sweep.c
  a : (w'.phys z).sweep.a = (w.phys z).sweep.a
  xf : (w'.phys z).xf = (w.phys z).xf

/-- In a step of length `dt` from `w` to `w'` a dynamic body `z` is borne by a static body `o`. They are the bodies `x` and `y` of contact `c`, which is the only
thing that acts on `z`. It has one point, which is straight above or below the centre of mass as seen along the normal; the shapes overlap by no more than
the slop; and gravity and force pull `z` straight onto `o`, and no faster than restitution leaves alone. -/
structure BornBy (dt : F) (w w' : World F) (c x y z o : Nat) : Prop where
  meet : OnlyMeet w' c x y
  pair : (z = x ∧ o = y) ∨ (z = y ∧ o = x)
  mobile : w.typeOf z = .dynamic
  fixed : w.typeOf o = .static
  mass : 0 < (w.phys z).invMass
  inertia : 0 ≤ (w.phys z).invI
  damped : 0 ≤ (w.phys z).linearDamping
  torque : (w.phys z).torque = 0
  sound : Sound (w'.cst c).manifold
  onePoint : (w'.cst c).manifold.points.length = 1
  apart : CentresApart (w'.cst c).manifold (w.phys x).xf (w.phys y).xf
  slides : (w'.cst c).tangentSpeed = 0
  rough : 0 ≤ (w'.cst c).friction
  touch : ∃ wm, worldManifold (w'.cst c).manifold (w.phys x).xf (w'.g.fixtures (w'.g.contacts c).fA).shape.radius (w.phys y).xf (w'.g.fixtures (w'.g.contacts c).fB).shape.radius = some wm ∧
    dot wm.normal wm.normal = 1 ∧ -linearSlop ≤ wm.s1 ∧ cross (wm.p1 - (w.phys z).sweep.c) wm.normal = 0 ∧
    ∃ k, 0 ≤ k ∧ pull w z = k * (if z = x then wm.normal else -wm.normal) ∧ (dt * k ≤ (w'.cst c).restitutionThreshold ∨ (w'.cst c).restitution = 0)

end
end B2.Spec
