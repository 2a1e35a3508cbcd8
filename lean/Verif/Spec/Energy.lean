import Verif.Spec.Bounce
import Verif.Spec.Soft
import Verif.Spec.Joint
import Verif.Spec.Engine
import Mathlib.Algebra.BigOperators.Group.Finset.Basic

/-! # Specification: the kinetic energy of a world -/
namespace B2.Spec
section
variable {F : Type} [Field F] [LinearOrder F] [IsStrictOrderedRing F] [Elem F]

/-- Twice the kinetic energy of the bodies of a world: mass times the square of the speed plus inertia about the center of mass times the square of the angular
speed. Static and kinematic bodies have neither mass nor inertia. -/
def kinetic (w : World F) : F :=
  ∑ b ∈ w.g.bodyList.toFinset, ((w.phys b).mass * ((w.phys b).v.x ^ 2 + (w.phys b).v.y ^ 2) + (w.phys b).i * (w.phys b).w ^ 2)

/-- The joints of the world only hold: whatever they remember, none has a motor, a spring, a target or friction; limits of distance joints remember no impulses.
Each joins different bodies (a gear may have the same body twice if that is not dynamic), of which one, at least, can be pushed. -/
def OnlyHold (E : Engine F) (w : World F) : Prop :=
  ∀ j ∈ w.g.jointList, ∀ v : World F, v.g.joints = w.g.joints → (E.joint v j).Passive ∧ (∀ k, E.joint v j = .distance k → k.lowerImpulse = 0 ∧ k.upperImpulse = 0) ∧
    (E.joint v j).bodyA ≠ (E.joint v j).bodyB ∧ ((E.joint v j).touched.Pairwise fun a b => a ≠ b ∨ w.typeOf a ≠ .dynamic) ∧
    0 < (w.phys (E.joint v j).bodyA).invMass + (w.phys (E.joint v j).bodyB).invMass

/-- Nothing feeds the world with energy: no gravity, no force or torque on a body, no damping that speeds up, no joint that drives; no body moves that no impulse
can slow down; and impulses of the step before are not applied again in advance. -/
structure Unfed (E : Engine F) (w : World F) : Prop where
  gravity : w.gravity = ⟨0, 0⟩
  cold : w.warmStarting = false
  joints : OnlyHold E w
  force : ∀ b ∈ w.g.bodyList, (w.phys b).force = ⟨0, 0⟩ ∧ (w.phys b).torque = 0
  damping : ∀ b ∈ w.g.bodyList, 0 ≤ (w.phys b).linearDamping ∧ 0 ≤ (w.phys b).angularDamping
  mass : ∀ b ∈ w.g.bodyList, 0 ≤ (w.phys b).mass ∧ 0 ≤ (w.phys b).i
  driven : ∀ b ∈ w.g.bodyList, ((w.phys b).invMass = 0 → (w.phys b).v = ⟨0, 0⟩) ∧ ((w.phys b).invI = 0 → (w.phys b).w = 0)

/-- The contacts that were solved in a step from `w` to `w'` neither rub nor bounce; each has one or two points and a unit normal where the bodies were, and one
of its bodies, at least, can be pushed. -/
def Slippery (w w' : World F) : Prop :=
  ∀ c, Transmits w' c → (w'.cst c).friction = 0 ∧ (w'.cst c).restitution = 0 ∧ Sound (w'.cst c).manifold ∧
    ∀ x y, (w'.g.fixtures (w'.g.contacts c).fA).body = some x → (w'.g.fixtures (w'.g.contacts c).fB).body = some y → 0 < (w.phys x).invMass + (w.phys y).invMass ∧
      ∀ wm, worldManifold (w'.cst c).manifold (w.phys x).xf (w'.g.fixtures (w'.g.contacts c).fA).shape.radius (w.phys y).xf (w'.g.fixtures (w'.g.contacts c).fB).shape.radius = some wm →
        dot wm.normal wm.normal = 1

end
end B2.Spec
