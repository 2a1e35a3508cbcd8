import Verif.Model.ContactSolver
import Verif.Spec.Real
import Mathlib.Algebra.BigOperators.Group.Finset.Basic

/-!
# What the contact solver is for

Momentum, kinetic energy and centre of mass of the bodies of an island, and the contact condition.
-/
namespace B2
open Finset

section
variable {F : Type} [Field F]

/-- Total linear momentum of bodies with masses `M`. -/
def momentum (M : Nat → F) (vel : Arr (Vel F)) : Vec2 F :=
  ⟨∑ i ∈ range vel.len, M i * (vel.at' i).v.x, ∑ i ∈ range vel.len, M i * (vel.at' i).v.y⟩

/-- Total angular momentum about the origin of bodies with masses `M`, moments of inertia `J` about their centres of
mass, and centres of mass at `c`. -/
def angularMomentum (M J : Nat → F) (c : Nat → Vec2 F) (vel : Arr (Vel F)) : F :=
  ∑ i ∈ range vel.len, (M i * ((c i).x * (vel.at' i).v.y - (c i).y * (vel.at' i).v.x) + J i * (vel.at' i).w)

/-- Twice the total kinetic energy. -/
def energy2 (M J : Nat → F) (vel : Arr (Vel F)) : F :=
  ∑ i ∈ range vel.len, (M i * ((vel.at' i).v.x ^ 2 + (vel.at' i).v.y ^ 2) + J i * (vel.at' i).w ^ 2)

/-- The sum of mass times position; divided by the total mass it is the centre of mass. -/
def massPoint (M : Nat → F) (pos : Arr (Pos F)) : Vec2 F :=
  ⟨∑ i ∈ range pos.len, M i * (pos.at' i).c.x, ∑ i ∈ range pos.len, M i * (pos.at' i).c.y⟩

/-- The speed at which the bodies `a` and `b`, centred at `cA` and `cB`, separate along `n` at the point `x`. -/
def separatingSpeed (n x cA cB : Vec2 F) (a b : Vel F) : F :=
  (b.v.x - b.w * (x.y - cB.y) - (a.v.x - a.w * (x.y - cA.y))) * n.x +
  (b.v.y + b.w * (x.x - cB.x) - (a.v.y + a.w * (x.x - cA.x))) * n.y

end

section
variable {F : Type} [Field F] [LinearOrder F]

/-- A contact as it is handed to the solver of an island of `n` bodies: it has one or two points, its bodies are two
different bodies of the island, masses are not negative and at least one of them is finite, and the normal is a unit
vector. -/
structure ContactIn.Ok (n : Nat) (c : ContactIn F) : Prop where
  points : c.manifold.points.length = 1 ∨ c.manifold.points.length = 2
  circles : c.manifold.type = .circles → c.manifold.points.length = 1
  indexA : c.indexA < n
  indexB : c.indexB < n
  ne : c.indexA ≠ c.indexB
  massA : 0 ≤ c.invMassA
  massB : 0 ≤ c.invMassB
  mass : 0 < c.invMassA + c.invMassB
  inertiaA : 0 ≤ c.invIA
  inertiaB : 0 ≤ c.invIB
  normal : c.manifold.type ≠ .circles → c.manifold.localNormal.x ^ 2 + c.manifold.localNormal.y ^ 2 = 1

/-- No contact point holds a negative normal impulse. -/
def Pushing (m : Manifold F) : Prop := ∀ p ∈ m.points, 0 ≤ p.normalImpulse

/-- The inverse masses of a contact are those of its bodies. -/
def ContactIn.MassesAre (invM invI : Nat → F) (c : ContactIn F) : Prop :=
  c.invMassA = invM c.indexA ∧ c.invMassB = invM c.indexB ∧ c.invIA = invI c.indexA ∧ c.invIB = invI c.indexB

/-- The contact condition at a point with impulse `x`, separating speed `v` and required separating speed `bias`: the
bodies do not separate slower than required, they are not pulled, and they are pushed only if they do not separate
faster than required. -/
def ContactCondition (x v bias : F) : Prop := bias ≤ v ∧ 0 ≤ x ∧ (x = 0 ∨ v = bias)

/-- The separating speed that restitution asks for at a point where the bodies had the separating speed `v0`. -/
def ContactIn.bounce (c : ContactIn F) (v0 : F) : F := if v0 < -c.threshold then -c.restitution * v0 else 0

/-- The contact's shapes as the world manifold shows them when the bodies are at `pos`. -/
def ContactIn.worldAt [Elem F] (c : ContactIn F) (pos : Arr (Pos F)) : Option (WorldManifold F) :=
  worldManifold c.manifold ((pos.at' c.indexA).xf c.localCenterA) c.radiusA ((pos.at' c.indexB).xf c.localCenterB) c.radiusB

/-- The centres of the circles of a contact of circles do not coincide. -/
def ContactIn.CentresApart [Elem F] (c : ContactIn F) (pos : Arr (Pos F)) : Prop :=
  c.manifold.type = .circles → ∀ q ∈ c.manifold.points,
    epsilon * epsilon < distanceV2 (((pos.at' c.indexA).xf c.localCenterA).mulV c.manifold.localPoint)
      (((pos.at' c.indexB).xf c.localCenterB).mulV q.localPoint)

/-- The number of contact points of body `i`. -/
def contactPointsOf (i : Nat) (contacts : List (ContactIn F)) : Nat :=
  (contacts.map fun c => if c.indexA = i ∨ c.indexB = i then c.manifold.points.length else 0).sum

/-- Every body has the finite mass `M i` and moment of inertia `J i`, inverses of `invM i` and `invI i`, or an infinite
one and then it does not move (or turn). -/
def NothingDriven (M J invM invI : Nat → F) (vel : Arr (Vel F)) : Prop :=
  ∀ i < vel.len, (M i * invM i = 1 ∨ invM i = 0 ∧ (vel.at' i).v = ⟨0, 0⟩) ∧
    (J i * invI i = 1 ∨ invI i = 0 ∧ (vel.at' i).w = 0)

end
end B2
