import Verif.Spec.World
import Verif.Spec.WorldContacts
import Verif.Spec.WorldQuery
import Verif.Spec.Collide
import Verif.Model.Engine

/-! # What it is for a contact to touch -/
namespace B2.Spec
open B2

section
variable {F : Type} [Field F] [LinearOrder F] [IsStrictOrderedRing F] [Elem F]

/-- One of the two bodies of the contact is awake and not static. -/
def Active (w : World F) (k : ConS) : Prop := ∃ b, (w.phys b).awake = true ∧ (w.g.bodies b).type ≠ .static ∧
  ((w.g.fixtures k.fA).body = some b ∨ (w.g.fixtures k.fB).body = some b)

/-- The shapes of the contact touch at the bodies' transforms: if one of the fixtures is a sensor, their distance is less than ten times
`EPSILON`; otherwise the collision routine for the two shapes finds points. -/
def TouchFound (w : World F) (k : ConS) : Prop :=
  ∃ a b, (w.g.fixtures k.fA).body = some a ∧ (w.g.fixtures k.fB).body = some b ∧
    if (w.fattr k.fA).sensor = true ∨ (w.fattr k.fB).sensor = true then
      ∃ pA pB r, Proxy.ofShape (w.g.fixtures k.fA).shape k.iA = some pA ∧ Proxy.ofShape (w.g.fixtures k.fB).shape k.iB = some pB ∧
        distance ⟨0, 0, (0, 0), (0, 0), (0, 0)⟩ ⟨pA, pB, (w.phys a).xf, (w.phys b).xf, true⟩ = some r ∧ r.1.distance < 10 * epsilon
    else ∃ m, evaluateShapes (w.g.fixtures k.fA).shape k.iA (w.phys a).xf (w.g.fixtures k.fB).shape (w.phys b).xf = some m ∧ m.points ≠ []

/-- The fattened boxes of the two children of the contact overlap. -/
def FatNear (w : World F) (k : ConS) : Prop := FatOverlap w (k.fA, k.iA) (k.fB, k.iB)

/-- The point belongs to the child of the fixture where its body is. -/
def InChild (w : World F) (c : Nat × Nat) (p : Vec2 F) : Prop :=
  ∃ b, (w.g.fixtures c.1).body = some b ∧ ShapePoint (w.g.fixtures c.1).shape c.2 (w.phys b).xf p

/-- The two children have a common point. -/
def Meet (w : World F) (x y : Nat × Nat) : Prop := ∃ p, InChild w x p ∧ InChild w y p

/-- The world has a contact of the two children, in one order or the other, and it says that they touch. -/
def HasTouching (w : World F) (x y : Nat × Nat) : Prop :=
  ∃ c ∈ w.g.contactList, (w.cst c).touching = true ∧
    let k := w.g.contacts c
    ((k.fA, k.iA) = x ∧ (k.fB, k.iB) = y) ∨ ((k.fA, k.iA) = y ∧ (k.fB, k.iB) = x)

/-- Contacts will be looked for at the start of the next step, or were at the end of the last one. -/
def Searched (env : Env F) (D : Nat → Nat → Prop) (w : World F) : Prop :=
  w.newContacts = true ∨ ∃ w0 dt vi pi, DHist env D w0 ∧ w0.stepComplete = true ∧ 0 < dt ∧ w0.step env dt vi pi = some w

/-- A circle, a polygon or a two-sided edge. -/
def PlainShape : Shape F → Prop
  | .circle _ | .polygon _ => True
  | .edge e => e.oneSided = false
  | .chain _ => False

end
end B2.Spec
