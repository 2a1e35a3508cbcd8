import Verif.Model.Collide
import Verif.Model.ContactSolver
import Verif.Model.Distance

/-!
# Looking at the same thing from elsewhere

What C140 speaks of: a rigid change of coordinates — a rotation followed by a translation — and what becomes of a placement, a
ray, a contact, a distance and a shape cast under it.
-/
namespace B2.Spec
section
variable {F : Type} [Field F] [LinearOrder F]

/-- A rigid change of coordinates: the rotation part of `T` is a rotation. -/
def Rigid (T : Xf F) : Prop := T.q.s * T.q.s + T.q.c * T.q.c = 1

/-- The vector `v` turned by the rotation of `T`: `(c x - s y, s x + c y)`. -/
def turnBy (T : Xf F) (v : Vec2 F) : Vec2 F := ⟨T.q.c * v.x - T.q.s * v.y, T.q.s * v.x + T.q.c * v.y⟩

/-- The point `p` in the new coordinates: turned, then shifted. -/
def carry (T : Xf F) (p : Vec2 F) : Vec2 F := ⟨(turnBy T p).x + T.p.x, (turnBy T p).y + T.p.y⟩

/-- The placement `xf` of a body in the new coordinates: its origin is carried along, its axes are turned along. -/
def viewed (T xf : Xf F) : Xf F :=
  ⟨carry T xf.p, ⟨T.q.s * xf.q.c + T.q.c * xf.q.s, T.q.c * xf.q.c - T.q.s * xf.q.s⟩⟩

/-- The ray in the new coordinates. -/
def carryRay (T : Xf F) (r : RayIn F) : RayIn F := { r with p1 := carry T r.p1, p2 := carry T r.p2 }

/-- A hit in the new coordinates: the same fraction, the normal turned. -/
def carryHit (T : Xf F) (o : RayOut F) : RayOut F := { o with normal := turnBy T o.normal }

/-- `wm'` is the contact `wm`, of `n` points, in the new coordinates: the normal is turned, the points that are in use are
carried, the separations are the same. -/
structure SameContact (T : Xf F) (n : Nat) (wm wm' : WorldManifold F) : Prop where
  normal : wm'.normal = turnBy T wm.normal
  p1 : 0 < n → wm'.p1 = carry T wm.p1
  p2 : 1 < n → wm'.p2 = carry T wm.p2
  s1 : wm'.s1 = wm.s1
  s2 : wm'.s2 = wm.s2

/-- The centres of two circles in contact are far enough apart for the direction between them to be taken: otherwise the
normal is `(1, 0)`, whatever the point of view. -/
def CentresApart (m : Manifold F) (xfA xfB : Xf F) : Prop :=
  m.type = .circles → ∀ q ∈ m.points,
    distanceV2 (xfA.mulV m.localPoint) (xfB.mulV q.localPoint) > epsilon * epsilon

/-- The question of a distance in the new coordinates. -/
def carryQuery (T : Xf F) (i : DistanceInput F) : DistanceInput F :=
  { i with xfA := viewed T i.xfA, xfB := viewed T i.xfB }

/-- The answer in the new coordinates: the same distance after as many iterations, the witness points carried. -/
def carryAnswer (T : Xf F) (o : DistanceOutput F) : DistanceOutput F :=
  { o with pointA := carry T o.pointA, pointB := carry T o.pointB }

/-- The question of a shape cast in the new coordinates. -/
def carryCast (T : Xf F) (i : ShapeCastInput F) : ShapeCastInput F :=
  { i with xfA := viewed T i.xfA, xfB := viewed T i.xfB, translationB := turnBy T i.translationB }

/-- The answer of a shape cast in the new coordinates. -/
def carryCastOut (T : Xf F) (o : ShapeCastOutput F) : ShapeCastOutput F :=
  { o with point := carry T o.point, normal := turnBy T o.normal }

end
end B2.Spec
