import Verif.Model.Shapes
import Verif.Spec.Geom

/-!
# What a shape is, as a set of points
-/
namespace B2.Spec
variable {F : Type} [Field F] [LinearOrder F]

/-- `q` is a rotation: cosine and sine of some angle. -/
def IsRot (q : Rot F) : Prop := q.c * q.c + q.s * q.s = 1

/-- Where the body frame `xf` puts the local point `v`: rotate, then translate. -/
def place (xf : Xf F) (v : Vec2 F) : Vec2 F :=
  ⟨xf.q.c * v.x - xf.q.s * v.y + xf.p.x, xf.q.s * v.x + xf.q.c * v.y + xf.p.y⟩

/-- Squared distance. -/
def dist2 (a b : Vec2 F) : F := (a.x - b.x) * (a.x - b.x) + (a.y - b.y) * (a.y - b.y)

/-- The convex hull: the least set containing the points and, with any two points, the segment between them. -/
inductive Hull (vs : List (Vec2 F)) : Vec2 F → Prop
  | vertex {v} : v ∈ vs → Hull vs v
  | between {a b t} : Hull vs a → Hull vs b → 0 ≤ t → t ≤ 1 → Hull vs (onLine a b t)

/-- The points spanning child `i` of a shape. -/
def childPoints : Shape F → Nat → List (Vec2 F)
  | .circle c, _ => [c.p]
  | .edge e, _ => [e.v1, e.v2]
  | .polygon p, _ => p.verts
  | .chain c, i => (c.vertices.drop i).take 2

/-- The radius of the skin around the shape. -/
def skin : Shape F → F
  | .circle c => c.radius
  | .edge e => e.radius
  | .polygon p => p.radius
  | .chain c => c.radius

/-- `p` is a point of child `i` of the shape placed at `xf`: it is within the radius of a point of the hull. -/
def ShapePoint (s : Shape F) (i : Nat) (xf : Xf F) (p : Vec2 F) : Prop :=
  ∃ q, Hull (childPoints s i) q ∧ dist2 (place xf q) p ≤ skin s * skin s

/-- A point of the (skinless) polygon as the intersection of the half-planes of its faces, in its own frame. -/
def InPoly (p : Polygon F) (q : Vec2 F) : Prop :=
  ∀ vn ∈ p.verts.zip p.normals, vn.2.x * (q.x - vn.1.x) + vn.2.y * (q.y - vn.1.y) ≤ 0

/-- A point of the polygon placed at `xf`. -/
def InPolyAt (p : Polygon F) (xf : Xf F) (q : Vec2 F) : Prop := ∃ l, InPoly p l ∧ place xf l = q

end B2.Spec

namespace B2.Spec
variable {F : Type} [Field F] [LinearOrder F]

/-- Twice the signed area of the triangle `a b p`: positive when `p` is to the left of the directed line `a b`. -/
def turn (a b p : Vec2 F) : F := (b.x - a.x) * (p.y - a.y) - (b.y - a.y) * (p.x - a.x)

/-- Neighbours in a cyclic list: `b` comes right after `a`. -/
def NextTo (l : List (Vec2 F)) (a b : Vec2 F) : Prop :=
  ∃ i, l[i]? = some a ∧ l[(i + 1) % l.length]? = some b

/-- A strictly convex polygon in counter-clockwise order: every vertex other than the two ends of an edge lies
strictly to the left of that edge. -/
def ConvexCCW (l : List (Vec2 F)) : Prop :=
  3 ≤ l.length ∧ l.Nodup ∧ ∀ a b, NextTo l a b → ∀ p ∈ l, p = a ∨ p = b ∨ 0 < turn a b p

/-- The shoelace area of a cyclic list of points. -/
def shoelace (l : List (Vec2 F)) : F :=
  1 / 2 * ((l.zip (l.rotate 1)).map fun ab => ab.1.x * ab.2.y - ab.1.y * ab.2.x).sum

end B2.Spec
