import Verif.Model.Collide
import Verif.Model.ContactSolver
import Verif.Spec.Shapes
import Verif.Spec.Real

/-!
# What contact manifolds are for
-/
namespace B2.Spec
variable {F : Type} [Field F] [LinearOrder F]

/-- Child `i` of shape A and shape B (which has no children) have a point in common, skins included. -/
def Touching (a : Shape F) (i : Nat) (xfA : Xf F) (b : Shape F) (xfB : Xf F) : Prop :=
  ∃ x, ShapePoint a i xfA x ∧ ShapePoint b 0 xfB x

/-- A polygon as `set` and `set_as_box` leave it: at least three and at most eight vertices in strictly convex
counter-clockwise order, no two neighbours too close, and to each edge its outward unit normal. -/
structure ProperPolygon (p : Polygon F) : Prop where
  convex : ConvexCCW p.verts
  few : p.verts.length ≤ 8
  long : ∀ a b, NextTo p.verts a b → epsilon * epsilon ≤ dist2 a b
  len : p.normals.length = p.verts.length
  normal : ∀ (i : Nat) (a b n : Vec2 F), p.verts[i]? = some a → p.verts[(i + 1) % p.verts.length]? = some b →
    p.normals[i]? = some n → dot n n = 1 ∧ dot n (b - a) = 0 ∧ turn a b (a + n) < 0

/-- `D` is the distance of the point `c` from the hull of `vs` placed at `xf`. -/
def DistanceIs (vs : List (Vec2 F)) (xf : Xf F) (c : Vec2 F) (D : F) : Prop :=
  0 ≤ D ∧ (∃ x, Hull vs x ∧ dist2 (place xf x) c = D * D) ∧ ∀ x, Hull vs x → D * D ≤ dist2 (place xf x) c

/-- The world manifold `w` is that of a disc of radius `rB` round `c` and the hull of `vs` placed at `xf` with a skin of
radius `rA`: for the point `x` of the hull that is nearest to `c`, at distance `D`, the unit normal leads from `x` to
`c`, the separation is `D` less the radii, and the contact point is halfway between the two surfaces. -/
def NearestContact (vs : List (Vec2 F)) (xf : Xf F) (rA : F) (c : Vec2 F) (rB : F) (w : WorldManifold F) : Prop :=
  ∃ (x : Vec2 F) (D : F), Hull vs x ∧ 0 ≤ D ∧ (∀ y, Hull vs y → D * D ≤ dist2 (place xf y) c) ∧
    w.normal.x * w.normal.x + w.normal.y * w.normal.y = 1 ∧
    c.x = (place xf x).x + D * w.normal.x ∧ c.y = (place xf x).y + D * w.normal.y ∧
    w.s1 = D - rA - rB ∧
    2 * w.p1.x = ((place xf x).x + rA * w.normal.x) + (c.x - rB * w.normal.x) ∧
    2 * w.p1.y = ((place xf x).y + rA * w.normal.y) + (c.y - rB * w.normal.y)

/-- The point `q`, in the frame of the edge, is behind the one-sided edge: to the left of the line from `v1` to `v2`. -/
def Behind (e : Edge F) (q : Vec2 F) : Prop := e.oneSided = true ∧ 0 < turn e.v1 e.v2 q

/-- Nothing on the segment `a b` is nearer to `q` than the hull of `vs` is. -/
def NotNearer (a b q : Vec2 F) (vs : List (Vec2 F)) : Prop :=
  ∀ y, Hull [a, b] y → ∃ x, Hull vs x ∧ dist2 q x ≤ dist2 q y

/-- The vertex before child `i` of a chain: the vertex before it, or the ghost vertex given at creation. -/
def chainBefore (c : Chain F) (i : Nat) : Vec2 F := if i = 0 then c.prev else (c.vertices[i - 1]?).getD c.prev
/-- The vertex after child `i` of a chain. -/
def chainAfter (c : Chain F) (i : Nat) : Vec2 F := (c.vertices[i + 2]?).getD c.next

/-- The signed height of `q` over face `i` of the polygon, in the frame of the polygon. -/
def faceHeight (p : Polygon F) (i : Nat) (q : Vec2 F) : F := dot (psGet p.normals i) (q - psGet p.verts i)

/-- A shape that collision can be asked about: its radius is not negative, a polygon is proper, an edge (or the child
of a chain) is not shorter than `EPSILON`, and a chain has the child. -/
def ProperShape : Shape F → Nat → Prop
  | .circle c, _ => 0 ≤ c.radius
  | .polygon p, _ => 0 ≤ p.radius ∧ ProperPolygon p
  | .edge e, _ => 0 ≤ e.radius ∧ epsilon * epsilon ≤ dist2 e.v1 e.v2
  | .chain c, i => 0 ≤ c.radius ∧ ∃ v1 v2, c.vertices[i]? = some v1 ∧ c.vertices[i + 1]? = some v2 ∧ epsilon * epsilon ≤ dist2 v1 v2

/-- The pairs of shapes for which there are contacts (the order is that of the contact). -/
def ContactPair : Shape F → Shape F → Prop
  | .circle _, .circle _ => True
  | .polygon _, .circle _ | .polygon _, .polygon _ => True
  | .edge _, .circle _ | .edge _, .polygon _ => True
  | .chain _, .circle _ | .chain _, .polygon _ => True
  | _, _ => False

/-- No two points of the child of the shape are as far apart as `MAX_FLT`. -/
def InRange (s : Shape F) (i : Nat) : Prop := ∀ x ∈ childPoints s i, ∀ y ∈ childPoints s i, dist2 x y < maxFlt * maxFlt

/-- A manifold with a reference face on the shape spanned by `ref`, against the incident shape spanned by `inc`: the
normal is a unit vector and the reference shape is behind the plane through `localPoint`, a point of it; each contact
point is a point of the incident shape, at most `r` in front of that plane. -/
structure FaceSound (ref : List (Vec2 F)) (xfR : Xf F) (inc : List (Vec2 F)) (xfI : Xf F) (r : F) (m : Manifold F) : Prop where
  unit : dot m.localNormal m.localNormal = 1
  on : Hull ref m.localPoint
  behind : ∀ x, Hull ref x → dot m.localNormal (x - m.localPoint) ≤ 0
  inc : ∀ p ∈ m.points, Hull inc p.localPoint
  near : ∀ p ∈ m.points, ∀ q, place xfR q = place xfI p.localPoint → dot m.localNormal (q - m.localPoint) ≤ r

/-- A manifold fit for the contact solver. -/
structure Manifold.Sound (a : Shape F) (i : Nat) (xfA : Xf F) (b : Shape F) (xfB : Xf F) (m : Manifold F) : Prop where
  few : m.points.length ≤ 2
  circles : m.type = .circles → m.points ≠ [] → m.points.length = 1 ∧ Hull (childPoints a i) m.localPoint ∧
    ∀ p ∈ m.points, Hull (childPoints b 0) p.localPoint ∧
      dist2 (place xfA m.localPoint) (place xfB p.localPoint) ≤ (skin a + skin b) * (skin a + skin b)
  faceA : m.type = .faceA → m.points ≠ [] → FaceSound (childPoints a i) xfA (childPoints b 0) xfB (skin a + skin b) m
  faceB : m.type = .faceB → m.points ≠ [] → FaceSound (childPoints b 0) xfB (childPoints a i) xfA (skin a + skin b) m

end B2.Spec
