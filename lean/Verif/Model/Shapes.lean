import Verif.Model.Collision

/-!
# Shapes

Models `src/shapes/*.rs`, `src/b2_shape.rs` and `src/private/collision/b2_{circle,edge,chain,polygon}_shape.rs`.
Exact arithmetic. `none` is a panic; a ray cast answers `some none` for "no hit".
-/
namespace B2

/-- `B2ShapeType` (b2_shape.rs 25-33). -/
inductive ShapeType | circle | edge | polygon | chain
deriving DecidableEq, Repr

/-- `B2massData` (b2_shape.rs 11-21). -/
structure MassData (F : Type) where
  mass : F
  center : Vec2 F
  i : F

/-- `B2circleShape` (shapes/b2_circle_shape.rs 12-18). -/
structure Circle (F : Type) where
  radius : F
  p : Vec2 F

/-- `B2edgeShape` (shapes/b2_edge_shape.rs 16-28). -/
structure Edge (F : Type) where
  radius : F
  v1 : Vec2 F
  v2 : Vec2 F
  v0 : Vec2 F
  v3 : Vec2 F
  oneSided : Bool

/-- `B2chainShape` (shapes/b2_chain_shape.rs 20-31). -/
structure Chain (F : Type) where
  radius : F
  vertices : List (Vec2 F)
  prev : Vec2 F
  next : Vec2 F

/-- `B2polygonShape` (shapes/b2_polygon_shape.rs 14-20): the lists are the first `m_count` entries of the two arrays of
size 8. -/
structure Polygon (F : Type) where
  radius : F
  centroid : Vec2 F
  verts : List (Vec2 F)
  normals : List (Vec2 F)

/-- `B2_MAX_POLYGON_VERTICES` (b2_settings.rs). -/
def maxPolygonVertices : Nat := 8

section
variable {F : Type} [Field F] [LinearOrder F]

/-! ## Circle -/

/-- `test_point` (private/collision/b2_circle_shape.rs 15-19). -/
def Circle.testPoint (c : Circle F) (xf : Xf F) (p : Vec2 F) : Bool :=
  let center := xf.p + xf.q.mulV c.p
  let d := p - center
  decide (dot d d ≤ c.radius * c.radius)

/-- `ray_cast` (private/collision/b2_circle_shape.rs 26-61). `none` is the answer false. -/
def Circle.rayCast [Elem F] (self : Circle F) (input : RayIn F) (xf : Xf F) : Option (RayOut F) :=
  let position := xf.p + xf.q.mulV self.p
  let s := input.p1 - position
  let b := dot s s - self.radius * self.radius
  let r := input.p2 - input.p1
  let c := dot s r
  let rr := dot r r
  let sigma := c * c - rr * b
  if sigma < 0 ∨ rr < epsilon then none
  else
    let a := -(c + Elem.sqrt sigma)
    if 0 ≤ a ∧ a ≤ input.maxFraction * rr then
      let a := a / rr
      some { fraction := a, normal := (s + a * r).normalize.1 }
    else none

/-- `compute_aabb` (private/collision/b2_circle_shape.rs 62-75). -/
def Circle.computeAabb (c : Circle F) (xf : Xf F) : AABB F :=
  let p := xf.p + xf.q.mulV c.p
  ⟨⟨p.x - c.radius, p.y - c.radius⟩, ⟨p.x + c.radius, p.y + c.radius⟩⟩

/-- `compute_mass` (private/collision/b2_circle_shape.rs 77-84). -/
def Circle.computeMass [Elem F] (c : Circle F) (density : F) : MassData F :=
  let mass := density * Elem.pi * c.radius * c.radius
  { mass := mass, center := c.p, i := mass * (1 / 2 * c.radius * c.radius + dot c.p c.p) }

/-! ## Edge -/

/-- `B2edgeShape::default` (shapes/b2_edge_shape.rs 92-105). -/
def Edge.default : Edge F := ⟨polygonRadius, ⟨0, 0⟩, ⟨0, 0⟩, ⟨0, 0⟩, ⟨0, 0⟩, false⟩
/-- `b2_set_one_sided` (private/collision/b2_edge_shape.rs 7-13). -/
def Edge.setOneSided (e : Edge F) (v0 v1 v2 v3 : Vec2 F) : Edge F :=
  { e with v0 := v0, v1 := v1, v2 := v2, v3 := v3, oneSided := true }
/-- `b2_set_two_sided` (private/collision/b2_edge_shape.rs 15-19). -/
def Edge.setTwoSided (e : Edge F) (v1 v2 : Vec2 F) : Edge F :=
  { e with v1 := v1, v2 := v2, oneSided := false }

/-- `ray_cast` (private/collision/b2_edge_shape.rs 39-101). `none` is the answer false. -/
def Edge.rayCast [Elem F] (self : Edge F) (input : RayIn F) (xf : Xf F) : Option (RayOut F) :=
  let p1 := xf.q.mulTV (input.p1 - xf.p)
  let p2 := xf.q.mulTV (input.p2 - xf.p)
  let d := p2 - p1
  let v1 := self.v1
  let v2 := self.v2
  let e := v2 - v1
  let normal := (Vec2.mk e.y (-e.x)).normalize.1
  let numerator := dot normal (v1 - p1)
  if self.oneSided ∧ numerator > 0 then none
  else
    let denominator := dot normal d
    if denominator = 0 then none
    else
      let t := numerator / denominator
      if t < 0 ∨ input.maxFraction < t then none
      else
        let q := p1 + t * d
        let r := v2 - v1
        let rr := dot r r
        if rr = 0 then none
        else
          let s := dot (q - v1) r / rr
          if s < 0 ∨ 1 < s then none
          else
            some { fraction := t
                   normal := if numerator > 0 then -(xf.q.mulV normal) else xf.q.mulV normal }

/-- `compute_aabb` (private/collision/b2_edge_shape.rs 103-124). -/
def Edge.computeAabb (e : Edge F) (xf : Xf F) : AABB F :=
  let v1 := xf.mulV e.v1
  let v2 := xf.mulV e.v2
  let lower := minV v1 v2
  let upper := maxV v1 v2
  let r : Vec2 F := ⟨e.radius, e.radius⟩
  ⟨lower - r, upper + r⟩

/-- `compute_mass` (private/collision/b2_edge_shape.rs 126-132). -/
def Edge.computeMass (e : Edge F) (_density : F) : MassData F :=
  { mass := 0, center := (1 / 2 : F) * (e.v1 + e.v2), i := 0 }

/-! ## Chain -/

/-- `B2chainShape::default` (shapes/b2_chain_shape.rs). -/
def Chain.default : Chain F := ⟨polygonRadius, [], ⟨0, 0⟩, ⟨0, 0⟩⟩

/-- The loops `for i in 1..count { assert distance² > slop² }` of `create_loop` and `create_chain`. -/
def spaced : List (Vec2 F) → Bool
  | a :: b :: l => decide (distanceV2 a b > linearSlop * linearSlop) && spaced (b :: l)
  | _ => true

/-- `create_loop` (private/collision/b2_chain_shape.rs 12-30). -/
def Chain.createLoop (c : Chain F) (vertices : List (Vec2 F)) : Option (Chain F) := do
  if ¬ c.vertices.length = 0 then none
  if ¬ vertices.length ≥ 3 then none
  if ¬ spaced vertices then none
  let v0 ← vertices[0]?
  let vs := vertices ++ [v0]
  let prev ← vs[vs.length - 2]?
  let next ← vs[1]?
  return { c with vertices := vs, prev := prev, next := next }

/-- `create_chain` (private/collision/b2_chain_shape.rs 32-48). -/
def Chain.createChain (c : Chain F) (vertices : List (Vec2 F)) (prev next : Vec2 F) : Option (Chain F) := do
  if ¬ c.vertices.length = 0 then none
  if ¬ vertices.length ≥ 2 then none
  if ¬ spaced vertices then none
  return { c with vertices := vertices, prev := prev, next := next }

/-- `get_child_count` (private/collision/b2_chain_shape.rs 54-57): the subtraction panics for no vertices (debug). -/
def Chain.childCount (c : Chain F) : Option Nat :=
  if c.vertices.length = 0 then none else some (c.vertices.length - 1)

/-- `get_child_edge` (private/collision/b2_chain_shape.rs 59-79). The subtractions panic for too few vertices. -/
def Chain.getChildEdge (c : Chain F) (index : Nat) : Option (Edge F) := do
  let n := c.vertices.length
  if ¬ (1 ≤ n ∧ index < n - 1) then none
  let v1 ← c.vertices[index]?
  let v2 ← c.vertices[index + 1]?
  let v0 ← (if index > 0 then c.vertices[index - 1]? else some c.prev)
  if ¬ 2 ≤ n then none
  let v3 ← (if index < n - 2 then c.vertices[index + 2]? else some c.next)
  return { radius := c.radius, v1 := v1, v2 := v2, v0 := v0, v3 := v3, oneSided := true }

/-- The two vertices used by `ray_cast` and `compute_aabb` (private/collision/b2_chain_shape.rs 93-102, 115-124). -/
def Chain.ends (c : Chain F) (i : Nat) : Option (Vec2 F × Vec2 F) := do
  if ¬ i < c.vertices.length then none
  let i2 := if i + 1 = c.vertices.length then 0 else i + 1
  let a ← c.vertices[i]?
  let b ← c.vertices[i2]?
  return (a, b)

/-- `ray_cast` (private/collision/b2_chain_shape.rs 86-107): through a fresh, hence two-sided, edge. -/
def Chain.rayCast [Elem F] (c : Chain F) (input : RayIn F) (xf : Xf F) (i : Nat) : Option (Option (RayOut F)) := do
  let (a, b) ← c.ends i
  return { Edge.default with v1 := a, v2 := b : Edge F }.rayCast input xf

/-- `compute_aabb` (private/collision/b2_chain_shape.rs 109-133). -/
def Chain.computeAabb (c : Chain F) (xf : Xf F) (i : Nat) : Option (AABB F) := do
  let (a, b) ← c.ends i
  let v1 := xf.mulV a
  let v2 := xf.mulV b
  let lower := minV v1 v2
  let upper := maxV v1 v2
  let r : Vec2 F := ⟨c.radius, c.radius⟩
  return ⟨lower - r, upper + r⟩

/-- `compute_mass` (private/collision/b2_chain_shape.rs 135-141). -/
def Chain.computeMass (_c : Chain F) (_density : F) : MassData F := { mass := 0, center := ⟨0, 0⟩, i := 0 }

/-! ## Polygon -/

/-- `B2polygonShape::default` (shapes/b2_polygon_shape.rs). -/
def Polygon.default : Polygon F := ⟨polygonRadius, ⟨0, 0⟩, [], []⟩

/-- The four vertices of a box (private/collision/b2_polygon_shape.rs 14-17). -/
def boxVerts (hx hy : F) : List (Vec2 F) := [⟨-hx, -hy⟩, ⟨hx, -hy⟩, ⟨hx, hy⟩, ⟨-hx, hy⟩]
/-- The four normals of a box (private/collision/b2_polygon_shape.rs 18-21). -/
def boxNormals : List (Vec2 F) := [⟨0, -1⟩, ⟨1, 0⟩, ⟨0, 1⟩, ⟨-1, 0⟩]

/-- `set_as_box` (private/collision/b2_polygon_shape.rs 12-23). -/
def Polygon.setAsBox (p : Polygon F) (hx hy : F) : Polygon F :=
  { p with verts := boxVerts hx hy, normals := boxNormals, centroid := ⟨0, 0⟩ }

/-- `set_as_box_angle` (private/collision/b2_polygon_shape.rs 25-53). -/
def Polygon.setAsBoxAngle [Elem F] (p : Polygon F) (hx hy : F) (center : Vec2 F) (angle : F) : Polygon F :=
  let xf : Xf F := ⟨center, Rot.ofAngle angle⟩
  { p with
    verts := (boxVerts hx hy).map xf.mulV
    normals := boxNormals.map xf.q.mulV
    centroid := center }

/-- Consecutive pairs of a cyclic list: vertex `i` and vertex `i + 1` (vertex 0 after the last), as in the loops
`i2 = if i + 1 < m { i + 1 } else { 0 }`. -/
def cyclicPairs (l : List (Vec2 F)) : List (Vec2 F × Vec2 F) :=
  match l with
  | [] => []
  | a :: t => (a :: t).zip (t ++ [a])

/-- `compute_centroid` (private/collision/b2_polygon_shape.rs 59-94); `INV3` is exactly one third. -/
def computeCentroid (vs : List (Vec2 F)) : Option (Vec2 F) := do
  if ¬ vs.length ≥ 3 then none
  let s ← vs[0]?
  let r := (cyclicPairs vs).foldl (fun (acc : Vec2 F × F) pr =>
    let p1 := s - s
    let p2 := pr.1 - s
    let p3 := pr.2 - s
    let e1 := p2 - p1
    let e2 := p3 - p1
    let d := cross e1 e2
    let triangleArea := 1 / 2 * d
    (acc.1 + (triangleArea * (1 / 3)) * (p1 + p2 + p3), acc.2 + triangleArea)) (⟨0, 0⟩, 0)
  if ¬ r.2 > epsilon then none
  return (1 / r.2) * r.1 + s

/-- Welding (private/collision/b2_polygon_shape.rs 105-126). -/
def weld (vertices : List (Vec2 F)) : List (Vec2 F) :=
  vertices.foldl (fun ps v =>
    if ps.any fun p => decide (distanceV2 v p < ((1 / 2) * linearSlop) * ((1 / 2) * linearSlop)) then ps
    else ps ++ [v]) []

/-- `ps[i]` of the array of size 8 whose tail is zero (private/collision/b2_polygon_shape.rs 106). -/
def psGet (ps : List (Vec2 F)) (i : Nat) : Vec2 F := (ps[i]?).getD ⟨0, 0⟩

/-- The right-most point, lowest among equals (private/collision/b2_polygon_shape.rs 140-148). -/
def rightMost (ps : List (Vec2 F)) : Nat :=
  ((List.range' 1 (ps.length - 1)).foldl (fun (st : Nat × F) i =>
    let x := (psGet ps i).x
    if x > st.2 ∨ (x = st.2 ∧ (psGet ps i).y < (psGet ps st.1).y) then (i, x) else st) (0, (psGet ps 0).x)).1

/-- One turn of the inner loop of the gift wrapping (private/collision/b2_polygon_shape.rs 160-177). -/
def wrapStep (ps : List (Vec2 F)) (ih ie j : Nat) : Nat :=
  if ie = ih then j
  else
    let r := psGet ps ie - psGet ps ih
    let v := psGet ps j - psGet ps ih
    let c := cross r v
    let ie := if c < 0 then j else ie
    if c = 0 ∧ v.lengthSquared > r.lengthSquared then j else ie

/-- The inner loop (private/collision/b2_polygon_shape.rs 158-178). -/
def wrapNext (ps : List (Vec2 F)) (ih : Nat) : Nat :=
  (List.range' 1 (ps.length - 1)).foldl (wrapStep ps ih) 0

/-- The outer loop (private/collision/b2_polygon_shape.rs 154-186): `fuel` counts down `8 - m`, the assertion
`m < 8` fails at 0. -/
def wrapLoop (ps : List (Vec2 F)) (i0 : Nat) : Nat → List Nat → Nat → Option (List Nat)
  | 0, _, _ => none
  | fuel + 1, hull, ih =>
    let hull := hull ++ [ih]
    let ie := wrapNext ps ih
    if ie = i0 then some hull else wrapLoop ps i0 fuel hull ie

/-- `set` (private/collision/b2_polygon_shape.rs 96-211). The branches after `b2_assert(false)` are not reached. -/
def Polygon.set [Elem F] (p : Polygon F) (vertices : List (Vec2 F)) : Option (Polygon F) := do
  if ¬ (3 ≤ vertices.length ∧ vertices.length ≤ maxPolygonVertices) then none
  let ps := weld vertices
  if ps.length < 3 then none
  let i0 := rightMost ps
  let hull ← wrapLoop ps i0 maxPolygonVertices [] i0
  if hull.length < 3 then none
  let verts := hull.map (psGet ps)
  let edges : List (Vec2 F) := (cyclicPairs verts).map fun pr => pr.2 - pr.1
  if ¬ edges.all (fun e : Vec2 F => decide (e.lengthSquared > (epsilon * epsilon : F))) then none
  let normals := edges.map fun e => (crossVS e 1).normalize.1
  let c ← computeCentroid verts
  return { p with verts := verts, normals := normals, centroid := c }

/-- `test_point` (private/collision/b2_polygon_shape.rs 213-224). -/
def Polygon.testPoint (self : Polygon F) (xf : Xf F) (p : Vec2 F) : Bool :=
  let pLocal := xf.q.mulTV (p - xf.p)
  (self.verts.zip self.normals).all fun vn => !decide (dot vn.2 (pLocal - vn.1) > 0)

/-- Loop state of the polygon ray cast: `lower`, `upper` and the normal of `index` (`none` for -1). -/
structure PolyCast (F : Type) where
  lower : F
  upper : F
  index : Option (Vec2 F)

/-- One turn of the loop of `ray_cast` (private/collision/b2_polygon_shape.rs 244-278). `none` is the answer false. -/
def polyCastStep (p1 d : Vec2 F) (st : PolyCast F) (v n : Vec2 F) : Option (PolyCast F) :=
  let numerator := dot n (v - p1)
  let denominator := dot n d
  let st? : Option (PolyCast F) :=
    if denominator = 0 then
      if numerator < 0 then none else some st
    else if denominator < 0 ∧ numerator < st.lower * denominator then
      some { st with lower := numerator / denominator, index := some n }
    else if denominator > 0 ∧ numerator < st.upper * denominator then
      some { st with upper := numerator / denominator }
    else some st
  st?.bind fun st => if st.upper < st.lower then none else some st

/-- The loop (private/collision/b2_polygon_shape.rs 244-278). -/
def polyCastLoop (p1 d : Vec2 F) : List (Vec2 F × Vec2 F) → PolyCast F → Option (PolyCast F)
  | [], st => some st
  | vn :: l, st => (polyCastStep p1 d st vn.1 vn.2).bind (polyCastLoop p1 d l)

/-- `ray_cast` (private/collision/b2_polygon_shape.rs 226-290), with the initial `lower = 0.032` of the source. The
outer `none` is the assertion failure. -/
def Polygon.rayCast (self : Polygon F) (input : RayIn F) (xf : Xf F) : Option (Option (RayOut F)) :=
  let p1 := xf.q.mulTV (input.p1 - xf.p)
  let p2 := xf.q.mulTV (input.p2 - xf.p)
  let d := p2 - p1
  match polyCastLoop p1 d (self.verts.zip self.normals) ⟨32 / 1000, input.maxFraction, none⟩ with
  | none => some none
  | some st =>
    if 0 ≤ st.lower ∧ st.lower ≤ input.maxFraction then
      match st.index with
      | some n => some (some { fraction := st.lower, normal := xf.q.mulV n })
      | none => some none
    else none

/-- `compute_aabb` (private/collision/b2_polygon_shape.rs 292-312). With no vertices the zero entry of the array is used. -/
def Polygon.computeAabb (self : Polygon F) (xf : Xf F) : AABB F :=
  let lower := xf.mulV (self.verts.headD ⟨0, 0⟩)
  let b := self.verts.tail.foldl (fun (b : Vec2 F × Vec2 F) v =>
    let v := xf.mulV v
    (minV b.1 v, maxV b.2 v)) (lower, lower)
  let r : Vec2 F := ⟨self.radius, self.radius⟩
  ⟨b.1 - r, b.2 + r⟩

/-- `compute_mass` (private/collision/b2_polygon_shape.rs 314-390). -/
def Polygon.computeMass (self : Polygon F) (density : F) : Option (MassData F) := do
  if ¬ self.verts.length ≥ 3 then none
  let s ← self.verts[0]?
  let r := (cyclicPairs self.verts).foldl (fun (acc : Vec2 F × F × F) pr =>
    let e1 := pr.1 - s
    let e2 := pr.2 - s
    let d := cross e1 e2
    let triangleArea := 1 / 2 * d
    let intx2 := e1.x * e1.x + e2.x * e1.x + e2.x * e2.x
    let inty2 := e1.y * e1.y + e2.y * e1.y + e2.y * e2.y
    (acc.1 + (triangleArea * (1 / 3)) * (e1 + e2), acc.2.1 + triangleArea,
      acc.2.2 + (1 / 4 * (1 / 3) * d) * (intx2 + inty2))) (⟨0, 0⟩, 0, 0)
  let area := r.2.1
  let mass := density * area
  if ¬ area > epsilon then none
  let center := (1 / area) * r.1
  let c := center + s
  return { mass := mass, center := c, i := density * r.2.2 + mass * (dot c c - dot center center) }

/-- `validate` (private/collision/b2_polygon_shape.rs 392-413). -/
def Polygon.validate (self : Polygon F) : Bool :=
  let n := self.verts.length
  (List.range n).all fun i =>
    let i2 := if i < n - 1 then i + 1 else 0
    let p := psGet self.verts i
    let e := psGet self.verts i2 - p
    (List.range n).all fun j =>
      if j = i ∨ j = i2 then true
      else !decide (cross e (psGet self.verts j - p) < 0)

/-! ## Any shape -/

/-- `Rc<dyn B2shapeDynTrait>` (b2_shape.rs 58-59, shapes/b2rs_to_derived_shape.rs 16-22). -/
inductive Shape (F : Type)
  | circle (c : Circle F)
  | edge (e : Edge F)
  | polygon (p : Polygon F)
  | chain (c : Chain F)

/-- `get_type`; the constructors of the crate set it to the kind of the shape. -/
def Shape.type : Shape F → ShapeType
  | .circle _ => .circle
  | .edge _ => .edge
  | .polygon _ => .polygon
  | .chain _ => .chain

/-- `get_child_count` (b2_shape.rs, and each shape file). -/
def Shape.childCount : Shape F → Option Nat
  | .circle _ => some 1
  | .edge _ => some 1
  | .polygon _ => some 1
  | .chain c => c.childCount

/-- `compute_aabb`. -/
def Shape.computeAabb (s : Shape F) (xf : Xf F) (i : Nat) : Option (AABB F) :=
  match s with
  | .circle c => some (c.computeAabb xf)
  | .edge e => some (e.computeAabb xf)
  | .polygon p => some (p.computeAabb xf)
  | .chain c => c.computeAabb xf i

/-- `compute_mass`. -/
def Shape.computeMass [Elem F] (s : Shape F) (density : F) : Option (MassData F) :=
  match s with
  | .circle c => some (c.computeMass density)
  | .edge e => some (e.computeMass density)
  | .polygon p => p.computeMass density
  | .chain c => some (c.computeMass density)

/-- `test_point` (edges and chains always answer false). -/
def Shape.testPoint (s : Shape F) (xf : Xf F) (p : Vec2 F) : Bool :=
  match s with
  | .circle c => c.testPoint xf p
  | .polygon q => q.testPoint xf p
  | .edge _ => false
  | .chain _ => false

/-- `ray_cast`. -/
def Shape.rayCast [Elem F] (s : Shape F) (input : RayIn F) (xf : Xf F) (i : Nat) : Option (Option (RayOut F)) :=
  match s with
  | .circle c => some (c.rayCast input xf)
  | .edge e => some (e.rayCast input xf)
  | .polygon p => p.rayCast input xf
  | .chain c => c.rayCast input xf i

end
end B2
