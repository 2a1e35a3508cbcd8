import Verif.Model.Shapes

/-!
# Contact manifolds

Models `src/private/collision/b2_collide_circle.rs`, `b2_collide_polygon.rs`, `b2_collide_edge.rs` and the functions
`evaluate` of `src/private/dynamics/contacts/*.rs`. Exact arithmetic. Each function is given a fresh default manifold,
as `b2_contact_update` does (private/dynamics/b2_contact.rs 165-166), so what is not written keeps its default.
A panic is `none`.
-/
namespace B2

section
variable {F : Type} [Field F] [LinearOrder F]

/-- `B2manifold::default()` (b2_collision.rs 75-85). -/
def Manifold.default : Manifold F := ⟨[], ⟨0, 0⟩, ⟨0, 0⟩, .circles⟩

/-- A manifold point with a given position and feature; the impulses are those of the default. -/
def ManifoldPoint.at' (p : Vec2 F) (cf : Feature) : ManifoldPoint F := ⟨p, 0, 0, ⟨cf⟩⟩

/-- `B2contactFeature::default()` (b2_collision.rs 22). -/
def Feature.default : Feature := ⟨0, 0, 0, 0⟩
/-- `B2contactFeatureType::EVertex as u8` (b2_collision.rs 13-18). -/
def eVertex : UInt8 := 0
/-- `B2contactFeatureType::EFace as u8` (b2_collision.rs 13-18). -/
def eFace : UInt8 := 1

/-! ## Circles -/

/-- `b2_collide_circles` (b2_collide_circle.rs 7-33). -/
def collideCircles (a : Circle F) (xfA : Xf F) (b : Circle F) (xfB : Xf F) : Manifold F :=
  let pA := xfA.mulV a.p
  let pB := xfB.mulV b.p
  let d := pB - pA
  let distSqr := dot d d
  let radius := a.radius + b.radius
  if distSqr > radius * radius then Manifold.default
  else { type := .circles, localPoint := a.p, localNormal := ⟨0, 0⟩, points := [.at' b.p .default] }

/-! ## Polygon and circle -/

/-- The loop of `b2_collide_polygon_and_circle` (b2_collide_circle.rs 56-69) over the indices that are left: the best
index and separation, or `none` for the early return. -/
def faceLoop (p : Polygon F) (c : Vec2 F) (radius : F) : List Nat → Nat × F → Option (Nat × F)
  | [], st => some st
  | i :: l, st =>
    let s := dot (psGet p.normals i) (c - psGet p.verts i)
    if s > radius then none else faceLoop p c radius l (if s > st.2 then (i, s) else st)

/-- The index after `i` on a polygon of `n` vertices. -/
def nextIndex (i n : Nat) : Nat := if i + 1 < n then i + 1 else 0

/-- The manifold of a face `n` of polygon A at `q` and a circle centred at `p` (b2_collide_circle.rs 84-91, 101-107,
113-119, 127-132). -/
def faceCircle (n q p : Vec2 F) : Manifold F :=
  { type := .faceA, localNormal := n, localPoint := q, points := [.at' p .default] }

/-- `b2_collide_polygon_and_circle` (b2_collide_circle.rs 35-132). -/
def collidePolygonCircle [Elem F] (a : Polygon F) (xfA : Xf F) (b : Circle F) (xfB : Xf F) : Manifold F :=
  let c := xfB.mulV b.p
  let cLocal := xfA.mulTV c
  let radius := a.radius + b.radius
  match faceLoop a cLocal radius (List.range a.verts.length) (0, -maxFlt) with
  | none => Manifold.default
  | some (normalIndex, separation) =>
    let v1 := psGet a.verts normalIndex
    let v2 := psGet a.verts (nextIndex normalIndex a.verts.length)
    if separation < epsilon then
      faceCircle (psGet a.normals normalIndex) ((1 / 2 : F) * (v1 + v2)) b.p
    else
      let u1 := dot (cLocal - v1) (v2 - v1)
      let u2 := dot (cLocal - v2) (v1 - v2)
      if u1 ≤ 0 then
        if distanceV2 cLocal v1 > radius * radius then Manifold.default
        else faceCircle (cLocal - v1).normalize.1 v1 b.p
      else if u2 ≤ 0 then
        if distanceV2 cLocal v2 > radius * radius then Manifold.default
        else faceCircle (cLocal - v2).normalize.1 v2 b.p
      else
        let faceCenter := (1 / 2 : F) * (v1 + v2)
        let s := dot (cLocal - faceCenter) (psGet a.normals normalIndex)
        if s > radius then Manifold.default
        else faceCircle (psGet a.normals normalIndex) faceCenter b.p

/-! ## Clipping an incident edge to a reference edge -/

/-- The two calls of `b2_clip_segment_to_line` with the returns after them (b2_collide_polygon.rs 180-191,
b2_collide_edge.rs 422-446). The inner `none` is the return without contact points. -/
def clipTwice (c0 c1 : ClipVertex F) (n1 : Vec2 F) (o1 : F) (i1 : Nat) (n2 : Vec2 F) (o2 : F) (i2 : Nat) :
    Option (Option (ClipVertex F × ClipVertex F)) :=
  (clipSegmentToLine c0 c1 n1 o1 i1).bind fun l1 =>
    match l1 with
    | [a, b] =>
      (clipSegmentToLine a b n2 o2 i2).bind fun l2 =>
        match l2 with
        | [c, d] => some (some (c, d))
        | _ => some none
    | _ => some none

/-- Swapping the two shapes in a feature (b2_collide_polygon.rs 208-216, b2_collide_edge.rs 465-469). -/
def Feature.swap (f : Feature) : Feature := ⟨f.indexB, f.indexA, f.typeB, f.typeA⟩

/-! ## Polygons -/

/-- `b2_find_max_separation` (b2_collide_polygon.rs 7-45): the edge index and the separation. -/
def findMaxSeparation (p1 : Polygon F) (xf1 : Xf F) (p2 : Polygon F) (xf2 : Xf F) : Nat × F :=
  let xf := xf2.mulT xf1
  (List.range p1.verts.length).foldl (fun (st : Nat × F) i =>
    let n := xf.q.mulV (psGet p1.normals i)
    let v1 := xf.mulV (psGet p1.verts i)
    let si := p2.verts.foldl (fun si v =>
      let sij := dot n (v - v1)
      if sij < si then sij else si) maxFlt
    if si > st.2 then (i, si) else st) (0, -maxFlt)

/-- The search for the incident edge (b2_collide_polygon.rs 66-75). -/
def mostAntiParallel (normal : Vec2 F) (normals : List (Vec2 F)) (n : Nat) : Nat :=
  ((List.range n).foldl (fun (st : Nat × F) i =>
    let d := dot normal (psGet normals i)
    if d < st.2 then (i, d) else st) (0, maxFlt)).1

/-- `b2_find_incident_edge` (b2_collide_polygon.rs 47-92). -/
def findIncidentEdge (p1 : Polygon F) (xf1 : Xf F) (edge1 : Nat) (p2 : Polygon F) (xf2 : Xf F) :
    Option (ClipVertex F × ClipVertex F) :=
  if edge1 < p1.verts.length then
    let normal1 := xf2.q.mulTV (xf1.q.mulV (psGet p1.normals edge1))
    let i1 := mostAntiParallel normal1 p2.normals p2.verts.length
    let i2 := nextIndex i1 p2.verts.length
    some (⟨xf2.mulV (psGet p2.verts i1), ⟨⟨UInt8.ofNat edge1, UInt8.ofNat i1, eFace, eVertex⟩⟩⟩,
      ⟨xf2.mulV (psGet p2.verts i2), ⟨⟨UInt8.ofNat edge1, UInt8.ofNat i2, eFace, eVertex⟩⟩⟩)
  else none

/-- The second half of `b2_collide_polygons` (b2_collide_polygon.rs 148-224): `p1` is the reference polygon with
reference edge `edge1`, `p2` the incident polygon; `flip` tells that the reference polygon is B. -/
def clipPolygons [Elem F] (totalRadius : F) (p1 : Polygon F) (xf1 : Xf F) (edge1 : Nat) (p2 : Polygon F) (xf2 : Xf F)
    (flip : Bool) : Option (Manifold F) :=
  (findIncidentEdge p1 xf1 edge1 p2 xf2).bind fun inc =>
    let iv1 := edge1
    let iv2 := nextIndex edge1 p1.verts.length
    let v11 := psGet p1.verts iv1
    let v12 := psGet p1.verts iv2
    let localTangent := (v12 - v11).normalize.1
    let localNormal := crossVS localTangent 1
    let planePoint := (1 / 2 : F) * (v11 + v12)
    let tangent := xf1.q.mulV localTangent
    let normal := crossVS tangent 1
    let v11 := xf1.mulV v11
    let v12 := xf1.mulV v12
    let frontOffset := dot normal v11
    let sideOffset1 := -dot tangent v11 + totalRadius
    let sideOffset2 := dot tangent v12 + totalRadius
    let type := if flip then ManifoldType.faceB else .faceA
    (clipTwice inc.1 inc.2 (-tangent) sideOffset1 iv1 tangent sideOffset2 iv2).bind fun r =>
      match r with
      | none => some { Manifold.default with type := type }
      | some (a, b) =>
        some { type := type, localNormal := localNormal, localPoint := planePoint
               points := ([a, b].filter fun c => dot normal c.v - frontOffset ≤ totalRadius).map fun c =>
                 .at' (xf2.mulTV c.v) (if flip then c.id.cf.swap else c.id.cf) }

/-- `b2_collide_polygons` (b2_collide_polygon.rs 101-225). -/
def collidePolygons [Elem F] (a : Polygon F) (xfA : Xf F) (b : Polygon F) (xfB : Xf F) : Option (Manifold F) :=
  let totalRadius := a.radius + b.radius
  let sa := findMaxSeparation a xfA b xfB
  if sa.2 > totalRadius then some Manifold.default
  else
    let sb := findMaxSeparation b xfB a xfA
    if sb.2 > totalRadius then some Manifold.default
    else if sb.2 > sa.2 + 1 / 10 * linearSlop then clipPolygons totalRadius b xfB sb.1 a xfA true
    else clipPolygons totalRadius a xfA sa.1 b xfB false

/-! ## Edge and circle -/

/-- `b2_collide_edge_and_circle` (b2_collide_edge.rs 11-120). -/
def collideEdgeCircle [Elem F] (a : Edge F) (xfA : Xf F) (b : Circle F) (xfB : Xf F) : Option (Manifold F) :=
  let q := xfA.mulTV (xfB.mulV b.p)
  let va := a.v1
  let vb := a.v2
  let e := vb - va
  let n : Vec2 F := ⟨e.y, -e.x⟩
  let offset := dot n (q - va)
  if a.oneSided ∧ offset < 0 then some Manifold.default
  else
    let u := dot e (vb - q)
    let v := dot e (q - va)
    let radius := a.radius + b.radius
    if v ≤ 0 then
      if dot (q - va) (q - va) > radius * radius then some Manifold.default
      else if a.oneSided ∧ dot (va - a.v0) (va - q) > 0 then some Manifold.default
      else some { type := .circles, localNormal := ⟨0, 0⟩, localPoint := va, points := [.at' b.p ⟨0, 0, eVertex, eVertex⟩] }
    else if u ≤ 0 then
      if dot (q - vb) (q - vb) > radius * radius then some Manifold.default
      else if a.oneSided ∧ dot (a.v3 - vb) (q - vb) > 0 then some Manifold.default
      else some { type := .circles, localNormal := ⟨0, 0⟩, localPoint := vb, points := [.at' b.p ⟨1, 0, eVertex, eVertex⟩] }
    else
      let den := dot e e
      if ¬ den > 0 then none
      else
        let p := (1 / den) * (u * va + v * vb)
        if dot (q - p) (q - p) > radius * radius then some Manifold.default
        else
          let n := if offset < 0 then ⟨-n.x, -n.y⟩ else n
          some { type := .faceA, localNormal := n.normalize.1, localPoint := va, points := [.at' b.p ⟨0, 0, eFace, eVertex⟩] }

/-! ## Edge and polygon -/

/-- `B2ePAxisType` (b2_collide_edge.rs 123-128). -/
inductive AxisType | unknown | edgeA | edgeB
deriving DecidableEq

/-- `B2epaxis` (b2_collide_edge.rs 137-143). The index is used for axes of type `edgeB` only; -1 is `none`. -/
structure EPAxis (F : Type) where
  normal : Vec2 F
  type : AxisType
  index : Option Nat
  separation : F

/-- The least `axis · (v - v1)` over the vertices (b2_collide_edge.rs 183-191). -/
def deepest (verts : List (Vec2 F)) (axis v1 : Vec2 F) : F :=
  verts.foldl (fun sj v =>
    let si := dot axis (v - v1)
    if si < sj then si else sj) maxFlt

/-- One turn of the loop of `b2_compute_edge_separation` (b2_collide_edge.rs 179-198). -/
def edgeAxisStep (verts : List (Vec2 F)) (v1 : Vec2 F) (axis : EPAxis F) (j : Nat) (n : Vec2 F) : EPAxis F :=
  let sj := deepest verts n v1
  if sj > axis.separation then { axis with index := some j, separation := sj, normal := n } else axis

/-- `b2_compute_edge_separation` (b2_collide_edge.rs 168-201). -/
def computeEdgeSeparation (verts : List (Vec2 F)) (v1 normal1 : Vec2 F) : EPAxis F :=
  let axis : EPAxis F := ⟨⟨0, 0⟩, .edgeA, none, -maxFlt⟩
  let axis := edgeAxisStep verts v1 axis 0 normal1
  edgeAxisStep verts v1 axis 1 (-normal1)

/-- `b2_compute_polygon_separation` (b2_collide_edge.rs 203-229). -/
def computePolygonSeparation (verts normals : List (Vec2 F)) (v1 v2 : Vec2 F) : EPAxis F :=
  (List.range verts.length).foldl (fun (axis : EPAxis F) i =>
    let n := -psGet normals i
    let s1 := dot n (psGet verts i - v1)
    let s2 := dot n (psGet verts i - v2)
    let s := b2min s1 s2
    if s > axis.separation then { type := .edgeB, index := some i, separation := s, normal := n } else axis)
    ⟨⟨0, 0⟩, .unknown, none, -maxFlt⟩

/-- The choice of the axis and the smoothing for one-sided edges (b2_collide_edge.rs 279-343): `none` is the return
without contact points. -/
def primaryAxis [Elem F] (a : Edge F) (radius : F) (edge1 : Vec2 F) (edgeAxis polyAxis : EPAxis F) : Option (EPAxis F) :=
  let primary := if polyAxis.separation - radius > 98 / 100 * (edgeAxis.separation - radius) + 1 / 1000 then polyAxis
    else edgeAxis
  if a.oneSided then
    let edge0 := (a.v1 - a.v0).normalize.1
    let normal0 : Vec2 F := ⟨edge0.y, -edge0.x⟩
    let convex1 := cross edge0 edge1 ≥ 0
    let edge2 := (a.v3 - a.v2).normalize.1
    let normal2 : Vec2 F := ⟨edge2.y, -edge2.x⟩
    let convex2 := cross edge1 edge2 ≥ 0
    let side1 := dot primary.normal edge1 ≤ 0
    if side1 then
      if convex1 then if cross primary.normal normal0 > 1 / 10 then none else some primary
      else some edgeAxis
    else
      if convex2 then if cross normal2 primary.normal > 1 / 10 then none else some primary
      else some edgeAxis
  else some primary

/-- The search for the polygon normal most anti-parallel to the edge normal (b2_collide_edge.rs 350-359). -/
def mostAntiParallel' (normal : Vec2 F) (normals : List (Vec2 F)) (n : Nat) : Nat :=
  ((List.range' 1 (n - 1)).foldl (fun (st : Nat × F) i =>
    let d := dot normal (psGet normals i)
    if d < st.2 then (i, d) else st) (0, dot normal (psGet normals 0))).1

/-- The end of `b2_collide_edge_and_polygon` (b2_collide_edge.rs 344-475) when the axis is that of the edge: the edge
`v1 v2` is the reference face. -/
def clipToEdge (radius : F) (a : Edge F) (edge1 normal : Vec2 F) (verts normals : List (Vec2 F)) (xf : Xf F) :
    Option (Manifold F) :=
  let i1 := mostAntiParallel' normal normals verts.length
  let i2 := nextIndex i1 verts.length
  let c0 : ClipVertex F := ⟨psGet verts i1, ⟨⟨0, UInt8.ofNat i1, eFace, eVertex⟩⟩⟩
  let c1 : ClipVertex F := ⟨psGet verts i2, ⟨⟨0, UInt8.ofNat i2, eFace, eVertex⟩⟩⟩
  (clipTwice c0 c1 (-edge1) (dot (-edge1) a.v1) 0 edge1 (dot edge1 a.v2) 1).bind fun r =>
    match r with
    | none => some { Manifold.default with type := .faceA }
    | some (c, d) =>
      some { type := .faceA, localNormal := normal, localPoint := a.v1
             points := ([c, d].filter fun c => dot normal (c.v - a.v1) ≤ radius).map fun c =>
               .at' (xf.mulTV c.v) c.id.cf }

/-- The same when the axis is that of face `index` of the polygon, which is then the reference face. The index -1
(`none`) makes `rf.i1 + 1` overflow: a panic. -/
def clipToFace (radius : F) (a : Edge F) (index : Option Nat) (b : Polygon F) (verts normals : List (Vec2 F)) :
    Option (Manifold F) :=
  index.bind fun i1 =>
    let i2 := nextIndex i1 verts.length
    let c0 : ClipVertex F := ⟨a.v2, ⟨⟨1, UInt8.ofNat i1, eVertex, eFace⟩⟩⟩
    let c1 : ClipVertex F := ⟨a.v1, ⟨⟨0, UInt8.ofNat i1, eVertex, eFace⟩⟩⟩
    let v1 := psGet verts i1
    let v2 := psGet verts i2
    let normal := psGet normals i1
    let side1 : Vec2 F := ⟨normal.y, -normal.x⟩
    let side2 := -side1
    (clipTwice c0 c1 side1 (dot side1 v1) i1 side2 (dot side2 v2) i2).bind fun r =>
      match r with
      | none => some { Manifold.default with type := .faceB }
      | some (c, d) =>
        some { type := .faceB, localNormal := psGet b.normals i1, localPoint := psGet b.verts i1
               points := ([c, d].filter fun c => dot normal (c.v - v1) ≤ radius).map fun c =>
                 .at' c.v c.id.cf.swap }

/-- `b2_collide_edge_and_polygon` (b2_collide_edge.rs 231-475). -/
def collideEdgePolygon [Elem F] (a : Edge F) (xfA : Xf F) (b : Polygon F) (xfB : Xf F) : Option (Manifold F) :=
  let xf := xfA.mulT xfB
  let centroidB := xf.mulV b.centroid
  let edge1 := (a.v2 - a.v1).normalize.1
  let normal1 : Vec2 F := ⟨edge1.y, -edge1.x⟩
  let offset1 := dot normal1 (centroidB - a.v1)
  if a.oneSided ∧ offset1 < 0 then some Manifold.default
  else
    let verts := b.verts.map xf.mulV
    let normals := b.normals.map xf.q.mulV
    let radius := b.radius + a.radius
    let edgeAxis := computeEdgeSeparation verts a.v1 normal1
    if edgeAxis.separation > radius then some Manifold.default
    else
      let polyAxis := computePolygonSeparation verts normals a.v1 a.v2
      if polyAxis.separation > radius then some Manifold.default
      else
        match primaryAxis a radius edge1 edgeAxis polyAxis with
        | none => some Manifold.default
        | some primary =>
          if primary.type = .edgeA then clipToEdge radius a edge1 primary.normal verts normals xf
          else clipToFace radius a primary.index b verts normals

/-! ## Dispatch -/

/-- `evaluate` of the contact between child `i` of shape A and shape B (private/dynamics/contacts/*.rs). The contact
types are those of the registry (b2_contact.rs, modelled in Model/World.lean); B is a circle or a polygon without
children; for other pairs there is no contact. -/
def evaluateShapes [Elem F] (a : Shape F) (i : Nat) (xfA : Xf F) (b : Shape F) (xfB : Xf F) : Option (Manifold F) :=
  match a, b with
  | .circle a, .circle b => some (collideCircles a xfA b xfB)
  | .polygon a, .circle b => some (collidePolygonCircle a xfA b xfB)
  | .polygon a, .polygon b => collidePolygons a xfA b xfB
  | .edge a, .circle b => collideEdgeCircle a xfA b xfB
  | .edge a, .polygon b => collideEdgePolygon a xfA b xfB
  | .chain a, .circle b => (a.getChildEdge i).bind fun e => collideEdgeCircle e xfA b xfB
  | .chain a, .polygon b => (a.getChildEdge i).bind fun e => collideEdgePolygon e xfA b xfB
  | _, _ => none

end
end B2
