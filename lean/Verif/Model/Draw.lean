import Verif.Model.Engine
import Verif.Model.Rope

/-!
# Debug drawing

Models `debug_draw` and `draw_shape` of `src/private/dynamics/b2_world.rs`, the `draw` functions of the joints and that of a rope. What is
drawn is the list of calls made on the user's `B2drawTrait`, in order. `none` is a panic.
-/
namespace B2

/-- `B2color` (b2_draw.rs 7-24), in tenths; the alpha of all colours drawn is 1. -/
structure Colour where
  r : Nat
  g : Nat
  b : Nat
deriving DecidableEq

/-- The functions of `B2drawTrait` (b2_draw.rs 90-116). -/
inductive DrawCall (F : Type)
  | polygon (vs : List (Vec2 F)) (c : Colour)
  | solidPolygon (vs : List (Vec2 F)) (c : Colour)
  | circle (center : Vec2 F) (radius : F) (c : Colour)
  | solidCircle (center : Vec2 F) (radius : F) (axis : Vec2 F) (c : Colour)
  | segment (p q : Vec2 F) (c : Colour)
  | transform (xf : Xf F)
  | point (p : Vec2 F) (size : Nat) (c : Colour)

/-- `B2drawShapeFlags` (b2_draw.rs 52-66). -/
structure DrawFlags where
  shape : Bool
  joint : Bool
  aabb : Bool
  pair : Bool
  centerOfMass : Bool

section
variable {F : Type} [Field F] [LinearOrder F] [IsStrictOrderedRing F] [Elem F]

/-- The segments between neighbours (private/dynamics/b2_world.rs 1091-1098). -/
def drawLine (c : Colour) : Vec2 F → List (Vec2 F) → List (DrawCall F)
  | _, [] => []
  | v1, v2 :: l => .segment v1 v2 c :: drawLine c v2 l

/-- `draw_shape` (private/dynamics/b2_world.rs 1057-1115). A chain without vertices and a polygon with more than eight are panics. -/
def drawShape (s : Shape F) (xf : Xf F) (c : Colour) : Option (List (DrawCall F)) :=
  match s with
  | .circle o => some [.solidCircle (xf.mulV o.p) o.radius (xf.q.mulV ⟨1, 0⟩) c]
  | .edge e =>
    let v1 := xf.mulV e.v1
    let v2 := xf.mulV e.v2
    some (.segment v1 v2 c :: if e.oneSided = false then [.point v1 4 c, .point v2 4 c] else [])
  | .chain ch =>
    match ch.vertices with
    | [] => none
    | v :: l => some (drawLine c (xf.mulV v) (l.map xf.mulV))
  | .polygon p => if p.verts.length ≤ maxPolygonVertices then some [.solidPolygon (p.verts.map xf.mulV) c] else none

namespace World

/-- The colour of a body's fixtures (private/dynamics/b2_world.rs 1138-1166). -/
def bodyColour (w : World F) (b : Nat) : Colour :=
  if w.typeOf b = .dynamic ∧ (w.phys b).mass = 0 then ⟨10, 0, 0⟩
  else if (w.g.bodies b).enabled = false then ⟨5, 5, 3⟩
  else if w.typeOf b = .static then ⟨5, 9, 5⟩
  else if w.typeOf b = .kinematic then ⟨5, 5, 9⟩
  else if w.isAwake b = false then ⟨6, 6, 6⟩
  else ⟨9, 7, 7⟩

/-- The shapes (private/dynamics/b2_world.rs 1129-1169). -/
def drawShapes (w : World F) : Option (List (DrawCall F)) :=
  w.g.bodyList.foldlM (fun acc b =>
    (w.g.bodies b).fixtures.foldlM (fun acc f => do
      let l ← drawShape (w.g.fixtures f).shape (w.phys b).xf (w.bodyColour b)
      return acc ++ l) acc) []

/-- The contacts (private/dynamics/b2_world.rs 1183-1200, `get_aabb` of b2_fixture.rs 445-448). -/
def drawPairs (w : World F) : Option (List (DrawCall F)) :=
  w.g.contactList.foldlM (fun acc c => do
    let k := w.g.contacts c
    let _ ← (w.g.fixtures k.fA).proxies[k.iA]?
    let _ ← (w.g.fixtures k.fB).proxies[k.iB]?
    return acc ++ [.segment (w.paabb k.fA k.iA).center (w.paabb k.fB k.iB).center ⟨3, 9, 9⟩]) []

/-- The fat boxes of the proxies (private/dynamics/b2_world.rs 1202-1235). -/
def drawBoxes (w : World F) : Option (List (DrawCall F)) :=
  w.g.bodyList.foldlM (fun acc b =>
    if (w.g.bodies b).enabled = false then some acc
    else (w.g.bodies b).fixtures.foldlM (fun acc f =>
      (w.g.fixtures f).proxies.foldlM (fun acc p => do
        let id ← p.proxyId
        let box ← w.bp.tree.getFatAabb id
        return acc ++ [.polygon [⟨box.lo.x, box.lo.y⟩, ⟨box.hi.x, box.lo.y⟩, ⟨box.hi.x, box.hi.y⟩, ⟨box.lo.x, box.hi.y⟩] ⟨9, 3, 9⟩]) acc) acc) []

/-- The centers of mass (private/dynamics/b2_world.rs 1237-1246). -/
def drawCenters (w : World F) : List (DrawCall F) :=
  w.g.bodyList.map fun b => .transform ⟨(w.phys b).sweep.c, (w.phys b).xf.q⟩

end World

/-! ## Joints -/

/-- The three segments drawn for most joints (private/dynamics/b2_joint.rs 146-150). -/
def drawLink (x1 p1 p2 x2 : Vec2 F) : List (DrawCall F) :=
  [.segment x1 p1 ⟨5, 8, 8⟩, .segment p1 p2 ⟨5, 8, 8⟩, .segment x2 p2 ⟨5, 8, 8⟩]

/-- `draw` of a prismatic joint (private/dynamics/joints/b2_prismatic_joint.rs 510-539) and, with the same text, of a wheel joint
(private/dynamics/joints/b2_wheel_joint.rs 400-429). -/
def drawAxis (xfA : Xf F) (pA pB axisA perpA : Vec2 F) (limit : Bool) (lower upper : F) : List (DrawCall F) :=
  let axis := xfA.q.mulV axisA
  .segment pA pB ⟨4, 4, 4⟩ ::
    (if limit then
      let lo := pA + lower * axis
      let hi := pA + upper * axis
      let perp := xfA.q.mulV perpA
      [.segment lo hi ⟨7, 7, 7⟩, .segment (lo - (1 / 2 : F) * perp) (lo + (1 / 2 : F) * perp) ⟨3, 9, 3⟩,
        .segment (hi - (1 / 2 : F) * perp) (hi + (1 / 2 : F) * perp) ⟨9, 3, 3⟩]
    else [.segment (pA - (1 : F) * axis) (pA + (1 : F) * axis) ⟨7, 7, 7⟩]) ++
    [.point pA 5 ⟨7, 7, 7⟩, .point pB 5 ⟨3, 3, 9⟩]

/-- `draw` of a revolute joint (private/dynamics/joints/b2_revolute_joint.rs 298-337). -/
def Revolute.draw (j : Revolute F) (xfA xfB : Xf F) (aA aB : F) : List (DrawCall F) :=
  let pA := xfA.mulV j.localAnchorA
  let pB := xfB.mulV j.localAnchorB
  let ray (a : F) : Vec2 F := (1 / 2 : F) * (⟨Elem.cos a, Elem.sin a⟩ : Vec2 F)
  [.point pA 5 ⟨3, 3, 9⟩, .point pB 5 ⟨4, 4, 4⟩, .segment pB (pB + ray (aB - aA - j.referenceAngle)) ⟨7, 7, 7⟩, .circle pB (1 / 2) ⟨7, 7, 7⟩] ++
    (if j.enableLimit then [.segment pB (pB + ray j.lowerAngle) ⟨3, 9, 3⟩, .segment pB (pB + ray j.upperAngle) ⟨9, 3, 3⟩] else []) ++
    drawLink xfA.p pA pB xfB.p

/-- `draw` of a distance joint (private/dynamics/joints/b2_distance_joint.rs 385-414). -/
def DistanceJ.draw (j : DistanceJ F) (xfA xfB : Xf F) : List (DrawCall F) :=
  let pA := xfA.mulV j.localAnchorA
  let pB := xfB.mulV j.localAnchorB
  let axis := (pB - pA).normalize.1
  [.segment pA pB ⟨4, 4, 4⟩, .point (pA + j.length * axis) 8 ⟨7, 7, 7⟩] ++
    if j.minLength ≠ j.maxLength then
      (if j.minLength > linearSlop then [.point (pA + j.minLength * axis) 4 ⟨3, 9, 3⟩] else []) ++
      (if j.maxLength < maxFlt then [.point (pA + j.maxLength * axis) 4 ⟨9, 3, 3⟩] else [])
    else []

/-- `draw` of a joint (private/dynamics/b2_joint.rs 115-151 unless the class has its own). -/
def Joint.draw (w : World F) : Joint F → List (DrawCall F)
  | .revolute j => j.draw (w.phys j.bodyA).xf (w.phys j.bodyB).xf (w.phys j.bodyA).sweep.a (w.phys j.bodyB).sweep.a
  | .distance j => j.draw (w.phys j.bodyA).xf (w.phys j.bodyB).xf
  | .prismatic j => drawAxis (w.phys j.bodyA).xf ((w.phys j.bodyA).xf.mulV j.localAnchorA) ((w.phys j.bodyB).xf.mulV j.localAnchorB)
      j.localXAxisA j.localYAxisA j.enableLimit j.lowerTranslation j.upperTranslation
  | .wheel j => drawAxis (w.phys j.bodyA).xf ((w.phys j.bodyA).xf.mulV j.localAnchorA) ((w.phys j.bodyB).xf.mulV j.localAnchorB)
      j.localXAxisA j.localYAxisA j.enableLimit j.lowerTranslation j.upperTranslation
  | .pulley j =>
    let p1 := (w.phys j.bodyA).xf.mulV j.localAnchorA
    let p2 := (w.phys j.bodyB).xf.mulV j.localAnchorB
    [.segment j.groundAnchorA p1 ⟨5, 8, 8⟩, .segment j.groundAnchorB p2 ⟨5, 8, 8⟩, .segment j.groundAnchorA j.groundAnchorB ⟨5, 8, 8⟩]
  | .mouse j =>
    let p2 := (w.phys j.bodyB).xf.mulV j.localAnchorB
    [.point j.target 4 ⟨0, 10, 0⟩, .point p2 4 ⟨0, 10, 0⟩, .segment j.target p2 ⟨8, 8, 8⟩]
  | .weld j => drawLink (w.phys j.bodyA).xf.p ((w.phys j.bodyA).xf.mulV j.localAnchorA) ((w.phys j.bodyB).xf.mulV j.localAnchorB) (w.phys j.bodyB).xf.p
  | .friction j => drawLink (w.phys j.bodyA).xf.p ((w.phys j.bodyA).xf.mulV j.localAnchorA) ((w.phys j.bodyB).xf.mulV j.localAnchorB) (w.phys j.bodyB).xf.p
  | .motor j => drawLink (w.phys j.bodyA).xf.p (w.phys j.bodyA).xf.p (w.phys j.bodyB).xf.p (w.phys j.bodyB).xf.p
  | .gear j => drawLink (w.phys j.bodyA).xf.p ((w.phys j.bodyA).xf.mulV j.localAnchorA) ((w.phys j.bodyB).xf.mulV j.localAnchorB) (w.phys j.bodyB).xf.p

/-- `debug_draw` (private/dynamics/b2_world.rs 1117-1247), with a drawer set. -/
def Engine.debugDraw (E : Engine F) (fl : DrawFlags) (w : World F) : Option (List (DrawCall F)) := do
  let shapes ← if fl.shape then w.drawShapes else some []
  let joints := if fl.joint then (w.g.jointList.map fun j => (E.joint w j).draw w).flatten else []
  let pairs ← if fl.pair then w.drawPairs else some []
  let boxes ← if fl.aabb then w.drawBoxes else some []
  let centers := if fl.centerOfMass then w.drawCenters else []
  return shapes ++ joints ++ pairs ++ boxes ++ centers

/-! ## Ropes -/

/-- `draw` of a rope (private/rope/b2_rope.rs 656-681). Without vertices the bound of the loop underflows: a panic. -/
def Rope.draw (r : Rope F) : Option (List (DrawCall F)) :=
  let colour (v : RopeVertex F) : Colour := if v.invMass > 0 then ⟨7, 2, 4⟩ else ⟨1, 8, 1⟩
  match r.vertices.getLast? with
  | none => none
  | some last => some ((r.vertices.zip r.vertices.tail).flatMap (fun x => [.segment x.1.p x.2.p ⟨4, 5, 7⟩, .point x.1.p 5 (colour x.1)]) ++
      [.point last.p 5 (colour last)])

end
end B2
