import Verif.Model.Draw
import Verif.Spec.WorldQuery
import Verif.Spec.Touch

/-! # What a picture shows -/
namespace B2.Spec
open B2
set_option linter.unusedSectionVars false

section
variable {F : Type} [Field F] [LinearOrder F] [IsStrictOrderedRing F] [Elem F]

/-- The call paints the point in the colour: solid figures are filled, segments and points are drawn as they are. -/
def Paints (call : DrawCall F) (col : Colour) (x : Vec2 F) : Prop :=
  match call with
  | .solidPolygon vs c => c = col ∧ Hull vs x
  | .solidCircle o r _ c => c = col ∧ dist2 x o ≤ r * r
  | .segment p q c => c = col ∧ Hull [p, q] x
  | .point p _ c => c = col ∧ x = p
  | .polygon .. | .circle .. | .transform _ => False

/-- The point belongs to child `i` of the shape placed at `xf`, without the skin of edges, chains and polygons. -/
def Bare (s : Shape F) (i : Nat) (xf : Xf F) (x : Vec2 F) : Prop :=
  match s with
  | .circle c => dist2 x (place xf c.p) ≤ c.radius * c.radius
  | .edge _ | .chain _ | .polygon _ => ∃ u, Hull (childPoints s i) u ∧ place xf u = x

/-- The colour that tells the state of a body: red for a dynamic body without mass; otherwise olive if it is disabled, green if static, blue if kinematic,
grey if asleep, pink if awake. -/
inductive Looks (w : World F) (b : Nat) : Colour → Prop
  | massless : (w.g.bodies b).type = .dynamic → (w.phys b).mass = 0 → Looks w b ⟨10, 0, 0⟩
  | disabled : ¬ ((w.g.bodies b).type = .dynamic ∧ (w.phys b).mass = 0) → (w.g.bodies b).enabled = false → Looks w b ⟨5, 5, 3⟩
  | static : (w.g.bodies b).enabled = true → (w.g.bodies b).type = .static → Looks w b ⟨5, 9, 5⟩
  | kinematic : (w.g.bodies b).enabled = true → (w.g.bodies b).type = .kinematic → Looks w b ⟨5, 5, 9⟩
  | asleep : (w.g.bodies b).enabled = true → (w.g.bodies b).type = .dynamic → (w.phys b).mass ≠ 0 → (w.phys b).awake = false → Looks w b ⟨6, 6, 6⟩
  | awake : (w.g.bodies b).enabled = true → (w.g.bodies b).type = .dynamic → (w.phys b).mass ≠ 0 → (w.phys b).awake = true → Looks w b ⟨9, 7, 7⟩

/-- The calls paint the shapes of all bodies, each in the colour of its body, and nothing else. -/
def ShapesShown (w : World F) (l : List (DrawCall F)) : Prop :=
  ∀ col x, (∃ d ∈ l, Paints d col x) ↔ ∃ b ∈ w.g.bodyList, Looks w b col ∧ ∃ f ∈ (w.g.bodies b).fixtures, ∃ n i,
    (w.g.fixtures f).shape.childCount = some n ∧ i < n ∧ Bare (w.g.fixtures f).shape i (w.phys b).xf x

/-- The ends of a joint: its anchors; a mouse joint goes from its target, a motor joint joins the origins of the bodies. -/
def jointEnds (w : World F) : Joint F → Vec2 F × Vec2 F
  | .revolute j => (place (w.phys j.bodyA).xf j.localAnchorA, place (w.phys j.bodyB).xf j.localAnchorB)
  | .prismatic j => (place (w.phys j.bodyA).xf j.localAnchorA, place (w.phys j.bodyB).xf j.localAnchorB)
  | .distance j => (place (w.phys j.bodyA).xf j.localAnchorA, place (w.phys j.bodyB).xf j.localAnchorB)
  | .weld j => (place (w.phys j.bodyA).xf j.localAnchorA, place (w.phys j.bodyB).xf j.localAnchorB)
  | .wheel j => (place (w.phys j.bodyA).xf j.localAnchorA, place (w.phys j.bodyB).xf j.localAnchorB)
  | .friction j => (place (w.phys j.bodyA).xf j.localAnchorA, place (w.phys j.bodyB).xf j.localAnchorB)
  | .gear j => (place (w.phys j.bodyA).xf j.localAnchorA, place (w.phys j.bodyB).xf j.localAnchorB)
  | .pulley j => (place (w.phys j.bodyA).xf j.localAnchorA, place (w.phys j.bodyB).xf j.localAnchorB)
  | .motor j => ((w.phys j.bodyA).xf.p, (w.phys j.bodyB).xf.p)
  | .mouse j => (j.target, place (w.phys j.bodyB).xf j.localAnchorB)

/-- Some call draws the segment. -/
def Drawn (l : List (DrawCall F)) (p q : Vec2 F) : Prop := ∃ c, DrawCall.segment p q c ∈ l

/-- Every joint is drawn as the segment between its ends; a pulley as its two ropes. -/
def JointsShown (E : Engine F) (w : World F) (l : List (DrawCall F)) : Prop :=
  ∀ j ∈ w.g.jointList, match E.joint w j with
    | .pulley p => Drawn l p.groundAnchorA (jointEnds w (.pulley p)).1 ∧ Drawn l p.groundAnchorB (jointEnds w (.pulley p)).2
    | k => Drawn l (jointEnds w k).1 (jointEnds w k).2

/-- Every contact is drawn as a segment between the centers of the boxes of its children, in the order of the contact list. -/
def PairsShown (w : World F) (l : List (DrawCall F)) : Prop :=
  List.Forall₂ (fun c d => let k := w.g.contacts c
    ∃ col, d = .segment (w.paabb k.fA k.iA).center (w.paabb k.fB k.iB).center col) w.g.contactList l

/-- The corners of a box. -/
def corners (a : AABB F) : List (Vec2 F) := [⟨a.lo.x, a.lo.y⟩, ⟨a.hi.x, a.lo.y⟩, ⟨a.hi.x, a.hi.y⟩, ⟨a.lo.x, a.hi.y⟩]

/-- The fat boxes of the children are drawn, and nothing else. -/
def BoxesShown (w : World F) (l : List (DrawCall F)) : Prop :=
  ∀ d, d ∈ l ↔ ∃ c fat, Child w c ∧ FatOf w c fat ∧ d = .polygon (corners fat) ⟨9, 3, 9⟩

/-- For every body its axes are drawn at its center of mass. -/
def CentersShown (w : World F) (l : List (DrawCall F)) : Prop :=
  List.Forall₂ (fun b d => d = .transform ⟨place (w.phys b).xf (w.phys b).sweep.localCenter, (w.phys b).xf.q⟩) w.g.bodyList l

/-- The rope is drawn as the segments between neighbours and a point at each vertex, red if the vertex can move and green if it is fixed. -/
def RopeShown (r : Rope F) (l : List (DrawCall F)) : Prop :=
  (∀ p q, Drawn l p q ↔ ∃ i u v, r.vertices[i]? = some u ∧ r.vertices[i + 1]? = some v ∧ p = u.p ∧ q = v.p) ∧
  ∀ p size col, DrawCall.point p size col ∈ l ↔ size = 5 ∧ ∃ v ∈ r.vertices, p = v.p ∧ ((0 < v.invMass ∧ col = ⟨7, 2, 4⟩) ∨ (¬ 0 < v.invMass ∧ col = ⟨1, 8, 1⟩))

/-- The flag decides whether something is shown or nothing drawn. -/
def Asked (flag : Bool) (shown : List (DrawCall F) → Prop) (l : List (DrawCall F)) : Prop := if flag = true then shown l else l = []

end
end B2.Spec
