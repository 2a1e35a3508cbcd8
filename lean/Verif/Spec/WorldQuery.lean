import Verif.Model.WorldQuery
import Verif.Spec.Collide
import Verif.Spec.WorldMotion

/-! Vocabulary for queries of a world. -/
namespace B2.Spec
set_option linter.unusedSectionVars false
variable {F : Type} [Field F] [LinearOrder F] [IsStrictOrderedRing F] [Elem F]

/-- `i` numbers a child of fixture `f`, which belongs to an enabled body of the world. -/
def Child (w : World F) (c : Nat × Nat) : Prop :=
  ∃ b ∈ w.g.bodyList, (w.g.bodies b).enabled = true ∧ c.1 ∈ (w.g.bodies b).fixtures ∧ ∃ n, (w.g.fixtures c.1).shape.childCount = some n ∧ c.2 < n

/-- The box of a child at the transform of its body. -/
def BoxOf (w : World F) (c : Nat × Nat) (box : AABB F) : Prop :=
  ∃ b, (w.g.fixtures c.1).body = some b ∧ (w.g.fixtures c.1).shape.computeAabb (w.phys b).xf c.2 = some box

/-- The fat box of a child, which the broad-phase keeps. -/
def FatOf (w : World F) (c : Nat × Nat) (fat : AABB F) : Prop :=
  ∃ p id, (w.g.fixtures c.1).proxies[c.2]? = some p ∧ p.proxyId = some id ∧ w.bp.tree.getFatAabb id = some fat

/-- The ray from `p1` towards `p2`, taken up to fraction `f`, hits the child. -/
def Struck (w : World F) (p1 p2 : Vec2 F) (f : F) (c : Nat × Nat) (out : RayOut F) : Prop :=
  ∃ b, (w.g.fixtures c.1).body = some b ∧ (w.g.fixtures c.1).shape.rayCast ⟨p1, p2, f⟩ (w.phys b).xf c.2 = some (some out)

/-- No negative radius, and polygons are convex with outward unit normals. -/
def GoodShape : Shape F → Prop
  | .circle c => 0 ≤ c.radius
  | .edge e => 0 ≤ e.radius
  | .chain c => 0 ≤ c.radius
  | .polygon p => ProperPolygon p ∧ 0 ≤ p.radius

/-- The point is in the disc of the placed circle, or in the convex hull of the vertices of the placed polygon. -/
def Inside (s : Shape F) (xf : Xf F) (q : Vec2 F) : Prop :=
  match s with
  | .circle c => dist2 q (place xf c.p) ≤ c.radius * c.radius
  | .polygon p => Hull (p.verts.map (place xf)) q
  | .edge _ | .chain _ => False

open Classical in
/-- A ray cast over a sequence of children: report those hit within the current fraction, stop on the answer 0, shorten or lengthen the
ray to a positive answer, go on unchanged on a negative one. -/
noncomputable def castHits {S : Type} (w : World F) (cb : S → Nat → Vec2 F → Vec2 F → F → S × F) (p1 p2 : Vec2 F) : F → S → List (Nat × Nat) → S
  | _, s, [] => s
  | f, s, c :: rest =>
    if h : ∃ out, Struck w p1 p2 f c out then
      let out := h.choose
      let r := cb s c.1 (onLine p1 p2 out.fraction) out.normal out.fraction
      if r.2 = 0 then r.1
      else if r.2 > 0 then castHits w cb p1 p2 r.2 r.1 rest
      else castHits w cb p1 p2 f r.1 rest
    else castHits w cb p1 p2 f s rest

end B2.Spec
