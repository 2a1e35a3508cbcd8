import Verif.Model.Collision

/-!
# Small geometric vocabulary
-/
namespace B2.Spec
variable {F : Type} [Field F] [LinearOrder F]

/-- The point `q` lies in the closed box. -/
def InBox (a : AABB F) (q : Vec2 F) : Prop := a.lo.x ≤ q.x ∧ q.x ≤ a.hi.x ∧ a.lo.y ≤ q.y ∧ q.y ≤ a.hi.y

/-- The box is not empty. -/
def Valid (a : AABB F) : Prop := a.lo.x ≤ a.hi.x ∧ a.lo.y ≤ a.hi.y

/-- The point of the line through `p1` and `p2` at parameter `t`. -/
def onLine (p1 p2 : Vec2 F) (t : F) : Vec2 F := ⟨p1.x + t * (p2.x - p1.x), p1.y + t * (p2.y - p1.y)⟩

/-- Signed height of `q` over the line `normal · x = offset` (times the length of the normal). -/
def height (normal : Vec2 F) (offset : F) (q : Vec2 F) : F := normal.x * q.x + normal.y * q.y - offset

end B2.Spec

namespace B2.Spec
variable {F : Type} [Field F] [LinearOrder F]

/-- The segment from `a` to `b` has a point in the box. -/
def SegMeets (a b : Vec2 F) (box : AABB F) : Prop := ∃ t, 0 ≤ t ∧ t ≤ 1 ∧ InBox box (onLine a b t)

open Classical in
/-- What a ray cast should do with a sequence of candidates with known boxes: call back for each candidate that
the current segment (from `p1` to the point at fraction `f`) meets; stop on the answer 0; shorten the segment
to the answered fraction when that is positive; go on unchanged when it is negative. -/
noncomputable def castOver {S : Type} (cb : S → RayIn F → Nat → S × F) (p1 p2 : Vec2 F) (box : Nat → Option (AABB F)) :
    F → S → List Nat → S
  | _, s, [] => s
  | f, s, i :: rest =>
    if ∃ b, box i = some b ∧ SegMeets p1 (onLine p1 p2 f) b then
      let r := cb s ⟨p1, p2, f⟩ i
      if r.2 = 0 then r.1
      else if r.2 > 0 then castOver cb p1 p2 box r.2 r.1 rest
      else castOver cb p1 p2 box f r.1 rest
    else castOver cb p1 p2 box f s rest

end B2.Spec
