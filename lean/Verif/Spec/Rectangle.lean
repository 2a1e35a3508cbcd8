import Verif.Spec.Collide

/-!
# Boxes
-/
namespace B2.Spec
open B2
variable {F : Type} [Field F] [LinearOrder F] [IsStrictOrderedRing F]

/-- A polygon that is a rectangle: four corners, and at each of them the two sides are at right angles. No two corners are
further apart than `size`. -/
structure IsRectangle (p : Polygon F) (size : F) : Prop where
  proper : ProperPolygon p
  four : p.verts.length = 4
  right : ∀ a b c, NextTo p.verts a b → NextTo p.verts b c → (b.x - a.x) * (c.x - b.x) + (b.y - a.y) * (c.y - b.y) = 0
  nonneg : 0 ≤ size
  small : ∀ a ∈ p.verts, ∀ b ∈ p.verts, dist2 a b ≤ size * size

end B2.Spec
