import Mathlib.Order.Defs.LinearOrder
import Mathlib.Data.Rat.Cast.Defs

/-!
# Vectors and axis-aligned boxes

Models the parts of `src/b2_math.rs` and `src/b2_collision.rs` that the broad-phase needs.
The number type `F` is abstract: only the operations are assumed here, no laws. `f32` literals are
`lit q`. Comparisons are those of a linear order (so NaN is excluded and `-0.0` identified with `0.0`).
-/
namespace B2

/-- Interpretation of the `f32` literals and constants occurring in the source. -/
class Lit (F : Type) where
  lit : ℚ → F
export Lit (lit)

/-- In a division ring literals are the exact rational numbers. -/
instance (priority := 100) [DivisionRing K] : Lit K := ⟨fun q => (q : K)⟩

/-- `B2vec2` (b2_math.rs 21-26). -/
@[ext] structure Vec2 (F : Type) where
  x : F
  y : F
deriving DecidableEq, Repr

section
variable {F : Type}

/-- `Add for B2vec2` (b2_math.rs 503-509). -/
instance [Add F] : Add (Vec2 F) := ⟨fun a b => ⟨a.x + b.x, a.y + b.y⟩⟩
/-- `Sub for B2vec2` (b2_math.rs 510-516). -/
instance [Sub F] : Sub (Vec2 F) := ⟨fun a b => ⟨a.x - b.x, a.y - b.y⟩⟩
/-- `Neg for B2vec2` (b2_math.rs 105-114). -/
instance [Neg F] : Neg (Vec2 F) := ⟨fun a => ⟨-a.x, -a.y⟩⟩
/-- `Mul<B2vec2> for f32` (b2_math.rs 518-523). -/
instance [Mul F] : HMul F (Vec2 F) (Vec2 F) := ⟨fun s a => ⟨s * a.x, s * a.y⟩⟩

@[simp] theorem Vec2.add_x [Add F] (a b : Vec2 F) : (a + b).x = a.x + b.x := rfl
@[simp] theorem Vec2.add_y [Add F] (a b : Vec2 F) : (a + b).y = a.y + b.y := rfl
@[simp] theorem Vec2.sub_x [Sub F] (a b : Vec2 F) : (a - b).x = a.x - b.x := rfl
@[simp] theorem Vec2.sub_y [Sub F] (a b : Vec2 F) : (a - b).y = a.y - b.y := rfl
@[simp] theorem Vec2.neg_x [Neg F] (a : Vec2 F) : (-a).x = -a.x := rfl
@[simp] theorem Vec2.neg_y [Neg F] (a : Vec2 F) : (-a).y = -a.y := rfl
@[simp] theorem Vec2.smul_x [Mul F] (s : F) (a : Vec2 F) : (s * a).x = s * a.x := rfl
@[simp] theorem Vec2.smul_y [Mul F] (s : F) (a : Vec2 F) : (s * a).y = s * a.y := rfl

end

section
variable {F : Type} [LinearOrder F]

/-- `b2_min` (b2_math.rs 704-709). -/
def b2min (a b : F) : F := if a < b then a else b
/-- `b2_max` (b2_math.rs 715-720). -/
def b2max (a b : F) : F := if a > b then a else b
/-- `b2_min_vec2` (b2_math.rs 711-713). -/
def minV (a b : Vec2 F) : Vec2 F := ⟨b2min a.x b.x, b2min a.y b.y⟩
/-- `b2_max_vec2` (b2_math.rs 722-724). -/
def maxV (a b : Vec2 F) : Vec2 F := ⟨b2max a.x b.x, b2max a.y b.y⟩
/-- `b2_clamp` (b2_math.rs 726-731). -/
def b2clamp (a low high : F) : F := b2max low (b2min a high)
/-- `b2_clamp_vec2` (b2_math.rs 733-735): as written, with `max` twice. -/
def b2clampV (a low high : Vec2 F) : Vec2 F := maxV low (maxV a high)

end

/-- `B2AABB` (b2_collision.rs 201-206). -/
@[ext] structure AABB (F : Type) where
  lo : Vec2 F
  hi : Vec2 F
deriving DecidableEq, Repr

namespace AABB
variable {F : Type} [LinearOrder F]

/-- `combine_two` (b2_collision.rs 238-241). -/
def combine (a b : AABB F) : AABB F := ⟨minV a.lo b.lo, maxV a.hi b.hi⟩

/-- `contains` (b2_collision.rs 244-251). -/
def contains (s a : AABB F) : Bool :=
  decide (s.lo.x ≤ a.lo.x) && decide (s.lo.y ≤ a.lo.y) && decide (a.hi.x ≤ s.hi.x) && decide (a.hi.y ≤ s.hi.y)

/-- `get_perimeter` (b2_collision.rs 225-229). -/
def perimeter [Add F] [Sub F] [Mul F] [Lit F] (a : AABB F) : F :=
  let wx := a.hi.x - a.lo.x
  let wy := a.hi.y - a.lo.y
  lit 2 * (wx + wy)

/-- `b2_test_overlap` (b2_collision.rs 355-368). -/
def overlap [Sub F] [Lit F] (a b : AABB F) : Bool :=
  let d1 := b.lo - a.hi
  let d2 := a.lo - b.hi
  if d1.x > lit 0 ∨ d1.y > lit 0 then false
  else if d2.x > lit 0 ∨ d2.y > lit 0 then false
  else true

/-- `get_center` (b2_collision.rs 215-217). -/
def center [Add F] [Mul F] [Lit F] (a : AABB F) : Vec2 F := (lit (1/2) : F) * (a.lo + a.hi)

/-- `get_extents` (b2_collision.rs 220-222). -/
def extents [Sub F] [Mul F] [Lit F] (a : AABB F) : Vec2 F := (lit (1/2) : F) * (a.hi - a.lo)

end AABB
end B2
