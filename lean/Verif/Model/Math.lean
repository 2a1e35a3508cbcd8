import Verif.Model.Vec
import Mathlib.Algebra.Order.Field.Basic

/-!
# Vectors, matrices, rotations, transforms, sweeps

Models `src/b2_math.rs` and `src/private/common/b2_math.rs`. Arithmetic is exact: `F` is a linearly ordered
field. The elementary functions are operations of the class `Elem`; their laws are the class `ElemLaws`
(Verif/Spec/Real.lean), instantiated for the real numbers.
-/
namespace B2

/-- The elementary functions of `f32` used by the source, and the constant `PI`. -/
class Elem (F : Type) where
  sqrt : F → F
  sin : F → F
  cos : F → F
  floor : F → F
  pi : F

/-- `EPSILON = f32::EPSILON` (b2_common.rs 18). -/
def epsilon {F : Type} [Field F] : F := 1 / 8388608
/-- `B2_MAX_FLOAT = f32::MAX` (b2_common.rs 17). -/
def maxFlt {F : Type} [Field F] : F := (2 ^ 24 - 1) * 2 ^ 104
/-- `B2_LINEAR_SLOP` (b2_common.rs 39). -/
def linearSlop {F : Type} [Field F] : F := 5 / 1000
/-- `B2_POLYGON_RADIUS` (b2_common.rs 48). -/
def polygonRadius {F : Type} [Field F] : F := 2 * linearSlop

section
variable {F : Type} [Field F]

/-- `B2vec2::zero` (b2_math.rs 34-36). -/
def Vec2.zero : Vec2 F := ⟨0, 0⟩
/-- `B2vec2::length_squared` (b2_math.rs 77-79). -/
def Vec2.lengthSquared (a : Vec2 F) : F := a.x * a.x + a.y * a.y
/-- `B2vec2::length` (b2_math.rs 71-73). -/
def Vec2.length [Elem F] (a : Vec2 F) : F := Elem.sqrt (a.x * a.x + a.y * a.y)
/-- `B2vec2::normalize` (b2_math.rs 82-92): the new vector and the returned length. -/
def Vec2.normalize [LinearOrder F] [Elem F] (a : Vec2 F) : Vec2 F × F :=
  let length := a.length
  if length < epsilon then (a, 0)
  else
    let invLength := 1 / length
    (⟨a.x * invLength, a.y * invLength⟩, length)
/-- `B2vec2::skew` (b2_math.rs 100-102). -/
def Vec2.skew (a : Vec2 F) : Vec2 F := ⟨-a.y, a.x⟩

/-- `b2_dot` (b2_math.rs 470-472). -/
def dot (a b : Vec2 F) : F := a.x * b.x + a.y * b.y
/-- `b2_cross` (b2_math.rs 475-477). -/
def cross (a b : Vec2 F) : F := a.x * b.y - a.y * b.x
/-- `b2_cross_vec_by_scalar` (b2_math.rs 481-483). -/
def crossVS (a : Vec2 F) (s : F) : Vec2 F := ⟨s * a.y, -s * a.x⟩
/-- `b2_cross_scalar_by_vec` (b2_math.rs 487-489). -/
def crossSV (s : F) (a : Vec2 F) : Vec2 F := ⟨-s * a.y, s * a.x⟩
/-- `b2_distance_vec2` (b2_math.rs 533-536). -/
def distanceV [Elem F] (a b : Vec2 F) : F := (a - b).length
/-- `b2_distance_vec2_squared` (b2_math.rs 538-541). -/
def distanceV2 (a b : Vec2 F) : F := dot (a - b) (a - b)
/-- `b2_abs_vec2` (b2_math.rs 696-698). -/
def absV [LinearOrder F] (a : Vec2 F) : Vec2 F := ⟨|a.x|, |a.y|⟩

/-- `B2Vec3` (b2_math.rs 143-147). -/
@[ext] structure Vec3 (F : Type) where
  x : F
  y : F
  z : F

/-- `Add for B2Vec3` (b2_math.rs 551-557). -/
instance : Add (Vec3 F) := ⟨fun a b => ⟨a.x + b.x, a.y + b.y, a.z + b.z⟩⟩
/-- `Mul<B2Vec3> for f32` (b2_math.rs 543-549). -/
instance : HMul F (Vec3 F) (Vec3 F) := ⟨fun s a => ⟨s * a.x, s * a.y, s * a.z⟩⟩
/-- `b2_dot_vec3` (b2_math.rs 569-571). -/
def dot3 (a b : Vec3 F) : F := a.x * b.x + a.y * b.y + a.z * b.z
/-- `b2_cross_vec3` (b2_math.rs 574-580). -/
def cross3 (a b : Vec3 F) : Vec3 F := ⟨a.y * b.z - a.z * b.y, a.z * b.x - a.x * b.z, a.x * b.y - a.y * b.x⟩

/-- `B2Mat22` (b2_math.rs 216-219), column-major. -/
@[ext] structure Mat22 (F : Type) where
  ex : Vec2 F
  ey : Vec2 F
/-- `B2Mat33` (b2_math.rs 299-303), column-major. -/
@[ext] structure Mat33 (F : Type) where
  ex : Vec3 F
  ey : Vec3 F
  ez : Vec3 F

/-- `b2_mul` (b2_math.rs 493-495). -/
def Mat22.mulV (a : Mat22 F) (v : Vec2 F) : Vec2 F := ⟨a.ex.x * v.x + a.ey.x * v.y, a.ex.y * v.x + a.ey.y * v.y⟩
/-- `b2_mul_t` (b2_math.rs 499-501). -/
def Mat22.mulTV (a : Mat22 F) (v : Vec2 F) : Vec2 F := ⟨dot v a.ex, dot v a.ey⟩
/-- `b2_mul_mat22` (b2_math.rs 589-591). -/
def Mat22.mul (a b : Mat22 F) : Mat22 F := ⟨a.mulV b.ex, a.mulV b.ey⟩
/-- `b2_mul_t_mat22` (b2_math.rs 594-598). -/
def Mat22.mulT (a b : Mat22 F) : Mat22 F :=
  ⟨⟨dot a.ex b.ex, dot a.ey b.ex⟩, ⟨dot a.ex b.ey, dot a.ey b.ey⟩⟩
/-- `B2Mat22::get_inverse` (b2_math.rs 261-274). -/
def Mat22.inverse [DecidableEq F] (m : Mat22 F) : Mat22 F :=
  let a := m.ex.x
  let b := m.ey.x
  let c := m.ex.y
  let d := m.ey.y
  let det := a * d - b * c
  let det := if det ≠ 0 then 1 / det else det
  ⟨⟨det * d, -det * c⟩, ⟨-det * b, det * a⟩⟩
/-- `B2Mat22::solve` (b2_math.rs 278-294). -/
def Mat22.solve [DecidableEq F] (m : Mat22 F) (b : Vec2 F) : Vec2 F :=
  let a11 := m.ex.x
  let a12 := m.ey.x
  let a21 := m.ex.y
  let a22 := m.ey.y
  let det := a11 * a22 - a12 * a21
  let det := if det ≠ 0 then 1 / det else det
  ⟨det * (a22 * b.x - a12 * b.y), det * (a11 * b.y - a21 * b.x)⟩

/-- `b2_mul_mat33` (b2_math.rs 601-603). -/
def Mat33.mulV (a : Mat33 F) (v : Vec3 F) : Vec3 F := v.x * a.ex + v.y * a.ey + v.z * a.ez
/-- `b2_mul22` (b2_math.rs 606-608). -/
def Mat33.mul22 (a : Mat33 F) (v : Vec2 F) : Vec2 F := ⟨a.ex.x * v.x + a.ey.x * v.y, a.ex.y * v.x + a.ey.y * v.y⟩
/-- `solve33` (private/common/b2_math.rs 5-16). -/
def Mat33.solve33 [DecidableEq F] (m : Mat33 F) (b : Vec3 F) : Vec3 F :=
  let det := dot3 m.ex (cross3 m.ey m.ez)
  let det := if det ≠ 0 then 1 / det else det
  ⟨det * dot3 b (cross3 m.ey m.ez), det * dot3 m.ex (cross3 b m.ez), det * dot3 m.ex (cross3 m.ey b)⟩
/-- `solve22` (private/common/b2_math.rs 19-30). -/
def Mat33.solve22 [DecidableEq F] (m : Mat33 F) (b : Vec2 F) : Vec2 F :=
  let a11 := m.ex.x
  let a12 := m.ey.x
  let a21 := m.ex.y
  let a22 := m.ey.y
  let det := a11 * a22 - a12 * a21
  let det := if det ≠ 0 then 1 / det else det
  ⟨det * (a22 * b.x - a12 * b.y), det * (a11 * b.y - a21 * b.x)⟩
/-- `get_inverse22` (private/common/b2_math.rs 32-48): every entry of the output is assigned. -/
def Mat33.inverse22 [DecidableEq F] (m : Mat33 F) : Mat33 F :=
  let a := m.ex.x
  let b := m.ey.x
  let c := m.ex.y
  let d := m.ey.y
  let det := a * d - b * c
  let det := if det ≠ 0 then 1 / det else det
  ⟨⟨det * d, -det * c, 0⟩, ⟨-det * b, det * a, 0⟩, ⟨0, 0, 0⟩⟩
/-- `get_sym_inverse33` (private/common/b2_math.rs 50-71). -/
def Mat33.symInverse33 [DecidableEq F] (m : Mat33 F) : Mat33 F :=
  let det := dot3 m.ex (cross3 m.ey m.ez)
  let det := if det ≠ 0 then 1 / det else det
  let a11 := m.ex.x
  let a12 := m.ey.x
  let a13 := m.ez.x
  let a22 := m.ey.y
  let a23 := m.ez.y
  let a33 := m.ez.z
  let exx := det * (a22 * a33 - a23 * a23)
  let exy := det * (a13 * a23 - a12 * a33)
  let exz := det * (a12 * a23 - a13 * a22)
  let eyy := det * (a11 * a33 - a13 * a13)
  let eyz := det * (a13 * a12 - a11 * a23)
  let ezz := det * (a11 * a22 - a12 * a12)
  ⟨⟨exx, exy, exz⟩, ⟨exy, eyy, eyz⟩, ⟨exz, eyz, ezz⟩⟩

/-- `B2Rot` (b2_math.rs 355-359). -/
@[ext] structure Rot (F : Type) where
  s : F
  c : F
/-- `B2Rot::new` / `set` (b2_math.rs 363-376). -/
def Rot.ofAngle [Elem F] (angle : F) : Rot F := ⟨Elem.sin angle, Elem.cos angle⟩
/-- `B2Rot::set_identity` (b2_math.rs 379-382). -/
def Rot.identity : Rot F := ⟨0, 1⟩
/-- `B2Rot::default()` (derived, b2_math.rs 353): not a rotation. -/
def Rot.default : Rot F := ⟨0, 0⟩
/-- `get_xaxis` (b2_math.rs 390-392). -/
def Rot.xAxis (q : Rot F) : Vec2 F := ⟨q.c, q.s⟩
/-- `get_yaxis` (b2_math.rs 395-397). -/
def Rot.yAxis (q : Rot F) : Vec2 F := ⟨-q.s, q.c⟩
/-- `b2_mul_rot` (b2_math.rs 611-621). -/
def Rot.mul (q r : Rot F) : Rot F := ⟨q.s * r.c + q.c * r.s, q.c * r.c - q.s * r.s⟩
/-- `b2_mul_t_rot` (b2_math.rs 624-634). -/
def Rot.mulT (q r : Rot F) : Rot F := ⟨q.c * r.s - q.s * r.c, q.c * r.c + q.s * r.s⟩
/-- `b2_mul_rot_by_vec2` (b2_math.rs 637-639). -/
def Rot.mulV (q : Rot F) (v : Vec2 F) : Vec2 F := ⟨q.c * v.x - q.s * v.y, q.s * v.x + q.c * v.y⟩
/-- `b2_mul_t_rot_by_vec2` (b2_math.rs 642-644). -/
def Rot.mulTV (q : Rot F) (v : Vec2 F) : Vec2 F := ⟨q.c * v.x + q.s * v.y, -q.s * v.x + q.c * v.y⟩

/-- `B2Transform` (b2_math.rs 404-407). -/
@[ext] structure Xf (F : Type) where
  p : Vec2 F
  q : Rot F
/-- `b2_mul_transform_by_vec2` (b2_math.rs 646-651). -/
def Xf.mulV (t : Xf F) (v : Vec2 F) : Vec2 F :=
  ⟨(t.q.c * v.x - t.q.s * v.y) + t.p.x, (t.q.s * v.x + t.q.c * v.y) + t.p.y⟩
/-- `b2_mul_t_transform_by_vec2` (b2_math.rs 653-660). -/
def Xf.mulTV (t : Xf F) (v : Vec2 F) : Vec2 F :=
  let px := v.x - t.p.x
  let py := v.y - t.p.y
  ⟨t.q.c * px + t.q.s * py, -t.q.s * px + t.q.c * py⟩
/-- `b2_mul_transform` (b2_math.rs 664-670). -/
def Xf.mul (a b : Xf F) : Xf F := { q := a.q.mul b.q, p := a.q.mulV b.p + a.p }
/-- `b2_mul_t_transform` (b2_math.rs 674-680). -/
def Xf.mulT (a b : Xf F) : Xf F := { q := a.q.mulT b.q, p := a.q.mulTV (b.p - a.p) }

/-- `B2Sweep` (b2_math.rs 437-447). -/
@[ext] structure Sweep (F : Type) where
  localCenter : Vec2 F
  c0 : Vec2 F
  c : Vec2 F
  a0 : F
  a : F
  alpha0 : F
/-- `b2_sweep_get_transform` (b2_math.rs 764-771). -/
def Sweep.getTransform [Elem F] (s : Sweep F) (beta : F) : Xf F :=
  let p : Vec2 F := (1 - beta) * s.c0 + beta * s.c
  let angle := (1 - beta) * s.a0 + beta * s.a
  let q := Rot.ofAngle angle
  ⟨p - q.mulV s.localCenter, q⟩
/-- `b2_sweep_advance` (b2_math.rs 773-779): asserts `alpha0 < 1`. -/
def Sweep.advance [LinearOrder F] (s : Sweep F) (alpha : F) : Option (Sweep F) :=
  if s.alpha0 < 1 then
    let beta := (alpha - s.alpha0) / (1 - s.alpha0)
    some { s with
      c0 := s.c0 + beta * (s.c - s.c0)
      a0 := s.a0 + beta * (s.a - s.a0)
      alpha0 := alpha }
  else none
/-- `b2_sweep_normalize` (b2_math.rs 782-787). -/
def Sweep.normalize [Elem F] (s : Sweep F) : Sweep F :=
  let twoPi := 2 * Elem.pi
  let d := twoPi * Elem.floor (s.a0 / twoPi)
  { s with a0 := s.a0 - d, a := s.a - d }

end

/-- `b2_next_power_of_two` (b2_math.rs 748-756) on `u32`; the final addition panics on overflow (debug). -/
def nextPowerOfTwo (v : Nat) : Option Nat :=
  let x := v
  let x := x ||| (x >>> 1)
  let x := x ||| (x >>> 2)
  let x := x ||| (x >>> 4)
  let x := x ||| (x >>> 8)
  let x := x ||| (x >>> 16)
  if x + 1 < 2 ^ 32 then some (x + 1) else none

/-- `b2_is_power_of_two` (b2_math.rs 758-761). -/
def isPowerOfTwo (x : Nat) : Bool := decide (x > 0) && ((x &&& (x - 1)) == 0)

end B2
