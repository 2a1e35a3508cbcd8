import Verif.Model.Math

/-!
# Boxes, clipping, manifolds, filtering, mixing

Models parts of `src/b2_collision.rs`, `src/private/collision/b2_collision.rs`,
`src/private/dynamics/b2_world_callbacks.rs` and `src/b2_contact.rs`.
-/
namespace B2

section
variable {F : Type} [Field F] [LinearOrder F]

/-- `b2_aabb_is_valid` (b2_collision.rs 348-353); finiteness is not an issue in exact arithmetic. -/
def AABB.isValid (a : AABB F) : Bool :=
  let d := a.hi - a.lo
  decide (d.x ≥ 0) && decide (d.y ≥ 0)

/-- `B2rayCastInput` (b2_collision.rs 185-189). -/
structure RayIn (F : Type) where
  p1 : Vec2 F
  p2 : Vec2 F
  maxFraction : F

/-- `B2rayCastOutput` (b2_collision.rs 194-197). -/
@[ext] structure RayOut (F : Type) where
  normal : Vec2 F
  fraction : F

/-- Loop state of `b2_aabb_ray_cast`: `tmin`, `tmax`, `normal`. -/
structure Slab (F : Type) where
  tmin : F
  tmax : F
  normal : Vec2 F

/-- One turn of the loop of `b2_aabb_ray_cast` (private/collision/b2_collision.rs 124-157) for one axis, whose
components are passed as `p d lo hi`, `axis s` being the vector with `s` at that index and 0 elsewhere.
`none` means that the function returns false. -/
def slabStep (st : Slab F) (p d lo hi : F) (axis : F → Vec2 F) : Option (Slab F) :=
  if |d| < epsilon then
    if p < lo ∨ hi < p then none else some st
  else
    let invD := 1 / d
    let t1 := (lo - p) * invD
    let t2 := (hi - p) * invD
    let s : F := -1
    let r := if t1 > t2 then (t2, t1, 1) else (t1, t2, s)
    let st := if r.1 > st.tmin then { st with normal := axis r.2.2, tmin := r.1 } else st
    let st := { st with tmax := b2min st.tmax r.2.1 }
    if st.tmin > st.tmax then none else some st

/-- `b2_aabb_ray_cast` (private/collision/b2_collision.rs 113-168). `none` is the answer false. -/
def AABB.rayCast (a : AABB F) (input : RayIn F) : Option (RayOut F) := do
  let p := input.p1
  let d := input.p2 - input.p1
  let st : Slab F := ⟨-maxFlt, maxFlt, ⟨0, 0⟩⟩
  let st ← slabStep st p.x d.x a.lo.x a.hi.x fun s => ⟨s, 0⟩
  let st ← slabStep st p.y d.y a.lo.y a.hi.y fun s => ⟨0, s⟩
  if st.tmin < 0 ∨ input.maxFraction < st.tmin then none
  else some { fraction := st.tmin, normal := st.normal }

/-- `B2contactFeature` (b2_collision.rs 22-32). -/
structure Feature where
  indexA : UInt8
  indexB : UInt8
  typeA : UInt8
  typeB : UInt8
deriving DecidableEq

/-- `B2contactId` (b2_collision.rs 35-38). -/
structure ContactId where
  cf : Feature
deriving DecidableEq

/-- `B2clipVertex` (b2_collision.rs 178-181). -/
structure ClipVertex (F : Type) where
  v : Vec2 F
  id : ContactId

/-- The write `v_out[count] = ..; count += 1` into the output array of size two. -/
def clipPush (out : List (ClipVertex F)) (c : ClipVertex F) : Option (List (ClipVertex F)) :=
  if out.length < 2 then some (out ++ [c]) else none

/-- `b2_clip_segment_to_line` (private/collision/b2_collision.rs 171-214). The result is the list of the
`count` vertices written; `none` is a panic. -/
def clipSegmentToLine (v0 v1 : ClipVertex F) (normal : Vec2 F) (offset : F) (vertexIndexA : Nat) :
    Option (List (ClipVertex F)) := do
  let distance0 := dot normal v0.v - offset
  let distance1 := dot normal v1.v - offset
  let out := []
  let out ← (if distance0 ≤ 0 then clipPush out v0 else some out)
  let out ← (if distance1 ≤ 0 then clipPush out v1 else some out)
  if distance0 * distance1 < 0 then
    let interp := distance0 / (distance0 - distance1)
    let out ← clipPush out
      { v := v0.v + interp * (v1.v - v0.v)
        id := ⟨{ indexA := UInt8.ofNat vertexIndexA, indexB := v0.id.cf.indexB, typeA := 0, typeB := 1 }⟩ }
    if out.length = 2 then some out else none
  else some out

/-- `B2manifoldPoint` (b2_collision.rs 51-60). -/
structure ManifoldPoint (F : Type) where
  localPoint : Vec2 F
  normalImpulse : F
  tangentImpulse : F
  id : ContactId

/-- `B2manifoldType` (b2_collision.rs 63-67). -/
inductive ManifoldType | circles | faceA | faceB
deriving DecidableEq

/-- `B2manifold` (b2_collision.rs 104-114): the first `point_count` of the two points. -/
structure Manifold (F : Type) where
  points : List (ManifoldPoint F)
  localNormal : Vec2 F
  localPoint : Vec2 F
  type : ManifoldType

/-- `B2pointState` (b2_collision.rs 148-157). -/
inductive PointState | null | add | persist | remove
deriving DecidableEq

/-- `b2_get_point_states` (private/collision/b2_collision.rs 70-110). The manifolds are given by the ids of
their points; the two states are the arrays of length two, as lists. A manifold with more than two points
would index out of range. The first loop compares `id.cf`, the second `id`. -/
def getPointStates (ids1 ids2 : List ContactId) : Option (List PointState × List PointState) :=
  if ids1.length ≤ 2 ∧ ids2.length ≤ 2 then
    let s1 := ids1.map fun id => if ids2.any fun j => j.cf == id.cf then PointState.persist else .remove
    let s2 := ids2.map fun id => if ids1.any fun j => j == id then PointState.persist else .add
    some (s1 ++ List.replicate (2 - ids1.length) .null, s2 ++ List.replicate (2 - ids2.length) .null)
  else none

end

/-- `B2filter` (b2_fixture.rs 30-42). -/
structure Filter where
  category : UInt16
  mask : UInt16
  group : Int16
deriving DecidableEq

/-- `should_collide` of the default contact filter (private/dynamics/b2_world_callbacks.rs 6-18). -/
def filterShouldCollide (a b : Filter) : Bool :=
  if a.group = b.group ∧ a.group ≠ 0 then decide (a.group > 0)
  else (a.mask &&& b.category != 0) && (a.category &&& b.mask != 0)

section
variable {F : Type} [Field F] [LinearOrder F]

/-- `b2_mix_friction` (b2_contact.rs 29-31). -/
def mixFriction [Elem F] (a b : F) : F := Elem.sqrt (a * b)
/-- `b2_mix_restitution` (b2_contact.rs 35-41). -/
def mixRestitution (a b : F) : F := if a > b then a else b
/-- `b2_mix_restitution_threshold` (b2_contact.rs 44-46). -/
def mixRestitutionThreshold (a b : F) : F := if a < b then a else b

end
end B2
