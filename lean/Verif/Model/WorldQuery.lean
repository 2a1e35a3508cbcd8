import Verif.Model.World
import Verif.Model.TreeRayCast

/-!
# Queries of a world

Models `query_aabb` and `ray_cast` of `src/private/dynamics/b2_world.rs` and `ray_cast` of `src/b2_fixture.rs`.
-/
namespace B2
variable {F : Type} [Field F] [LinearOrder F]

namespace World

/-- The fixture and the child a proxy id stands for, as both callbacks look them up (private/dynamics/b2_world.rs 976-977 and
1038-1045): the user data of the proxy is a shared `B2fixtureProxy`, which holds a weak pointer to the fixture. -/
def childOf (w : World F) (id : Nat) : Option (Nat × Nat) := do
  let d ← w.bp.tree.getUserData id
  let d ← d
  let p ← (w.g.fixtures d.1).proxies[d.2]?
  let f ← p.fixture
  return (f, p.childIndex)

/-- `query_aabb` (private/dynamics/b2_world.rs 968-980, b2_broad_phase.rs 251-257); the callback has state `S`. A panic inside the
callback passed to the tree is the state `none`. -/
def queryAabb {S : Type} (w : World F) (cb : S → Nat → S × Bool) (box : AABB F) (s : S) : Option S :=
  (w.bp.tree.query (fun s id =>
    match s, w.childOf id with
    | some s, some c => (some (cb s c.1).1, (cb s c.1).2)
    | _, _ => (none, false)) box (some s)).join

/-- `test_point` of a fixture (b2_fixture.rs 405-416). -/
def testPoint (w : World F) (f : Nat) (p : Vec2 F) : Option Bool := do
  let b ← w.bodyOf f
  return (w.g.fixtures f).shape.testPoint (w.phys b).xf p

/-- `ray_cast` of a fixture (b2_fixture.rs 418-436). The inner `none` is the answer false. -/
def fixtureRayCast [Elem F] (w : World F) (f : Nat) (input : RayIn F) (i : Nat) : Option (Option (RayOut F)) := do
  let b ← w.bodyOf f
  (w.g.fixtures f).shape.rayCast input (w.phys b).xf i

/-- `ray_cast` (private/dynamics/b2_world.rs 1017-1056, b2_broad_phase.rs 259-265); the callback has state `S` and is given fixture,
point, normal and fraction. -/
def rayCast {S : Type} [Elem F] (w : World F) (cb : S → Nat → Vec2 F → Vec2 F → F → S × F) (p1 p2 : Vec2 F) (s : S) : Option S := do
  let r ← w.bp.tree.rayCast (fun (s : Option S) input id =>
    match s, (w.childOf id).bind fun c => (w.fixtureRayCast c.1 input c.2).map fun hit => (c.1, hit) with
    | some s, some (f, some out) =>
      let point := (1 - out.fraction) * input.p1 + out.fraction * input.p2
      let r := cb s f point out.normal out.fraction
      (some r.1, r.2)
    | some s, some (_, none) => (some s, input.maxFraction)
    | _, _ => (none, 0)) ⟨p1, p2, 1⟩ (some s)
  r

end World
end B2
