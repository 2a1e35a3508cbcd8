import Verif.Model.World

/-!
# Saving and loading a world

Models `src/serialize/*.rs` and the base of `src/joints/serialize/*.rs`: what the implementations of `Serialize` write and what
the visitors do with it. The data format is left out: a saved world is the tree of values the serializer is given, and the
deserializer hands the same values to the visitors, in the order they were written (`visit_map`, as for a self-describing
format). Left out: user data; the parameters of a joint class (anchors, limits, motor ...) are one opaque value, which
`get_def` of the class copies out of the joint and its constructor copies back in.
-/
namespace B2

/-- The class of a joint (`B2jointType`, b2_joint.rs 46-58): `coord` is a revolute or prismatic joint, the two classes a gear
joint may refer to; `params` are the remaining fields that `get_def` of the class copies. -/
inductive JKind (P : Type)
  | mouse (params : P)
  | gear (j1 j2 : Nat) (ratio : P)
  | coord (params : P)
  | other (params : P)
deriving DecidableEq

/-- A world with what `Model/World.lean` leaves out of joints: the class, and `m_index` (b2_joint.rs 330). -/
structure Scene (F P : Type) where
  world : World F
  kind : Nat → JKind P
  index : Nat → Int

/-- `B2body` as written (serialize/serialize_b2_body.rs 58-71). -/
structure SavedBody (F : Type) where
  defn : BodyDef F
  fixtures : List (World.FixDef F)

/-- A joint that is not a gear joint, as written (serialize/serialize_b2_joint.rs 33-53 and the class's own file): the bodies
are written as numbers. -/
structure SavedJoint (P : Type) where
  bodyA : Int
  bodyB : Int
  collideConnected : Bool
  coord : Bool
  params : P

/-- A gear joint as written (joints/serialize/serialize_b2_gear_joint.rs 35-56): bodies and joints are numbers. -/
structure SavedGear (P : Type) where
  bodyA : Int
  bodyB : Int
  collideConnected : Bool
  joint1 : Int
  joint2 : Int
  ratio : P

/-- `B2world` as written (serialize/serialize_b2_world.rs 132-178). -/
structure SavedWorld (F P : Type) where
  gravity : Vec2 F
  bodies : List (SavedBody F)
  joints : List (SavedJoint P)
  gears : List (SavedGear P)

section
variable {F P : Type} [Field F] [LinearOrder F] [Elem F]

namespace World

/-- `get_def` of a body (serialize/serialize_b2_body.rs 36-56). -/
def bodyDef (w : World F) (b : Nat) : BodyDef F :=
  let p := w.phys b
  { type := w.typeOf b, position := p.xf.p, angle := p.sweep.a, linearVelocity := p.v, angularVelocity := p.w
    linearDamping := p.linearDamping, angularDamping := p.angularDamping, allowSleep := p.autoSleep, awake := p.awake
    fixedRotation := p.fixedRotation, bullet := p.bullet, enabled := (w.g.bodies b).enabled, gravityScale := p.gravityScale }

/-- What is written of a fixture (serialize/serialize_b2_fixture.rs 23-51). -/
def fixDef (w : World F) (f : Nat) : FixDef F := ⟨(w.g.fixtures f).shape, w.fattr f⟩

/-- A body as it is written, its fixtures in list order (serialize/serialize_b2_body.rs 58-71, b2rs_linked_list.rs 35-50). -/
def saveBody (w : World F) (b : Nat) : SavedBody F := ⟨w.bodyDef b, (w.g.bodies b).fixtures.map w.fixDef⟩

/-- `serialize` numbers the bodies in list order, in their field `m_island_index` (serialize/serialize_b2_world.rs 141-143). -/
def numberBodies (w : World F) : World F :=
  { w with phys := w.g.bodyList.zipIdx.foldl (fun ph x => upd ph x.1 { ph x.1 with islandIndex := (x.2 : Int) }) w.phys }

/-- Reading one body with its fixtures (serialize/serialize_b2_body.rs 121-140, serialize_b2_fixture.rs 148-207, 231-241). -/
def loadBody (w : World F) (s : SavedBody F) : Option (World F) := do
  let (w, b) ← w.createBody s.defn
  s.fixtures.foldlM (fun w d => (w.createFixture b d).map Prod.fst) w

end World

/-- Joint `j` is a gear joint. -/
def JKind.isGear : JKind P → Bool
  | .gear .. => true
  | _ => false

/-- Joint `j` is a revolute or prismatic joint. -/
def JKind.isCoord : JKind P → Bool
  | .coord _ => true
  | _ => false

namespace Scene

/-- The joints that are not gear joints, in list order (serialize/serialize_b2_world.rs 146-161). -/
def notGear (s : Scene F P) : List Nat := s.world.g.jointList.filter fun j => !(s.kind j).isGear

/-- The gear joints, in list order (serialize/serialize_b2_world.rs 146-161). -/
def gears (s : Scene F P) : List Nat := s.world.g.jointList.filter fun j => (s.kind j).isGear

/-- The numbering of bodies and joints (serialize/serialize_b2_world.rs 141-167): every joint's `m_index` becomes -1, then the
joints that are not gear joints are counted. -/
def number (s : Scene F P) : Scene F P :=
  let ix := s.world.g.jointList.foldl (fun ix j => upd ix j (-1)) s.index
  let ix := s.notGear.zipIdx.foldl (fun ix x => upd ix x.1 (x.2 : Int)) ix
  { s with world := s.world.numberBodies, index := ix }

/-- What is written of a joint that is not a gear joint; mouse joints are passed over (serialize/serialize_b2_world.rs 63-127). -/
def saveJoint (s : Scene F P) (j : Nat) : Option (SavedJoint P) :=
  let d := s.world.g.joints j
  let a := (s.world.phys d.a).islandIndex
  let b := (s.world.phys d.b).islandIndex
  match s.kind j with
  | .mouse _ => none
  | .gear _ _ _ => none
  | .coord p => some ⟨a, b, d.collideConnected, true, p⟩
  | .other p => some ⟨a, b, d.collideConnected, false, p⟩

/-- What is written of a gear joint (joints/serialize/serialize_b2_gear_joint.rs 24-56). -/
def saveGear (s : Scene F P) (j : Nat) : Option (SavedGear P) :=
  let d := s.world.g.joints j
  let a := (s.world.phys d.a).islandIndex
  let b := (s.world.phys d.b).islandIndex
  match s.kind j with
  | .gear j1 j2 ratio => some ⟨a, b, d.collideConnected, s.index j1, s.index j2, ratio⟩
  | _ => none

/-- `serialize` of a world (serialize/serialize_b2_world.rs 132-178): the scene with its new numbers, and what is written. -/
def save (s : Scene F P) : Scene F P × SavedWorld F P :=
  let n := s.number
  (n, { gravity := s.world.gravity, bodies := s.world.g.bodyList.map s.world.saveBody
        joints := s.notGear.filterMap n.saveJoint, gears := s.gears.filterMap n.saveGear })

/-- `array[index as usize]`: a negative number is out of bounds. -/
def pick (l : List Nat) (i : Int) : Option Nat := if i < 0 then none else l[i.toNat]?

/-- Reading a joint that is not a gear joint (serialize/serialize_b2_body.rs 313-395, serialize_b2_joint.rs 121-156): the
number of a body is looked up in `bodies`. A new joint's `m_index` is 0. -/
def loadJoint (bodies : List Nat) (s : Scene F P) (d : SavedJoint P) : Option (Scene F P) := do
  let a ← pick bodies d.bodyA
  let b ← pick bodies d.bodyB
  let (w, j) ← s.world.createJoint ⟨a, b, d.collideConnected⟩
  return ⟨w, upd s.kind j (if d.coord then .coord d.params else .other d.params), upd s.index j 0⟩

/-- Reading a gear joint (serialize/serialize_b2_body.rs 342-350, joints/serialize/serialize_b2_gear_joint.rs 125-153): the
numbers of its joints are looked up in `joints`, to which it is then added. The constructor asserts the class of both joints
and that their second bodies are dynamic (private/dynamics/joints/b2_gear_joint.rs 38-50, 86-91). -/
def loadGear (bodies : List Nat) (s : Scene F P × List Nat) (d : SavedGear P) : Option (Scene F P × List Nat) := do
  let (s, joints) := s
  let a ← pick bodies d.bodyA
  let b ← pick bodies d.bodyB
  let j1 ← pick joints d.joint1
  let j2 ← pick joints d.joint2
  if (s.kind j1).isCoord && (s.kind j2).isCoord && decide (s.world.typeOf (s.world.g.joints j1).b = .dynamic)
      && decide (s.world.typeOf (s.world.g.joints j2).b = .dynamic) then do
    let (w, j) ← s.world.createJoint ⟨a, b, d.collideConnected⟩
    return (⟨w, upd s.kind j (.gear j1 j2 d.ratio), upd s.index j 0⟩, joints ++ [j])
  else none

/-- Loading (serialize/serialize_b2_world.rs 249-292): a new world, then the bodies, the joints and the gear joints, in the
order they were written. The array of bodies is made from the new world's body list, that of joints from its joint list. `e` is
an empty world (`World.new` with any stores) and the unused stores of joints. -/
def load (e : Scene F P) (d : SavedWorld F P) : Option (Scene F P) := do
  let w ← d.bodies.foldlM World.loadBody { e.world with gravity := d.gravity }
  let s ← d.joints.foldlM (loadJoint w.g.bodyList) { e with world := w }
  let r ← d.gears.foldlM (loadGear w.g.bodyList) (s, s.world.g.jointList)
  return r.1

end Scene

end
end B2
