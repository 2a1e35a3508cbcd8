import Verif.Model.Serialize

/-! What a copy of a body and of a joint is. -/
namespace B2.Spec
set_option linter.unusedSectionVars false

variable {F P : Type} [Field F] [LinearOrder F] [Elem F]

/-- Shape and attributes of the fixtures of a body, in list order. -/
def fixturesOf (w : World F) (b : Nat) : List (Shape F × FAttr F) :=
  (w.g.bodies b).fixtures.map fun f => ((w.g.fixtures f).shape, w.fattr f)

/-- Body `b'` of `w'` is what body `b` of `w` is, its fixtures being in the reverse order; nothing is said of the linear velocity and
of the mass. -/
structure BodyCopy (w : World F) (b : Nat) (w' : World F) (b' : Nat) : Prop where
  type : w'.typeOf b' = w.typeOf b
  enabled : (w'.g.bodies b').enabled = (w.g.bodies b).enabled
  position : (w'.phys b').xf.p = (w.phys b).xf.p
  angle : (w'.phys b').sweep.a = (w.phys b).sweep.a
  rotation : (w'.phys b').xf.q = (w.phys b).xf.q
  angularVelocity : (w'.phys b').w = (w.phys b).w
  linearDamping : (w'.phys b').linearDamping = (w.phys b).linearDamping
  angularDamping : (w'.phys b').angularDamping = (w.phys b).angularDamping
  gravityScale : (w'.phys b').gravityScale = (w.phys b).gravityScale
  autoSleep : (w'.phys b').autoSleep = (w.phys b).autoSleep
  bullet : (w'.phys b').bullet = (w.phys b).bullet
  fixedRotation : (w'.phys b').fixedRotation = (w.phys b).fixedRotation
  awake : w.typeOf b ≠ .static → (w'.phys b').awake = (w.phys b).awake
  fixtures : fixturesOf w' b' = (fixturesOf w b).reverse

/-- A joint that is neither a mouse joint nor a gear joint. -/
def Plain : JKind P → Bool
  | .coord _ => true
  | .other _ => true
  | _ => false

/-- The joints that are neither mouse joints nor gear joints, in list order. -/
def plainJoints (s : Scene F P) : List Nat := s.world.g.jointList.filter fun j => Plain (s.kind j)

/-- The gear joints, in list order. -/
def gearJoints (s : Scene F P) : List Nat := s.world.g.jointList.filter fun j => (s.kind j).isGear

/-- A joint without reference to pointers: the places of its bodies in the body list, whether they collide, class and parameters. -/
structure JointView (P : Type) where
  placeA : Nat
  placeB : Nat
  collideConnected : Bool
  kind : JKind P
deriving DecidableEq

def jointView (s : Scene F P) (j : Nat) : JointView P :=
  let d := s.world.g.joints j
  ⟨s.world.g.bodyList.idxOf d.a, s.world.g.bodyList.idxOf d.b, d.collideConnected, s.kind j⟩

/-- A gear joint without reference to pointers: the joints it couples are given by their places among the other joints. -/
structure GearView (P : Type) where
  placeA : Nat
  placeB : Nat
  collideConnected : Bool
  place1 : Nat
  place2 : Nat
  ratio : P
deriving DecidableEq

def gearView (s : Scene F P) (j : Nat) : Option (GearView P) :=
  let d := s.world.g.joints j
  match s.kind j with
  | .gear j1 j2 ratio =>
    some ⟨s.world.g.bodyList.idxOf d.a, s.world.g.bodyList.idxOf d.b, d.collideConnected, (plainJoints s).idxOf j1, (plainJoints s).idxOf j2, ratio⟩
  | _ => none

/-- The joints of `s` are restored in `s'`, where the copies of the bodies of `s` and of its joints are in the reverse order: the
bodies of a restored joint are the copies of the bodies of the joint. -/
def JointsRestored (s s' : Scene F P) : Prop :=
  ∀ (i : Nat) (j : Nat), (plainJoints s)[i]? = some j → ∃ j', (plainJoints s').reverse[i]? = some j' ∧
    s'.world.g.bodyList.reverse.idxOf (s'.world.g.joints j').a = s.world.g.bodyList.idxOf (s.world.g.joints j).a ∧
    s'.world.g.bodyList.reverse.idxOf (s'.world.g.joints j').b = s.world.g.bodyList.idxOf (s.world.g.joints j).b

/-- The fixture can be created on any body: its density is not negative, and if it is positive the shape has a mass about which
it can turn (`m.mass * |center|² < m.i`: the inertia is given about the origin of the body), or none at all. -/
def Solid (x : F × Shape F) : Prop :=
  0 ≤ x.1 ∧ (0 < x.1 → ∃ m, x.2.computeMass x.1 = some m ∧
    ((m.mass = 0 ∧ m.i = 0) ∨ (0 < m.mass ∧ m.mass * (m.center.x ^ 2 + m.center.y ^ 2) < m.i)))

/-- The scene has no mouse joint. -/
def NoMouse (s : Scene F P) : Prop := ∀ j ∈ s.world.g.jointList, ∀ p, s.kind j ≠ .mouse p

/-- Both joints of every gear joint are still in the world and are no gear joints themselves. -/
def GearsLive (s : Scene F P) : Prop :=
  ∀ j ∈ s.world.g.jointList, ∀ j1 j2 r, s.kind j = .gear j1 j2 r → j1 ∈ plainJoints s ∧ j2 ∈ plainJoints s

/-- A scene with an empty new world. -/
def Empty (e : Scene F P) : Prop :=
  ∃ gravity dPhys dShape dAttr dCst dBox, e.world = World.new gravity dPhys dShape dAttr dCst dBox

end B2.Spec
