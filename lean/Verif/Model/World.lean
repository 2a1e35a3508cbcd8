import Verif.Model.Body
import Verif.Model.BroadPhase
import Verif.Proofs.FieldLaws

/-!
# The world: objects, lists, contact manager and the structural API

Models `src/b2_world.rs`, `src/private/dynamics/{b2_world,b2_contact_manager,b2_body,b2_fixture,b2_contact,
b2_contact_registers}.rs`. Conventions:

* An `Rc<RefCell<..>>` object is a number; the stores map numbers to contents. Ids are never reused.
* The linked lists `m_body_list`, `m_joint_list`, `m_contact_list`, `m_fixture_list` and the per-body edge lists are
  Lean lists, head first (Model/LinkedList.lean and C01-C04 justify this: on well-formed lists the pointer operations
  are the list operations, and iterating while removing the current node visits the old elements). Removing
  something that is not in the list is a panic here (in the code it is unspecified); C27 shows it never happens.
* An edge of a contact or joint in a body's list is the pair (contact or joint, other body); the two edges of one
  contact or joint are in the lists of different bodies.
* `none` is a panic (failed assertion, failed `unwrap`, index out of range, conflicting `RefCell` borrow).
* User callbacks are given by the environment `Env`: arbitrary functions of the whole world, including a counter
  that is incremented at every callback, so that any behaviour over time is covered. A callback may call the
  functions of bodies, contacts and fixtures listed in `UserOp`; calls that need the world (create, destroy,
  set_transform, set_enabled ...) panic inside callbacks made during `step` and `destroy_body`, since the world is
  mutably borrowed, and are not modelled in the other callbacks.
* The numeric work of the narrow phase and of the solvers is part of `Env` too, as arbitrary functions.
-/
namespace B2

/-- The list part of `B2body`: type, enabled flag, fixture list, joint edges, contact edges (b2_body.rs 152-199). -/
structure BodyS where
  type : BodyType
  enabled : Bool
  fixtures : List Nat
  fixtureCount : Int
  joints : List (Nat × Nat)
  contacts : List (Nat × Nat)

/-- `B2fixtureProxy` (b2_fixture.rs 76-85) without its box. -/
structure ProxyS where
  fixture : Option Nat
  childIndex : Nat
  proxyId : Option Nat

/-- The structural part of `B2fixture` (b2_fixture.rs 95-118). -/
structure FixS (F : Type) where
  body : Option Nat
  shape : Shape F
  proxies : List ProxyS
  proxyCount : Nat

/-- The concrete contact classes (src/private/dynamics/contacts/). -/
inductive ContactKind | circle | polygonCircle | polygon | edgeCircle | edgePolygon | chainCircle | chainPolygon
deriving DecidableEq

/-- The immutable part of `B2contact` (b2_contact.rs 320-345). -/
structure ConS where
  kind : ContactKind
  fA : Nat
  iA : Nat
  fB : Nat
  iB : Nat

/-- The ends of a joint (b2_joint.rs, `B2joint`); the solver data of the ten joint classes is not modelled here. -/
structure JointS where
  a : Nat
  b : Nat
  collideConnected : Bool

/-- All objects and lists. -/
structure Graph (F : Type) where
  bodies : Nat → BodyS
  fixtures : Nat → FixS F
  contacts : Nat → ConS
  joints : Nat → JointS
  bodyList : List Nat
  jointList : List Nat
  contactList : List Nat
  bodyCount : Nat
  jointCount : Nat
  contactCount : Nat
  nextBody : Nat
  nextFixture : Nat
  nextContact : Nat
  nextJoint : Nat

/-- The attributes of a fixture (b2_fixture.rs 95-118). -/
structure FAttr (F : Type) where
  density : F
  friction : F
  restitution : F
  restitutionThreshold : F
  sensor : Bool
  filter : Filter

/-- The mutable part of `B2contact` (b2_contact.rs 292-345): flags, manifold, time of impact, mixed coefficients. The
bullet-hit flag is never used by the crate. -/
structure CState (F : Type) where
  island : Bool
  touching : Bool
  enabled : Bool
  filter : Bool
  toiFlag : Bool
  manifold : Manifold F
  toiCount : Nat
  toi : F
  friction : F
  restitution : F
  restitutionThreshold : F
  tangentSpeed : F

/-- What user code is called with. -/
inductive EventKind
  | beginContact (c : Nat)
  | endContact (c : Nat)
  | preSolve (c : Nat)
  | postSolve (c : Nat)
  | goodbyeJoint (j : Nat)
  | goodbyeFixture (f : Nat)
  | filter (fA fB : Nat)
deriving DecidableEq

/-- A callback that was made, and the value of `is_locked` at that moment. -/
structure Event where
  kind : EventKind
  locked : Bool

/-- `B2world` with its contact manager (b2_world.rs 258-296, b2_contact_manager.rs 66-73). `paabb f i` is the box stored
in proxy `i` of fixture `f`; `log` (newest first) and `tick` are bookkeeping of the model. -/
structure World (F : Type) where
  g : Graph F
  bp : BroadPhase F (Nat × Nat)
  paabb : Nat → Nat → AABB F
  phys : Nat → Phys F
  fattr : Nat → FAttr F
  cst : Nat → CState F
  jIsland : Nat → Bool
  gravity : Vec2 F
  allowSleep : Bool
  invDt0 : F
  newContacts : Bool
  locked : Bool
  clearForces : Bool
  warmStarting : Bool
  continuous : Bool
  subStepping : Bool
  stepComplete : Bool
  log : List Event
  tick : Nat

/-- `B2island` (private/dynamics/b2_island.rs 79-88): members in the order they were added. -/
structure Island where
  bodies : List Nat
  contacts : List Nat
  joints : List Nat

/-- `B2timeStep` (b2_time_step.rs). -/
structure TimeStep (F : Type) where
  dt : F
  invDt : F
  dtRatio : F
  velocityIterations : Nat
  positionIterations : Nat
  warmStarting : Bool

/-- One entry of the arrays `m_positions` and `m_velocities` of an island. -/
structure BState (F : Type) where
  c : Vec2 F
  a : F
  v : Vec2 F
  w : F

/-- What a callback may do. -/
inductive UserOp (F : Type)
  | body (b : Nat) (op : BodyOp F)
  | contactSetEnabled (c : Nat) (flag : Bool)
  | contactSetManifold (c : Nat) (m : Manifold F)
  | contactSetFriction (c : Nat) (x : F)
  | contactSetRestitution (c : Nat) (x : F)
  | contactSetRestitutionThreshold (c : Nat) (x : F)
  | contactSetTangentSpeed (c : Nat) (x : F)
  | fixtureSetSensor (f : Nat) (flag : Bool)
  | fixtureSetDensity (f : Nat) (x : F)
  | fixtureSetFriction (f : Nat) (x : F)
  | fixtureSetRestitution (f : Nat) (x : F)
  | fixtureSetRestitutionThreshold (f : Nat) (x : F)

/-- Everything outside the modelled code. -/
structure Env (F : Type) where
  /-- A contact listener is installed. -/
  listener : Bool
  /-- A destruction listener is installed. -/
  destruction : Bool
  /-- What user code does when called. -/
  react : World F → EventKind → List (UserOp F)
  /-- A user's contact filter; `none` is the default filter. -/
  filter : Option (World F → Nat → Nat → Bool)
  /-- `evaluate` of a contact: the manifold of the two shapes at the bodies' transforms; `none` is a panic. -/
  evaluate : World F → Nat → Option (Manifold F)
  /-- `b2_test_overlap_shapes` for a contact; `none` is a panic. -/
  overlap : World F → Nat → Option Bool
  /-- `b2_time_of_impact` for a contact: whether it reports touching, and the time; `none` is a panic. -/
  toi : World F → Nat → Option (Bool × F)
  /-- The constraint solvers of an island finish without a panic. -/
  solvable : World F → Island → TimeStep F → Bool
  /-- The constraint solvers of an island at a time of impact finish without a panic. -/
  toiSolvable : World F → Island → TimeStep F → Bool
  /-- The velocities an island's constraint solvers compute (per index). -/
  solveVel : World F → Island → TimeStep F → List (BState F) → Nat → Vec2 F × F
  /-- The impulses stored into the `k`-th contact of an island. -/
  impulses : World F → Island → TimeStep F → Nat → List (F × F)
  /-- The positions the position solvers compute, and whether they converged. -/
  solvePos : World F → Island → TimeStep F → List (BState F) → (Nat → Vec2 F × F) × Bool
  /-- The positions the continuous position solver computes. -/
  toiPos : World F → Island → TimeStep F → Nat → Vec2 F × F
  /-- The velocities the continuous velocity solver computes. -/
  toiVel : World F → Island → TimeStep F → List (BState F) → Nat → Vec2 F × F

/-- Removal from a list (see the conventions above). -/
def removeOne (l : List Nat) (x : Nat) : Option (List Nat) := if x ∈ l then some (l.erase x) else none
/-- Removal of the edge of contact or joint `x` from a body's list. -/
def removeEdge (l : List (Nat × Nat)) (x : Nat) : Option (List (Nat × Nat)) :=
  if x ∈ l.map Prod.fst then some (l.eraseP fun e => e.1 == x) else none

/-! ## Contact registers -/

/-- `B2contactRegister` (b2_contact_registers.rs 22-27). -/
structure Register where
  createFcn : Option ContactKind
  primary : Bool
deriving DecidableEq

/-- `ContactRegisters::s_registers`: a square table. -/
abbrev Registers := ShapeType → ShapeType → Register

/-- `add_type` (b2_contact_registers.rs 51-66). -/
def addType (r : Registers) (k : ContactKind) (t1 t2 : ShapeType) : Registers :=
  let r : Registers := fun a b => if a = t1 ∧ b = t2 then ⟨some k, true⟩ else r a b
  if t1 ≠ t2 then fun a b => if a = t2 ∧ b = t1 then ⟨some k, false⟩ else r a b else r

/-- `ContactRegisters::default` and `initialize_registers` (b2_contact_registers.rs 29-40, 67-103). -/
def registers : Registers :=
  let r : Registers := fun _ _ => ⟨none, false⟩
  let r := addType r .circle .circle .circle
  let r := addType r .polygonCircle .polygon .circle
  let r := addType r .polygon .polygon .polygon
  let r := addType r .edgeCircle .edge .circle
  let r := addType r .edgePolygon .edge .polygon
  let r := addType r .chainCircle .chain .circle
  let r := addType r .chainPolygon .chain .polygon
  r

/-- `b2_contact_create` (private/dynamics/b2_contact.rs 11-31): class, and ends in the order passed to it. -/
def contactCreate (tA tB : ShapeType) (fA iA fB iB : Nat) : Option ConS := do
  let r := registers tA tB
  let k ← r.createFcn
  if r.primary then some ⟨k, fA, iA, fB, iB⟩ else some ⟨k, fB, iB, fA, iA⟩

section
variable {F : Type} [Field F] [LinearOrder F] [IsStrictOrderedRing F] [Elem F]

namespace World

/-! ## Elementary reads and writes -/

def setBody (w : World F) (b : Nat) (x : BodyS) : World F := { w with g := { w.g with bodies := upd w.g.bodies b x } }
def setFix (w : World F) (f : Nat) (x : FixS F) : World F := { w with g := { w.g with fixtures := upd w.g.fixtures f x } }
def setPhys (w : World F) (b : Nat) (p : Phys F) : World F := { w with phys := upd w.phys b p }
def setCst (w : World F) (c : Nat) (s : CState F) : World F := { w with cst := upd w.cst c s }
def setFattr (w : World F) (f : Nat) (s : FAttr F) : World F := { w with fattr := upd w.fattr f s }

/-- `get_body` of a fixture (b2_fixture.rs, `get_body`): unwraps. -/
def bodyOf (w : World F) (f : Nat) : Option Nat := (w.g.fixtures f).body
/-- `get_type` of a body. -/
def typeOf (w : World F) (b : Nat) : BodyType := (w.g.bodies b).type
/-- `is_awake`. -/
def isAwake (w : World F) (b : Nat) : Bool := (w.phys b).awake
/-- `set_awake` (b2_body.rs 783-801). -/
def setAwake (w : World F) (b : Nat) (flag : Bool) : World F := w.setPhys b ((w.phys b).setAwake (w.typeOf b) flag)
/-- The fixtures of a body as density and shape. -/
def massList (w : World F) (b : Nat) : List (F × Shape F) :=
  (w.g.bodies b).fixtures.map fun f => ((w.fattr f).density, (w.g.fixtures f).shape)
/-- Calling a body function. -/
def bodyOp (w : World F) (b : Nat) (op : BodyOp F) : Option (World F) := do
  let p ← op.run (w.typeOf b) (w.massList b) (w.phys b)
  return w.setPhys b p
/-- `reset_mass_data` (private/dynamics/b2_body.rs 292-350). -/
def resetMassData (w : World F) (b : Nat) : Option (World F) := w.bodyOp b .resetMassData

/-! ## Callbacks -/

/-- `set_sensor` (private/dynamics/b2_fixture.rs 213-219). -/
def setSensor (w : World F) (f : Nat) (flag : Bool) : Option (World F) :=
  if flag ≠ (w.fattr f).sensor then do
    let b ← w.bodyOf f
    let w := w.setAwake b true
    return w.setFattr f { w.fattr f with sensor := flag }
  else some w

/-- Effect of one call made by user code. `set_density` asserts `density >= 0` (b2_fixture.rs, `set_density`); the contact
setters are b2_contact.rs 375-460. -/
def userOp (w : World F) : UserOp F → Option (World F)
  | .body b op => w.bodyOp b op
  | .contactSetEnabled c flag => some (w.setCst c { w.cst c with enabled := flag })
  | .contactSetManifold c m => some (w.setCst c { w.cst c with manifold := m })
  | .contactSetFriction c x => some (w.setCst c { w.cst c with friction := x })
  | .contactSetRestitution c x => some (w.setCst c { w.cst c with restitution := x })
  | .contactSetRestitutionThreshold c x => some (w.setCst c { w.cst c with restitutionThreshold := x })
  | .contactSetTangentSpeed c x => some (w.setCst c { w.cst c with tangentSpeed := x })
  | .fixtureSetSensor f flag => w.setSensor f flag
  | .fixtureSetDensity f x => if x ≥ 0 then some (w.setFattr f { w.fattr f with density := x }) else none
  | .fixtureSetFriction f x => some (w.setFattr f { w.fattr f with friction := x })
  | .fixtureSetRestitution f x => some (w.setFattr f { w.fattr f with restitution := x })
  | .fixtureSetRestitutionThreshold f x => some (w.setFattr f { w.fattr f with restitutionThreshold := x })

/-- A callback is made: it is recorded and user code runs. -/
def emit (env : Env F) (w : World F) (k : EventKind) : Option (World F) :=
  let w := { w with log := ⟨k, w.locked⟩ :: w.log, tick := w.tick + 1 }
  (env.react w k).foldlM userOp w

/-- A callback of the contact listener: nothing happens when none is installed. -/
def listen (env : Env F) (w : World F) (k : EventKind) : Option (World F) :=
  if env.listener then w.emit env k else some w

/-- `m_contact_filter.should_collide`: the default filter (private/dynamics/b2_world_callbacks.rs 6-18) or the user's. The
filter is called with shared references to the fixtures; it is assumed to change nothing. -/
def filterCollide (env : Env F) (w : World F) (fA fB : Nat) : Bool × World F :=
  match env.filter with
  | none => (filterShouldCollide (w.fattr fA).filter (w.fattr fB).filter, w)
  | some f => (f w fA fB, { w with log := ⟨.filter fA fB, w.locked⟩ :: w.log, tick := w.tick + 1 })

/-! ## Fixtures and proxies -/

/-- One turn of the loop of `b2_fixture_create_proxies` (private/dynamics/b2_fixture.rs 126-132). -/
def createProxy (f : Nat) (xf : Xf F) (w : World F) (i : Nat) : Option (World F) := do
  let fx := w.g.fixtures f
  let _ ← fx.proxies[i]?
  let aabb ← fx.shape.computeAabb xf i
  let (bp, id) ← w.bp.createProxy aabb (f, i)
  let w := { w with bp := bp, paabb := upd w.paabb f (upd (w.paabb f) i aabb) }
  return w.setFix f { fx with proxies := fx.proxies.set i ⟨some f, i, some id⟩ }

/-- `b2_fixture_create_proxies` (private/dynamics/b2_fixture.rs 114-133). -/
def createProxies (w : World F) (f : Nat) (xf : Xf F) : Option (World F) := do
  let fx := w.g.fixtures f
  if fx.proxyCount ≠ 0 then none
  else
    let n ← fx.shape.childCount
    let w := w.setFix f { fx with proxyCount := n }
    (List.range n).foldlM (createProxy f xf) w

/-- One turn of the loop of `b2_fixture_destroy_proxies` (private/dynamics/b2_fixture.rs 137-142). -/
def destroyProxy (f : Nat) (w : World F) (i : Nat) : Option (World F) := do
  let fx := w.g.fixtures f
  let p ← fx.proxies[i]?
  let id ← p.proxyId
  let bp ← w.bp.destroyProxy id
  let w := { w with bp := bp }
  return w.setFix f { fx with proxies := fx.proxies.set i { p with proxyId := none } }

/-- `b2_fixture_destroy_proxies` (private/dynamics/b2_fixture.rs 135-145). -/
def destroyProxies (w : World F) (f : Nat) : Option (World F) := do
  let w ← (List.range (w.g.fixtures f).proxyCount).foldlM (destroyProxy f) w
  return w.setFix f { w.g.fixtures f with proxyCount := 0 }

/-- One turn of the loop of `b2_fixture_synchronize` (private/dynamics/b2_fixture.rs 158-172). -/
def synchronizeProxy (f : Nat) (xf1 xf2 : Xf F) (w : World F) (i : Nat) : Option (World F) := do
  let fx := w.g.fixtures f
  let p ← fx.proxies[i]?
  let aabb1 ← fx.shape.computeAabb xf1 p.childIndex
  let aabb2 ← fx.shape.computeAabb xf2 p.childIndex
  let aabb := AABB.combine aabb1 aabb2
  let displacement := aabb2.center - aabb1.center
  let id ← p.proxyId
  let bp ← w.bp.moveProxy id aabb displacement
  return { w with bp := bp, paabb := upd w.paabb f (upd (w.paabb f) i aabb) }

/-- `b2_fixture_synchronize` (private/dynamics/b2_fixture.rs 147-173). -/
def synchronize (xf1 xf2 : Xf F) (w : World F) (f : Nat) : Option (World F) :=
  (List.range (w.g.fixtures f).proxyCount).foldlM (synchronizeProxy f xf1 xf2) w

/-- `synchronize_fixtures_internal` (private/dynamics/b2_body.rs 455-475). -/
def synchronizeFixtures (w : World F) (b : Nat) : Option (World F) :=
  let p := w.phys b
  if p.awake then
    let q := Rot.ofAngle p.sweep.a0
    let xf1 : Xf F := ⟨p.sweep.c0 - q.mulV p.sweep.localCenter, q⟩
    (w.g.bodies b).fixtures.foldlM (synchronize xf1 p.xf) w
  else (w.g.bodies b).fixtures.foldlM (synchronize p.xf p.xf) w

/-- The touch loop of `set_type` and `refilter` for one fixture (private/dynamics/b2_body.rs 142-152,
b2_fixture.rs 207-210). -/
def touchProxies (w : World F) (f : Nat) : Option (World F) :=
  (List.range (w.g.fixtures f).proxyCount).foldlM (fun w i => do
    let p ← (w.g.fixtures f).proxies[i]?
    let id ← p.proxyId
    let bp ← w.bp.touchProxy id
    return { w with bp := bp }) w

/-! ## Contacts -/

/-- `should_collide` (private/dynamics/b2_body.rs 391-416). -/
def shouldCollide (w : World F) (self other : Nat) : Bool :=
  if w.typeOf self ≠ .dynamic ∧ w.typeOf other ≠ .dynamic then false
  else !((w.g.bodies self).joints.any fun e => e.2 == other && !(w.g.joints e.1).collideConnected)

/-- The last part of `b2_contact_destroy` (private/dynamics/b2_contact.rs 33-46). -/
def wakeOnDestroy (w : World F) (k : ConS) (c bA bB : Nat) : World F :=
  if (w.cst c).manifold.points.length > 0 ∧ (w.fattr k.fA).sensor = false ∧ (w.fattr k.fB).sensor = false then
    (w.setAwake bA true).setAwake bB true
  else w

/-- Removing a contact from the world list and from the lists of its bodies, and counting down
(private/dynamics/b2_contact_manager.rs 50-69). -/
def unlink (w : World F) (c bA bB : Nat) : Option (World F) := do
  let cl ← removeOne w.g.contactList c
  let w := { w with g := { w.g with contactList := cl } }
  let la ← removeEdge (w.g.bodies bA).contacts c
  let w := w.setBody bA { w.g.bodies bA with contacts := la }
  let lb ← removeEdge (w.g.bodies bB).contacts c
  let w := w.setBody bB { w.g.bodies bB with contacts := lb }
  if w.g.contactCount = 0 then none
  else some { w with g := { w.g with contactCount := w.g.contactCount - 1 } }

/-- `b2_contact_manager_destroy` (private/dynamics/b2_contact_manager.rs 24-78). -/
def contactDestroy (env : Env F) (w : World F) (c : Nat) : Option (World F) := do
  let k := w.g.contacts c
  let bA ← w.bodyOf k.fA
  let bB ← w.bodyOf k.fB
  let w ← (if (w.cst c).touching then w.listen env (.endContact c) else some w)
  let w ← w.unlink c bA bB
  return w.wakeOnDestroy k c bA bB

/-- The impulse matching of `b2_contact_update` (private/dynamics/b2_contact.rs 166-183) for one point. -/
def matchImpulse (old : List (ManifoldPoint F)) (mp : ManifoldPoint F) : ManifoldPoint F :=
  match old.find? fun m => m.id.cf == mp.id.cf with
  | some m => { mp with normalImpulse := m.normalImpulse, tangentImpulse := m.tangentImpulse }
  | none => { mp with normalImpulse := 0, tangentImpulse := 0 }

/-- The first part of `b2_contact_update` (private/dynamics/b2_contact.rs 107-196): re-enable, new manifold or sensor
overlap, impulse matching, waking, touching flag. The arrays of points have two entries: for a new manifold of more
points the loop at 171-190 would read out of range. -/
def refresh (env : Env F) (w : World F) (c : Nat) : Option (World F) := do
  let w := w.setCst c { w.cst c with enabled := true }
  let k := w.g.contacts c
  let old := (w.cst c).manifold
  let wasTouching := (w.cst c).touching
  let bA ← w.bodyOf k.fA
  let bB ← w.bodyOf k.fB
  if (w.fattr k.fA).sensor || (w.fattr k.fB).sensor then
    let touching ← env.overlap w c
    return w.setCst c { w.cst c with manifold := { old with points := [] }, touching := touching }
  else
    let m ← (env.evaluate w c).filter fun m => decide (m.points.length ≤ 2)
    let m := { m with points := m.points.map (matchImpulse old.points) }
    let touching := decide (m.points.length > 0)
    let w := w.setCst c { w.cst c with manifold := m }
    let w := if touching ≠ wasTouching then (w.setAwake bA true).setAwake bB true else w
    return w.setCst c { w.cst c with touching := touching }

/-- `b2_contact_update` (private/dynamics/b2_contact.rs 103-218). -/
def contactUpdate (env : Env F) (w : World F) (c : Nat) : Option (World F) := do
  let k := w.g.contacts c
  let wasTouching := (w.cst c).touching
  let sensor := (w.fattr k.fA).sensor || (w.fattr k.fB).sensor
  let w ← w.refresh env c
  let touching := (w.cst c).touching
  let w ← (if wasTouching = false ∧ touching = true then w.listen env (.beginContact c) else some w)
  let w ← (if wasTouching = true ∧ touching = false then w.listen env (.endContact c) else some w)
  if sensor = false ∧ touching = true then w.listen env (.preSolve c) else some w

/-- One contact of `b2_contact_manager_collide` (private/dynamics/b2_contact_manager.rs 93-162) after the filtering:
activity, overlap, update. The Boolean is false when the contact is to be destroyed. -/
def collideActive (env : Env F) (w : World F) (c bA bB : Nat) : Option (World F × Bool) := do
  let k := w.g.contacts c
  let activeA := w.isAwake bA && decide (w.typeOf bA ≠ .static)
  let activeB := w.isAwake bB && decide (w.typeOf bB ≠ .static)
  if activeA = false ∧ activeB = false then some (w, true)
  else
    let pA ← (w.g.fixtures k.fA).proxies[k.iA]?
    let idA ← pA.proxyId
    let pB ← (w.g.fixtures k.fB).proxies[k.iB]?
    let idB ← pB.proxyId
    let overlap ← w.bp.testOverlap idA idB
    if overlap = false then some (w, false)
    else do
      let w ← w.contactUpdate env c
      return (w, true)

/-- One contact of `b2_contact_manager_collide` (private/dynamics/b2_contact_manager.rs 93-162). -/
def collideOne (env : Env F) (w : World F) (c : Nat) : Option (World F × Bool) := do
  let k := w.g.contacts c
  let bA ← w.bodyOf k.fA
  let bB ← w.bodyOf k.fB
  if (w.cst c).filter then
    if w.shouldCollide bB bA = false then some (w, false)
    else
      let r := w.filterCollide env k.fA k.fB
      let w := r.2
      if r.1 = false then some (w, false)
      else collideActive env (w.setCst c { w.cst c with filter := false }) c bA bB
  else collideActive env w c bA bB

/-- The loop of `b2_contact_manager_collide` over the contact list, collecting the contacts to destroy. -/
def collideLoop (env : Env F) : List Nat → World F → List Nat → Option (World F × List Nat)
  | [], w, ds => some (w, ds)
  | c :: l, w, ds => do
    let (w, keep) ← w.collideOne env c
    collideLoop env l w (if keep then ds else ds ++ [c])

/-- `b2_contact_manager_collide` (private/dynamics/b2_contact_manager.rs 83-171). -/
def collide (env : Env F) (w : World F) : Option (World F) := do
  let (w, ds) ← collideLoop env w.g.contactList w []
  ds.foldlM (contactDestroy env) w

/-- The search for an existing contact in `b2_contact_manager_add_pair` (private/dynamics/b2_contact_manager.rs 204-235). -/
def hasContact (w : World F) (bA bB fA iA fB iB : Nat) : Bool :=
  (w.g.bodies bB).contacts.any fun e => e.2 == bA &&
    let k := w.g.contacts e.1
    (k.fA == fA && k.fB == fB && k.iA == iA && k.iB == iB) || (k.fA == fB && k.fB == fA && k.iA == iB && k.iB == iA)

/-- The mutable part of a new contact: `b2_contact_new` (private/dynamics/b2_contact.rs 48-99). -/
def newCst (w : World F) (k : ConS) : CState F :=
  { island := false, touching := false, enabled := true, filter := false, toiFlag := false
    manifold := ⟨[], ⟨0, 0⟩, ⟨0, 0⟩, .circles⟩
    toiCount := 0, toi := 0
    friction := mixFriction (w.fattr k.fA).friction (w.fattr k.fB).friction
    restitution := mixRestitution (w.fattr k.fA).restitution (w.fattr k.fB).restitution
    restitutionThreshold := mixRestitutionThreshold (w.fattr k.fA).restitutionThreshold (w.fattr k.fB).restitutionThreshold
    tangentSpeed := 0 }

/-- Creation and insertion of a contact: the end of `b2_contact_manager_add_pair`
(private/dynamics/b2_contact_manager.rs 255-306). -/
def insertContact (w : World F) (k : ConS) : Option (World F) := do
  let bA ← w.bodyOf k.fA
  let bB ← w.bodyOf k.fB
  let c := w.g.nextContact
  let w := { w with
    g := { w.g with contacts := upd w.g.contacts c k, nextContact := c + 1, contactList := c :: w.g.contactList }
    cst := upd w.cst c (w.newCst k) }
  let w := w.setBody bA { w.g.bodies bA with contacts := (c, bB) :: (w.g.bodies bA).contacts }
  let w := w.setBody bB { w.g.bodies bB with contacts := (c, bA) :: (w.g.bodies bB).contacts }
  return { w with g := { w.g with contactCount := w.g.contactCount + 1 } }

/-- `b2_contact_manager_add_pair` (private/dynamics/b2_contact_manager.rs 178-306). -/
def addPair (env : Env F) (w : World F) (pa pb : Option (Nat × Nat)) : Option (World F) := do
  let pa ← pa
  let pb ← pb
  let xa ← (w.g.fixtures pa.1).proxies[pa.2]?
  let xb ← (w.g.fixtures pb.1).proxies[pb.2]?
  let fA ← xa.fixture
  let fB ← xb.fixture
  let iA := xa.childIndex
  let iB := xb.childIndex
  let bA ← w.bodyOf fA
  let bB ← w.bodyOf fB
  if bA = bB then some w
  else if w.hasContact bA bB fA iA fB iB then some w
  else if w.shouldCollide bB bA = false then some w
  else
    let r := w.filterCollide env fA fB
    let w := r.2
    if r.1 = false then some w
    else do
      let k ← contactCreate (w.g.fixtures fA).shape.type (w.g.fixtures fB).shape.type fA iA fB iB
      w.insertContact k

/-- `find_new_contacts` (private/dynamics/b2_contact_manager.rs 173-176): `update_pairs` of the broad-phase with `add_pair`
as the callback. A panic inside the callback is a panic of the whole. -/
def findNewContacts (env : Env F) (w : World F) : Option (World F) := do
  let (bp, r) ← w.bp.updatePairs (fun (r : Option (World F)) a b => r.bind fun w => w.addPair env a b) (some w)
  let w ← r
  return { w with bp := bp }

/-! ## Bodies -/

/-- `b2_world_new` (private/dynamics/b2_world.rs 26-56). The contents of the stores are arbitrary. -/
def new (gravity : Vec2 F) (dPhys : Phys F) (dShape : Shape F) (dAttr : FAttr F) (dCst : CState F) (dBox : AABB F) : World F :=
  { g := { bodies := fun _ => ⟨.static, false, [], 0, [], []⟩
           fixtures := fun _ => ⟨none, dShape, [], 0⟩
           contacts := fun _ => ⟨.circle, 0, 0, 0, 0⟩
           joints := fun _ => ⟨0, 0, false⟩
           bodyList := [], jointList := [], contactList := []
           bodyCount := 0, jointCount := 0, contactCount := 0
           nextBody := 0, nextFixture := 0, nextContact := 0, nextJoint := 0 }
    bp := BroadPhase.new
    paabb := fun _ _ => dBox
    phys := fun _ => dPhys
    fattr := fun _ => dAttr
    cst := fun _ => { dCst with manifold := { dCst.manifold with points := [] } }
    jIsland := fun _ => false
    gravity := gravity, allowSleep := true, invDt0 := 0, newContacts := false, locked := false
    clearForces := true, warmStarting := true, continuous := true, subStepping := false, stepComplete := true
    log := [], tick := 0 }

/-- `create_body` (private/dynamics/b2_world.rs 83-98). -/
def createBody (w : World F) (d : BodyDef F) : Option (World F × Nat) :=
  if w.locked then none
  else do
    let p ← Phys.new d
    let b := w.g.nextBody
    let w := { w with
      g := { w.g with bodies := upd w.g.bodies b ⟨d.type, d.enabled, [], 0, [], []⟩, nextBody := b + 1
                      bodyList := b :: w.g.bodyList, bodyCount := w.g.bodyCount + 1 }
      phys := upd w.phys b p }
    return (w, b)

/-- `B2fixtureDef` (b2_fixture.rs 44-75) without user data. -/
structure FixDef (F : Type) where
  shape : Shape F
  attr : FAttr F

/-- `create_fixture` (private/dynamics/b2_body.rs 155-200) with `b2_fixture_create` (b2_fixture.rs 28-59). -/
def createFixture (w : World F) (b : Nat) (d : FixDef F) : Option (World F × Nat) :=
  if w.locked then none
  else do
    let n ← d.shape.childCount
    let f := w.g.nextFixture
    let w := { w with
      g := { w.g with fixtures := upd w.g.fixtures f ⟨some b, d.shape, List.replicate n ⟨none, 0, none⟩, 0⟩
                      nextFixture := f + 1 }
      fattr := upd w.fattr f d.attr }
    let w ← (if (w.g.bodies b).enabled then w.createProxies f (w.phys b).xf else some w)
    let w := w.setBody b { w.g.bodies b with
      fixtures := f :: (w.g.bodies b).fixtures, fixtureCount := (w.g.bodies b).fixtureCount + 1 }
    let w ← (if d.attr.density > 0 then w.resetMassData b else some w)
    return ({ w with newContacts := true }, f)

/-- The loop of `destroy_fixture` over the body's contacts (private/dynamics/b2_body.rs 241-264). -/
def destroyContactsOf (env : Env F) (f : Nat) : List (Nat × Nat) → World F → Option (World F)
  | [], w => some w
  | e :: l, w => do
    let k := w.g.contacts e.1
    let w ← (if f = k.fA ∨ f = k.fB then w.contactDestroy env e.1 else some w)
    destroyContactsOf env f l w

/-- `destroy_fixture` (private/dynamics/b2_body.rs 214-290). -/
def destroyFixture (env : Env F) (w : World F) (b f : Nat) : Option (World F) :=
  if w.locked then none
  else if w.bodyOf f ≠ some b then none
  else if ¬ (w.g.bodies b).fixtureCount > 0 then none
  else do
    let contacts := (w.g.bodies b).contacts
    let fl ← removeOne (w.g.bodies b).fixtures f
    let w := w.setBody b { w.g.bodies b with fixtures := fl }
    let w ← destroyContactsOf env f contacts w
    let w ← (if (w.g.bodies b).enabled then w.destroyProxies f else some w)
    let w := w.setFix f { w.g.fixtures f with body := none }
    let w := w.setBody b { w.g.bodies b with fixtureCount := (w.g.bodies b).fixtureCount - 1 }
    w.resetMassData b

/-- Destroying all contacts of a list of edges, as in `destroy_body`, `set_type` and `set_enabled`. -/
def destroyContacts (env : Env F) (l : List (Nat × Nat)) (w : World F) : Option (World F) :=
  l.foldlM (fun w e => w.contactDestroy env e.1) w

/-- Emptying the contact list of a body (`m_contact_list.clear()`). -/
def clearContacts (w : World F) (b : Nat) : World F := w.setBody b { w.g.bodies b with contacts := [] }

/-- `set_type` (private/dynamics/b2_body.rs 91-153). -/
def setType (env : Env F) (w : World F) (b : Nat) (t : BodyType) : Option (World F) :=
  if w.locked then none
  else if w.typeOf b = t then some w
  else do
    let w := w.setBody b { w.g.bodies b with type := t }
    let w ← w.resetMassData b
    let w ← (if t = .static then do
        let p := w.phys b
        let w := w.setPhys b { p with
          v := ⟨0, 0⟩, w := 0, sweep := { p.sweep with a0 := p.sweep.a, c0 := p.sweep.c }, awake := false }
        w.synchronizeFixtures b
      else some w)
    let w := w.setAwake b true
    let w := w.setPhys b { w.phys b with force := ⟨0, 0⟩, torque := 0 }
    let w ← destroyContacts env (w.g.bodies b).contacts w
    let w := w.clearContacts b
    (w.g.bodies b).fixtures.foldlM touchProxies w

/-- `set_enabled` (private/dynamics/b2_body.rs 477-527). -/
def setEnabled (env : Env F) (w : World F) (b : Nat) (flag : Bool) : Option (World F) :=
  if w.locked then none
  else
    let w := w.setBody b { w.g.bodies b with enabled := flag }
    let contacts := (w.g.bodies b).contacts
    let fixtures := (w.g.bodies b).fixtures
    if flag then do
      let xf := (w.phys b).xf
      let w ← fixtures.foldlM (fun w f => w.createProxies f xf) w
      return { w with newContacts := true }
    else do
      let w ← fixtures.foldlM destroyProxies w
      let w ← destroyContacts env contacts w
      return w.clearContacts b

/-- `set_transform` (private/dynamics/b2_body.rs 418-445). -/
def setTransform (w : World F) (b : Nat) (position : Vec2 F) (angle : F) : Option (World F) :=
  if w.locked then none
  else do
    let p := w.phys b
    let xf : Xf F := ⟨position, Rot.ofAngle angle⟩
    let c := xf.mulV p.sweep.localCenter
    let w := w.setPhys b { p with xf := xf, sweep := { p.sweep with c := c, a := angle, c0 := c, a0 := angle } }
    let w ← (w.g.bodies b).fixtures.foldlM (synchronize xf xf) w
    return { w with newContacts := true }

/-- `set_mass_data` (private/dynamics/b2_body.rs 352-389). -/
def setMassData (w : World F) (b : Nat) (m : MassData F) : Option (World F) :=
  if w.locked then none
  else do
    let p ← (w.phys b).setMassData (w.typeOf b) m
    return w.setPhys b p

/-- `b2_fixture_refilter` (private/dynamics/b2_fixture.rs 181-211), called on a fixture that is mutably borrowed: for each
contact of the body, `fixture_a.borrow()` and (if that is another fixture) `fixture_b.borrow()` conflict with that
borrow when they are this fixture. So any contact of the fixture is a panic, and none is ever flagged. -/
def refilter (w : World F) (f : Nat) : Option (World F) :=
  match w.bodyOf f with
  | none => some w
  | some b =>
    if (w.g.bodies b).contacts.any fun e => (w.g.contacts e.1).fA == f || (w.g.contacts e.1).fB == f then none
    else w.touchProxies f

/-- `b2_fixture_set_filter_data` (private/dynamics/b2_fixture.rs 175-179). -/
def setFilterData (w : World F) (f : Nat) (filter : Filter) : Option (World F) :=
  (w.setFattr f { w.fattr f with filter := filter }).refilter f

/-! ## Joints -/

/-- Flagging the contacts between two bodies for filtering (private/dynamics/b2_world.rs 258-271, 325-338). -/
def flagContacts (w : World F) (a b : Nat) : World F :=
  (w.g.bodies b).contacts.foldl (fun w e =>
    if e.2 = a then w.setCst e.1 { w.cst e.1 with filter := true } else w) w

/-- `create_joint` (private/dynamics/b2_world.rs 156-276) with the assertion of `B2joint::new` (b2_joint.rs 91). The ends
are the bodies of the definition, for every class of joint. -/
def createJoint (w : World F) (d : JointS) : Option (World F × Nat) :=
  if w.locked then none
  else if d.a = d.b then none
  else
    let j := w.g.nextJoint
    let w := { w with
      g := { w.g with joints := upd w.g.joints j d, nextJoint := j + 1
                      jointList := j :: w.g.jointList, jointCount := w.g.jointCount + 1 }
      jIsland := upd w.jIsland j false }
    let w := w.setBody d.a { w.g.bodies d.a with joints := (j, d.b) :: (w.g.bodies d.a).joints }
    let w := w.setBody d.b { w.g.bodies d.b with joints := (j, d.a) :: (w.g.bodies d.b).joints }
    let w := if d.collideConnected = false then w.flagContacts d.a d.b else w
    some (w, j)

/-- `destroy_joint` (private/dynamics/b2_world.rs 278-339). -/
def destroyJoint (w : World F) (j : Nat) : Option (World F) :=
  if w.locked then none
  else do
    let d := w.g.joints j
    let jl ← removeOne w.g.jointList j
    let w := { w with g := { w.g with jointList := jl } }
    let w := (w.setAwake d.a true).setAwake d.b true
    let la ← removeEdge (w.g.bodies d.a).joints j
    let w := w.setBody d.a { w.g.bodies d.a with joints := la }
    let lb ← removeEdge (w.g.bodies d.b).joints j
    let w := w.setBody d.b { w.g.bodies d.b with joints := lb }
    if w.g.jointCount = 0 then none
    else
      let w := { w with g := { w.g with jointCount := w.g.jointCount - 1 } }
      some (if d.collideConnected = false then w.flagContacts d.a d.b else w)

/-- A callback of the destruction listener. -/
def goodbye (env : Env F) (w : World F) (k : EventKind) : Option (World F) :=
  if env.destruction then w.emit env k else some w

/-- The first loop of `destroy_body` (private/dynamics/b2_world.rs 108-119). -/
def destroyJoints (env : Env F) (l : List (Nat × Nat)) (w : World F) : Option (World F) :=
  l.foldlM (fun w e => do
    let w ← w.goodbye env (.goodbyeJoint e.1)
    w.destroyJoint e.1) w

/-- The last loop of `destroy_body` (private/dynamics/b2_world.rs 131-143). -/
def destroyFixtures (env : Env F) (b : Nat) (l : List Nat) (w : World F) : Option (World F) :=
  l.foldlM (fun w f => do
    let w ← w.goodbye env (.goodbyeFixture f)
    let w ← w.destroyProxies f
    return w.setBody b { w.g.bodies b with fixtureCount := (w.g.bodies b).fixtureCount - 1 }) w

/-- `destroy_body` (private/dynamics/b2_world.rs 100-154). -/
def destroyBody (env : Env F) (w : World F) (b : Nat) : Option (World F) :=
  if ¬ w.g.bodyCount > 0 then none
  else if w.locked then none
  else do
    let w ← destroyJoints env (w.g.bodies b).joints w
    let w := w.setBody b { w.g.bodies b with joints := [] }
    let w ← destroyContacts env (w.g.bodies b).contacts w
    let w := w.clearContacts b
    let w ← destroyFixtures env b (w.g.bodies b).fixtures w
    let w := w.setBody b { w.g.bodies b with fixtures := [], fixtureCount := 0 }
    let bl ← removeOne w.g.bodyList b
    return { w with g := { w.g with bodyList := bl, bodyCount := w.g.bodyCount - 1 } }

/-! ## World settings -/

/-- `set_allow_sleeping` (private/dynamics/b2_world.rs 342-353). -/
def setAllowSleeping (w : World F) (flag : Bool) : World F :=
  if flag = w.allowSleep then w
  else
    let w := { w with allowSleep := flag }
    if flag = false then w.g.bodyList.foldl (fun w b => w.setAwake b true) w else w

/-- `clear_forces` (private/dynamics/b2_world.rs 961-967). -/
def clearForcesAll (w : World F) : World F :=
  w.g.bodyList.foldl (fun w b => w.setPhys b { w.phys b with force := ⟨0, 0⟩, torque := 0 }) w

/-- `shift_origin` (private/dynamics/b2_world.rs, last function); the joints' own shift is in Model/JointDef.lean (C128). -/
def shiftOrigin (w : World F) (o : Vec2 F) : Option (World F) :=
  if w.locked then none
  else
    let w := w.g.bodyList.foldl (fun w b =>
      let p := w.phys b
      w.setPhys b { p with
        xf := ⟨p.xf.p - o, p.xf.q⟩, sweep := { p.sweep with c0 := p.sweep.c0 - o, c := p.sweep.c - o } }) w
    some { w with bp := w.bp.shiftOrigin o }

end World
end
end B2
