import Verif.Model.WorldStep
import Verif.Spec.Collide
import Verif.Spec.ContactSolver

/-! Histories of calls on a world, and what the properties about worlds say. -/
namespace B2.Spec
set_option linter.unusedSectionVars false

section
variable {F : Type} [Field F] [LinearOrder F] [IsStrictOrderedRing F] [Elem F]

/-- A call of the world API made between steps. -/
inductive Call (F : Type)
  | createBody (d : BodyDef F)
  | destroyBody (b : Nat)
  | createFixture (b : Nat) (d : World.FixDef F)
  | destroyFixture (b f : Nat)
  | createJoint (d : JointS)
  | destroyJoint (j : Nat)
  | setType (b : Nat) (t : BodyType)
  | setEnabled (b : Nat) (flag : Bool)
  | setTransform (b : Nat) (position : Vec2 F) (angle : F)
  | setMassData (b : Nat) (m : MassData F)
  | setFilterData (f : Nat) (d : Filter)
  | refilter (f : Nat)
  | user (op : UserOp F)
  | setAllowSleeping (flag : Bool)
  | setGravity (x : Vec2 F)
  | setAutoClearForces (flag : Bool)
  | setWarmStarting (flag : Bool)
  | setContinuousPhysics (flag : Bool)
  | setSubStepping (flag : Bool)
  | clearForces
  | shiftOrigin (o : Vec2 F)
  | step (dt : F) (velocityIterations positionIterations : Nat)

/-- What the caller must see to: objects passed in belong to this world and have not been destroyed. -/
def Call.Ok (w : World F) : Call F → Prop
  | .destroyBody b => b ∈ w.g.bodyList
  | .createFixture b _ => b ∈ w.g.bodyList
  | .destroyFixture b _ => b ∈ w.g.bodyList
  | .createJoint d => d.a ∈ w.g.bodyList ∧ d.b ∈ w.g.bodyList
  | .destroyJoint j => j ∈ w.g.jointList
  | .setType b _ => b ∈ w.g.bodyList
  | .setEnabled b _ => b ∈ w.g.bodyList
  | .setTransform b _ _ => b ∈ w.g.bodyList
  | .setMassData b _ => b ∈ w.g.bodyList
  | .setFilterData f _ => ∃ b ∈ w.g.bodyList, (w.g.fixtures f).body = some b
  | .refilter f => ∃ b ∈ w.g.bodyList, (w.g.fixtures f).body = some b
  | _ => True

/-- The world after the call; `none` if the code panics. The one-line setters are b2_world.rs, `set_gravity`,
`set_auto_clear_forces`, `set_warm_starting`, `set_continuous_physics`, `set_sub_stepping`. -/
def Call.run (env : Env F) (w : World F) : Call F → Option (World F)
  | .createBody d => (w.createBody d).map Prod.fst
  | .destroyBody b => w.destroyBody env b
  | .createFixture b d => (w.createFixture b d).map Prod.fst
  | .destroyFixture b f => w.destroyFixture env b f
  | .createJoint d => (w.createJoint d).map Prod.fst
  | .destroyJoint j => w.destroyJoint j
  | .setType b t => w.setType env b t
  | .setEnabled b flag => w.setEnabled env b flag
  | .setTransform b p a => w.setTransform b p a
  | .setMassData b m => w.setMassData b m
  | .setFilterData f d => w.setFilterData f d
  | .refilter f => w.refilter f
  | .user op => w.userOp op
  | .setAllowSleeping flag => some (w.setAllowSleeping flag)
  | .setGravity x => some { w with gravity := x }
  | .setAutoClearForces flag => some { w with clearForces := flag }
  | .setWarmStarting flag => some { w with warmStarting := flag }
  | .setContinuousPhysics flag => some { w with continuous := flag }
  | .setSubStepping flag => some { w with subStepping := flag }
  | .clearForces => some w.clearForcesAll
  | .shiftOrigin o => w.shiftOrigin o
  | .step dt vi pi => w.step env dt vi pi

/-- The worlds that can be reached from a new world by calls that keep to the contract and do not panic; `env` is the
user's code (listeners, filter) and the numeric routines that are not modelled. -/
inductive WHist (env : Env F) : World F → Prop
  | new (gravity : Vec2 F) (dPhys : Phys F) (dShape : Shape F) (dAttr : FAttr F) (dCst : CState F) (dBox : AABB F) :
      WHist env (World.new gravity dPhys dShape dAttr dCst dBox)
  | call {w w' : World F} (c : Call F) : WHist env w → c.Ok w → c.run env w = some w' → WHist env w'

/-- The collision routine for two shape types in this order (private/dynamics/contacts/*). -/
def routine : ShapeType → ShapeType → Option ContactKind
  | .circle, .circle => some .circle
  | .polygon, .circle => some .polygonCircle
  | .polygon, .polygon => some .polygon
  | .edge, .circle => some .edgeCircle
  | .edge, .polygon => some .edgePolygon
  | .chain, .circle => some .chainCircle
  | .chain, .polygon => some .chainPolygon
  | _, _ => none

/-- Contact `c` has `x` as one of its two fixtures' bodies and `y` as the other's. -/
def Connects (w : World F) (c x y : Nat) : Prop :=
  ((w.g.fixtures (w.g.contacts c).fA).body = some x ∧ (w.g.fixtures (w.g.contacts c).fB).body = some y) ∨
  ((w.g.fixtures (w.g.contacts c).fA).body = some y ∧ (w.g.fixtures (w.g.contacts c).fB).body = some x)

/-- The number of children of the fixtures of enabled bodies. -/
def childTotal (w : World F) : Nat :=
  ((w.g.bodyList.filter fun b => (w.g.bodies b).enabled).map fun b =>
    ((w.g.bodies b).fixtures.map fun f => (w.g.fixtures f).shape.childCount.getD 0).sum).sum

/-- The begin (`true`) and end (`false`) callbacks about contact `c`, oldest first. -/
def contactCalls (c : Nat) (log : List Event) : List Bool :=
  log.reverse.filterMap fun e =>
    match e.kind with
    | .beginContact x => if x = c then some true else none
    | .endContact x => if x = c then some false else none
    | _ => none

/-- Begin, end, begin, end, ... -/
def Alternating (l : List Bool) : Prop := ∀ i (h : i < l.length), l[i] = decide (i % 2 = 0)

/-- One turn of the continuous solver's loop (b2_world.rs 564-900) that goes on to a further turn: contact `c` was
selected, which is neither the end of the step nor the end of a sub-step. -/
inductive Turn (env : Env F) (step : TimeStep F) : World F → Nat → World F → Prop
  | mk {w w1 w2 : World F} {c : Nat} {m : F} {solid : Bool} :
      World.toiScan env w.g.contactList w none 1 = some (w1, some c, m) → ¬ (1 - 10 * epsilon < m) →
      w1.toiEvent env step c m = some (w2, solid) → ¬ (solid = true ∧ w2.subStepping = true) → Turn env step w c w2

/-- Turns one after the other; the contacts selected, first one first. -/
inductive Turns (env : Env F) (step : TimeStep F) : World F → List Nat → World F → Prop
  | nil (w : World F) : Turns env step w [] w
  | cons {w w1 w2 : World F} {c : Nat} {cs : List Nat} : Turn env step w c w1 → Turns env step w1 cs w2 → Turns env step w (c :: cs) w2

/-- `w'` is the world in which a step of `w` starts its continuous phase (b2_world.rs 903-941). -/
def StartsToi (env : Env F) (w : World F) (dt : F) (vi pi : Nat) (w' : World F) : Prop :=
  ∃ a b, w.stepBegin env = some a ∧ World.collide env { a with locked := true } = some b ∧
    (if b.stepComplete = true ∧ dt > 0 then b.solve env ({ a with locked := true }.timeStep dt vi pi) else some b) = some w'

/-- The body permits sleeping, is slow (0.01 m/s, 2 degrees/s), and with this step of `dt` has been so for half a second:
`sleepTime` is the body's record of how long. -/
structure QuietLong (p : Phys F) (dt : F) : Prop where
  permits : p.autoSleep = true
  slow : p.v.x * p.v.x + p.v.y * p.v.y ≤ (1 / 100) * (1 / 100)
  steady : p.w * p.w ≤ (2 / 180 * Elem.pi) * (2 / 180 * Elem.pi)
  long : 1 / 2 ≤ p.sleepTime + dt

/-- The user's callbacks call no function of a body. -/
def LeavesBodies (env : Env F) : Prop := ∀ w k, ∀ op ∈ env.react w k, ∀ b o, op ≠ UserOp.body b o

/-- The contact transmits forces: it is in the world, enabled, touching, and neither fixture is a sensor. -/
structure Transmits (w : World F) (c : Nat) : Prop where
  mem : c ∈ w.g.contactList
  enabled : (w.cst c).enabled = true
  touching : (w.cst c).touching = true
  solidA : (w.fattr (w.g.contacts c).fA).sensor = false
  solidB : (w.fattr (w.g.contacts c).fB).sensor = false

/-- Joint `j` is in the world and joins the bodies `x` and `y`, which are both enabled. -/
structure Ties (w : World F) (j x y : Nat) : Prop where
  mem : j ∈ w.g.jointList
  ends : ((w.g.joints j).a = x ∧ (w.g.joints j).b = y) ∨ ((w.g.joints j).a = y ∧ (w.g.joints j).b = x)
  enabledX : (w.g.bodies x).enabled = true
  enabledY : (w.g.bodies y).enabled = true

/-- The bodies `x` and `y` are linked by a contact that transmits forces or by a joint. -/
def Linked (w : World F) (x y : Nat) : Prop := (∃ c, Transmits w c ∧ Connects w c x y) ∨ ∃ j, Ties w j x y

/-- The bodies that can be reached from `seed` along links, going through non-static bodies only. -/
inductive Reach (w : World F) (seed : Nat) : Nat → Prop
  | seed : Reach w seed seed
  | step {x y : Nat} : Reach w seed x → (w.g.bodies x).type ≠ .static → Linked w x y → Reach w seed y

/-- `w'` is the world in which a step of `w` runs the solver over its islands (b2_world.rs 903-927). -/
def StartsSolve (env : Env F) (w : World F) (w' : World F) : Prop :=
  ∃ a, w.stepBegin env = some a ∧ World.collide env { a with locked := true } = some w'

/-- The post-solve callback wakes no body and puts none to sleep, enables or disables no contact, and makes no fixture a
sensor or solid. -/
def PostSolveCalm (env : Env F) : Prop := ∀ (w w' : World F) c, w.listen env (.postSolve c) = some w' →
  (∀ b, (w'.phys b).awake = (w.phys b).awake) ∧ (∀ c, (w'.cst c).enabled = (w.cst c).enabled) ∧
  (∀ f, (w'.fattr f).sensor = (w.fattr f).sensor)

/-- The post-solve callback enables or disables no contact, and makes no fixture a sensor or solid. -/
def PostSolveLinks (env : Env F) : Prop := ∀ (w w' : World F) c, w.listen env (.postSolve c) = some w' →
  (∀ c, (w'.cst c).enabled = (w.cst c).enabled) ∧ (∀ f, (w'.fattr f).sensor = (w.fattr f).sensor)

/-- Whatever the user's callbacks do, it does not panic. -/
def CallbacksSafe (env : Env F) : Prop := ∀ w k, ∃ w', (env.react w k).foldlM World.userOp w = some w'

/-- What an island handed to the solvers is like: its bodies know their places in it, and the bodies of its contacts and joints are
among its bodies. -/
structure Fitted (w : World F) (isl : Island) : Prop where
  index : ∀ (i b : Nat), isl.bodies[i]? = some b → (w.phys b).islandIndex = i
  contacts : ∀ c ∈ isl.contacts, ∃ bA ∈ isl.bodies, ∃ bB ∈ isl.bodies, bA ≠ bB ∧
    (w.g.fixtures (w.g.contacts c).fA).body = some bA ∧ (w.g.fixtures (w.g.contacts c).fB).body = some bB
  joints : ∀ j ∈ isl.joints, (w.g.joints j).a ∈ isl.bodies ∧ (w.g.joints j).b ∈ isl.bodies

/-- The solver gives contacts that do not pull no impulse that pulls. -/
def ImpulsesPush (env : Env F) : Prop := ∀ w isl step, (∀ c ∈ isl.contacts, Pushing (w.cst c).manifold) → 0 ≤ step.dtRatio →
  ∀ k, ∀ x ∈ env.impulses w isl step k, 0 ≤ x.1

/-- The constraint solvers do not panic for an island whose contacts have one or two points, whose bodies are where they belong and whose
contacts do not pull; and the solver makes no contact pull. -/
structure SolversRun (env : Env F) : Prop where
  solve : ∀ w isl step, Fitted w isl → w.pointed isl = true → (∀ c ∈ isl.contacts, Pushing (w.cst c).manifold) → 0 ≤ step.dtRatio →
    env.solvable w isl step = true
  toi : ∀ w isl step, Fitted w isl → w.pointed isl = true → 2 ≤ isl.bodies.length → step.warmStarting = false →
    env.toiSolvable w isl step = true
  impulses : ImpulsesPush env

/-- Every child of the shape can be given to the collision routines and is smaller than `MAX_FLT`. -/
def FineShape (s : Shape F) : Prop := ∀ n, s.childCount = some n → ∀ i < n, ProperShape s i ∧ InRange s i

/-- Every fixture of the world has such a shape. -/
def ShapesFine (w : World F) : Prop := ∀ b ∈ w.g.bodyList, ∀ f ∈ (w.g.bodies b).fixtures, FineShape (w.g.fixtures f).shape

/-- What a contact is like when the narrow phase is asked about it: there is a collision routine for its shapes, in this order; the shapes are
fine and have the children; the bodies are turned by some angle. -/
structure ContactFit (w : World F) (c : Nat) : Prop where
  pair : ContactPair (w.g.fixtures (w.g.contacts c).fA).shape (w.g.fixtures (w.g.contacts c).fB).shape
  fineA : FineShape (w.g.fixtures (w.g.contacts c).fA).shape
  fineB : FineShape (w.g.fixtures (w.g.contacts c).fB).shape
  childA : ∃ n, (w.g.fixtures (w.g.contacts c).fA).shape.childCount = some n ∧ (w.g.contacts c).iA < n
  childB : ∃ n, (w.g.fixtures (w.g.contacts c).fB).shape.childCount = some n ∧ (w.g.contacts c).iB < n
  bodyA : ∃ b angle, (w.g.fixtures (w.g.contacts c).fA).body = some b ∧ (w.phys b).xf.q = Rot.ofAngle angle
  bodyB : ∃ b angle, (w.g.fixtures (w.g.contacts c).fB).body = some b ∧ (w.phys b).xf.q = Rot.ofAngle angle

/-- The narrow phase does not panic for such a contact, and gives no manifold of more than two points. -/
structure NarrowRuns (env : Env F) : Prop where
  evaluate : ∀ w c, ContactFit w c → ∃ m, env.evaluate w c = some m ∧ m.points.length ≤ 2
  overlap : ∀ w c, ContactFit w c → ∃ r, env.overlap w c = some r
  toi : ∀ w c, ContactFit w c → ∃ r, env.toi w c = some r

/-- The manifold has one point or two. -/
def OneOrTwo (m : Manifold F) : Prop := 0 < m.points.length ∧ m.points.length ≤ 2

/-- A callback's call that does not switch a fixture between sensor and solid, and gives a contact no manifold without points
or with a point that pulls. -/
def TameOp : UserOp F → Prop
  | .fixtureSetSensor _ _ => False
  | .contactSetManifold _ m => OneOrTwo m ∧ Pushing m
  | _ => True

/-- The user's callbacks make no other calls than those. -/
def CallbacksTame (env : Env F) : Prop := ∀ w k, ∀ op ∈ env.react w k, TameOp op

/-- What a call made between steps must respect: no contact is given by hand a manifold without points or with one that pulls; and `set_sensor` changes nothing, or is
called on a fixture without contacts, or makes a fixture a sensor while no step is cut short by sub-stepping. -/
def Tame (w : World F) : Call F → Prop
  | .user (.contactSetManifold _ m) => OneOrTwo m ∧ Pushing m
  | .user (.fixtureSetSensor f flag) => flag = (w.fattr f).sensor ∨
      (∀ c ∈ w.g.contactList, (w.g.contacts c).fA ≠ f ∧ (w.g.contacts c).fB ≠ f) ∨ (flag = true ∧ w.stepComplete = true)
  | _ => True

/-- The worlds reached by calls as in `WHist` that are `Tame`. -/
inductive TameHist (env : Env F) : World F → Prop
  | new (gravity : Vec2 F) (dPhys : Phys F) (dShape : Shape F) (dAttr : FAttr F) (dCst : CState F) (dBox : AABB F) :
      TameHist env (World.new gravity dPhys dShape dAttr dCst dBox)
  | call {w w' : World F} (c : Call F) : TameHist env w → c.Ok w → Tame w c → c.run env w = some w' → TameHist env w'

/-- Edges and chains are on bodies that are not dynamic only. -/
def EdgesFixed (w : World F) : Prop := ∀ b ∈ w.g.bodyList, (w.g.bodies b).type = .dynamic →
  ∀ f ∈ (w.g.bodies b).fixtures, (w.g.fixtures f).shape.type = .circle ∨ (w.g.fixtures f).shape.type = .polygon

end
end B2.Spec
