import Verif.Model.WorldStep
import Verif.Model.Joint
import Verif.Model.Collide
import Verif.Model.TimeOfImpact

/-!
# The routines of a world put together

The world of `Model/World.lean` and `Model/WorldStep.lean` leaves the collision routines and the constraint solvers open: they are fields
of `Env`. Here these fields are given the models of the actual routines. What stays open is the user's code (`listener`, `destruction`,
`react`, `filter`), the flag `G_BLOCK_SOLVE`, and the states of the joints.

The states of the joints are given by a function of the world and the joint. A step reads a joint at most once, for a joint is in at most
one island, and two steps see worlds with different `tick`s; so every sequence of joint states is given by some such function, whether the
states are changed by the solver or by the setters of joints. What is proved for all such functions therefore holds for the states the
joints in fact have.
-/
namespace B2
section
variable {F : Type} [Field F] [LinearOrder F] [IsStrictOrderedRing F] [Elem F]

/-- What the routines of the world leave open. -/
structure Engine (F : Type) where
  /-- A contact listener is installed. -/
  listener : Bool
  /-- A destruction listener is installed. -/
  destruction : Bool
  /-- What user code does when called. -/
  react : World F → EventKind → List (UserOp F)
  /-- A user's contact filter; `none` is the default filter. -/
  filter : Option (World F → Nat → Nat → Bool)
  /-- `G_BLOCK_SOLVE` (b2_contact.rs 25). -/
  block : Bool
  /-- The state of a joint (see above). -/
  joint : World F → Nat → Joint F

/-- `m_radius` of a shape (b2_shape.rs, `get_base`). -/
def Shape.radius : Shape F → F
  | .circle c => c.radius
  | .edge e => e.radius
  | .polygon p => p.radius
  | .chain c => c.radius

namespace World

/-- What the contact solver reads of a contact (private/dynamics/b2_contact_solver_private.rs 33-81). A negative island index, which is an
index out of range in the code, does not occur: indices are set when bodies are added to an island. -/
def contactIn (w : World F) (c : Nat) : Option (ContactIn F) := do
  let con := w.g.contacts c
  let s := w.cst c
  let bA ← w.bodyOf con.fA
  let bB ← w.bodyOf con.fB
  return { manifold := s.manifold, friction := s.friction, restitution := s.restitution, threshold := s.restitutionThreshold
           tangentSpeed := s.tangentSpeed, radiusA := (w.g.fixtures con.fA).shape.radius, radiusB := (w.g.fixtures con.fB).shape.radius
           indexA := (w.phys bA).islandIndex.toNat, indexB := (w.phys bB).islandIndex.toNat
           invMassA := (w.phys bA).invMass, invMassB := (w.phys bB).invMass, invIA := (w.phys bA).invI, invIB := (w.phys bB).invI
           localCenterA := (w.phys bA).sweep.localCenter, localCenterB := (w.phys bB).sweep.localCenter }

/-- What a joint reads of a body (for instance joints/b2_revolute_joint_private.rs, the first lines of `init_velocity_constraints`). -/
def jbody (w : World F) (b : Nat) : JBody F :=
  ⟨(w.phys b).islandIndex.toNat, (w.phys b).sweep.localCenter, (w.phys b).invMass, (w.phys b).invI⟩

/-- The array `m_positions` of an island with these states (b2_island_private.rs 129-180). The code's array has as many entries as the
island can hold bodies; here it ends with the bodies, so that reading an entry of no body is a panic. -/
def positionsOf (states : List (BState F)) : Arr (Pos F) :=
  ⟨states.length, fun i => match states[i]? with
    | some s => ⟨s.c, s.a⟩
    | none => ⟨⟨0, 0⟩, 0⟩⟩

/-- The array `m_velocities`, likewise. -/
def velocitiesOf (states : List (BState F)) : Arr (Vel F) :=
  ⟨states.length, fun i => match states[i]? with
    | some s => ⟨s.v, s.w⟩
    | none => ⟨⟨0, 0⟩, 0⟩⟩

end World

/-- The part of the step that joints read. -/
def TimeStep.jstep (s : TimeStep F) : JStep F := ⟨s.dt, s.invDt, s.dtRatio, s.warmStarting⟩

namespace Engine

/-- The velocity part of `solve` of an island (b2_island_private.rs 181-218), from the given states. -/
def velocity (E : Engine F) (w : World F) (isl : Island) (step : TimeStep F) (states : List (BState F)) :
    Option (List (Joint F) × Arr (Vel F) × List (Manifold F)) := do
  let cs ← isl.contacts.mapM w.contactIn
  islandVelocity step.jstep E.block step.velocityIterations w.jbody (World.positionsOf states) (World.velocitiesOf states) cs
    (isl.joints.map (E.joint w))

/-- The states an island begins with (b2_island_private.rs 138-176). -/
def begin (w : World F) (isl : Island) (step : TimeStep F) : List (BState F) := isl.bodies.map (w.initState step.dt)

/-- The position part of `solve` of an island (b2_island_private.rs 255-274), from the given states. The position constraints are those
made before the velocity part (`new`); the joints are as the velocity part leaves them, so that part is run again. -/
def position (E : Engine F) (w : World F) (isl : Island) (step : TimeStep F) (states : List (BState F)) :
    Option (Arr (Pos F) × Bool) := do
  let r ← E.velocity w isl step (begin w isl step)
  let cs ← isl.contacts.mapM w.contactIn
  let pcs ← cs.mapM (newConstraint step.warmStarting step.dtRatio)
  islandPositions r.1 (pcs.map (·.2)) step.positionIterations (World.positionsOf states)

/-- The states before the positions are corrected (b2_island_private.rs 220-253). -/
def moved (w : World F) (isl : Island) (step : TimeStep F) (vel : Arr (Vel F)) : List (BState F) :=
  (World.setVelocities (begin w isl step) fun i => ((vel.at' i).v, (vel.at' i).w)).map (integratePosition step.dt)

/-- The position iterations at a time of impact (b2_island_private.rs 355-363). -/
def toiIterate (l : List (PConstraint F)) : Nat → Arr (Pos F) → Option (Arr (Pos F))
  | 0, pos => some pos
  | n + 1, pos => do
    let r ← solveToiPositions 0 1 l pos
    if r.1 then return r.2 else toiIterate l n r.2

/-- The states of the bodies of an island at a time of impact (b2_island_private.rs 332-340). -/
def toiBegin (w : World F) (isl : Island) : List (BState F) :=
  isl.bodies.map fun b => ⟨(w.phys b).sweep.c, (w.phys b).sweep.a, (w.phys b).v, (w.phys b).w⟩

/-- The position part of `solve_toi` of an island (b2_island_private.rs 332-363). The bodies of the impact are the first two that were
added to the island (b2_world.rs 731-733), so the indices passed are 0 and 1. -/
def toiPosition (_E : Engine F) (w : World F) (isl : Island) (step : TimeStep F) : Option (Arr (Pos F)) := do
  let cs ← isl.contacts.mapM w.contactIn
  let pcs ← cs.mapM (newConstraint step.warmStarting step.dtRatio)
  toiIterate (pcs.map (·.2)) step.positionIterations (World.positionsOf (toiBegin w isl))

/-- The velocity part of `solve_toi` of an island (b2_island_private.rs 398-408), from the given states. -/
def toiVelocity (E : Engine F) (w : World F) (isl : Island) (step : TimeStep F) (states : List (BState F)) : Option (Arr (Vel F)) := do
  let cs ← isl.contacts.mapM w.contactIn
  let vcs ← setUp step.warmStarting step.dtRatio E.block (World.positionsOf states) (World.velocitiesOf states) cs
  let r ← iterate E.block (fun _ v => v) 0 step.velocityIterations (vcs.map (·.1)) (World.velocitiesOf states)
  return r.2

/-- The states after the leap (b2_island_private.rs 390-396). -/
def leapt (w : World F) (isl : Island) (pos : Arr (Pos F)) : List (BState F) :=
  World.setPositions (toiBegin w isl) fun i => ((pos.at' i).c, (pos.at' i).a)

/-- `evaluate` of a contact (the `evaluate` functions of private/dynamics/b2_*_contact.rs, called at private/dynamics/b2_contact.rs 135). -/
def evaluate (w : World F) (c : Nat) : Option (Manifold F) := do
  let con := w.g.contacts c
  let bA ← w.bodyOf con.fA
  let bB ← w.bodyOf con.fB
  evaluateShapes (w.g.fixtures con.fA).shape con.iA (w.phys bA).xf (w.g.fixtures con.fB).shape (w.phys bB).xf

/-- `b2_test_overlap` for the shapes of a contact (private/collision/b2_collision.rs 216-243). -/
def overlap (w : World F) (c : Nat) : Option Bool := do
  let con := w.g.contacts c
  let bA ← w.bodyOf con.fA
  let bB ← w.bodyOf con.fB
  let pA ← Proxy.ofShape (w.g.fixtures con.fA).shape con.iA
  let pB ← Proxy.ofShape (w.g.fixtures con.fB).shape con.iB
  let r ← distance ⟨0, 0, (0, 0), (0, 0), (0, 0)⟩ ⟨pA, pB, (w.phys bA).xf, (w.phys bB).xf, true⟩
  return decide (r.1.distance < 10 * epsilon)

/-- The call of `b2_time_of_impact` for a contact (private/dynamics/b2_world.rs 637-656). -/
def toi (w : World F) (c : Nat) : Option (Bool × F) := do
  let con := w.g.contacts c
  let bA ← w.bodyOf con.fA
  let bB ← w.bodyOf con.fB
  let pA ← Proxy.ofShape (w.g.fixtures con.fA).shape con.iA
  let pB ← Proxy.ofShape (w.g.fixtures con.fB).shape con.iB
  let o ← timeOfImpact ⟨pA, pB, (w.phys bA).sweep, (w.phys bB).sweep, 1⟩
  return (decide (o.state = .touching), o.t)

/-- The world's routines. A routine that panics has no result; that it does not panic is asked before (`solvable`, `toiSolvable`), and
what is given as its result if it does is of no consequence. `solvable` is asked before the sweeps' `c0` and `a0` are set, and
`toiSolvable` before the leap is stored; the routines read neither (`contactIn`, `jbody`), so the answers are about the runs that follow. -/
def env (E : Engine F) : Env F where
  listener := E.listener
  destruction := E.destruction
  react := E.react
  filter := E.filter
  evaluate := evaluate
  overlap := overlap
  toi := toi
  solvable w isl step := ((E.velocity w isl step (begin w isl step)).bind fun r => E.position w isl step (moved w isl step r.2.1)).isSome
  toiSolvable w isl step := ((E.toiPosition w isl step).bind fun pos => E.toiVelocity w isl step (leapt w isl pos)).isSome
  solveVel w isl step states := match E.velocity w isl step states with
    | some r => fun i => ((r.2.1.at' i).v, (r.2.1.at' i).w)
    | none => fun i => (((World.velocitiesOf states).at' i).v, ((World.velocitiesOf states).at' i).w)
  impulses w isl step := match E.velocity w isl step (begin w isl step) with
    | some r => fun k => match r.2.2[k]? with
      | some m => m.points.map fun p => (p.normalImpulse, p.tangentImpulse)
      | none => []
    | none => fun _ => []
  solvePos w isl step states := match E.position w isl step states with
    | some r => (fun i => ((r.1.at' i).c, (r.1.at' i).a), r.2)
    | none => (fun i => (((World.positionsOf states).at' i).c, ((World.positionsOf states).at' i).a), false)
  toiPos w isl step := match E.toiPosition w isl step with
    | some pos => fun i => ((pos.at' i).c, (pos.at' i).a)
    | none => fun i => (((World.positionsOf (toiBegin w isl)).at' i).c, ((World.positionsOf (toiBegin w isl)).at' i).a)
  toiVel w isl step states := match E.toiVelocity w isl step states with
    | some vel => fun i => ((vel.at' i).v, (vel.at' i).w)
    | none => fun i => (((World.velocitiesOf states).at' i).v, ((World.velocitiesOf states).at' i).w)

end Engine
end
end B2
