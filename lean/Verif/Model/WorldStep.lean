import Verif.Model.World

/-!
# The time step: islands, integration, sleeping, continuous collision

Models `solve`, `solve_toi`, `step` of `src/private/dynamics/b2_world.rs` and `src/private/dynamics/{b2_island,
b2_island_private}.rs`. The constraint solvers (contact solver, joints) are functions of the environment: they are
given the state and return velocities, impulses and positions, one per index of the island. Timers and profiles
are left out.
-/
namespace B2

/-- Constants of b2_settings.rs / b2_common.rs: `B2_MAX_TRANSLATION`, `B2_TIME_TO_SLEEP`,
`B2_LINEAR_SLEEP_TOLERANCE`, `B2_MAX_SUB_STEPS`, `B2_MAX_TOICONTACTS` (b2_common.rs 51-91). -/
def maxTranslation {F : Type} [Field F] : F := 2
def timeToSleep {F : Type} [Field F] : F := 1 / 2
def linearSleepTolerance {F : Type} [Field F] : F := 1 / 100
def maxSubSteps : Nat := 8
def maxToiContacts : Nat := 32

section
variable {F : Type} [Field F] [LinearOrder F] [IsStrictOrderedRing F] [Elem F]

/-- `B2_MAX_ROTATION` = 0.5 π (b2_common.rs 73). -/
def maxRotation : F := 1 / 2 * Elem.pi
/-- `B2_ANGULAR_SLEEP_TOLERANCE` = 2/180 π (b2_common.rs 91). -/
def angularSleepTolerance : F := 2 / 180 * Elem.pi

/-- Velocity integration and damping of one body in `solve` (b2_island_private.rs 149-164). A vanishing denominator of
the damping factors (negative damping set by the user) is not treated as in floating point. -/
def integrateVelocity (t : BodyType) (p : Phys F) (h : F) (gravity : Vec2 F) : Vec2 F × F :=
  if t = .dynamic then
    let v := p.v + (h * p.invMass) * ((p.gravityScale * p.mass) * gravity + p.force)
    let w := p.w + h * p.invI * p.torque
    ((1 / (1 + h * p.linearDamping)) * v, w * (1 / (1 + h * p.angularDamping)))
  else (p.v, p.w)

/-- The check for large velocities (b2_island_private.rs 229-242, 424-437). -/
def clampVelocity (h : F) (v : Vec2 F) (w : F) : Vec2 F × F :=
  let translation := h * v
  let v := if dot translation translation > maxTranslation * maxTranslation then
    (maxTranslation / translation.length) * v else v
  let rotation := h * w
  let w := if rotation * rotation > maxRotation * maxRotation then w * (maxRotation / |rotation|) else w
  (v, w)

/-- Position integration of one body (b2_island_private.rs 222-252, 417-446). -/
def integratePosition (h : F) (s : BState F) : BState F :=
  let r := clampVelocity h s.v s.w
  ⟨s.c + h * r.1, s.a + h * r.2, r.1, r.2⟩

namespace World

/-! ## Building islands -/

/-- Clearing the island flags (b2_world.rs 375-387). -/
def clearIslandFlags (w : World F) : World F :=
  let w := w.g.bodyList.foldl (fun w b => w.setPhys b { w.phys b with island := false }) w
  let w := w.g.contactList.foldl (fun w c => w.setCst c { w.cst c with island := false }) w
  w.g.jointList.foldl (fun w j => { w with jIsland := upd w.jIsland j false }) w

/-- State of the depth-first search. -/
structure Search (F : Type) where
  w : World F
  island : Island
  stack : List Nat

/-- Either fixture of the contact is a sensor. -/
def sensorContact (w : World F) (c : Nat) : Bool :=
  (w.fattr (w.g.contacts c).fA).sensor || (w.fattr (w.g.contacts c).fB).sensor

/-- Pushing a body on the stack (b2_world.rs 456-463, 484-489). `b` is borrowed while its lists are searched. -/
def pushBody (b : Nat) (s : Search F) (other : Nat) : Option (Search F) :=
  if (s.w.phys other).island then some s
  else if other = b then none
  else some { s with w := s.w.setPhys other { s.w.phys other with island := true }, stack := other :: s.stack }

/-- One contact edge of a body (b2_world.rs 430-464). -/
def visitContact (b : Nat) (s : Search F) (e : Nat × Nat) : Option (Search F) :=
  let st := s.w.cst e.1
  if st.island then some s
  else if st.enabled = false ∨ st.touching = false then some s
  else if s.w.sensorContact e.1 then some s
  else pushBody b { s with
    w := s.w.setCst e.1 { st with island := true }
    island := { s.island with contacts := s.island.contacts ++ [e.1] } } e.2

/-- One joint edge of a body (b2_world.rs 467-490). -/
def visitJoint (b : Nat) (s : Search F) (e : Nat × Nat) : Option (Search F) :=
  if s.w.jIsland e.1 then some s
  else if (s.w.g.bodies e.2).enabled = false then some s
  else pushBody b { s with
    w := { s.w with jIsland := upd s.w.jIsland e.1 true }
    island := { s.island with joints := s.island.joints ++ [e.1] } } e.2

/-- One turn of the search loop, on the body just popped (b2_world.rs 415-490, `add_body` of b2_island.rs 52-55). -/
def visitBody (s : Search F) (b : Nat) : Option (Search F) :=
  if (s.w.g.bodies b).enabled = false then none
  else
    let s : Search F := { s with
      w := s.w.setPhys b { s.w.phys b with islandIndex := s.island.bodies.length }
      island := { s.island with bodies := s.island.bodies ++ [b] } }
    if s.w.typeOf b = .static then some s
    else do
      let s := { s with w := s.w.setPhys b { s.w.phys b with awake := true } }
      let s ← (s.w.g.bodies b).contacts.foldlM (visitContact b) s
      (s.w.g.bodies b).joints.foldlM (visitJoint b) s

/-- The search loop (b2_world.rs 415-491), with a bound on the number of turns; C37 shows the bound is never hit. -/
def search : Nat → Search F → Option (Search F)
  | 0, _ => none
  | n + 1, s =>
    match s.stack with
    | [] => some s
    | b :: st => do
      let s ← visitBody { s with stack := st } b
      search n s

/-! ## Solving an island -/

/-- Storing the impulses of a contact for warm starting (b2_contact_solver_private.rs 585-603). -/
def storeImpulses (m : Manifold F) (l : List (F × F)) : Manifold F :=
  { m with points := m.points.mapIdx fun j mp => match l[j]? with
    | some x => { mp with normalImpulse := x.1, tangentImpulse := x.2 }
    | none => mp }

/-- Writing solver states back to the bodies of an island (b2_island_private.rs 277-285, 448-454). -/
def writeBack (w : World F) (bodies : List Nat) (states : List (BState F)) : World F :=
  (bodies.zip states).foldl (fun w x =>
    let p := w.phys x.1
    w.setPhys x.1 (Phys.synchronizeTransform { p with
      sweep := { p.sweep with c := x.2.c, a := x.2.a }, v := x.2.v, w := x.2.w })) w

/-- `report` (b2_island_private.rs 460-487). -/
def report (env : Env F) (w : World F) (contacts : List Nat) : Option (World F) :=
  contacts.foldlM (fun w c => w.listen env (.postSolve c)) w

/-- Is the body moving too fast to sleep, or not allowed to (b2_island_private.rs 306-308)? -/
def restless (p : Phys F) : Bool :=
  !p.autoSleep || decide (p.w * p.w > angularSleepTolerance * angularSleepTolerance) ||
    decide (dot p.v p.v > linearSleepTolerance * linearSleepTolerance)

/-- The sleep timers of an island (b2_island_private.rs 293-318). -/
def sleepTimers (h : F) : List Nat → World F → F → World F × F
  | [], w, m => (w, m)
  | b :: l, w, m =>
    if w.typeOf b = .static then sleepTimers h l w m
    else
      let p := w.phys b
      if restless p then sleepTimers h l (w.setPhys b { p with sleepTime := 0 }) 0
      else
        let p := { p with sleepTime := p.sleepTime + h }
        sleepTimers h l (w.setPhys b p) (min m p.sleepTime)

/-- The sleep management of an island (b2_island_private.rs 291-327). -/
def sleepIsland (w : World F) (h : F) (bodies : List Nat) (solved : Bool) : World F :=
  let r := sleepTimers h bodies w maxFlt
  if r.2 ≥ timeToSleep ∧ solved = true then bodies.foldl (fun w b => w.setAwake b false) r.1 else r.1

/-- The body state at the start of an island's solution (b2_island_private.rs 140-169). -/
def initState (w : World F) (h : F) (b : Nat) : BState F :=
  let r := integrateVelocity (w.typeOf b) (w.phys b) h w.gravity
  ⟨(w.phys b).sweep.c, (w.phys b).sweep.a, r.1, r.2⟩

/-- Replacing the velocities of solver states by computed ones. -/
def setVelocities (states : List (BState F)) (v : Nat → Vec2 F × F) : List (BState F) :=
  states.mapIdx fun i s => { s with v := (v i).1, w := (v i).2 }
/-- Replacing the positions of solver states by computed ones. -/
def setPositions (states : List (BState F)) (c : Nat → Vec2 F × F) : List (BState F) :=
  states.mapIdx fun i s => { s with c := (c i).1, a := (c i).2 }

/-- The assertion `point_count > 0` made for every contact when the contact solver is constructed
(private/dynamics/b2_contact_solver_private.rs 48-49; again at 145-146 and 604), and its arrays have two points (83-106). -/
def pointed (w : World F) (isl : Island) : Bool :=
  isl.contacts.all fun c => decide (0 < (w.cst c).manifold.points.length ∧ (w.cst c).manifold.points.length ≤ 2)

/-- The first part of `solve` of an island (b2_island_private.rs 129-290): integration, the constraint solvers, writing
back, the callbacks; and whether the position solver converged. The position and velocity arrays have `capacity`
entries; a contact without points is a panic. The impulses are stored before the positions are corrected; the position
solvers do not read them, and here the order is the other way round. -/
def islandMove (env : Env F) (w : World F) (capacity : Nat) (isl : Island) (step : TimeStep F) : Option (World F × Bool) :=
  if isl.bodies.length > capacity ∨ w.pointed isl = false ∨ env.solvable w isl step = false then none
  else do
    let h := step.dt
    let states := isl.bodies.map (w.initState h)
    let w := isl.bodies.foldl (fun w b =>
      let p := w.phys b
      w.setPhys b { p with sweep := { p.sweep with c0 := p.sweep.c, a0 := p.sweep.a } }) w
    let states := setVelocities states (env.solveVel w isl step states)
    let imp := env.impulses w isl step
    let states := states.map (integratePosition h)
    let r := env.solvePos w isl step states
    let w := isl.contacts.zipIdx.foldl (fun w x =>
      w.setCst x.1 { w.cst x.1 with manifold := storeImpulses (w.cst x.1).manifold (imp x.2) }) w
    let states := setPositions states r.1
    let w := w.writeBack isl.bodies states
    let w ← w.report env isl.contacts
    return (w, r.2)

/-- `solve` of an island (b2_island_private.rs 129-328). -/
def islandSolve (env : Env F) (w : World F) (capacity : Nat) (isl : Island) (step : TimeStep F) : Option (World F) := do
  let (w, solved) ← w.islandMove env capacity isl step
  return if w.allowSleep then w.sleepIsland step.dt isl.bodies solved else w

/-- Post solve cleanup (b2_world.rs 500-506). -/
def releaseStatics (w : World F) (bodies : List Nat) : World F :=
  bodies.foldl (fun w b =>
    if w.typeOf b = .static then w.setPhys b { w.phys b with island := false } else w) w

/-- Does the body seed an island (b2_world.rs 392-406)? -/
def isSeed (w : World F) (b : Nat) : Bool :=
  !(w.phys b).island && w.isAwake b && (w.g.bodies b).enabled && decide (w.typeOf b ≠ .static)

/-- Search from a seed (b2_world.rs 408-491). -/
def buildIsland (w : World F) (seed : Nat) : Option (Search F) :=
  search (w.g.bodyCount + 1)
    { w := w.setPhys seed { w.phys seed with island := true }, island := ⟨[], [], []⟩, stack := [seed] }

/-- One seed of `solve` (b2_world.rs 391-507); the islands solved are collected. -/
def solveSeed (env : Env F) (step : TimeStep F) (x : World F × List Island) (seed : Nat) : Option (World F × List Island) :=
  if x.1.isSeed seed = false then some x
  else do
    let s ← x.1.buildIsland seed
    let w ← s.w.islandSolve env s.w.g.bodyCount s.island step
    return (w.releaseStatics s.island.bodies, x.2 ++ [s.island])

/-- The islands of `solve` (b2_world.rs 376-507). -/
def solveIslands (env : Env F) (w : World F) (step : TimeStep F) : Option (World F × List Island) :=
  let w := w.clearIslandFlags
  w.g.bodyList.foldlM (solveSeed env step) (w, [])

/-- `solve` (b2_world.rs 356-531). -/
def solve (env : Env F) (w : World F) (step : TimeStep F) : Option (World F) := do
  let (w, _) ← w.solveIslands env step
  let w ← w.g.bodyList.foldlM (fun w b =>
    if (w.phys b).island = false then some w
    else if w.typeOf b = .static then some w
    else w.synchronizeFixtures b) w
  w.findNewContacts env

/-! ## Continuous collision -/

/-- The reset at the start of `solve_toi` (b2_world.rs 545-561). -/
def toiReset (w : World F) : World F :=
  if w.stepComplete then
    let w := w.g.bodyList.foldl (fun w b =>
      let p := w.phys b
      w.setPhys b { p with island := false, sweep := { p.sweep with alpha0 := 0 } }) w
    w.g.contactList.foldl (fun w c =>
      w.setCst c { w.cst c with toiFlag := false, island := false, toiCount := 0, toi := 1 }) w
  else w

/-- Putting the sweeps of two bodies onto the same time interval (b2_world.rs 626-636). -/
def alignSweeps (w : World F) (bA bB : Nat) : Option (World F × F) := do
  let a0 := (w.phys bA).sweep.alpha0
  let b0 := (w.phys bB).sweep.alpha0
  if a0 < b0 then do
    let s ← (w.phys bA).sweep.advance b0
    if b0 < 1 then some (w.setPhys bA { w.phys bA with sweep := s }, b0) else none
  else if b0 < a0 then do
    let s ← (w.phys bB).sweep.advance a0
    if a0 < 1 then some (w.setPhys bB { w.phys bB with sweep := s }, a0) else none
  else if a0 < 1 then some (w, a0) else none

/-- Awake and not static. -/
def active (w : World F) (b : Nat) : Bool := w.isAwake b && decide (w.typeOf b ≠ .static)
/-- Bullet or not dynamic. -/
def collides (w : World F) (b : Nat) : Bool := (w.phys b).bullet || decide (w.typeOf b ≠ .dynamic)

/-- One contact of the search for the first time of impact (b2_world.rs 570-667): its time, `none` if it is skipped. -/
def toiOf (env : Env F) (w : World F) (c : Nat) : Option (World F × Option F) :=
  let st := w.cst c
  if st.enabled = false then some (w, none)
  else if st.toiCount > maxSubSteps then some (w, none)
  else if st.toiFlag then some (w, some st.toi)
  else if w.sensorContact c then some (w, none)
  else do
    let bA ← w.bodyOf (w.g.contacts c).fA
    let bB ← w.bodyOf (w.g.contacts c).fB
    if bA = bB then none
    else if ¬ (w.typeOf bA = .dynamic ∨ w.typeOf bB = .dynamic) then none
    else if w.active bA = false ∧ w.active bB = false then some (w, none)
    else if w.collides bA = false ∧ w.collides bB = false then some (w, none)
    else do
      let (w, alpha0) ← w.alignSweeps bA bB
      let r ← env.toi w c
      let alpha := if r.1 then min (alpha0 + (1 - alpha0) * r.2) 1 else 1
      return (w.setCst c { w.cst c with toi := alpha, toiFlag := true }, some alpha)

/-- The search for the first time of impact (b2_world.rs 566-674). -/
def toiScan (env : Env F) : List Nat → World F → Option Nat → F → Option (World F × Option Nat × F)
  | [], w, best, m => some (w, best, m)
  | c :: l, w, best, m => do
    let (w, a) ← w.toiOf env c
    match a with
    | some alpha => if alpha < m then toiScan env l w (some c) alpha else toiScan env l w best m
    | none => toiScan env l w best m

/-- `add_body` (b2_island.rs 52-55) followed by setting the island flag. -/
def toiAddBody (x : World F × Island) (b : Nat) : World F × Island :=
  (x.1.setPhys b { x.1.phys b with islandIndex := x.2.bodies.length, island := true },
    { x.2 with bodies := x.2.bodies ++ [b] })

/-- Restoring the sweep of a body (b2_world.rs 717-720, 817-818). -/
def restore (w : World F) (b : Nat) (s : Sweep F) : World F :=
  w.setPhys b (Phys.synchronizeTransform { w.phys b with sweep := s })

/-- `advance` of a body (b2_body.rs 979-986). -/
def advance (w : World F) (b : Nat) (alpha : F) : Option (World F) := do
  let p ← (w.phys b).advance alpha
  return w.setPhys b p

/-- One contact edge of the island around a time of impact (b2_world.rs 747-846); `body` is the body whose list is
searched. -/
def toiVisit (env : Env F) (alpha : F) (body : Nat) (x : World F × Island) (e : Nat × Nat) : Option (World F × Island) :=
  let w := x.1
  let other := e.2
  if (w.cst e.1).island then some x
  else if other = body then none
  else if w.typeOf other = .dynamic ∧ (w.phys body).bullet = false ∧ (w.phys other).bullet = false then some x
  else if w.sensorContact e.1 then some x
  else do
    let backup := (w.phys other).sweep
    let w ← (if (w.phys other).island = false then w.advance other alpha else some w)
    let w ← w.contactUpdate env e.1
    if (w.cst e.1).enabled = false ∨ (w.cst e.1).touching = false then some (w.restore other backup, x.2)
    else
      let w := w.setCst e.1 { w.cst e.1 with island := true }
      let isl := { x.2 with contacts := x.2.contacts ++ [e.1] }
      if (w.phys other).island then some (w, isl)
      else
        let w := if w.typeOf other ≠ .static then w.setAwake other true else w
        some (toiAddBody (w, isl) other)

/-- The searches from one of the two bodies (b2_world.rs 743-848). -/
def toiVisits (env : Env F) (alpha : F) (x : World F × Island) (body : Nat) : Option (World F × Island) :=
  if x.1.typeOf body = .dynamic then (x.1.g.bodies body).contacts.foldlM (toiVisit env alpha body) x else some x

/-- "Leap of faith" (b2_island_private.rs 396-399) for one of the two bodies. -/
def leap (w : World F) (b : Nat) (c : Vec2 F × F) : World F :=
  w.setPhys b { w.phys b with sweep := { (w.phys b).sweep with c0 := c.1, a0 := c.2 } }

/-- `solve_toi` of an island (b2_island_private.rs 330-458); `capacity` as in `islandSolve`,
and a contact without points is a panic. -/
def islandSolveToi (env : Env F) (w : World F) (capacity : Nat) (isl : Island) (step : TimeStep F) (iA iB : Int) :
    Option (World F) :=
  if isl.bodies.length > capacity ∨ w.pointed isl = false ∨ env.toiSolvable w isl step = false then none
  else do
    let h := step.dt
    let states := isl.bodies.map fun b =>
      (⟨(w.phys b).sweep.c, (w.phys b).sweep.a, (w.phys b).v, (w.phys b).w⟩ : BState F)
    let pos := env.toiPos w isl step
    let states := setPositions states pos
    let bA ← isl.bodies[iA.toNat]?
    let bB ← isl.bodies[iB.toNat]?
    let w := (w.leap bA (pos iA.toNat)).leap bB (pos iB.toNat)
    let states := setVelocities states (env.toiVel w isl step states)
    let states := states.map (integratePosition h)
    let w := w.writeBack isl.bodies states
    w.report env isl.contacts

/-- Resetting the flags of one body after a time of impact (b2_world.rs 871-890). -/
def toiRelease (w : World F) (b : Nat) : Option (World F) :=
  let w := w.setPhys b { w.phys b with island := false }
  if w.typeOf b ≠ .dynamic then some w
  else do
    let w ← w.synchronizeFixtures b
    return (w.g.bodies b).contacts.foldl (fun w e =>
      w.setCst e.1 { w.cst e.1 with toiFlag := false, island := false }) w

/-- The island around a time of impact of contact `c` of the bodies `bA` and `bB` (b2_world.rs 724-848). -/
def toiIsland (env : Env F) (w : World F) (c bA bB : Nat) (alpha : F) : Option (World F × Island) := do
  let w := (w.setAwake bA true).setAwake bB true
  let x := toiAddBody (toiAddBody (w, ⟨[], [c], []⟩) bA) bB
  let w := x.1.setCst c { x.1.cst c with island := true }
  let x ← toiVisits env alpha (w, x.2) bA
  toiVisits env alpha x bB

/-- Handling of a solid time of impact: island, sub-step, cleanup (b2_world.rs 724-894). -/
def toiSolid (env : Env F) (step : TimeStep F) (w : World F) (c bA bB : Nat) (alpha : F) : Option (World F) := do
  let x ← w.toiIsland env c bA bB alpha
  let w := x.1
  let dt := (1 - alpha) * step.dt
  let sub : TimeStep F :=
    { dt := dt, invDt := 1 / dt, dtRatio := 1, positionIterations := 20
      velocityIterations := step.velocityIterations, warmStarting := false }
  let w ← w.islandSolveToi env (2 * maxToiContacts) x.2 sub (w.phys bA).islandIndex (w.phys bB).islandIndex
  let w ← x.2.bodies.foldlM toiRelease w
  w.findNewContacts env

/-- One time of impact (b2_world.rs 682-894): whether it was solid. -/
def toiEvent (env : Env F) (step : TimeStep F) (w : World F) (c : Nat) (alpha : F) : Option (World F × Bool) := do
  let bA ← w.bodyOf (w.g.contacts c).fA
  let bB ← w.bodyOf (w.g.contacts c).fB
  let backup1 := (w.phys bA).sweep
  let backup2 := (w.phys bB).sweep
  let w ← w.advance bA alpha
  let w ← w.advance bB alpha
  let w ← w.contactUpdate env c
  let w := w.setCst c { w.cst c with toiFlag := false, toiCount := (w.cst c).toiCount + 1 }
  if (w.cst c).enabled = false ∨ (w.cst c).touching = false then
    let w := w.setCst c { w.cst c with enabled := false }
    some ((w.restore bA backup1).restore bB backup2, false)
  else do
    let w ← w.toiSolid env step c bA bB alpha
    return (w, true)

/-- The loop of `solve_toi` (b2_world.rs 564-900), with a bound on the number of turns; C41 shows the bound is never
hit. -/
def toiLoop (env : Env F) (step : TimeStep F) : Nat → World F → Option (World F)
  | 0, _ => none
  | n + 1, w => do
    let (w, best, m) ← toiScan env w.g.contactList w none 1
    match best with
    | none => some { w with stepComplete := true }
    | some c =>
      if 1 - 10 * epsilon < m then some { w with stepComplete := true }
      else do
        let (w, solid) ← w.toiEvent env step c m
        if solid = true ∧ w.subStepping = true then some { w with stepComplete := false }
        else toiLoop env step n w

/-- The bound on the number of turns: nine for every ordered pair of proxies. -/
def toiFuel (w : World F) : Nat := 9 * (w.bp.proxyCount.toNat * w.bp.proxyCount.toNat) + 1

/-- `solve_toi` (b2_world.rs 534-901). -/
def solveToi (env : Env F) (w : World F) (step : TimeStep F) : Option (World F) :=
  let w := w.toiReset
  toiLoop env step w.toiFuel w

/-! ## The step -/

/-- The search for new contacts at the start of `step` (b2_world.rs 912-915). -/
def stepBegin (env : Env F) (w : World F) : Option (World F) :=
  if w.newContacts then do
    let w ← w.findNewContacts env
    return { w with newContacts := false }
  else some w

/-- The time step record (b2_world.rs 919-926). -/
def timeStep (w : World F) (dt : F) (vi pi : Nat) : TimeStep F :=
  { dt := dt, velocityIterations := vi, positionIterations := pi, invDt := if dt > 0 then 1 / dt else 0
    dtRatio := w.invDt0 * dt, warmStarting := w.warmStarting }

/-- The locked part of `step` (b2_world.rs 927-954). -/
def stepLocked (env : Env F) (w : World F) (step : TimeStep F) : Option (World F) := do
  let w ← w.collide env
  let w ← (if w.stepComplete = true ∧ step.dt > 0 then w.solve env step else some w)
  let w ← (if w.continuous = true ∧ step.dt > 0 then w.solveToi env step else some w)
  let w := if step.dt > 0 then { w with invDt0 := step.invDt } else w
  return if w.clearForces then w.clearForcesAll else w

/-- `step` (b2_world.rs 903-959). `tick` (bookkeeping of the model) tells apart the worlds of different steps. -/
def step (env : Env F) (w : World F) (dt : F) (vi pi : Nat) : Option (World F) := do
  let w ← w.stepBegin env
  let w := { w with locked := true }
  let w ← w.stepLocked env (w.timeStep dt vi pi)
  return { w with locked := false, tick := w.tick + 1 }

end World
end
end B2
