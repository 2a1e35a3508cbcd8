# Design of the formal model of box2d-rs

The subject is the Rust crate in `/repo` (HumMan/box2d-rs, a port of Box2D 2.4.1).
The model is written in Lean 4 (`/verif/lean/Verif/...`); nothing of the crate is compiled or run.

## 1. How the code is modelled

* **Panics.** `b2_assert` is `assert!` in every build, out-of-range indexing and `unwrap` on `None`
  panic. A function that can panic is modelled by a function into `Option`; `none` means *panic*.
  Loops that are not structurally bounded take an explicit fuel computed from the state; running out
  of fuel also yields `none`, so "the result is `some`" means *does not panic and terminates*.
* **Pointers.** `Rc<RefCell<..>>` objects are natural-number ids into a store (`Nat → Node`).
  `Option<Rc<..>>` is `Option Nat`. `B2_NULL_NODE = -1` is `none`. `RefCell` dynamic borrow errors are
  modelled only where they matter (C35).
* **Numbers.** `f32` is abstracted by a type `F`:
  * structural theorems (lists, tree shape, broad-phase bookkeeping, world bookkeeping, islands) hold for
    *arbitrary* arithmetic: costs, distances, solver results are arbitrary functions/oracles, so they
    hold for `f32` with any rounding;
  * theorems that compare coordinates (AABB union/overlap, query exactness) need only that the
    coordinates used form a linear order and, where subtraction is compared with 0, the law
    `0 < a - b ↔ b < a`; both hold for non-NaN `f32` (gradual underflow) as well as for exact numbers;
  * theorems that are algebraic identities or geometry (transforms, solvers, ray casts, GJK) are about exact
    arithmetic (`ℝ`, or any linear ordered field). Rounding is *not* modelled there and such theorems are
    marked "exact arithmetic" in `properties.jsonl`.
* **User callbacks / physics results** are universally quantified functions (oracles) where the property does not
  depend on them. A contact listener is a function from the world and the event to a list of operations the user
  performs inside the callback (`UserOp`); not among them are `set_filter_data`/`refilter` and changes of world
  settings. The listener is fixed over a history. A contact filter has no side effects apart from the event log.
* **World invariants** hold at call boundaries, that is before and after each API call, not in the middle of a step;
  where a theorem needs a hypothesis about what callbacks do during a step it is explicit (`LeavesBodies`,
  `PostSolveCalm`).
* **Step.** `Env` carries the parts that the world model treats as arbitrary functions: manifold evaluation, sensor
  overlap, time of impact, velocity and position solvers. Their own models (Model/Collide, Model/Distance,
  Model/TimeOfImpact, Model/ContactSolver, Model/Joint) are separate, so the theorems about the world hold whatever they compute;
  assertions inside them are covered by the theorems about those models (C53, C54, C66, C79), not by C63. The exception is
  the contact solver's assertion that each contact has a point: it depends on the world, and is part of the step (`pointed`).

## 2. Trusted base

* The Lean 4.33.0 kernel, and the axioms `propext`, `Classical.choice`, `Quot.sound` (the only ones that
  any theorem here depends on; checked with `#print axioms` and by `vcheck`).
* The faithfulness of the hand-written model to the Rust source. Each definition cites the file and lines
  it models and says what it leaves out.
* Not modelled: `f32` rounding/NaN/overflow (except as said above), `Rc` reference counting and memory
  reclamation, `RefCell` borrow flags (except C35), timers/profiling, the data formats of `serde`,
  integer overflow of 32-bit counters.

### Coverage of the source

| file (src/) | model | left out |
|---|---|---|
| b2rs_linked_list, b2rs_double_linked_list | Model/LinkedList | `Weak` upgrade failures |
| b2_growable_stack | Model/GrowableStack | |
| b2_math, private/common/b2_math | Model/Math, Model/Vec | `b2_abs` of matrices, formatting |
| b2_dynamic_tree (both) | Model/DynamicTree, Model/TreeRayCast, Model/TreeReport | |
| b2_broad_phase (both) | Model/BroadPhase | |
| b2_collision (both) | Model/Collision | |
| b2_collide_circle, b2_collide_polygon, b2_collide_edge, contacts/* | Model/Collide | |
| b2_distance (both) | Model/Distance | GJK counters |
| b2_time_of_impact (both) | Model/TimeOfImpact | counters, timers |
| shapes/*, b2_shape, private/collision/*_shape | Model/Shapes | |
| b2_body (both) | Model/Body, Model/BodyGet, Model/World | `dump`-like functions |
| b2_fixture, b2_contact, b2_contact_manager, b2_joint, b2_world (both) | Model/World, Model/WorldQuery, Model/Draw | profile |
| b2_world step, b2_island | Model/WorldStep; Model/Engine puts the collision routines and solvers in | profile |
| b2_contact_solver (both) | Model/ContactSolver | |
| joints/* (both) | Model/Joint, Model/JointDef | `dump`-like functions |
| b2_rope (both) | Model/Rope, Model/Draw | |
| serialize/*, joints/serialize/* | Model/Serialize (the world), Model/JointDef (the fields of the joint classes) | the data format, user data |
| b2_draw | Model/Draw | setting and clearing single flags, alpha |
| b2_timer, b2_world_callbacks | not modelled (no behaviour of their own) | |

## 3. Properties and plan

`(O)` arbitrary-arithmetic model, `(L)` linear order only, `(E)` exact arithmetic.

| id | modelled | proof |
|----|----------|-------|
| C01 | heap model of `b2rs_linked_list.rs` | refinement to `List`, induction over the list segment |
| C02 | heap model of `b2rs_double_linked_list.rs` | refinement to `List` for member removals; witness that removing a non-member corrupts |
| C03 | the prefetching iterator with removals | induction over the list |
| C04 | `b2_growable_stack.rs` | refinement to `List`, induction over histories |
| C05 | node pool + all tree functions (L) | representation predicate linking the pool to an inductive tree; invariant by induction over histories |
| C06 | same | abstract finite map refinement |
| C07 | `query` with explicit stack | induction on the stack of subtrees |
| C08 | `query` with stateful callback | same |
| C09 | `create_proxy`, `move_proxy` (L + monotone add/sub) | direct |
| C10 | pool | counting leaves/internal nodes of the representation |
| C11 | heights | representation predicate |
| C12 | tree `ray_cast` (E) | separating axis argument, induction on the stack |
| C13 | `rebuild_bottom_up` | forest invariant |
| C14 | `shift_origin` (E) | map over the representation |
| C15–C18 | broad-phase over the tree | invariant "moved ⇒ buffered" by induction over histories |
| C19 | AABB functions (L) | order reasoning; existence of a common point by explicit witness |
| C20 | `b2_aabb_ray_cast` (E) | case analysis on the two slabs |
| C21 | `b2_clip_segment_to_line` (E) | case analysis |
| C22 | `b2_get_point_states` | list membership |
| C23, C24, C25 | filter, mixing, register table | decision logic |
| C26–C33, C36 | world state machine: bodies, fixtures, joints, contacts as id lists | global invariant, induction over API histories |
| C34 | contact update/destroy event log | invariant over histories |
| C35 | refilter with borrow flags | expected false: negation with witness |
| C37 | island DFS | graph search invariants |
| C38 | end of island solve | direct |
| C39, C40, C43 | step skeleton with oracles | direct/induction |
| C41, C42 | continuous solver loop with oracles | measure; C42 expected false: witness |
| C44 | clamp | order; vector version expected false: witness |
| C45–C47 | math (E) | `ring`, `field_simp` |
| C48 | u32 arithmetic as `BitVec 32`/`Nat` | bit lemmas |
| C49–C52 | shapes (E) | convexity arguments; C50 expected false (start value 0.032): witness + partial |
| C53 | GJK (E) | invariant over iterations |
| C54 | TOI loops with separation oracle (E) | invariant over iterations |
| C55 | chain shape | list lemmas |
| C56–C58 | mass, forces, integration (E) | direct |
| C59 | gift wrapping of `set` (E) | every point of the path is exposed by a linear functional, edges have all points on the left, predecessors are unique, hence the walk closes within n steps |
| C60 | mass of a polygon (E) | telescoping sums over the closed boundary |
| C61 | world configuration calls in histories | invariant over histories |
| C62 | island indices (O) | invariant of the depth-first search |
| C63 | the whole step (O) | totality: the invariant implies that no modelled assertion or index fails; solid touching contacts have points |
| C64 | GJK below 20 iterations (E) | optimality condition at the returned points |
| C65 | radii in `b2_distance` (E) | direct |
| C66 | `b2_shape_cast` (E) | invariant over iterations |
| C67, C68 | time of impact (E) | bounds carried through both loops; convexity for motions without rotation |
| C69–C73 | velocity part of the contact solver (E) | per-point lemmas, induction over contacts and iterations; the block solver by case analysis of the LCP |
| C74 | position part of the contact solver (E) | per-point lemmas, induction |
| C75 | immovable bodies (E) | frame lemmas |
| C76–C78 | contacts with circles (E) | nearest-point characterisation by regions |
| C79 | all `evaluate` functions (E) | case analysis of clipping; the reference face supports its polygon |
| C80 | contact ids | case analysis of clipping; false for edge–polygon: witness |
| C81 | polygon–polygon (E) | false in both directions: witnesses; separation proved |
| C82, C83 | velocity solvers of all joints (E) | each solver is a sequence of kicks along its lever arms; sums of kicks by induction over the calls; C83 false for pulley, gear and distance: witnesses |
| C84 | same (E) | invariant over the calls: disabled parts are zero |
| C85 | same (E) | frame lemmas |
| C86 | same (E) | each row is solved exactly with its effective mass; the last row solved wins |
| C87 | same, with the contacts of the island (E) | each exact row lowers the energy; a potential of the limit impulses bounds what distance limits give back |
| C88 | same (E) | clamping scales the impulse towards zero; false for off-centre anchors: witness |
| C89 | gear joints with `new`, joint speeds and coordinates (E) | the row of the gear is the coupled speed; exact effective mass |
| C90 | all calls and the step (E) | invariant: every overlapping pair that may collide has a contact or a proxy in the buffer; carried through every call (`Carry`) and every part of the step |
| C91 | rope (all models) | invariant over all rope histories: masses, bind positions and constraint indices belong to the definition; solvers do not move vertices of inverse mass 0 |
| C92 | rope (all models) | every solver moves its vertices by inverse masses times impulses that sum to zero (mass-weighted sum is kept) |
| C93 | rope (all models), division = `none` on 0 | every denominator is guarded or bounded below; negative theorems for the three ways it is zero |
| C94 | rope (all models) | induction on steps: every constraint function vanishes on a straight rope in place |
| C95 | all calls and the step | generic theorem: a statement about type and numbers of a body that survives each elementary change holds of all bodies of reachable worlds; applied to `Consistent` |
| C96 | `Serialize` and the visitors, as functions to and from a tree of values | what was read so far is described by an invariant over the fold (`Loaded`, `JLoaded`, `GLoaded`); every list that was written is restored in reverse |
| C97 | as C96, `reset_mass_data` | `reset_mass_data` depends on transform and flags only, twice is once, and the order of fixtures does not matter |
| C98 | as C96 | false, `_partial` gives the velocity that is loaded |
| C99 | as C96 | false for every world with a joint (`c99_never`); `_partial` gives the joints that are loaded, in terms of places in lists |
| C100 | as C96 | false, `_partial` by totality of `create_body`, `create_fixture` (C56: the inertia is positive by the Cauchy-Schwarz inequality) and `create_joint` |
| C101 | the step, solvers abstract (`HeavyStay`) | tracking theorem (`step_track`): the possible states of one body before, during and after the solution of islands and each event of the continuous solver; static bodies are at rest in every plain history (`PlainHist`) |
| C102 | as C101 | as C101 with the states “at c + t v” |
| C103 | the step, solvers abstract (`FreeStay`) | as C101; contacts are only removed at the start of a step, so a body without one at the end had none in any island |
| C104 | the step, solvers abstract | as C101: no island and no event contains a disabled body |
| C105 | all calls and the step, solvers abstract (`HeavyStay`), kinematic bodies as `Spec.Steady` says | invariant `AllCovered` over histories: every call that moves a body moves its proxies (`call_covers`), every step synchronizes what it moved, and restores what it does not synchronize (`SteadyHist.covered`) |
| C106 | `query_aabb` | C11 (the query of the tree), the user data of proxies, C105 |
| C107 | `ray_cast` of the world and of fixtures | C12 (the ray cast of the tree), C49 (boxes contain shapes), C50-C52: a hit is in the box of its child; `castHits` says what a cast over a list of children does |
| C108 | `test_point` | half-planes of a convex polygon are its hull (as for C77) |
| C109 | `set_sensor`, then a step | false: witnesses; partial by C63 |
| C110 | everything a step calls (Model/Engine: the world with the models of the collision routines, time of impact, contact solver and joints) | C63; `env_narrowRuns`: C79, C53, C54 cover what `ContactFit` says of a contact; `env_solversRun`: every index is that of a body of the island (`Fitted`), every joint is initialized before it is solved (`Armed'`), every contact has one or two points and no pulling impulse (`Pts`), so no read or assertion fails |
| C111 | as C110 | C101, C104, induction over the steps; `env_heavyStay`: impulses of contact and joints are multiplied by inverse masses, position corrections too (`Shifted`) |
| C112 | as C110 | C102, C103; `env_freeStay` |
| C113 | as C110 | C105-C107 |
| C114 | all calls (`Call`, `Spec/Calls.lean`) over the engine of C110; constructors of particular joint kinds are not calls | induction over the program; invariant `Sturdy` (all fixtures ever made are valid, with densities not negative) and `TameHist`; totality of each call in `Proofs/CallTotal.lean` |
| C115 | compute_mass of circles and polygons | fan of triangles with signed areas; the inertia about the center is a sum of positive parts (`Proofs/ShapeMass.lean`) |
| C116 | the collision pass of a step with the engine's own narrow phase | loop invariant over the contact list: each contact is visited once, its flag is then final (`Proofs/WorldTouch.lean`); new contacts start not touching |
| C117 | broad phase, proxies, shapes | C49, C105 and C90 joined |
| C118 | a whole step without time-of-impact events | C117's argument at the start of the step, then C116 and the exactness of the collision routines (C76, C77, C78) |
| C119 | a whole step without time-of-impact events, with the engine's own solvers | weighted momentum is kept by every impulse of a contact or joint whose two ends have the same weight times inverse mass (`Proofs/Momentum.lean`); invariant over the islands of a step: the momentum of the bodies solved so far plus what the others are going to have (`Proofs/WorldMomentum.lean`) |
| C120 | the same | the weighted sum of positions is kept by every position correction (`Proofs/Centre.lean`); same invariant |
| C121 | `step` with everything it calls | a sleeping world is a fixed point of contact update, island search and impact search; only flags, times of impact and forces change (`Proofs/WorldAsleep.lean`); induction over the steps |
| C122 | `solve_position_constraints` of the joints | the effective mass matrix times the impulse is the error (C46, determinants positive); the positions are read as velocities; for bodies that cannot turn the arms do not change, so first order is exact (`Proofs/JointExact.lean`) |
| C123 | `solve_toi` in a step of the engine | invariant of the event loop: every stored time of impact is that of a search on the present courses of the two bodies (`KeptToi`); it is forgotten when a body is moved back; advancing a body does not change its course (`Proofs/WorldImpact.lean`); the meaning for bodies that do not turn is C67 and C68 |
| C124, C125 | definitions, `new`, `get_def` and the serializers of the joint classes; a saved joint is a list of named values | reading is a right inverse of writing, for names by commuting field updates; every reachable joint is a fixed point of `new ∘ get_def` up to solver state (clamps and normalized axes are kept by all calls); the solver does the same on two joints that agree on the parameters and impulses (`Joint.Alike`). C125 is false for distance joints: witness |
| C126 | joint solvers (E) | from zero velocity every sub-step computes the impulse zero (`Still`), kept by induction over the iterations; position correction with error zero moves by zero |
| C127 | `initialize` and `new` (E) | local and world coordinates are inverse; then C126 |
| C128 | `shift_origin` of joints, joint solvers (E) | per class: every position enters as a difference, or with a shifted ground anchor or target |
| C129 | `set_as_box`, `set_as_box_angle`, setters of edges, `test_point`, `compute_mass` (E) | rotation preserves turns and distances; then C59, C60 |
| C130 | `get_max_balance` (O), `get_area_ratio` (E) | the pool is the nodes of the tree and the free list; free nodes have height -1 |
| C131 | `shift_origin` of the world, queries (E) | both loops run in step, callbacks agree at the leaves; shapes see only differences of positions |
| C132 | rectangles in `b2_collide_polygons`, step (E) | in the frame of the reference face: if clipping left nothing, the side face of the incident rectangle would have a separation greater by half the radius, more than the tolerance |
| C133 | rectangles and two-sided edges in `b2_collide_edge_and_polygon`, step (E) | the point of the edge that is deep in the rectangle bounds the separations; clipping against the face and against the edge leave a point each, the tolerances 0.98 and 0.001 being smaller than the depth |
| C134 | `debug_draw`, `draw_shape`, `draw` of the joints and of ropes, as the list of calls of the drawer | loops that append are gathered as unions; hulls under a rigid motion; fat boxes by the proxy invariant and C105; center of mass by C95 |
| C135 | whole steps without time-of-impact events | a contact that is not solved in the step cannot transmit forces after it (`solve_transmits`), so the body's island has no contact of it; tracking of one body through the islands as for C103 (`Proofs/WorldQuiet.lean`); induction over the steps with the law of one step (`Props/Quiet.lean`) |
| C136 | whole steps without time-of-impact events, with the engine's own solvers | induction over the steps with C119, C120, C61 and C40 (`Props/Quiet.lean`) |
| C137 | a whole step without time-of-impact events, with the engine's own contact solver | the island of the two bodies has this contact only, so C72 applies to it; an invariant over the seeds of the islands carries the places, velocities and the stored impulses through the step (`Proofs/WorldBounce.lean`, `Props/Bounce.lean`). Only the first point of a two-point manifold is spoken of; C72 has both |
| C138 | the narrow phase of chains against circles and polygons, and the world manifold | `primaryAxis` by cases: the smoothing compares the chosen axis with the normals of the neighbours; for circles the regions before and behind the vertices overlap only in the line across the chain (`Props/Ghost.lean`) |
| C139 | `World.step` with the engine's own solvers, joints that only hold, warm starting and continuous physics off | invariant over the islands: bodies not yet solved are as before, contacts not yet solved too, static bodies rest, and the total kinetic energy has not grown; one island by the energy theorems of the joints and the contact solver (C87, C73), clamping, damping and sleeping only shrink velocities; then induction over the steps (`Proofs/WorldEnergy.lean`, `Props/WorldEnergy.lean`) |
| C140 | `evaluateShapes` with all functions of `Model/Collide.lean`, `worldManifold`, `Shape.testPoint`, `Shape.rayCast`, `distance`, `shapeCast` | algebra of rigid motions (`Proofs/Viewpoint.lean`); clipping commutes with a rigid motion; the two runs of the distance algorithm and of the shape cast are related step by step, slot by slot of the simplex, and the witness points follow because the barycentric coordinates of a solved simplex add up to one (`Proofs/ViewpointGjk.lean`, `Props/Viewpoint.lean`) |
| C141 | `World.step` with the contact solver, the islands and the storing of impulses, as in C137 | on the contact: the first velocity iteration stops the body, further ones and the position solver change nothing (`Proofs/Rest.lean`); through the islands, the listeners and the step with an invariant over the seeds of the island loop, and the stored tangent impulses stay zero because matching only copies old ones (`Proofs/WorldRest.lean`); induction over the steps (`Props/Rest.lean`) |
| C142 | `World.step` with everything it calls: the islands, the timers, the impact islands | the islands and the impact islands wake the bodies they add (`Proofs/WorldTimer.lean`); a body is followed through the step and is either awake or as it was; a body that was woken within the step has a timer below half a second and is not put to sleep (`Proofs/WorldDoze.lean`). A sleeping body's timer is zero in all histories. `c142_long_false` is a witness for steps of half a second or more |
| C143 | as C142 | the bound on the timer from `Proofs/WorldDoze.lean`; induction over the steps |
| C144 | all calls and `World.step` with everything it calls; `newCst` and the mixing functions | a relation between worlds that says which contacts are new and what happens to the coefficients, carried through every stage of the step and every call (`Proofs/WorldMixture.lean`, `Proofs/WorldMixtureHist.lean`); induction over the calls for `c144_history`. A contact that is destroyed and created anew, for instance because the boxes part for a while, is a new contact: what was set on the old one is lost, in the model as in the code. `reset_friction`, `reset_restitution` and `reset_restitution_threshold` of a contact are setters called with the mixed value. `Elem.sqrt` is a parameter, as everywhere |
| C145 | `World.step` with everything it calls, for any environment whose callbacks are `Hush` | a relation between worlds that says that the bodies of the set are as they were and that their contacts and joints were not added to, carried through contact update, island search (the stack never holds a body of the set), island solver and continuous phase (contacts of the set have no time of impact, and an impact elsewhere reaches static bodies only); `Proofs/WorldHeap.lean`. The statement is about one step: a body that comes near makes a contact with the heap, and the heap is then no longer cut off. |
| C146 | `islandVelocity`, `islandPositions`, `initVel` of all ten joints, `toiPosition`, `toiVelocity`, `Engine.env` | each stage is shown to give the same for a contact, joint or world with its impulses set to zero (`Proofs/Memory.lean`). False of the distance joint: b2_distance_joint.rs 173-175 sets only `m_impulse` to zero, and a joint that was at a limit in the last step pulls at bodies at rest within the limits (`c146_distance_false`). Hence `c146_island_partial` asks for these impulses to be zero. It compares two worlds on one island. `c146_step_partial` is about whole steps: the engine gives the same as one (`amnesic`) whose solvers are shown worlds and joints without impulses and no ratio of steps (`Proofs/MemoryStep.lean`). `c146_toi` says this of the continuous phase for every setting and all joints. Not shown: that two worlds that differ in impulses differ only in impulses after a step. |
| C147 | `applyLinearImpulse`, `applyLinearImpulseToCenter`, `applyAngularImpulse`, `velocityAt` (Model/BodyGet) | algebra from the consistency of the stored numbers in every reachable world (C95) |
| C148 | `setMassData`, `getMassData`, `getInertia`, `velocityAt` | by cases of the code; the correction of the velocity cancels the move of the center |
| C149 | `setMassData`, `getMassData` | with C95. False as stated: `get_mass_data` adds mass times the square of the center's distance to an inertia of zero, and `set_mass_data` then asserts that what is left is positive; and a mass of zero is read back as one. Hence `c149_round_partial` |
| C150 | `worldPoint`, `localPoint`, `worldVector`, `localVector`, `velocityAtLocal` | C95 and C45 |

## 4. Where the code does not do what one would expect

Each of these is proved in Lean on the model, with a witness, unless marked *(read)*, which means seen while reading but
not formalised.

* `validate()` and `rebuild_bottom_up()` of an empty tree panic; `get_child_count` of a chain without vertices underflows.
* `b2_clamp_vec2` never clamps from above (C44); `B2Rot::default()` is not a rotation; `b2_next_power_of_two` overflows from 2^31 on.
* `DoubleLinkedList::remove` does not check membership and corrupts the list for non-members (C02).
* `update_pairs` reports a pair twice when both proxies were moved or touched more than once (C17/C18 state what holds).
* `set_enabled(true)` on an enabled body with a fixture panics (C32). `refilter` and `set_filter_data` panic on a fixture with contacts (C35).
* `set_mass_data` with what `get_mass_data` returned panics on a body with mass off its origin and no inertia, and makes a massless body heavy (C149).
* A contact between two edges or chains panics at creation (C25). Filter callbacks at the start of a step run while the world is unlocked (C39).
* `set_sensor` can make a later step panic: the contact solver asserts that each contact of an island has a point, but a contact that was
  a sensor contact when last updated has none, and a sleeping body's contacts are not updated before it joins an island (C109).
* *(read)* A manifold set by hand with a negative normal impulse makes the block solver's assertion fail in the next step; a post-solve
  callback that enables a contact can bring a contact into a later island whose other body is not in it (hence `Pushing`, `PostSolveLinks`).
* *(read)* A gear whose joints have ground bodies outside the island reads their stale island indices (hence `Seated` in C110-C113).
* The continuous solver indexes out of range when more than 64 bodies meet at one impact (C42).
* Polygon `ray_cast` starts at fraction 0.032 instead of 0 (C50).
* `b2_distance` that exhausts its 20 iterations can report overlap for shapes that are apart (C53).
* The reported friction impulse can exceed the coefficient times the reported normal impulse (C70).
* A circle in front of a thin wedge gets a contact without touching (C77).
* Both contact points of an edge and a polygon can have the same id, so warm starting mixes up their impulses (C80).
* Polygons up to √2 times the total radius apart can have contact points; polygons with nearly level neighbouring faces can overlap without one (C81).
* A corner of a box that dips less than about 0.004 below an edge just beside its end overlaps the edge without a contact point (C133).
* `get_reaction_force` of a pulley lacks sign and ratio, that of a gear is the force on body A, and that of a distance joint without warm
  starting counts limit impulses of an earlier step (C83).
* A mouse joint damps the rotation of a body of infinite moment of inertia (C85).
* A prismatic joint (and, read, a wheel joint) whose limits are closer than two linear slops takes its whole translation for the position
  error: with both limits 2 it is pulled to 0 (C122). Upstream has the same.
* *(read)* The position correction of a wheel joint uses the axis and arms, that of a distance joint the effective mass, of the velocity phase.
* A wheel joint keeps an axis that is not of unit length, and then does not hold its bodies on it (C86).
* A distance joint that is not warm started keeps the limit impulses of the step before: a slack rope sets bodies at rest in motion (C87).
* The clamped impulse of a friction joint with off-centre anchors can add energy (C88).
* A gear moves the bodies of its definition but measures those of its joints; if they differ, it couples nothing (C89).
* `destroy_joint` of a joint with `collide_connected = false` does not let its bodies collide: no proxy is put in the buffer, so no contact is created until one of them leaves its fat box (C90).
* Three consecutive rope vertices without mass divide by zero with the default bending model and with the triangle model; so does XPBD
  stretching with the default `stretch_hertz` of 0 (C93). The rope becomes NaN.
* The height model of a rope made folded (a vertex on the next but one) exerts a net force (C92); the triangle model moves a straight rope
  with unequal segments (C94).
* Loading a serialized world attaches every joint to the wrong bodies (places in the body list are written, but the list is reversed on
  loading before they are looked up), and a gear joint to the wrong joints (C99); a turning body comes back with another velocity (C98);
  negative dampings, mouse joints beside gear joints and gear joints beside static bodies can make loading panic (C100).
* A static body defined with a velocity is moved by every step in which something touches it (C101).
* *(read)* A sleeping body keeps the sweep of the step it fell asleep in, and a kinematic body advanced by the continuous solver is not
  synchronized with the broad-phase; `set_type`, `set_filter_data` and `refilter` do not make the next step look for new contacts before
  it solves; the boxes of `B2fixtureProxy` are not moved by `shift_origin`.
* *(read)* Not saved at all: mass data set by hand, forces, sleep times, the flags of the world, contacts and impulses. A non
  self-describing format is told a wrong number of joints if there is a mouse joint, and a wrong number of fields of the world (3, not 4)
  and of a fixture (7, not 11).
* The serializer of a distance joint announces six fields and writes eight (C125).
* *(read)* The simplex cache stores indices as `u8`; a shape cast that exhausts its iterations reports a hit; the normal of a shape cast is
  not a unit vector if the last direction is shorter than EPSILON.
* `c138_front_false`: a one-sided edge can pull a polygon through itself. The separating axes tried are both normals of the edge; when the polygon
  reaches farther behind the edge than before it, although its centroid is in front, the chosen normal points to the back.
* `c142_long_false`: in a step of half a second or more a sleeping body may be woken by a neighbour, moved and put back to sleep, so that it has moved
  although it is asleep before and after.
* `c134_rope_false`: `B2rope::draw` of a rope that was never created panics (`m_count - 1` underflows).
* *(read)* Turning continuous physics off while a step is incomplete (`m_step_complete` false) leaves the simulation frozen.
* *(read)* `destroy_proxy` twice is not rejected; a dynamic body without mass data keeps mass 0 although the documentation says 1;
  a body created asleep or static can keep a velocity; `b2_sweep_normalize` gives [0, 2π) although its comment says [-π, π].

## 5. Tests against wrong programs

`seeded/LOG.jsonl` records, for each deliberate bug in a scratch copy of the model, the edit, the claim it breaks and the
theorems that no longer prove. Where everything still proved although the claim was false, the statement was tightened
(`tightened` in the log).
