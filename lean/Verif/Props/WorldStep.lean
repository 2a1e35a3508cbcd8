import Verif.Proofs.WorldTurns
import Verif.Proofs.WorldPhys
import Verif.Proofs.WorldExample

/-!
# The time step

Islands, sleeping, integration and the continuous solver. The constraint solvers, the time of impact, the user's
callbacks and filter are arbitrary (`env`).
-/
namespace B2.Props
set_option linter.unusedSectionVars false
open B2 Spec World

section
variable {F : Type} [Field F] [LinearOrder F] [IsStrictOrderedRing F] [Elem F]

/-! ## C38 -/

/-- When the solvers are done with an island (`v` is then the world, and `conv` tells whether the position solver
converged), the island is put to sleep if and only if sleeping is allowed, the position solver converged, and all its
non-static bodies have been quiet long enough. Then all of them sleep with velocity zero; otherwise none is put to
sleep, none is stopped. -/
theorem c38_sleep {env : Env F} {w v w' : World F} {cap : Nat} {isl : Island} {step : TimeStep F} {conv : Bool} (hn : isl.bodies.Nodup)
    (hv : w.islandMove env cap isl step = some (v, conv)) (e : w.islandSolve env cap isl step = some w') :
    ((v.allowSleep = true ∧ conv = true ∧ ∀ b ∈ isl.bodies, v.typeOf b ≠ .static → QuietLong (v.phys b) step.dt) →
      ∀ b ∈ isl.bodies, v.typeOf b ≠ .static → (w'.phys b).awake = false ∧ (w'.phys b).v = ⟨0, 0⟩ ∧ (w'.phys b).w = 0) ∧
    (¬ (v.allowSleep = true ∧ conv = true ∧ ∀ b ∈ isl.bodies, v.typeOf b ≠ .static → QuietLong (v.phys b) step.dt) →
      ∀ b, (w'.phys b).awake = (v.phys b).awake ∧ (w'.phys b).v = (v.phys b).v ∧ (w'.phys b).w = (v.phys b).w) := by
  obtain ⟨v', r, h1, rfl⟩ := islandSolve_inv e
  rw [hv] at h1
  cases h1
  obtain ⟨k0, k1, k2⟩ := sleepIsland_spec (w := v) (h := step.dt) (solved := conv) hn
  have hq : ∀ b, QuietLong (v.phys b) step.dt ↔ restless (v.phys b) = false ∧ timeToSleep ≤ (v.phys b).sleepTime + step.dt := by
    intro b
    rw [restless_false]
    exact ⟨fun h => ⟨⟨h.permits, h.steady, h.slow⟩, h.long⟩, fun h => ⟨h.1.1, h.1.2.2, h.1.2.1, h.2⟩⟩
  simp only [hq]
  constructor
  · rintro ⟨ha, hc, hb⟩ b hbl hs
    rw [if_pos ha, k1 ⟨hb, hc⟩ b hbl]
    unfold Phys.setAwake
    rw [if_neg hs]
    exact ⟨rfl, rfl, rfl⟩
  · intro hno b
    split
    · rename_i ha
      by_cases hbl : b ∈ isl.bodies
      · rw [k2 (fun h => hno ⟨ha, h.2, h.1⟩) b hbl]
        unfold timed
        split <;> exact ⟨rfl, rfl, rfl⟩
      · rw [k0 b hbl]
        exact ⟨rfl, rfl, rfl⟩
    · exact ⟨rfl, rfl, rfl⟩

/-- How long a body has been quiet is recorded faithfully: the record starts afresh whenever the body is fast or does not
permit sleeping, and is otherwise advanced by the time step (as long as the island is not put to sleep). -/
theorem c38_timer {env : Env F} {w v w' : World F} {cap : Nat} {isl : Island} {step : TimeStep F} {conv : Bool} (hn : isl.bodies.Nodup)
    (hv : w.islandMove env cap isl step = some (v, conv)) (e : w.islandSolve env cap isl step = some w') (ha : v.allowSleep = true)
    (hno : ¬ (conv = true ∧ ∀ b ∈ isl.bodies, v.typeOf b ≠ .static → QuietLong (v.phys b) step.dt)) {b : Nat} (hb : b ∈ isl.bodies)
    (hs : v.typeOf b ≠ .static) :
    ((v.phys b).autoSleep = false ∨ (v.phys b).v.x * (v.phys b).v.x + (v.phys b).v.y * (v.phys b).v.y > (1 / 100) * (1 / 100) ∨
      (v.phys b).w * (v.phys b).w > (2 / 180 * Elem.pi) * (2 / 180 * Elem.pi) → (w'.phys b).sleepTime = 0) ∧
    (¬ ((v.phys b).autoSleep = false ∨ (v.phys b).v.x * (v.phys b).v.x + (v.phys b).v.y * (v.phys b).v.y > (1 / 100) * (1 / 100) ∨
      (v.phys b).w * (v.phys b).w > (2 / 180 * Elem.pi) * (2 / 180 * Elem.pi)) → (w'.phys b).sleepTime = (v.phys b).sleepTime + step.dt) := by
  obtain ⟨v', r, h1, rfl⟩ := islandSolve_inv e
  rw [hv] at h1
  cases h1
  obtain ⟨k0, k1, k2⟩ := sleepIsland_spec (w := v) (h := step.dt) (solved := conv) hn
  have hq : ∀ b, QuietLong (v.phys b) step.dt ↔ restless (v.phys b) = false ∧ timeToSleep ≤ (v.phys b).sleepTime + step.dt := by
    intro b
    rw [restless_false]
    exact ⟨fun h => ⟨⟨h.permits, h.steady, h.slow⟩, h.long⟩, fun h => ⟨h.1.1, h.1.2.2, h.1.2.1, h.2⟩⟩
  simp only [hq] at hno
  have hr : restless (v.phys b) = true ↔ ((v.phys b).autoSleep = false ∨ (v.phys b).v.x * (v.phys b).v.x + (v.phys b).v.y * (v.phys b).v.y > (1 / 100) * (1 / 100) ∨
      (v.phys b).w * (v.phys b).w > (2 / 180 * Elem.pi) * (2 / 180 * Elem.pi)) := by
    unfold restless linearSleepTolerance angularSleepTolerance dot
    simp only [Bool.or_eq_true, Bool.not_eq_true', decide_eq_true_eq]
    tauto
  rw [if_pos ha, k2 (fun h => hno ⟨h.2, h.1⟩) b hb, ← hr]
  unfold timed
  rw [if_neg hs]
  constructor
  · intro h
    simp only [h, if_true]
  · intro h
    simp only [h, Bool.false_eq_true, if_false]

/-! ## C40 -/

/-- With auto-clear on, every body of the world has zero force and torque after a step, whatever the callbacks do. -/
theorem c40_cleared {env : Env F} {w w' : World F} {dt : F} {vi pi : Nat} (h : WHist env w) (e : w.step env dt vi pi = some w')
    (hc : w.clearForces = true) : ∀ b ∈ w'.g.bodyList, (w'.phys b).force = ⟨0, 0⟩ ∧ (w'.phys b).torque = 0 := by
  obtain ⟨v, h1, h2, h3⟩ := step_cleared (whist_inv h).toWInv e hc
  intro b hb
  rw [h3, (clearForcesAll_spec v).1 b (by rw [h1, ← h2]; exact hb)]
  exact ⟨rfl, rfl⟩

/-- With auto-clear off and callbacks that leave bodies alone, a step leaves the force and the torque of every body as they
were, or zero; the latter only if sleeping is allowed in the world and the body permits it. -/
theorem c40_kept {env : Env F} {w w' : World F} {dt : F} {vi pi : Nat} (h : WHist env w) (hE : LeavesBodies env)
    (e : w.step env dt vi pi = some w') (hc : w.clearForces = false) (b : Nat) :
    ((w'.phys b).force = (w.phys b).force ∧ (w'.phys b).torque = (w.phys b).torque) ∨
    ((w'.phys b).force = ⟨0, 0⟩ ∧ (w'.phys b).torque = 0 ∧ w.allowSleep = true ∧ (w.phys b).autoSleep = true) := by
  obtain ⟨v, h1, h2, -, -, h5⟩ := step_each (keepsForce_moves (w.allowSleep = true)) (hE.polite (keepsForce_moves _).toWakes) (fun _ => hE.polite sameCenter_moves.toWakes) (whist_inv h).toWInv id e
  rw [h2, hc] at h5
  rw [h5]
  exact (h1 b).2.2

/-! ## C43 -/

/-- A step in which no time passes moves nothing: position, velocity and sweep of every body stay as they are. (If the
callbacks leave the bodies alone.) -/
theorem c43_still {env : Env F} {w w' : World F} {dt : F} {vi pi : Nat} (hE : LeavesBodies env) (hdt : ¬ dt > 0)
    (e : w.step env dt vi pi = some w') (b : Nat) :
    (w'.phys b).xf = (w.phys b).xf ∧ (w'.phys b).sweep = (w.phys b).sweep ∧ (w'.phys b).v = (w.phys b).v ∧ (w'.phys b).w = (w.phys b).w := by
  obtain ⟨v, h1, h2⟩ := step_still stays_wakes (hE.polite stays_wakes) hdt e
  have h3 : Stays (w.typeOf b) (v.phys b) (w'.phys b) := by
    rw [h2]
    split
    · by_cases hb : b ∈ v.g.bodyList
      · rw [(clearForcesAll_spec v).1 b hb]; exact ⟨rfl, rfl, rfl, rfl⟩
      · rw [(clearForcesAll_spec v).2 b hb]; exact ⟨rfl, rfl, rfl, rfl⟩
    · exact ⟨rfl, rfl, rfl, rfl⟩
  exact stays_wakes.trans (h1 b).2 h3

/-! ## C61 -/

/-- A step never changes what a body is: its mass data, damping, gravity scale and flags. (If the callbacks leave the bodies
alone.) -/
theorem c61_configuration {env : Env F} {w w' : World F} {dt : F} {vi pi : Nat} (h : WHist env w) (hE : LeavesBodies env)
    (e : w.step env dt vi pi = some w') (b : Nat) :
    (w'.phys b).mass = (w.phys b).mass ∧ (w'.phys b).invMass = (w.phys b).invMass ∧ (w'.phys b).i = (w.phys b).i ∧
    (w'.phys b).invI = (w.phys b).invI ∧ (w'.phys b).sweep.localCenter = (w.phys b).sweep.localCenter ∧
    (w'.phys b).linearDamping = (w.phys b).linearDamping ∧ (w'.phys b).angularDamping = (w.phys b).angularDamping ∧
    (w'.phys b).gravityScale = (w.phys b).gravityScale ∧ (w'.phys b).bullet = (w.phys b).bullet ∧
    (w'.phys b).fixedRotation = (w.phys b).fixedRotation ∧ (w'.phys b).autoSleep = (w.phys b).autoSleep ∧
    w'.typeOf b = w.typeOf b ∧ (w'.g.bodies b).enabled = (w.g.bodies b).enabled ∧ (w'.g.bodies b).fixtures = (w.g.bodies b).fixtures := by
  obtain ⟨v, h1, -, -, -, h2⟩ := step_each (al := True) sameConfig_moves (hE.polite sameConfig_moves.toWakes) (fun _ => hE.polite sameCenter_moves.toWakes) (whist_inv h).toWInv (fun _ => trivial) e
  have h3 : SameConfig (w.typeOf b) (v.phys b) (w'.phys b) := by
    rw [h2]
    split
    · by_cases hb : b ∈ v.g.bodyList
      · rw [(clearForcesAll_spec v).1 b hb]; exact ⟨rfl, rfl⟩
      · rw [(clearForcesAll_spec v).2 b hb]; exact ⟨rfl, rfl⟩
    · exact ⟨rfl, rfl⟩
  obtain ⟨k1, k2⟩ := sameConfig_moves.trans (h1 b).2 h3
  have hs := (step_good (whist_inv h).toWInv e).body b
  refine ⟨?_, ?_, ?_, ?_, k2, ?_, ?_, ?_, ?_, ?_, ?_, ?_, ?_, ?_⟩
  all_goals first | (rw [k1]; done) | (unfold World.typeOf; rw [hs]; done) | (rw [hs]; done)

/-! ## C41 -/

/-- However often the loop of the continuous solver goes round in a step, no contact is selected more than nine times,
and the number of turns is at most nine for every ordered pair of fixture children. -/
theorem c41_bounded {env : Env F} {w w1 w2 : World F} {dt : F} {vi pi : Nat} {step : TimeStep F} {cs : List Nat} (h : WHist env w)
    (hs : StartsToi env w dt vi pi w1) (ht : Turns env step w1.toiReset cs w2) :
    (∀ c, cs.count c ≤ 9) ∧ cs.length ≤ 9 * (childTotal w * childTotal w) := by
  obtain ⟨h1, h2⟩ := startsToi_good (whist_inv h).toWInv hs
  have g : Good env w1 w1.toiReset := .soft h1 (toiReset_soft w1)
  obtain ⟨k1, k2⟩ := turns_bound g.winv ht
  rw [g.childTotal, h2] at k1
  exact ⟨k2, k1⟩

/-- The bound on the number of turns in the model of the continuous solver is never what ends it: if the solver gives
no world, the code it models panics in some turn. -/
theorem c41_fuel {env : Env F} {w w1 : World F} {dt : F} {vi pi : Nat} {step : TimeStep F} (h : WHist env w)
    (hs : StartsToi env w dt vi pi w1) (e : w1.solveToi env step = none) :
    ∃ cs w2, Turns env step w1.toiReset cs w2 ∧ (toiScan env w2.g.contactList w2 none 1 = none ∨
      ∃ w3 c m, toiScan env w2.g.contactList w2 none 1 = some (w3, some c, m) ∧ ¬ (1 - 10 * epsilon < m) ∧ w3.toiEvent env step c m = none) := by
  obtain ⟨h1, h2⟩ := startsToi_good (whist_inv h).toWInv hs
  have g : Good env w1 w1.toiReset := .soft h1 (toiReset_soft w1)
  rcases toiLoop_none _ _ e with ⟨cs, w2, t1, t2⟩ | r
  · have hb := (turns_bound g.winv t1).1
    obtain ⟨gh, buf, rep, hp⟩ := g.winv.prox
    have hc : (w1.toiReset.bp.proxyCount : Int) = childTotal w1.toiReset := by
      rw [hp.count, live_count g.winv.body]; rfl
    rw [t2, toiFuel, hc, Int.toNat_natCast] at hb
    omega
  · exact r

end

attribute [local instance] exElem

/-- A resting ball, in a world of gravity `g`. -/
private def exRest (g : Vec2 ℚ) : World ℚ :=
  { (runAll Ex.env [.createBody (Ex.body .dynamic 0 1), .createFixture 0 Ex.ball] Ex.w0).get (by decide +kernel) with gravity := g }
private def exIsl : Island := ⟨[0], [], []⟩
private def exSecond : TimeStep ℚ := (exRest ⟨0, 0⟩).timeStep 1 8 3
private def exMoved0 : World ℚ × Bool := ((exRest ⟨0, 0⟩).islandMove Ex.env 1 exIsl exSecond).get (by decide +kernel)
private def exMoved1 : World ℚ × Bool := ((exRest ⟨0, -10⟩).islandMove Ex.env 1 exIsl exSecond).get (by decide +kernel)
private def exSlept0 : World ℚ := ((exRest ⟨0, 0⟩).islandSolve Ex.env 1 exIsl exSecond).get (by decide +kernel)
private def exSlept1 : World ℚ := ((exRest ⟨0, -10⟩).islandSolve Ex.env 1 exIsl exSecond).get (by decide +kernel)

/-- Without gravity, one second is enough to put the ball to sleep; with gravity it stays awake. -/
example : (exIsl.bodies.Nodup ∧ (exRest ⟨0, 0⟩).islandMove Ex.env 1 exIsl exSecond = some exMoved0 ∧
      (exRest ⟨0, 0⟩).islandSolve Ex.env 1 exIsl exSecond = some exSlept0 ∧ (exSlept0.phys 0).awake = false) ∧
    ((exRest ⟨0, -10⟩).islandMove Ex.env 1 exIsl exSecond = some exMoved1 ∧
      (exRest ⟨0, -10⟩).islandSolve Ex.env 1 exIsl exSecond = some exSlept1 ∧ (exSlept1.phys 0).awake = true ∧ (exSlept1.phys 0).sleepTime = 0) :=
  ⟨⟨by decide, (Option.some_get _).symm, (Option.some_get _).symm, by decide +kernel⟩,
    (Option.some_get _).symm, (Option.some_get _).symm, by decide +kernel⟩

private theorem exLeaves : LeavesBodies Ex.env := by intro _ _ op h; cases h
/-- A pushed ball; whether forces are cleared. -/
private def exForceCalls (c : Bool) : List (Call ℚ) :=
  [.createBody (Ex.body .dynamic 0 1), .createFixture 0 Ex.ball, .setAutoClearForces c, .user (.body 0 (.applyForceToCenter ⟨5, 0⟩ true))]
private def exPushed0 : World ℚ := (runAll Ex.env (exForceCalls false) Ex.w0).get (by decide +kernel)
private def exPushed1 : World ℚ := (runAll Ex.env (exForceCalls true) Ex.w0).get (by decide +kernel)
private def exAfter0 : World ℚ := (exPushed0.step Ex.env (1/60) 8 3).get (by decide +kernel)
private def exAfter1 : World ℚ := (exPushed1.step Ex.env (1/60) 8 3).get (by decide +kernel)
private def exStill : World ℚ := (exPushed1.step Ex.env 0 8 3).get (by decide +kernel)

/-- The force is kept or cleared; and the ball moves, unless the time step is zero. -/
example : (WHist Ex.env exPushed0 ∧ LeavesBodies Ex.env ∧ exPushed0.step Ex.env (1/60) 8 3 = some exAfter0 ∧ exPushed0.clearForces = false ∧
      (exAfter0.phys 0).force = ⟨5, 0⟩ ∧ (exAfter0.phys 0).v ≠ (exPushed0.phys 0).v ∧ (exAfter0.phys 0).xf.p ≠ (exPushed0.phys 0).xf.p) ∧
    (WHist Ex.env exPushed1 ∧ exPushed1.step Ex.env (1/60) 8 3 = some exAfter1 ∧ exPushed1.clearForces = true ∧ (exPushed1.phys 0).force = ⟨5, 0⟩) ∧
    exPushed1.step Ex.env 0 8 3 = some exStill :=
  ⟨⟨runAll_hist (exForceCalls false) Ex.w0_hist (by rw [exPushed0, Option.some_get]), exLeaves, (Option.some_get _).symm, by decide +kernel⟩,
    ⟨runAll_hist (exForceCalls true) Ex.w0_hist (by rw [exPushed1, Option.some_get]), (Option.some_get _).symm, by decide +kernel⟩,
    (Option.some_get _).symm⟩

/-- Every two shapes are found to touch halfway. -/
private def exEnv : Env ℚ := { Ex.env with toi := fun _ _ => some (true, 1 / 2) }
/-- A ball falling on a fixed one. -/
private def exCalls : List (Call ℚ) :=
  [.createBody (Ex.body .dynamic 0 1), .createFixture 0 Ex.ball, .createBody (Ex.body .static 0 0), .createFixture 1 Ex.ball]
private def exWorld : World ℚ := (runAll exEnv exCalls Ex.w0).get (by decide +kernel)
private theorem exWorld_hist : WHist exEnv exWorld := runAll_hist exCalls (w := Ex.w0) (.new ..) (by rw [exWorld, Option.some_get])
private def exStart : World ℚ := (startsOf exEnv exWorld (1/60) 8 3).get (by decide +kernel)
private def exStep : TimeStep ℚ := exWorld.timeStep (1/60) 8 3
private def exTurn1 : Nat × World ℚ := (turnOf exEnv exStep exStart.toiReset).get (by decide +kernel)
private def exTurn2 : Nat × World ℚ := (turnOf exEnv exStep exTurn1.2).get (by decide +kernel)

/-- The contact of the two balls is selected, and selected again. -/
example : WHist exEnv exWorld ∧ StartsToi exEnv exWorld (1/60) 8 3 exStart ∧ Turns exEnv exStep exStart.toiReset [0, 0] exTurn2.2 := by
  have e1 : exTurn1.1 = 0 := by decide +kernel
  have e2 : exTurn2.1 = 0 := by decide +kernel
  refine ⟨exWorld_hist, startsOf_sound (by rw [exStart, Option.some_get]), ?_⟩
  refine .cons (w1 := exTurn1.2) (turnOf_sound ?_) (.cons (w1 := exTurn2.2) (turnOf_sound ?_) (.nil _))
  · rw [← e1]; exact (Option.some_get _).symm
  · rw [← e2]; exact (Option.some_get _).symm

/-- A callback that fails when a time of impact is handled. -/
private def exEnvP : Env ℚ := { exEnv with react := fun w k => match k with
  | .preSolve c => if (w.cst c).toiFlag then [.fixtureSetDensity 0 (-1)] else []
  | _ => [] }
private def exWorldP : World ℚ := (runAll exEnvP exCalls Ex.w0).get (by decide +kernel)
private def exStartP : World ℚ := (startsOf exEnvP exWorldP (1/60) 8 3).get (by decide +kernel)
example : WHist exEnvP exWorldP ∧ StartsToi exEnvP exWorldP (1/60) 8 3 exStartP ∧ (exStartP.solveToi exEnvP exStep).isNone :=
  ⟨runAll_hist exCalls (w := Ex.w0) (.new ..) (by rw [exWorldP, Option.some_get]), startsOf_sound (by rw [exStartP, Option.some_get]), by decide +kernel⟩

end B2.Props
