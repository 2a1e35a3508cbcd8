import Verif.Proofs.MemoryStep
import Verif.Props.Doze

set_option linter.unusedSectionVars false

/-!
# C146: Without warm starting the solver has no memory

Contacts and joints keep the impulses of the last step to begin the next one with. With `set_warm_starting(false)`, and in the sub-steps of the continuous phase
always, they are not used: what the solver does to an island is the same whatever impulses are stored, and however long the last step was.

The code forgets to drop the impulses of the limits of a distance joint (b2_distance_joint.rs 173-175), and for it the claim is false: `c146_distance_false`. The
theorems are about worlds in which those are zero. `c146_island_partial` compares two worlds; `c146_step_partial` is about whole steps, and compares the engine with one whose solvers
are shown worlds without impulses.
-/
namespace B2.Props
open B2 Spec World
section
variable {F : Type} [Field F] [LinearOrder F] [IsStrictOrderedRing F] [Elem F]

/-- **C146**, for an island without impulses in the limits of distance joints. The two worlds differ in the impulses of contacts and joints at most, and the two steps in
the ratio of their length to the one before. -/
theorem c146_island_partial {E : Engine F} {w w' : World F} {isl : Island} {step : TimeStep F} {ratio : F} (cold : step.warmStarting = false) (hw : forgetWorld w = forgetWorld w')
    (idle : ∀ j ∈ isl.joints, LimitsIdle (E.joint w j)) (idle' : ∀ j ∈ isl.joints, LimitsIdle (E.joint w' j))
    (he : ∀ j ∈ isl.joints, forgetJoint (E.joint w j) = forgetJoint (E.joint w' j)) :
    E.env.solvable w isl step = E.env.solvable w' isl { step with dtRatio := ratio } ∧ E.env.solveVel w isl step = E.env.solveVel w' isl { step with dtRatio := ratio } ∧
    E.env.solvePos w isl step = E.env.solvePos w' isl { step with dtRatio := ratio } := by
  exact island_same rfl cold hw idle idle' he

/-- **C146**, for whole steps in worlds whose distance joints never have impulses in their limits: with warm starting off, the solvers may as well be shown worlds and joints
without impulses, and no ratio of steps. -/
theorem c146_step_partial {E : Engine F} {w : World F} (h : WHist E.env w) (cold : w.warmStarting = false) (idle : ∀ v j, LimitsIdle (E.joint v j)) (dt : F) (vi pi : Nat) :
    w.step E.env dt vi pi = w.step (amnesic E) dt vi pi :=
  (step_swap (amnesic_alike E idle) (whist_inv h).toWInv cold dt vi pi).symm

/-- The continuous phase does not warm start: what was said holds of it whatever the setting and for all joints. -/
theorem c146_toi (E : Engine F) (w : World F) (step : TimeStep F) : w.solveToi E.env step = w.solveToi (amnesic E) step :=
  (toiLoop_swap (amnesic_toi E) step _ _).symm
end

namespace MemoryEx
attribute [local instance] lowElem
open MomEx

/-- The three balls of `MomEx`, the second and the third joined and the first pushing the second, when their island was found. -/
def found : Search ℚ := (MomEx.w0.clearIslandFlags.buildIsland 0).get (by decide +kernel)
def st : TimeStep ℚ := ⟨1/60, 60, 1, 8, 3, false⟩
/-- The world with the impulse `x` in all contacts. -/
def remember (x : ℚ) (w : World ℚ) : World ℚ :=
  { w with cst := fun c => { w.cst c with manifold := { (w.cst c).manifold with points := (w.cst c).manifold.points.map fun p => { p with normalImpulse := x, tangentImpulse := 0 } } } }
def begun : List (BState ℚ) := found.island.bodies.map (found.w.initState (1/60))

/-- The hypotheses hold of these two worlds, whose contacts have no impulses and impulses of two; the island can be solved; and with warm starting the balls get other velocities. -/
example : st.warmStarting = false ∧ forgetWorld (remember 0 found.w) = forgetWorld (remember 2 found.w) ∧
    (∀ x, ∀ j ∈ found.island.joints, LimitsIdle (eng.joint (remember x found.w) j)) ∧
    (∀ j ∈ found.island.joints, forgetJoint (eng.joint (remember 0 found.w) j) = forgetJoint (eng.joint (remember 2 found.w) j)) ∧
    found.island.contacts.length = 1 ∧ found.island.joints.length = 1 ∧ eng.env.solvable (remember 2 found.w) found.island st = true ∧
    eng.env.solveVel (remember 0 found.w) found.island { st with warmStarting := true, velocityIterations := 1 } begun 2 ≠
      eng.env.solveVel (remember 2 found.w) found.island { st with warmStarting := true, velocityIterations := 1 } begun 2 := by
  refine ⟨rfl, ?_, fun _ _ _ => trivial, fun _ _ => rfl, by decide +kernel, by decide +kernel, by decide +kernel, by decide +kernel⟩
  unfold forgetWorld remember forgetManifold
  simp only [List.map_map, Function.comp_def]

/-- A world without warm starting. -/
def cold : World ℚ := ((Call.setWarmStarting false).run eng.env MomEx.w0).get (by decide +kernel)
theorem cold_hist : WHist eng.env cold := by
  have e : runPlain eng.env calls Ex.w0 = some MomEx.w0 := (Option.some_get _).symm
  have h : WHist eng.env MomEx.w0 := (runPlain_plain calls (.new ..) e).hist
  exact .call (.setWarmStarting false) h trivial (Option.some_get _).symm

/-- The hypotheses of `c146_step_partial` hold of it, and it can be stepped. -/
example : WHist eng.env cold ∧ cold.warmStarting = false ∧ (∀ v j, LimitsIdle (eng.joint v j)) ∧ (cold.step eng.env (1/60) 8 3).isSome = true :=
  ⟨cold_hist, by decide +kernel, fun _ _ => trivial, by decide +kernel⟩

/-- A distance joint between bodies that are at distance one, with the limits one half and two, and `x` as the impulse of its lower limit. -/
def rod (x : ℚ) : Joint ℚ := .distance { DistanceJ.new 0 1 ⟨0, 0⟩ ⟨0, 0⟩ 1 (1/2) 2 0 0 with lowerImpulse := x }
def two (b : Nat) : JBody ℚ := ⟨b, ⟨0, 0⟩, 1, 0⟩
def places : Arr (Pos ℚ) := ⟨2, fun i => ⟨⟨i, 0⟩, 0⟩⟩
def speeds : Arr (Vel ℚ) := ⟨2, fun _ => ⟨⟨0, 0⟩, 0⟩⟩

/-- A distance joint remembers the impulses of its limits although warm starting is off, and pulls at bodies at rest that are within the limits. -/
theorem c146_distance_false : ¬ ∀ (s : JStep ℚ) (bodies : Nat → JBody ℚ) (pos : Arr (Pos ℚ)) (vel : Arr (Vel ℚ)) (js js' : List (Joint ℚ)), s.warmStarting = false →
    js.map forgetJoint = js'.map forgetJoint →
    (islandVelocity s true 8 bodies pos vel [] js).map (fun r => (r.2.1.at' 1).v.x) = (islandVelocity s true 8 bodies pos vel [] js').map (fun r => (r.2.1.at' 1).v.x) := by
  intro h
  exact absurd (h ⟨1/60, 60, 1, false⟩ two places speeds [rod 0] [rod 5] rfl rfl) (by decide +kernel)

end MemoryEx
end B2.Props
