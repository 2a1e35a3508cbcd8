import Verif.Proofs.JointExample
import Verif.Proofs.JointSettled
import Verif.Props.Joint
import Verif.Spec.Real

/-!
# Properties of joints: solving their constraints
-/
namespace B2.Props
open B2

section
variable {F : Type} [Field F] [LinearOrder F] [IsStrictOrderedRing F]

/-! ## C86 -/

/-- C86: right after a velocity iteration of a joint its bodies move as the joint asks, whatever its state before the
step and the velocities before the iteration, and however many iterations came before. -/
theorem c86_settled [Elem F] [ElemLaws F] (n : Nat) (st : JStep F) (bodies : Nat → JBody F) (pos : Arr (Pos F))
    (j j' : Joint F) (v : Arr (Vel F)) (vs : List (Arr (Vel F))) (log : List (Arr (Vel F) × Arr (Vel F)))
    (hdt : st.dt * st.invDt = 1) (hok : j.Ok n bodies) (hs : j.Solvable st) (hv : vs ≠ [])
    (h : j.calls st bodies pos v vs = some (j', log)) : ∀ e, log.getLast? = some e → j'.Settled st bodies pos e.2 := by
  obtain ⟨j1, v1, log1, h1, h2, rfl⟩ := Joint.calls_some h
  obtain ⟨_, _, _, _, s⟩ := Joint.initVel_pushed h1
  obtain ⟨_, q1, q2, _, _, _, ha⟩ := Joint.calls_same s
  have hok1 : j1.Ok n bodies := by
    obtain ⟨a1, a2, a3, a4, a5, a6, a7, a8⟩ := hok
    refine ⟨?_, ?_, ?_, ?_, ?_, ?_, ?_, ?_⟩ <;> (first | rw [q1, q2] | rw [q1] | rw [q2]) <;> assumption
  have hs1 : j1.Solvable st := by
    rw [← Joint.solvable_strip, s, Joint.solvable_strip, Joint.solvable_prepared]; exact hs
  intro e he
  cases vs with
  | nil => exact absurd rfl hv
  | cons u us =>
    obtain ⟨j2, v2, log2, h3, h4, rfl⟩ := Joint.solves_cons h2
    rw [List.getLast?_cons_cons] at he
    exact Joint.solves_settled hdt hok1 hs1 ha (Joint.tuned_of_strip s) h2 e he

end

section
attribute [local instance] jElem

/-- C86 needs axes of length one, and a wheel joint keeps the axis it is given: with the axis (2, 0) body B still leaves
the axis after an iteration. -/
theorem c86_wheel_false : ∃ (st : JStep ℚ) (bodies : Nat → JBody ℚ) (pos : Arr (Pos ℚ)) (w : Wheel ℚ) (j' : Joint ℚ)
    (v : Arr (Vel ℚ)) (log : List (Arr (Vel ℚ) × Arr (Vel ℚ))) (e : Arr (Vel ℚ) × Arr (Vel ℚ)),
    w = Wheel.new 0 1 ⟨1, 0⟩ ⟨0, 0⟩ ⟨2, 0⟩ 0 0 0 0 0 0 false false ∧ (Joint.wheel w).Ok 5 bodies ∧ st.dt * st.invDt = 1 ∧
    (Joint.wheel w).calls st bodies pos v [v] = some (j', log) ∧ log.getLast? = some e ∧ ¬ j'.Settled st bodies pos e.2 := by
  let w : Wheel ℚ := Wheel.new 0 1 ⟨1, 0⟩ ⟨0, 0⟩ ⟨2, 0⟩ 0 0 0 0 0 0 false false
  let c := (Joint.wheel w).calls JEx.st JEx.bodies JEx.pos JEx.vel [JEx.vel]
  have hs : c.isSome = true := by decide +kernel
  have hl : (c.get hs).2.getLast?.isSome = true := by decide +kernel +revert
  refine ⟨JEx.st, JEx.bodies, JEx.pos, w, (c.get hs).1, JEx.vel, (c.get hs).2, (c.get hs).2.getLast?.get hl, rfl, ?_,
    by decide +kernel, by simp [c], by simp, ?_⟩
  · constructor <;> decide +kernel
  · have hw : (match (c.get hs).1 with
      | .wheel k => decide (dot ((Rot.ofAngle (JEx.pos.at' 0).a).mulV k.localYAxisA)
          (velocityAt JEx.pos ((c.get hs).2.getLast?.get hl).2 1 ((c.get hs).1.anchorB JEx.bodies JEx.pos) -
           velocityAt JEx.pos ((c.get hs).2.getLast?.get hl).2 0 ((c.get hs).1.anchorB JEx.bodies JEx.pos)) ≠ 0 ∧
          k.bodyA = 0 ∧ k.bodyB = 1)
      | _ => false) = true := by
      decide +kernel +revert
    generalize (c.get hs).1 = k at hw ⊢
    cases k with
    | wheel k =>
      obtain ⟨h1, h2, h3⟩ := of_decide_eq_true hw
      simp only [Joint.Settled, Joint.bodyA, Joint.bodyB, h2, h3]
      exact h1
    | _ => cases hw

/-- The hypotheses of C86 for every kind of joint in the example of bodies that move against their joints; after the
step they do not (shown for the joints that hold two points together). -/
example : (∀ j ∈ JEx.all, j.Ok 5 JEx.bodies ∧ (j.calls JEx.st JEx.bodies JEx.pos JEx.vel [JEx.vel, JEx.vel]).isSome) ∧
    JEx.st.dt * JEx.st.invDt = 1 ∧
    (∀ j ∈ [Joint.revolute JEx.revolute, .weld JEx.weld],
      velocityAt JEx.pos JEx.vel 0 (j.anchorA JEx.bodies JEx.pos) ≠ velocityAt JEx.pos JEx.vel 1 (j.anchorB JEx.bodies JEx.pos) ∧
      ∀ r ∈ j.calls JEx.st JEx.bodies JEx.pos JEx.vel [JEx.vel, JEx.vel], ∀ e ∈ r.2.getLast?,
        velocityAt JEx.pos e.2 0 (j.anchorA JEx.bodies JEx.pos) = velocityAt JEx.pos e.2 1 (j.anchorB JEx.bodies JEx.pos)) := by
  refine ⟨?_, by decide +kernel, by decide +kernel⟩
  intro j hj
  have key : ∀ j ∈ JEx.all, ((JEx.bodies j.bodyA).index < 5 ∧ (JEx.bodies j.bodyB).index < 5 ∧
      (JEx.bodies j.bodyA).index ≠ (JEx.bodies j.bodyB).index ∧ 0 ≤ (JEx.bodies j.bodyA).invMass ∧
      0 ≤ (JEx.bodies j.bodyB).invMass ∧ 0 < (JEx.bodies j.bodyA).invMass + (JEx.bodies j.bodyB).invMass ∧
      0 ≤ (JEx.bodies j.bodyA).invI ∧ 0 ≤ (JEx.bodies j.bodyB).invI) ∧
      (j.calls JEx.st JEx.bodies JEx.pos JEx.vel [JEx.vel, JEx.vel]).isSome = true := by decide +kernel
  obtain ⟨⟨a1, a2, a3, a4, a5, a6, a7, a8⟩, h⟩ := key j hj
  exact ⟨⟨a1, a2, a3, a4, a5, a6, a7, a8⟩, h⟩

/-- All of them may be solved. -/
example : (Joint.prismatic JEx.prismatic).Solvable JEx.st ∧ (Joint.wheel JEx.wheel).Solvable JEx.st ∧
    (Joint.friction JEx.friction).Solvable JEx.st ∧ (Joint.motor JEx.motor).Solvable JEx.st ∧
    (Joint.pulley JEx.pulley).Solvable JEx.st := by
  refine ⟨?_, ?_, ?_, ?_, ?_⟩
  · show JEx.prismatic.localYAxisA.lengthSquared = 1; decide +kernel
  · show JEx.wheel.localYAxisA.lengthSquared = 1; decide +kernel
  · show epsilon ≤ JEx.st.dt * JEx.friction.maxForce; decide +kernel
  · show epsilon ≤ JEx.st.dt * JEx.motor.maxForce; decide +kernel
  · show JEx.pulley.ratio ≠ 0; decide +kernel
end

/-- The hypotheses of C86 hold together for a prismatic joint over the real numbers, along which one body moves and
against which the other moves. -/
example : ∃ (st : JStep ℝ) (bodies : Nat → JBody ℝ) (pos : Arr (Pos ℝ)) (j : Joint ℝ) (v : Arr (Vel ℝ)),
    st.dt * st.invDt = 1 ∧ j.Ok 2 bodies ∧ j.Solvable st ∧ (v.at' 0).v = ⟨1, 0⟩ ∧ (v.at' 1).v = ⟨0, 1⟩ ∧
    ∃ j' log, j.calls st bodies pos v [v] = some (j', log) ∧ log.length = 2 := by
  let bodies : Nat → JBody ℝ := fun i => ⟨i, ⟨0, 0⟩, 1, 1⟩
  let pos : Arr (Pos ℝ) := ⟨2, fun i => ⟨⟨i, 0⟩, 0⟩⟩
  let v : Arr (Vel ℝ) := ⟨2, fun i => if i = 0 then ⟨⟨1, 0⟩, 0⟩ else ⟨⟨0, 1⟩, 0⟩⟩
  let z : PairFrame ℝ := ⟨JBody.zero, JBody.zero⟩
  let j : Prismatic ℝ :=
    { bodyA := 0, bodyB := 1, localAnchorA := ⟨1, 0⟩, localAnchorB := ⟨0, 0⟩, localXAxisA := ⟨1, 0⟩, localYAxisA := ⟨0, 1⟩
      referenceAngle := 0, lowerTranslation := 0, upperTranslation := 2, maxMotorForce := 1, motorSpeed := 3
      enableLimit := true, enableMotor := true, impulse := ⟨1, 0⟩, motorImpulse := 0, lowerImpulse := 0, upperImpulse := 0
      frame := z, axis := ⟨0, 0⟩, perp := ⟨0, 0⟩, s1 := 0, s2 := 0, a1 := 0, a2 := 0, k := ⟨⟨0, 0⟩, ⟨0, 0⟩⟩, translation := 0
      axialMass := 0 }
  have hi : ∀ b ∈ (Joint.prismatic j).touched, (bodies b).index < v.len := by
    intro b hb
    simp only [Joint.touched, j, Joint.bodyA, Joint.bodyB, List.mem_cons, List.not_mem_nil, or_false] at hb
    rcases hb with rfl | rfl <;> simp [bodies, v]
  obtain ⟨j', log, h, hl⟩ := c82_total ⟨1 / 60, 60, 1, true⟩ bodies pos (.prismatic j) v [v] rfl hi
    (fun u hu => by rw [List.mem_singleton.1 hu])
  refine ⟨⟨1 / 60, 60, 1, true⟩, bodies, pos, .prismatic j, v, by norm_num, ?_, ?_, by simp [v], by simp [v], j', log, h, hl⟩
  · constructor <;> simp [bodies, j, Joint.bodyA, Joint.bodyB]
  · show j.localYAxisA.lengthSquared = 1
    norm_num [j, Vec2.lengthSquared]

end B2.Props
