import Verif.Proofs.JointExample
import Verif.Proofs.JointBounds
import Verif.Spec.Real

/-!
# Properties of joints
-/
namespace B2.Props
open B2

section
variable {F : Type} [Field F] [LinearOrder F]

/-! ## C82 -/

/-- C82: a joint never panics, and its bodies get opposite momentum. A joint that holds one body of the island to
another, both of finite mass, leaves the total momentum as it was, each time one of its solver functions is called:
whatever its kind and its state, the positions and the velocities. -/
theorem c82_momentum [Elem F] (st : JStep F) (bodies : Nat → JBody F) (pos : Arr (Pos F)) (j j' : Joint F)
    (v : Arr (Vel F)) (vs : List (Arr (Vel F))) (log : List (Arr (Vel F) × Arr (Vel F))) (hp : j.plain = true)
    (hne : (bodies j.bodyA).index ≠ (bodies j.bodyB).index) (M : Nat → F)
    (hA : M (bodies j.bodyA).index * (bodies j.bodyA).invMass = 1)
    (hB : M (bodies j.bodyB).index * (bodies j.bodyB).invMass = 1)
    (h : j.calls st bodies pos v vs = some (j', log)) : ∀ e ∈ log, momentum M e.2 = momentum M e.1 :=
  fun e he => (Joint.calls_opposed hp h e he).momentum hne hA hB

/-- C82: nor does it change the total angular momentum, if it pushes A at the place where it pushes B. -/
theorem c82_angular_momentum [Elem F] (st : JStep F) (bodies : Nat → JBody F) (pos : Arr (Pos F)) (j j' : Joint F)
    (v : Arr (Vel F)) (vs : List (Arr (Vel F))) (log : List (Arr (Vel F) × Arr (Vel F))) (hp : j.plain = true)
    (hne : (bodies j.bodyA).index ≠ (bodies j.bodyB).index) (M J : Nat → F)
    (hA : M (bodies j.bodyA).index * (bodies j.bodyA).invMass = 1)
    (hB : M (bodies j.bodyB).index * (bodies j.bodyB).invMass = 1)
    (hIA : J (bodies j.bodyA).index * (bodies j.bodyA).invI = 1)
    (hIB : J (bodies j.bodyB).index * (bodies j.bodyB).invI = 1)
    (hx : j.anchorA bodies pos = j.anchorB bodies pos ∨
      (∃ k, j = .prismatic k) ∨ (∃ k, j = .wheel k) ∨ (∃ k, j = .distance k))
    (h : j.calls st bodies pos v vs = some (j', log)) :
    ∀ e ∈ log, angularMomentum M J (fun i => (pos.at' i).c) e.2 = angularMomentum M J (fun i => (pos.at' i).c) e.1 := by
  intro e he
  refine (Joint.calls_opposed hp h e he).angular hne hA hB hIA hIB ?_
  rcases hx with hx | ⟨k, rfl⟩ | ⟨k, rfl⟩ | ⟨k, rfl⟩
  · unfold Joint.pushPointA
    split
    · rfl
    · rfl
    · rfl
    · exact hx
  · rfl
  · rfl
  · rfl

/-- C82: joints never panic. -/
theorem c82_total [Elem F] (st : JStep F) (bodies : Nat → JBody F) (pos : Arr (Pos F)) (j : Joint F)
    (v : Arr (Vel F)) (vs : List (Arr (Vel F))) (hl : pos.len = v.len)
    (hi : ∀ b ∈ j.touched, (bodies b).index < v.len) (hs : ∀ u ∈ vs, u.len = v.len) :
    ∃ j' log, j.calls st bodies pos v vs = some (j', log) ∧ log.length = vs.length + 1 := by
  obtain ⟨j', log, h⟩ := Joint.calls_total st bodies pos j v vs hl hi hs
  refine ⟨j', log, h, ?_⟩
  obtain ⟨j1, v1, log1, _, h2, rfl⟩ := Joint.calls_some h
  have : ∀ (vs : List (Arr (Vel F))) (j : Joint F) (log), j.solves st vs = some (j', log) → log.length = vs.length := by
    intro vs
    induction vs with
    | nil => intro j log h; rw [(Joint.solves_nil h).2]; rfl
    | cons v vs ih =>
      intro j log h
      obtain ⟨_, _, _, _, h2, rfl⟩ := Joint.solves_cons h
      simp [ih _ _ h2]
  simp [this _ _ _ h2]

/-- C82: a gear, whose force is between the bodies A and C and between B and D, conserves momentum. -/
theorem c82_gear [Elem F] (st : JStep F) (bodies : Nat → JBody F) (pos : Arr (Pos F)) (g : Gear F) (j' : Joint F)
    (v : Arr (Vel F)) (vs : List (Arr (Vel F))) (log : List (Arr (Vel F) × Arr (Vel F)))
    (hne : ((Joint.gear g).touched.map fun b => (bodies b).index).Nodup) (M : Nat → F)
    (hM : ∀ b ∈ (Joint.gear g).touched, M (bodies b).index * (bodies b).invMass = 1)
    (h : (Joint.gear g).calls st bodies pos v vs = some (j', log)) : ∀ e ∈ log, momentum M e.2 = momentum M e.1 := by
  intro e he
  obtain ⟨g', x, ⟨a1, a2, a3, a4⟩, hi, e2⟩ := gear_calls h e he
  rw [e2]
  refine gearPushed_momentum hi ?_ ?_ ?_ ?_ ?_
  · unfold Gear.apart; rw [a1, a2, a3, a4]; exact hne
  · rw [a1]; exact hM _ (by simp [Joint.touched])
  · rw [a2]; exact hM _ (by simp [Joint.touched])
  · rw [a3]; exact hM _ (by simp [Joint.touched])
  · rw [a4]; exact hM _ (by simp [Joint.touched])

/-! ## C83 -/

/-- C83: `get_reaction_force` and `get_reaction_torque` report what the joint did in the step. Over a step, in which
the joint is initialized and then solved any number of times, body B gets from the joint the momentum `dt` times the
reaction force and body A the opposite; about its centre of mass body B gets the moment of that at the anchor and `dt`
times the reaction torque, and A the opposite, the force acting at the push point of A. `m` and `I` are the masses and
moments of inertia. For a distance joint without warm starting the impulses of its limits must be zero before. -/
theorem c83_reaction_partial [Elem F] (st : JStep F) (bodies : Nat → JBody F) (pos : Arr (Pos F)) (j j' : Joint F)
    (v : Arr (Vel F)) (vs : List (Arr (Vel F))) (log : List (Arr (Vel F) × Arr (Vel F))) (hp : j.plain = true)
    (hc : ∀ k, j = .distance k → st.warmStarting = true ∨ k.lowerImpulse = 0 ∧ k.upperImpulse = 0)
    (hne : (bodies j.bodyA).index ≠ (bodies j.bodyB).index) (hdt : st.dt * st.invDt = 1)
    (h : j.calls st bodies pos v vs = some (j', log)) :
    let f := j'.reactionForce st.invDt
    let t := j'.reactionTorque st.invDt
    let a := bodies j.bodyA
    let b := bodies j.bodyB
    (∀ m I, m * b.invMass = 1 → I * b.invI = 1 →
      momentumGained m b.index log = st.dt * f ∧
      spinGained I b.index log = st.dt * (cross (j.anchorB bodies pos - (pos.at' b.index).c) f + t)) ∧
    (∀ m I, m * a.invMass = 1 → I * a.invI = 1 →
      momentumGained m a.index log = -(st.dt * f) ∧
      spinGained I a.index log = -(st.dt * (cross (j.pushPointA bodies pos - (pos.at' a.index).c) f + t))) := by
  have hc' : j.startsClean st := by
    cases j with
    | distance k => exact hc k rfl
    | _ => trivial
  obtain ⟨k, s⟩ := Joint.calls_kicks hp hc' h
  obtain ⟨e1, e2, e3, e4, e5, e6, ha⟩ := Joint.calls_same s
  have hp' : j'.plain = true := e1.trans hp
  have hf : j'.view.start.frame = ⟨bodies j.bodyA, bodies j.bodyB⟩ := by
    simp only [View.start]; rw [Joint.armed_frame hp' ha, e2, e3]
  obtain ⟨w1, w2⟩ := Joint.armed_wrench hp' ha
  rw [e3, e5] at w1
  rw [e2, e6] at w2
  obtain ⟨r1, r2⟩ := Joint.reaction_view hp' st.invDt
  have hp2 : st.dt * j'.reactionForce st.invDt = j'.view.p := by
    rw [r1]; ext <;> simp only [Vec2.smul_x, Vec2.smul_y]
    · linear_combination j'.view.p.x * hdt
    · linear_combination j'.view.p.y * hdt
  have ht2 : st.dt * j'.reactionTorque st.invDt = j'.reactionTorque 1 := by
    rw [r2]; linear_combination j'.reactionTorque 1 * hdt
  have hcr : ∀ x : Vec2 F, st.dt * (cross x (j'.reactionForce st.invDt) + j'.reactionTorque st.invDt) =
      cross x j'.view.p + j'.reactionTorque 1 := by
    intro x
    rw [← hp2, mul_add, ht2]; simp only [cross, Vec2.smul_x, Vec2.smul_y]; ring
  have hne' : j'.view.start.frame.a.index ≠ j'.view.start.frame.b.index := by rw [hf]; exact hne
  refine ⟨fun m I hm hI => ?_, fun m I hm hI => ?_⟩
  · obtain ⟨g1, g2⟩ := k.gainedB hne' (m := m) (I := I) (by rw [hf]; exact hm) (by rw [hf]; exact hI)
    rw [hf] at g1 g2
    refine ⟨?_, ?_⟩
    · rw [g1, hp2]; ext <;> simp [View.start]
    · rw [g2, hcr, w1]; simp [View.start]
  · obtain ⟨g1, g2⟩ := k.gainedA hne' (m := m) (I := I) (by rw [hf]; exact hm) (by rw [hf]; exact hI)
    rw [hf] at g1 g2
    refine ⟨?_, ?_⟩
    · rw [g1, hp2]; ext <;> simp [View.start]
    · rw [g2, hcr, w2]; simp [View.start]

/-- C83: a mouse joint reports the force on body B (it has no force on A). -/
theorem c83_mouse [Elem F] (st : JStep F) (bodies : Nat → JBody F) (pos : Arr (Pos F)) (j : Mouse F) (j' : Joint F)
    (v : Arr (Vel F)) (vs : List (Arr (Vel F))) (log : List (Arr (Vel F) × Arr (Vel F))) (hdt : st.dt * st.invDt = 1)
    (m : F) (hm : m * (bodies j.bodyB).invMass = 1) (h : (Joint.mouse j).calls st bodies pos v vs = some (j', log)) :
    momentumGained m (bodies j.bodyB).index log = st.dt * j'.reactionForce st.invDt := by
  obtain ⟨k, rfl, e⟩ := mouse_calls hm h
  rw [e]
  ext <;> simp only [Joint.reactionForce, Mouse.reactionForce, Vec2.smul_x, Vec2.smul_y]
  · linear_combination (-k.impulse.x) * hdt
  · linear_combination (-k.impulse.y) * hdt

/-! ## C84 -/

/-- C84: joints keep to their bounds. After a step, in which the joint is initialized and solved at least once from any
state and with any velocities, the force and the torque of its motor or its friction are within what the joint may use,
a disabled motor and a disabled limit do nothing, and limits only push. -/
theorem c84_bounds [IsStrictOrderedRing F] [Elem F] [ElemLaws F] (st : JStep F) (bodies : Nat → JBody F)
    (pos : Arr (Pos F)) (j j' : Joint F) (v : Arr (Vel F)) (vs : List (Arr (Vel F)))
    (log : List (Arr (Vel F) × Arr (Vel F))) (hdt : 0 < st.dt) (h1 : st.dt * st.invDt = 1) (hr : 0 ≤ st.dtRatio)
    (hs : j.Sane) (hv : vs ≠ []) (h : j.calls st bodies pos v vs = some (j', log)) : j'.Within st.invDt := by
  obtain ⟨j1, v1, log1, h2, h3, rfl⟩ := Joint.calls_some h
  exact Joint.solves_within hdt h1 (Joint.initVel_idle hr hs h2) (fun h => absurd h hv) h3

/-! ## C85 -/

/-- C85: a joint changes the velocities of its own bodies only, and not those of bodies that cannot move: a body of
infinite mass keeps its linear velocity and a body of infinite moment of inertia its angular velocity, unless the joint
is a mouse joint. -/
theorem c85_others [Elem F] (st : JStep F) (bodies : Nat → JBody F) (pos : Arr (Pos F)) (j j' : Joint F)
    (v : Arr (Vel F)) (vs : List (Arr (Vel F))) (log : List (Arr (Vel F) × Arr (Vel F)))
    (h : j.calls st bodies pos v vs = some (j', log)) : ∀ e ∈ log,
      (∀ i, (∀ b ∈ j.touched, (bodies b).index ≠ i) → e.2.at' i = e.1.at' i) ∧
      (∀ i, (∀ b ∈ j.touched, (bodies b).index = i → (bodies b).invMass = 0) → (e.2.at' i).v = (e.1.at' i).v) ∧
      ((∀ m, j ≠ .mouse m) →
        ∀ i, (∀ b ∈ j.touched, (bodies b).index = i → (bodies b).invI = 0) → (e.2.at' i).w = (e.1.at' i).w) := by
  intro e he
  obtain ⟨_, p2, p3, p4⟩ := Joint.calls_pushed h e he
  refine ⟨fun i hi => p2 i ?_, fun i hi => p3 i ?_, fun hm i hi => p4 ?_ i ?_⟩
  · simpa using hi
  · simpa using hi
  · cases j <;> first | rfl | exact absurd rfl (hm _)
  · simpa using hi

end

section
attribute [local instance] jElem

/-- C83 is false for pulleys: body B of mass 1/2 gets from the pulley in the example -2 times what `get_reaction_force`
reports, which leaves out the sign and the ratio. -/
theorem c83_pulley_false : ∃ (st : JStep ℚ) (bodies : Nat → JBody ℚ) (pos : Arr (Pos ℚ)) (p : Pulley ℚ) (j' : Joint ℚ)
    (v : Arr (Vel ℚ)) (log : List (Arr (Vel ℚ) × Arr (Vel ℚ))), st.dt * st.invDt = 1 ∧
    (Joint.pulley p).calls st bodies pos v [v] = some (j', log) ∧ (1 / 2) * (bodies p.bodyB).invMass = 1 ∧
    st.dt * j'.reactionForce st.invDt ≠ ⟨0, 0⟩ ∧
    momentumGained (1 / 2) (bodies p.bodyB).index log = -p.ratio * (st.dt * j'.reactionForce st.invDt) := by
  have hs : ((Joint.pulley JEx.pulley).calls JEx.st JEx.bodies JEx.pos JEx.vel [JEx.vel]).isSome := by decide +kernel
  refine ⟨JEx.st, JEx.bodies, JEx.pos, JEx.pulley, (Option.get _ hs).1, JEx.vel, (Option.get _ hs).2, by decide +kernel,
    by simp, by decide +kernel, by decide +kernel +revert, by decide +kernel +revert⟩

/-- C83 is false for gears: `get_reaction_force` reports the force on body A, not on body B. In the example the force
on B is not zero, the reported one is. -/
theorem c83_gear_false : ∃ (st : JStep ℚ) (bodies : Nat → JBody ℚ) (pos : Arr (Pos ℚ)) (g : Gear ℚ) (j' : Joint ℚ)
    (v : Arr (Vel ℚ)) (log : List (Arr (Vel ℚ) × Arr (Vel ℚ))), st.dt * st.invDt = 1 ∧
    (Joint.gear g).calls st bodies pos v [v] = some (j', log) ∧ (1 / 2) * (bodies g.bodyB).invMass = 1 ∧
    j'.reactionForce st.invDt = ⟨0, 0⟩ ∧ momentumGained (1 / 2) (bodies g.bodyB).index log ≠ ⟨0, 0⟩ := by
  have hs : ((Joint.gear JEx.gear).calls JEx.st JEx.bodies JEx.pos JEx.vel [JEx.vel]).isSome := by decide +kernel
  refine ⟨JEx.st, JEx.bodies, JEx.pos, JEx.gear, (Option.get _ hs).1, JEx.vel, (Option.get _ hs).2, by decide +kernel,
    by simp, by decide +kernel, by decide +kernel +revert, by decide +kernel +revert⟩

/-- C83 is false for distance joints without warm starting: the impulses of the limits are kept from the step before,
although nothing is applied. In the example the bodies do not move and get nothing, but a force is reported. -/
theorem c83_distance_false : ∃ (st : JStep ℚ) (bodies : Nat → JBody ℚ) (pos : Arr (Pos ℚ)) (d : DistanceJ ℚ) (j' : Joint ℚ)
    (v : Arr (Vel ℚ)) (log : List (Arr (Vel ℚ) × Arr (Vel ℚ))), st.dt * st.invDt = 1 ∧ st.warmStarting = false ∧
    (Joint.distance d).calls st bodies pos v [] = some (j', log) ∧ (1 / 2) * (bodies d.bodyB).invMass = 1 ∧
    momentumGained (1 / 2) (bodies d.bodyB).index log = ⟨0, 0⟩ ∧ j'.reactionForce st.invDt ≠ ⟨0, 0⟩ := by
  have hs : ((Joint.distance JEx.spring).calls { JEx.st with warmStarting := false } JEx.bodies JEx.pos JEx.vel []).isSome := by
    decide +kernel
  refine ⟨{ JEx.st with warmStarting := false }, JEx.bodies, JEx.pos, JEx.spring, (Option.get _ hs).1, JEx.vel,
    (Option.get _ hs).2, by decide +kernel, rfl, by simp, by decide +kernel, by decide +kernel +revert, by decide +kernel +revert⟩

/-- The hypotheses of C82 and C83 hold for each kind of joint in an example in which the joint does something. -/
example : ∀ j ∈ JEx.all, j.plain = true → ∃ j' log, j.calls JEx.st JEx.bodies JEx.pos JEx.vel [JEx.vel] = some (j', log) ∧
    (JEx.bodies j.bodyA).index ≠ (JEx.bodies j.bodyB).index ∧
    (1 : ℚ) * (JEx.bodies j.bodyA).invMass = 1 ∧ (1 / 2 : ℚ) * (JEx.bodies j.bodyB).invMass = 1 ∧
    (1 : ℚ) * (JEx.bodies j.bodyA).invI = 1 ∧ (1 / 3 : ℚ) * (JEx.bodies j.bodyB).invI = 1 ∧
    JEx.st.dt * JEx.st.invDt = 1 ∧ momentumGained 1 0 log ≠ ⟨0, 0⟩ := by
  intro j hj hp
  have key : ∀ j ∈ JEx.all, j.plain = true →
      (j.calls JEx.st JEx.bodies JEx.pos JEx.vel [JEx.vel]).isSome = true ∧
      (∀ r ∈ j.calls JEx.st JEx.bodies JEx.pos JEx.vel [JEx.vel], momentumGained 1 0 r.2 ≠ ⟨0, 0⟩) ∧
      (JEx.bodies j.bodyA).index ≠ (JEx.bodies j.bodyB).index ∧
      (1 : ℚ) * (JEx.bodies j.bodyA).invMass = 1 ∧ (1 / 2 : ℚ) * (JEx.bodies j.bodyB).invMass = 1 ∧
      (1 : ℚ) * (JEx.bodies j.bodyA).invI = 1 ∧ (1 / 3 : ℚ) * (JEx.bodies j.bodyB).invI = 1 := by decide +kernel
  obtain ⟨h1, h2, h3, h4, h5, h6, h7⟩ := key j hj hp
  obtain ⟨r, hr⟩ := Option.isSome_iff_exists.1 h1
  exact ⟨r.1, r.2, hr, h3, h4, h5, h6, h7, by decide +kernel, h2 r hr⟩

/-- C85 is false for the angular velocity under a mouse joint: a body of infinite moment of inertia is slowed. -/
theorem c85_mouse_false : ∃ (st : JStep ℚ) (bodies : Nat → JBody ℚ) (pos : Arr (Pos ℚ)) (j : Mouse ℚ) (j' : Joint ℚ)
    (v : Arr (Vel ℚ)) (e : Arr (Vel ℚ) × Arr (Vel ℚ)), (bodies j.bodyB).invI = 0 ∧
    (Joint.mouse j).calls st bodies pos v [] = some (j', [e]) ∧
    (e.1.at' (bodies j.bodyB).index).w = 1 ∧ (e.2.at' (bodies j.bodyB).index).w = 49 / 50 := by
  let bodies : Nat → JBody ℚ := fun _ => ⟨1, ⟨0, 0⟩, 1, 0⟩
  let vel : Arr (Vel ℚ) := ⟨2, fun _ => ⟨⟨0, 0⟩, 1⟩⟩
  let s := (Joint.mouse JEx.mouse).initVel JEx.st bodies JEx.pos { vel with len := JEx.pos.len }
  have hs : s.isSome = true := by decide +kernel
  refine ⟨JEx.st, bodies, JEx.pos, JEx.mouse, (s.get hs).1, { vel with len := JEx.pos.len }, ({ vel with len := JEx.pos.len }, (s.get hs).2), rfl, ?_,
    rfl, by decide +kernel +revert⟩
  have e : s = some (s.get hs) := by simp
  unfold Joint.calls
  rw [show (Joint.mouse JEx.mouse).initVel JEx.st bodies JEx.pos { vel with len := JEx.pos.len } = some (s.get hs) from e]
  rfl

/-- The hypotheses of C85 and the last part of C82 in the example: the gear and the mouse joint. -/
example : ∃ j' log, (Joint.gear JEx.gear).calls JEx.st JEx.bodies JEx.pos JEx.vel [JEx.vel] = some (j', log) ∧
    ((Joint.gear JEx.gear).touched.map fun b => (JEx.bodies b).index).Nodup ∧
    (∀ b ∈ (Joint.gear JEx.gear).touched,
      (fun i => if i % 2 = 0 then 1 else 1 / 2 : Nat → ℚ) (JEx.bodies b).index * (JEx.bodies b).invMass = 1) ∧
    momentumGained 1 1 log ≠ ⟨0, 0⟩ ∧ ∀ b ∈ (Joint.gear JEx.gear).touched, (JEx.bodies b).index ≠ 4 := by
  have hs : ((Joint.gear JEx.gear).calls JEx.st JEx.bodies JEx.pos JEx.vel [JEx.vel]).isSome := by decide +kernel
  refine ⟨(Option.get _ hs).1, (Option.get _ hs).2, by simp, by decide +kernel, by decide +kernel, by decide +kernel +revert,
    by decide +kernel⟩
end

/-- The hypotheses of C82 on totality and of C84 hold for a friction joint between two moving bodies. -/
example : ∃ (st : JStep ℝ) (bodies : Nat → JBody ℝ) (pos : Arr (Pos ℝ)) (j : FrictionJ ℝ) (v : Arr (Vel ℝ)),
    0 < st.dt ∧ st.dt * st.invDt = 1 ∧ 0 ≤ st.dtRatio ∧ (Joint.friction j).Sane ∧ pos.len = v.len ∧
    (∀ b ∈ (Joint.friction j).touched, (bodies b).index < v.len) ∧
    (v.at' 0).v = ⟨1, 0⟩ ∧ (v.at' 1).v = ⟨0, 0⟩ ∧
    (∃ j' log, (Joint.friction j).calls st bodies pos v [v] = some (j', log)) := by
  let bodies : Nat → JBody ℝ := fun i => ⟨i, ⟨0, 0⟩, 1, 1⟩
  let pos : Arr (Pos ℝ) := ⟨2, fun i => ⟨⟨i, 0⟩, 0⟩⟩
  let v : Arr (Vel ℝ) := ⟨2, fun i => ⟨⟨1 - i, 0⟩, 0⟩⟩
  let z : PairFrame ℝ := ⟨JBody.zero, JBody.zero⟩
  let j : FrictionJ ℝ :=
    { bodyA := 0, bodyB := 1, localAnchorA := ⟨1, 0⟩, localAnchorB := ⟨0, 0⟩, maxForce := 2, maxTorque := 1
      linearImpulse := ⟨0, 0⟩, angularImpulse := 0, frame := z, rA := ⟨0, 0⟩, rB := ⟨0, 0⟩
      linearMass := ⟨⟨0, 0⟩, ⟨0, 0⟩⟩, angularMass := 0 }
  have hi : ∀ b ∈ (Joint.friction j).touched, (bodies b).index < v.len := by
    intro b hb
    simp only [Joint.touched, j, Joint.bodyA, Joint.bodyB, List.mem_cons, List.not_mem_nil, or_false] at hb
    rcases hb with rfl | rfl <;> simp [bodies, v]
  obtain ⟨j', log, h, _⟩ := c82_total ⟨1 / 60, 60, 1, true⟩ bodies pos (.friction j) v [v] rfl hi
    (fun u hu => by rw [List.mem_singleton.1 hu])
  exact ⟨⟨1 / 60, 60, 1, true⟩, bodies, pos, j, v, by norm_num, by norm_num, by norm_num,
    by constructor <;> norm_num [j], rfl, hi, by simp [v], by simp [v], j', log, h⟩

end B2.Props
