import Verif.Proofs.JointEnergyStep
import Verif.Proofs.JointExample
import Verif.Proofs.JointFriction
import Verif.Props.ContactSolver
import Verif.Props.Joint

/-!
# Properties of joints: energy
-/
namespace B2.Props
open B2

section
variable {F : Type} [Field F] [LinearOrder F] [IsStrictOrderedRing F]

/-! ## C87 -/

theorem solves_energy [Elem F] [SoftLaws F] {n : Nat} {st : JStep F} {bodies : Nat → JBody F} {pos : Arr (Pos F)}
    {M J invM invI : Nat → F} (hdt : 0 ≤ st.dt) : ∀ {vs : List (Arr (Vel F))} {j j' : Joint F}
    {log : List (Arr (Vel F) × Arr (Vel F))}, j.Quiet bodies pos invM invI n → (∀ u ∈ vs, NothingDriven M J invM invI u) →
    j.solves st vs = some (j', log) →
    j'.Quiet bodies pos invM invI n ∧ (log.map fun e => energy2 M J e.2 - energy2 M J e.1).sum + j'.stored st ≤ j.stored st
  | [], j, j', log, hq, _, h => by
    obtain ⟨rfl, rfl⟩ := Joint.solves_nil h
    exact ⟨hq, by simp⟩
  | v :: vs, j, j', log, hq, hd, h => by
    obtain ⟨j1, v1, log1, h1, h2, rfl⟩ := Joint.solves_cons h
    obtain ⟨q1, e1, _⟩ := Joint.solveVel_quiet hdt hq (hd v (List.mem_cons_self ..)) h1
    obtain ⟨q2, e2⟩ := solves_energy hdt q1 (fun u hu => hd u (List.mem_cons_of_mem _ hu)) h2
    refine ⟨q2, ?_⟩
    simp only [List.map_cons, List.sum_cons]
    linarith

/-- C87: without warm starting, a joint that has no motor, no spring and no target adds no kinetic energy in a step, in
which it is initialized and then solved any number of times, whatever else changes the velocities in between. Twice
the energies are summed. -/
theorem c87_energy [Elem F] [SoftLaws F] (n : Nat) (st : JStep F) (bodies : Nat → JBody F) (pos : Arr (Pos F))
    (j j' : Joint F) (v : Arr (Vel F)) (vs : List (Arr (Vel F))) (log : List (Arr (Vel F) × Arr (Vel F)))
    (M J invM invI : Nat → F) (hw : st.warmStarting = false) (hdt : 0 ≤ st.dt) (hinv : 0 ≤ st.invDt)
    (hok : j.Ok n bodies) (hp : j.Passive) (hk : j.Knows bodies invM invI)
    (hc : ∀ k, j = .distance k → k.lowerImpulse = 0 ∧ k.upperImpulse = 0)
    (hd : ∀ u ∈ vs, NothingDriven M J invM invI u)
    (h : j.calls st bodies pos v vs = some (j', log)) :
    (log.map fun e => energy2 M J e.2 - energy2 M J e.1).sum ≤ 0 := by
  have hc' : j.startsClean st := by
    cases j with
    | distance k => exact Or.inr (hc k rfl)
    | _ => trivial
  obtain ⟨j1, v1, log1, h1, h2, rfl⟩ := Joint.calls_some h
  obtain ⟨q, s, rfl⟩ := Joint.initVel_quiet hw hok hp hk hc' h1
  obtain ⟨q', e⟩ := solves_energy hdt q hd h2
  have := stored_nonneg hinv q'.calm
  simp only [List.map_cons, List.sum_cons, sub_self, zero_add]
  linarith

/-- C87 for all joints and contacts of an island: without warm starting, friction and restitution, the velocity phase
adds no kinetic energy (twice the energy is compared). -/
theorem c87_island [Elem F] [ElemLaws F] (st : JStep F) (block : Bool) (iterations : Nat) (bodies : Nat → JBody F)
    (pos : Arr (Pos F)) (vel vel' : Arr (Vel F)) (contacts : List (ContactIn F)) (joints joints' : List (Joint F))
    (ms : List (Manifold F)) (M J invM invI : Nat → F) (hw : st.warmStarting = false) (hdt : 0 ≤ st.dt) (hinv : 0 ≤ st.invDt)
    (hr : 0 ≤ st.dtRatio)
    (hj : ∀ j ∈ joints, j.Ok vel.len bodies ∧ j.Passive ∧ j.Knows bodies invM invI)
    (hl : ∀ k, .distance k ∈ joints → k.lowerImpulse = 0 ∧ k.upperImpulse = 0)
    (hc : ∀ c ∈ contacts, c.Ok vel.len ∧ c.MassesAre invM invI ∧ Pushing c.manifold)
    (hplain : ∀ c ∈ contacts, c.friction = 0 ∧ c.restitution = 0 ∧ ∀ q ∈ c.manifold.points, q.tangentImpulse = 0)
    (hd : NothingDriven M J invM invI vel)
    (h : islandVelocity st block iterations bodies pos vel contacts joints = some (joints', vel', ms)) :
    energy2 M J vel' ≤ energy2 M J vel := by
  unfold islandVelocity at h
  obtain ⟨cs, h1, h⟩ := Option.bind_eq_some_iff.1 h
  obtain ⟨v1, h2, h⟩ := Option.bind_eq_some_iff.1 h
  obtain ⟨js, h3, h⟩ := Option.bind_eq_some_iff.1 h
  obtain ⟨r, h4, h⟩ := Option.bind_eq_some_iff.1 h
  simp only [Option.pure_def, Option.some.injEq, Prod.mk.injEq] at h
  obtain ⟨rfl, rfl, rfl⟩ := h
  have ht := setUp_tame h1 hr invM invI hc hplain
  rw [hw] at h2
  simp only [warmIf, Bool.false_eq_true, if_false, Option.some.injEq] at h2
  subst h2
  have hq : ∀ j ∈ joints, j.Ok vel.len bodies ∧ j.Passive ∧ j.Knows bodies invM invI ∧ j.startsClean st := by
    intro j hj'
    obtain ⟨a, b, c⟩ := hj j hj'
    refine ⟨a, b, c, ?_⟩
    cases j with
    | distance k => exact Or.inr (hl k hj')
    | _ => trivial
  obtain ⟨q1, s1, e1⟩ := initJoints_quiet hw hq h3
  obtain ⟨q2, e2, -⟩ := islandIterate_quiet hdt q1 ht (by rw [e1]; exact hd) h4
  have h0 : 0 ≤ (r.1.map (·.stored st)).sum := List.sum_nonneg (by
    intro x hx
    obtain ⟨j, hj', rfl⟩ := List.mem_map.1 hx
    exact stored_nonneg hinv (q2 j hj').calm)
  rw [e1, s1] at e2
  linarith

end

section
variable {F : Type} [Field F] [LinearOrder F] [IsStrictOrderedRing F]

/-! ## C88 -/

theorem friction_init [Elem F] [ElemLaws F] {st : JStep F} {bodies : Nat → JBody F} {pos : Arr (Pos F)} {k : FrictionJ F}
    {j1 : Joint F} {v v1 : Arr (Vel F)} (hw : st.warmStarting = false) (hf : epsilon ≤ st.dt * k.maxForce)
    (ht : 0 ≤ st.dt * k.maxTorque) (h : (Joint.friction k).initVel st bodies pos v = some (j1, v1)) :
    v1 = v ∧ ∃ k1 : FrictionJ F, j1 = .friction k1 ∧ k1.Quiet st bodies pos ∧ k1.linearImpulse = ⟨0, 0⟩ ∧
      k1.bodyA = k.bodyA ∧ k1.bodyB = k.bodyB ∧ k1.frame = ⟨bodies k.bodyA, bodies k.bodyB⟩ ∧
      k1.rA = (bodies k.bodyA).arm (pos.at' (bodies k.bodyA).index).a k.localAnchorA ∧
      k1.rB = (bodies k.bodyB).arm (pos.at' (bodies k.bodyB).index).a k.localAnchorB := by
  obtain ⟨_, _, _, _, s⟩ := Joint.initVel_pushed h
  obtain ⟨_, _, _, _, _, _, ha⟩ := Joint.calls_same s
  obtain ⟨p, hp', h⟩ := Option.bind_eq_some_iff.1 h
  obtain ⟨_, _, rfl⟩ := loadTwoP_some hp'
  obtain ⟨⟨k1, rfl, hk⟩, hv⟩ := onTwo_cold (P := fun j' => ∃ k1 : FrictionJ F, j' = .friction k1 ∧
    k1 = { k.prepare bodies ⟨pos.at' (bodies k.bodyA).index, pos.at' (bodies k.bodyB).index⟩ with
      linearImpulse := ⟨0, 0⟩, angularImpulse := 0 }) (fun s => by
    simp only [FrictionJ.initVel, FrictionJ.warm, hw, Bool.false_eq_true, if_false]
    exact ⟨⟨_, rfl, rfl⟩, trivial⟩) h
  refine ⟨hv, k1, rfl, ?_, ?_⟩
  · subst hk
    refine ⟨ha, rfl, rfl, hf, ht, ?_, ?_⟩
    · show Vec2.lengthSquared ⟨0, 0⟩ ≤ (st.dt * k.maxForce) ^ 2
      simp only [Vec2.lengthSquared]
      have : (0 : F) ≤ (st.dt * k.maxForce) ^ 2 := sq_nonneg _
      simpa using this
    · show |(0 : F)| ≤ st.dt * k.maxTorque
      simpa using ht
  · subst hk; exact ⟨rfl, rfl, rfl, rfl, rfl, rfl⟩

theorem friction_solves [Elem F] [ElemLaws F] {n : Nat} {st : JStep F} {bodies : Nat → JBody F} {pos : Arr (Pos F)}
    {M J invM invI : Nat → F} : ∀ {vs : List (Arr (Vel F))} {k : FrictionJ F} {j' : Joint F}
    {log : List (Arr (Vel F) × Arr (Vel F))}, (Joint.friction k).Ok n bodies → (Joint.friction k).Knows bodies invM invI →
    k.Quiet st bodies pos → (∀ u ∈ vs, NothingDriven M J invM invI u) →
    ((k.frame.a.invI = 0 ∨ k.rA = ⟨0, 0⟩) ∧ (k.frame.b.invI = 0 ∨ k.rB = ⟨0, 0⟩) ∨
      vs.length ≤ 1 ∧ k.linearImpulse = ⟨0, 0⟩) →
    (Joint.friction k).solves st vs = some (j', log) → ∀ e ∈ log, energy2 M J e.2 ≤ energy2 M J e.1
  | [], k, j', log, _, _, _, _, _, h => by
    obtain ⟨rfl, rfl⟩ := Joint.solves_nil h
    exact fun _ h => (by cases h)
  | v :: vs, k, j', log, hok, hk, hq, hd, hc, h => by
    obtain ⟨j1, v1, log1, h1, h2, rfl⟩ := Joint.solves_cons h
    have e1 := FrictionJ.solveVel_energy hok hk hq (hd v (List.mem_cons_self ..)) (hc.imp id And.right) h1
    obtain ⟨_, _, rfl, _⟩ := onTwo_some h1
    intro e he
    rcases List.mem_cons.1 he with rfl | he
    · exact e1
    · rcases hc with hc | ⟨hc, _⟩
      · exact friction_solves (k := (k.solveVel st ⟨v.at' k.frame.a.index, v.at' k.frame.b.index⟩).1)
          (Joint.ok_same (j := .friction k) rfl rfl hok) hk (FrictionJ.solveVel_quiet hq _)
          (fun u hu => hd u (List.mem_cons_of_mem _ hu)) (Or.inl hc) h2 e he
      · cases vs with
        | nil =>
          obtain ⟨_, rfl⟩ := Joint.solves_nil h2
          cases he
        | cons u us => simp at hc

/-- C88 in part: without warm starting, a friction joint never adds kinetic energy if it acts at the centres of mass (of
the bodies that can turn), or if there is only one velocity iteration. What is missing are several iterations at
other anchors; for them it is false (`c88_false`). -/
theorem c88_friction_partial [Elem F] [ElemLaws F] (n : Nat) (st : JStep F) (bodies : Nat → JBody F) (pos : Arr (Pos F))
    (k : FrictionJ F) (j' : Joint F) (v : Arr (Vel F)) (vs : List (Arr (Vel F))) (log : List (Arr (Vel F) × Arr (Vel F)))
    (M J invM invI : Nat → F) (hw : st.warmStarting = false) (hok : (Joint.friction k).Ok n bodies)
    (hk : (Joint.friction k).Knows bodies invM invI) (hf : epsilon ≤ st.dt * k.maxForce) (ht : 0 ≤ st.dt * k.maxTorque)
    (hc : ((bodies k.bodyA).invI = 0 ∨ k.localAnchorA = (bodies k.bodyA).localCenter) ∧
      ((bodies k.bodyB).invI = 0 ∨ k.localAnchorB = (bodies k.bodyB).localCenter) ∨ vs.length ≤ 1)
    (hd : ∀ u ∈ vs, NothingDriven M J invM invI u)
    (h : (Joint.friction k).calls st bodies pos v vs = some (j', log)) :
    ∀ e ∈ log, energy2 M J e.2 ≤ energy2 M J e.1 := by
  obtain ⟨j1, v1, log1, h1, h2, rfl⟩ := Joint.calls_some h
  obtain ⟨rfl, k1, rfl, hq, h0, a1, a2, hfr, hA, hB⟩ := friction_init hw hf ht h1
  intro e he
  rcases List.mem_cons.1 he with rfl | he
  · exact le_refl _
  · refine friction_solves (n := n) (Joint.ok_same (j := .friction k) a1 a2 hok) ?_ hq hd ?_ h2 e he
    · have et : (Joint.friction k1).touched = (Joint.friction k).touched := by
        simp only [Joint.touched, Joint.bodyA, Joint.bodyB, a1, a2]
      unfold Joint.Knows; rw [et]; exact hk
    · rw [hfr, hA, hB]
      have z : ∀ (b : JBody F) (a : F), b.arm a b.localCenter = ⟨0, 0⟩ := by
        intro b a; simp [JBody.arm, Rot.mulV]
      rcases hc with ⟨c1, c2⟩ | hc
      · exact Or.inl ⟨c1.imp id fun c => by rw [c, z], c2.imp id fun c => by rw [c, z]⟩
      · exact Or.inr ⟨hc, h0⟩

end

section
attribute [local instance] jElem

/-- C87 needs that the limits of a distance joint hold no impulse, and without warm starting they keep it from step to
step: a slack rope, which was taut in the step before, sets bodies at rest in motion. -/
theorem c87_distance_false : ∃ (st : JStep ℚ) (bodies : Nat → JBody ℚ) (pos pos' : Arr (Pos ℚ)) (k : DistanceJ ℚ)
    (j' j'' : Joint ℚ) (v v' : Arr (Vel ℚ)) (log log' : List (Arr (Vel ℚ) × Arr (Vel ℚ))) (M J : Nat → ℚ),
    k = DistanceJ.new 0 1 ⟨0, 0⟩ ⟨0, 0⟩ 4 1 4 0 0 ∧ (Joint.distance k).Ok 5 bodies ∧ (Joint.distance k).Passive ∧
    st.warmStarting = false ∧ st.dt * st.invDt = 1 ∧
    (Joint.distance k).calls st bodies pos v [v] = some (j', log) ∧
    j'.calls st bodies pos' v' [v'] = some (j'', log') ∧
    energy2 M J v' = 0 ∧ 0 < (log'.map fun e => energy2 M J e.2 - energy2 M J e.1).sum := by
  let st : JStep ℚ := ⟨1 / 2, 2, 1, false⟩
  let k : DistanceJ ℚ := DistanceJ.new 0 1 ⟨0, 0⟩ ⟨0, 0⟩ 4 1 4 0 0
  let v : Arr (Vel ℚ) := ⟨5, fun i => if i = 1 then ⟨⟨3, 0⟩, 0⟩ else ⟨⟨0, 0⟩, 0⟩⟩
  let v' : Arr (Vel ℚ) := ⟨5, fun _ => ⟨⟨0, 0⟩, 0⟩⟩
  let pos' : Arr (Pos ℚ) := ⟨5, fun i => if i = 1 then ⟨⟨3, 0⟩, 0⟩ else ⟨⟨0, 0⟩, 0⟩⟩
  let M : Nat → ℚ := fun i => if i = 1 then 1 / 2 else 1
  let J : Nat → ℚ := fun i => if i = 1 then 1 / 3 else 1
  let c := (Joint.distance k).calls st JEx.bodies JEx.pos v [v]
  have hs : c.isSome = true := by decide +kernel
  let c' := (c.get hs).1.calls st JEx.bodies pos' v' [v']
  have hs' : c'.isSome = true := by decide +kernel +revert
  refine ⟨st, JEx.bodies, JEx.pos, pos', k, (c.get hs).1, (c'.get hs').1, v, v', (c.get hs).2, (c'.get hs').2, M, J, rfl, ?_,
    ?_, rfl, by decide +kernel, by simp [c], by simp [c'], by decide +kernel, by decide +kernel +revert⟩
  · constructor <;> decide +kernel
  · intro _; show k.stiffness ≤ 0; decide +kernel

/-- The inverse masses of the examples. -/
def jInvM : Nat → ℚ := fun i => (JEx.bodies i).invMass
def jInvI : Nat → ℚ := fun i => (JEx.bodies i).invI
def jM : Nat → ℚ := fun i => 1 / jInvM i
def jJ : Nat → ℚ := fun i => 1 / jInvI i
/-- Joints that only hold. -/
def jPassive : List (Joint ℚ) :=
  [.revolute { JEx.revolute with enableMotor := false }, .prismatic { JEx.prismatic with enableMotor := false },
   .wheel { JEx.wheel with enableMotor := false, stiffness := 0 }, .distance JEx.distance, .weld JEx.weld,
   .pulley JEx.pulley, .gear JEx.gear]

/-- The hypotheses of C87 for joints of all kinds that can be passive, on moving bodies; together they take energy away. -/
example : (∀ j ∈ jPassive, j.Ok 5 JEx.bodies ∧ j.Knows JEx.bodies jInvM jInvI) ∧
    (Joint.prismatic { JEx.prismatic with enableMotor := false }).Passive ∧
    (Joint.wheel { JEx.wheel with enableMotor := false, stiffness := 0 }).Passive ∧ (Joint.gear JEx.gear).Passive ∧
    (Joint.distance JEx.distance).Passive ∧ (JEx.distance.lowerImpulse = 0 ∧ JEx.distance.upperImpulse = 0) ∧
    NothingDriven jM jJ jInvM jInvI JEx.vel ∧
    ∃ js v ms, islandVelocity { JEx.st with warmStarting := false } false 3 JEx.bodies JEx.pos JEx.vel [] jPassive =
      some (js, v, ms) ∧ energy2 jM jJ v < energy2 jM jJ JEx.vel := by
  refine ⟨?_, ?_, ?_, ?_, ?_, by decide +kernel, ?_, ?_⟩
  · intro j hj
    have key : ∀ j ∈ jPassive, ((JEx.bodies j.bodyA).index < 5 ∧ (JEx.bodies j.bodyB).index < 5 ∧
        (JEx.bodies j.bodyA).index ≠ (JEx.bodies j.bodyB).index ∧ 0 ≤ (JEx.bodies j.bodyA).invMass ∧
        0 ≤ (JEx.bodies j.bodyB).invMass ∧ 0 < (JEx.bodies j.bodyA).invMass + (JEx.bodies j.bodyB).invMass ∧
        0 ≤ (JEx.bodies j.bodyA).invI ∧ 0 ≤ (JEx.bodies j.bodyB).invI) ∧
        (j.touched.Pairwise fun a b => (JEx.bodies a).index ≠ (JEx.bodies b).index ∨
          (JEx.bodies a).invMass = 0 ∧ (JEx.bodies a).invI = 0) ∧
        ∀ b ∈ j.touched, (JEx.bodies b).invMass = jInvM (JEx.bodies b).index ∧
          (JEx.bodies b).invI = jInvI (JEx.bodies b).index := by decide +kernel
    obtain ⟨⟨a1, a2, a3, a4, a5, a6, a7, a8⟩, h⟩ := key j hj
    exact ⟨⟨a1, a2, a3, a4, a5, a6, a7, a8⟩, h⟩
  · refine ⟨rfl, ?_, ?_⟩ <;> decide +kernel
  · refine ⟨⟨rfl, ?_⟩, ?_, ?_, ?_⟩ <;> decide +kernel
  · exact ⟨fun h => (by cases h), fun _ => (by decide +kernel)⟩
  · intro h; exact absurd h (by decide +kernel)
  · have key : ∀ i, i < 5 → (jM i * jInvM i = 1 ∨ jInvM i = 0 ∧ (JEx.vel.at' i).v = ⟨0, 0⟩) ∧
        (jJ i * jInvI i = 1 ∨ jInvI i = 0 ∧ (JEx.vel.at' i).w = 0) := by decide +kernel
    exact fun i hi => key i hi
  · let c := islandVelocity { JEx.st with warmStarting := false } false 3 JEx.bodies JEx.pos JEx.vel [] jPassive
    have hs : c.isSome = true := by decide +kernel
    have he : energy2 jM jJ (c.get hs).2.1 < energy2 jM jJ JEx.vel := by decide +kernel +revert
    exact ⟨(c.get hs).1, (c.get hs).2.1, (c.get hs).2.2, by simp [c], he⟩


/-- C88 is false of several iterations: at an anchor that is not a centre of mass, a velocity iteration of a friction
joint can speed a body up (its impulse is cut off to the bound by length, not to where it takes most energy). -/
theorem c88_false : ∃ (st : JStep ℚ) (bodies : Nat → JBody ℚ) (pos : Arr (Pos ℚ)) (k : FrictionJ ℚ) (j' : Joint ℚ)
    (v : Arr (Vel ℚ)) (vs : List (Arr (Vel ℚ))) (log : List (Arr (Vel ℚ) × Arr (Vel ℚ))) (M J invM invI : Nat → ℚ),
    st.warmStarting = false ∧ st.dt * st.invDt = 1 ∧ (Joint.friction k).Ok 2 bodies ∧
    (Joint.friction k).Knows bodies invM invI ∧ 0 < k.maxForce ∧ (∀ u ∈ vs, NothingDriven M J invM invI u) ∧
    (Joint.friction k).calls st bodies pos v vs = some (j', log) ∧ ∃ e ∈ log, energy2 M J e.1 < energy2 M J e.2 := by
  let st : JStep ℚ := ⟨1 / 2, 2, 1, false⟩
  let bodies : Nat → JBody ℚ := fun i => if i = 1 then ⟨1, ⟨0, 0⟩, 1, 99⟩ else ⟨i, ⟨0, 0⟩, 0, 0⟩
  let pos : Arr (Pos ℚ) := ⟨2, fun _ => ⟨⟨0, 0⟩, 0⟩⟩
  let k : FrictionJ ℚ := { JEx.friction with localAnchorA := ⟨1, 0⟩, localAnchorB := ⟨1, 0⟩, maxForce := 2, maxTorque := 0 }
  let v1 : Arr (Vel ℚ) := ⟨2, fun i => if i = 1 then ⟨⟨0, -100⟩, 0⟩ else ⟨⟨0, 0⟩, 0⟩⟩
  let v2 : Arr (Vel ℚ) := ⟨2, fun i => if i = 1 then ⟨⟨-3 / 4, 0⟩, 0⟩ else ⟨⟨0, 0⟩, 0⟩⟩
  let M : Nat → ℚ := fun i => if i = 1 then 1 else 0
  let J : Nat → ℚ := fun i => if i = 1 then 1 / 99 else 0
  let c := (Joint.friction k).calls st bodies pos v1 [v1, v2]
  have hs : c.isSome = true := by decide +kernel
  refine ⟨st, bodies, pos, k, (c.get hs).1, v1, [v1, v2], (c.get hs).2, M, J, fun i => (bodies i).invMass,
    fun i => (bodies i).invI, rfl, by decide +kernel, ?_, ?_, by decide +kernel, ?_, by simp [c], by decide +kernel +revert⟩
  · constructor <;> decide +kernel
  · have key : ((Joint.friction k).touched.Pairwise fun a b => (bodies a).index ≠ (bodies b).index ∨
        (bodies a).invMass = 0 ∧ (bodies a).invI = 0) ∧ ∀ b ∈ (Joint.friction k).touched,
        (bodies b).invMass = (bodies (bodies b).index).invMass ∧ (bodies b).invI = (bodies (bodies b).index).invI := by
      decide +kernel
    exact key
  · have key : ∀ u ∈ [v1, v2], u.len = 2 ∧ ∀ i, i < 2 → (M i * (bodies i).invMass = 1 ∨ (bodies i).invMass = 0 ∧
        (u.at' i).v = ⟨0, 0⟩) ∧ (J i * (bodies i).invI = 1 ∨ (bodies i).invI = 0 ∧ (u.at' i).w = 0) := by decide +kernel
    intro u hu i hi
    obtain ⟨hl, h⟩ := key u hu
    exact h i (by rw [← hl]; exact hi)

/-- The hypotheses of C88 (in part) for a friction joint at the centres of two bodies in motion; it takes energy. -/
example : ∃ (st : JStep ℚ) (k : FrictionJ ℚ), st.warmStarting = false ∧ (Joint.friction k).Ok 5 JEx.bodies ∧
    (Joint.friction k).Knows JEx.bodies jInvM jInvI ∧ epsilon ≤ st.dt * k.maxForce ∧ 0 ≤ st.dt * k.maxTorque ∧
    k.localAnchorA = (JEx.bodies k.bodyA).localCenter ∧ k.localAnchorB = (JEx.bodies k.bodyB).localCenter ∧
    NothingDriven jM jJ jInvM jInvI JEx.vel ∧ ∃ r ∈ (Joint.friction k).calls st JEx.bodies JEx.pos JEx.vel [JEx.vel, JEx.vel],
      ∃ e ∈ r.2, energy2 jM jJ e.2 < energy2 jM jJ e.1 := by
  let k : FrictionJ ℚ := { JEx.friction with localAnchorA := ⟨0, 0⟩, localAnchorB := ⟨0, 0⟩ }
  refine ⟨{ JEx.st with warmStarting := false }, k, rfl, ?_, ?_, by decide +kernel, by decide +kernel, rfl, rfl, ?_, ?_⟩
  · constructor <;> decide +kernel
  · have key : ((Joint.friction k).touched.Pairwise fun a b => (JEx.bodies a).index ≠ (JEx.bodies b).index ∨
        (JEx.bodies a).invMass = 0 ∧ (JEx.bodies a).invI = 0) ∧ ∀ b ∈ (Joint.friction k).touched,
        (JEx.bodies b).invMass = jInvM (JEx.bodies b).index ∧ (JEx.bodies b).invI = jInvI (JEx.bodies b).index := by
      decide +kernel
    exact key
  · have key : ∀ i, i < 5 → (jM i * jInvM i = 1 ∨ jInvM i = 0 ∧ (JEx.vel.at' i).v = ⟨0, 0⟩) ∧
        (jJ i * jInvI i = 1 ∨ jInvI i = 0 ∧ (JEx.vel.at' i).w = 0) := by decide +kernel
    exact fun i hi => key i hi
  · decide +kernel

end
end B2.Props
