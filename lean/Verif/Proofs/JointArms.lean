import Verif.Proofs.JointArray

/-!
# Where joints act

After it is initialized a joint holds the masses of its bodies and acts at its anchors (`Armed`).
-/
namespace B2

section
variable {F : Type} [Field F] [LinearOrder F]

theorem worldPoint_arm [Elem F] (b : JBody F) (pos : Arr (Pos F)) (x : Vec2 F) :
    b.arm (pos.at' b.index).a x = b.worldPoint pos x - (pos.at' b.index).c := by
  ext <;> simp [JBody.arm, JBody.worldPoint, Pos.xf, Xf.mulV, Rot.mulV, Rot.ofAngle] <;> ring

/-- The joint holds the masses of its bodies and acts at its anchors. -/
def Joint.Armed [Elem F] (bodies : Nat → JBody F) (pos : Arr (Pos F)) (j : Joint F) : Prop :=
  let cA := (pos.at' (bodies j.bodyA).index).c
  let cB := (pos.at' (bodies j.bodyB).index).c
  let xA := j.anchorA bodies pos
  let xB := j.anchorB bodies pos
  let f : PairFrame F := ⟨bodies j.bodyA, bodies j.bodyB⟩
  match j with
  | .revolute j => j.frame = f ∧ j.rA = xA - cA ∧ j.rB = xB - cB
  | .prismatic j => j.frame = f ∧ (j.s1 = cross (xB - cA) j.perp ∧ j.a1 = cross (xB - cA) j.axis) ∧
      (j.s2 = cross (xB - cB) j.perp ∧ j.a2 = cross (xB - cB) j.axis)
  | .distance j => j.frame = f ∧ (j.rA = xA - cA ∧ cross (xB - xA) j.u = 0) ∧ j.rB = xB - cB
  | .weld j => j.frame = f ∧ j.rA = xA - cA ∧ j.rB = xB - cB
  | .wheel j => j.frame = f ∧ (j.sAy = cross (xB - cA) j.ay ∧ j.sAx = cross (xB - cA) j.ax) ∧
      (j.sBy = cross (xB - cB) j.ay ∧ j.sBx = cross (xB - cB) j.ax)
  | .friction j => j.frame = f ∧ j.rA = xA - cA ∧ j.rB = xB - cB
  | .motor j => j.frame = f ∧ j.rA = xA - cA ∧ j.rB = xB - cB
  | .pulley j => j.frame = f ∧ j.rA = xA - cA ∧ j.rB = xB - cB
  | .mouse j => j.frame = f.b ∧ True ∧ j.rB = xB - cB
  | .gear j => (j.fA = f.a ∧ j.fB = f.b ∧ j.fC = bodies j.bodyC ∧ j.fD = bodies j.bodyD)

theorem Joint.armed_strip [Elem F] {bodies : Nat → JBody F} {pos : Arr (Pos F)} {j : Joint F} :
    j.strip.Armed bodies pos ↔ j.Armed bodies pos := by cases j <;> exact Iff.rfl

theorem arm_anchorA [Elem F] (bodies : Nat → JBody F) (pos : Arr (Pos F)) (j : Joint F) :
    (bodies j.bodyA).arm (pos.at' (bodies j.bodyA).index).a j.localAnchorA =
      j.anchorA bodies pos - (pos.at' (bodies j.bodyA).index).c := worldPoint_arm _ _ _
theorem arm_anchorB [Elem F] (bodies : Nat → JBody F) (pos : Arr (Pos F)) (j : Joint F) :
    (bodies j.bodyB).arm (pos.at' (bodies j.bodyB).index).a j.localAnchorB =
      j.anchorB bodies pos - (pos.at' (bodies j.bodyB).index).c := worldPoint_arm _ _ _

theorem d_eq (cA cB xA xB : Vec2 F) : cB - cA + (xB - cB) - (xA - cA) + (xA - cA) = xB - cA := by
  ext <;> simp
theorem d_eq' (cA cB xA xB : Vec2 F) : cB + (xB - cB) - cA - (xA - cA) + (xA - cA) = xB - cA := by
  ext <;> simp
theorem d_eq'' (cA cB xA xB : Vec2 F) : cB + (xB - cB) - cA - (xA - cA) = xB - xA := by
  ext <;> simp

theorem Joint.prepared_armed [Elem F] (st : JStep F) (bodies : Nat → JBody F) (pos : Arr (Pos F)) (j : Joint F) :
    (j.prepared st bodies pos).Armed bodies pos := by
  cases j with
  | revolute j => exact ⟨rfl, arm_anchorA bodies pos (.revolute j), arm_anchorB bodies pos (.revolute j)⟩
  | prismatic j =>
    have hA := arm_anchorA bodies pos (.prismatic j)
    have hB := arm_anchorB bodies pos (.prismatic j)
    simp only [Joint.localAnchorA, Joint.localAnchorB, Joint.bodyA, Joint.bodyB] at hA hB
    refine ⟨rfl, ⟨?_, ?_⟩, ⟨?_, ?_⟩⟩ <;> simp only [Prismatic.prepare, Joint.bodyA, Joint.bodyB, hA, hB, d_eq] <;> rfl
  | distance j =>
    have hA := arm_anchorA bodies pos (.distance j)
    have hB := arm_anchorB bodies pos (.distance j)
    simp only [Joint.localAnchorA, Joint.localAnchorB, Joint.bodyA, Joint.bodyB] at hA hB
    have key : ∀ k : DistanceJ F, k = (j.prepare bodies ⟨pos.at' (bodies j.bodyA).index, pos.at' (bodies j.bodyB).index⟩).soften st →
        k.bodyA = j.bodyA ∧ k.bodyB = j.bodyB ∧ k.localAnchorA = j.localAnchorA ∧ k.localAnchorB = j.localAnchorB ∧
        k.frame = ⟨bodies j.bodyA, bodies j.bodyB⟩ ∧
        k.rA = (bodies j.bodyA).arm (pos.at' (bodies j.bodyA).index).a j.localAnchorA ∧
        k.rB = (bodies j.bodyB).arm (pos.at' (bodies j.bodyB).index).a j.localAnchorB ∧
        k.u = (j.prepare bodies ⟨pos.at' (bodies j.bodyA).index, pos.at' (bodies j.bodyB).index⟩).u := by
      intro k hk
      rw [hk]; unfold DistanceJ.soften
      split <;> exact ⟨rfl, rfl, rfl, rfl, rfl, rfl, rfl, rfl⟩
    have k := key _ rfl
    simp only [Joint.Armed, Joint.prepared, Joint.bodyA, Joint.bodyB, Joint.anchorA, Joint.anchorB, Joint.localAnchorA,
      Joint.localAnchorB]
    obtain ⟨k1, k2, k3, k4, k5, k6, k7, k8⟩ := k
    rw [k1, k2, k3, k4, k5, k6, k7, k8]
    refine ⟨rfl, ⟨hA, ?_⟩, hB⟩
    simp only [DistanceJ.prepare, hA, hB, d_eq'']
    split
    · simp only [cross, Vec2.smul_x, Vec2.smul_y, Vec2.sub_x, Vec2.sub_y, Joint.anchorA, Joint.anchorB, Joint.bodyA,
        Joint.bodyB, Joint.localAnchorA, Joint.localAnchorB]; ring
    · simp [cross]
  | weld j =>
    simp only [Joint.prepared, Joint.Armed]
    simp only [Weld.prepare]
    split
    · exact ⟨rfl, arm_anchorA bodies pos (.weld j), arm_anchorB bodies pos (.weld j)⟩
    · split
      · exact ⟨rfl, arm_anchorA bodies pos (.weld j), arm_anchorB bodies pos (.weld j)⟩
      · exact ⟨rfl, arm_anchorA bodies pos (.weld j), arm_anchorB bodies pos (.weld j)⟩
  | wheel j =>
    have hA := arm_anchorA bodies pos (.wheel j)
    have hB := arm_anchorB bodies pos (.wheel j)
    simp only [Joint.localAnchorA, Joint.localAnchorB, Joint.bodyA, Joint.bodyB] at hA hB
    refine ⟨rfl, ⟨?_, ?_⟩, ⟨?_, ?_⟩⟩ <;> simp only [Wheel.prepare, Joint.bodyA, Joint.bodyB, hA, hB, d_eq'] <;> rfl
  | friction j => exact ⟨rfl, arm_anchorA bodies pos (.friction j), arm_anchorB bodies pos (.friction j)⟩
  | motor j =>
    refine ⟨rfl, arm_anchorA bodies pos (.motor j), ?_⟩
    refine Eq.trans ?_ (arm_anchorB bodies pos (.motor j))
    simp only [MotorJ.prepare, JBody.arm, Joint.localAnchorB, Joint.bodyB]
    congr 1
    ext <;> simp
  | pulley j => exact ⟨rfl, arm_anchorA bodies pos (.pulley j), arm_anchorB bodies pos (.pulley j)⟩
  | mouse j => exact ⟨rfl, trivial, arm_anchorB bodies pos (.mouse j)⟩
  | gear j => exact ⟨rfl, rfl, rfl, rfl⟩

/-- Facts about a joint that its impulses do not enter. -/
theorem Joint.same_of_strip [Elem F] {j k : Joint F} (h : j.strip = k.strip) (bodies : Nat → JBody F) (pos : Arr (Pos F)) :
    j.plain = k.plain ∧ j.bodyA = k.bodyA ∧ j.bodyB = k.bodyB ∧ j.anchorA bodies pos = k.anchorA bodies pos ∧
    j.anchorB bodies pos = k.anchorB bodies pos ∧ j.pushPointA bodies pos = k.pushPointA bodies pos ∧
    (j.Armed bodies pos ↔ k.Armed bodies pos) := by
  have e : ∀ j : Joint F, j.plain = j.strip.plain ∧ j.bodyA = j.strip.bodyA ∧ j.bodyB = j.strip.bodyB ∧
      j.anchorA bodies pos = j.strip.anchorA bodies pos ∧ j.anchorB bodies pos = j.strip.anchorB bodies pos ∧
      j.pushPointA bodies pos = j.strip.pushPointA bodies pos ∧ (j.Armed bodies pos ↔ j.strip.Armed bodies pos) := by
    intro j; cases j <;> exact ⟨rfl, rfl, rfl, rfl, rfl, rfl, Iff.rfl⟩
  obtain ⟨a1, a2, a3, a4, a5, a6, a7⟩ := e j
  obtain ⟨b1, b2, b3, b4, b5, b6, b7⟩ := e k
  rw [a1, a2, a3, a4, a5, a6, a7, h, ← b1, ← b2, ← b3, ← b4, ← b5, ← b6, ← b7]
  exact ⟨rfl, rfl, rfl, rfl, rfl, rfl, Iff.rfl⟩

theorem Joint.same_prepared [Elem F] (st : JStep F) (bodies : Nat → JBody F) (pos : Arr (Pos F)) (j : Joint F) :
    (j.prepared st bodies pos).plain = j.plain ∧ (j.prepared st bodies pos).bodyA = j.bodyA ∧
    (j.prepared st bodies pos).bodyB = j.bodyB ∧ (j.prepared st bodies pos).anchorA bodies pos = j.anchorA bodies pos ∧
    (j.prepared st bodies pos).anchorB bodies pos = j.anchorB bodies pos ∧
    (j.prepared st bodies pos).pushPointA bodies pos = j.pushPointA bodies pos := by
  cases j
  case weld j =>
    simp only [Joint.prepared, Weld.prepare]
    split
    · exact ⟨rfl, rfl, rfl, rfl, rfl, rfl⟩
    · split <;> exact ⟨rfl, rfl, rfl, rfl, rfl, rfl⟩
  case distance j =>
    simp only [Joint.prepared, DistanceJ.soften]
    split <;> exact ⟨rfl, rfl, rfl, rfl, rfl, rfl⟩
  all_goals exact ⟨rfl, rfl, rfl, rfl, rfl, rfl⟩

theorem Joint.armed_frame [Elem F] {bodies : Nat → JBody F} {pos : Arr (Pos F)} {j : Joint F} (hp : j.plain = true)
    (h : j.Armed bodies pos) : j.view.frame = ⟨bodies j.bodyA, bodies j.bodyB⟩ := by
  cases j <;> first | exact h.1 | cases hp

/-- The force acts at the anchor of B and at the push point of A. -/
theorem Joint.armed_wrench [Elem F] {bodies : Nat → JBody F} {pos : Arr (Pos F)} {j : Joint F} (hp : j.plain = true)
    (h : j.Armed bodies pos) :
    j.view.lb = cross (j.anchorB bodies pos - (pos.at' (bodies j.bodyB).index).c) j.view.p + j.reactionTorque 1 ∧
    j.view.la = cross (j.pushPointA bodies pos - (pos.at' (bodies j.bodyA).index).c) j.view.p + j.reactionTorque 1 := by
  cases j with
  | revolute j =>
    obtain ⟨_, h1, h2⟩ := h
    simp only [Joint.view, Revolute.view, Joint.reactionTorque, Revolute.reactionTorque, h1, h2]
    exact ⟨by ring, by simp only [Joint.pushPointA]; ring⟩
  | prismatic j =>
    obtain ⟨_, ⟨h1, h2⟩, h3, h4⟩ := h
    simp only [Joint.view, Prismatic.view, Joint.reactionTorque, Prismatic.reactionTorque, h1, h2, h3, h4, Joint.pushPointA]
    constructor <;> simp only [cross, Vec2.add_x, Vec2.add_y, Vec2.smul_x, Vec2.smul_y] <;> ring
  | distance j =>
    obtain ⟨_, ⟨h1, h2⟩, h3⟩ := h
    simp only [Joint.view, DistanceJ.view, Joint.reactionTorque, DistanceJ.reactionTorque, h1, h3, Joint.pushPointA]
    simp only [cross, Vec2.sub_x, Vec2.sub_y, Vec2.smul_x, Vec2.smul_y] at h2 ⊢
    constructor
    · ring
    · linear_combination (-(j.impulse + j.lowerImpulse - j.upperImpulse)) * h2
  | weld j =>
    obtain ⟨_, h1, h2⟩ := h
    simp only [Joint.view, Weld.view, Joint.reactionTorque, Weld.reactionTorque, h1, h2]
    exact ⟨by ring, by simp only [Joint.pushPointA]; ring⟩
  | wheel j =>
    obtain ⟨_, ⟨h1, h2⟩, h3, h4⟩ := h
    simp only [Joint.view, Wheel.view, Joint.reactionTorque, Wheel.reactionTorque, h1, h2, h3, h4, Joint.pushPointA]
    constructor <;> simp only [cross, Vec2.add_x, Vec2.add_y, Vec2.smul_x, Vec2.smul_y] <;> ring
  | friction j =>
    obtain ⟨_, h1, h2⟩ := h
    simp only [Joint.view, FrictionJ.view, Joint.reactionTorque, FrictionJ.reactionTorque, h1, h2]
    exact ⟨by ring, by simp only [Joint.pushPointA]; ring⟩
  | motor j =>
    obtain ⟨_, h1, h2⟩ := h
    simp only [Joint.view, MotorJ.view, Joint.reactionTorque, MotorJ.reactionTorque, h1, h2]
    exact ⟨by ring, by simp only [Joint.pushPointA]; ring⟩
  | pulley j => cases hp
  | mouse j => cases hp
  | gear j => cases hp

/-- The reported force and torque are the accumulated impulse over the time. -/
theorem Joint.reaction_view {j : Joint F} (hp : j.plain = true) (invDt : F) :
    j.reactionForce invDt = invDt * j.view.p ∧ j.reactionTorque invDt = invDt * j.reactionTorque 1 := by
  cases j with
  | revolute j => exact ⟨rfl, by simp [Joint.reactionTorque, Revolute.reactionTorque]⟩
  | prismatic j => exact ⟨rfl, by simp [Joint.reactionTorque, Prismatic.reactionTorque]⟩
  | distance j =>
    refine ⟨?_, by simp [Joint.reactionTorque, DistanceJ.reactionTorque]⟩
    ext <;> simp [Joint.reactionForce, DistanceJ.reactionForce, Joint.view, DistanceJ.view] <;> ring
  | weld j => exact ⟨rfl, by simp [Joint.reactionTorque, Weld.reactionTorque]⟩
  | wheel j => exact ⟨rfl, by simp [Joint.reactionTorque, Wheel.reactionTorque]⟩
  | friction j => exact ⟨rfl, by simp [Joint.reactionTorque, FrictionJ.reactionTorque]⟩
  | motor j => exact ⟨rfl, by simp [Joint.reactionTorque, MotorJ.reactionTorque]⟩
  | pulley j => cases hp
  | mouse j => cases hp
  | gear j => cases hp

/-! ## All calls of a step -/

theorem Joint.solves_cons [Elem F] {st : JStep F} {j j' : Joint F} {v : Arr (Vel F)} {vs : List (Arr (Vel F))}
    {log : List (Arr (Vel F) × Arr (Vel F))} (h : j.solves st (v :: vs) = some (j', log)) :
    ∃ j1 v1 log1, j.solveVel st v = some (j1, v1) ∧ j1.solves st vs = some (j', log1) ∧ log = (v, v1) :: log1 := by
  simp only [Joint.solves] at h
  obtain ⟨r, hr, h⟩ := Option.bind_eq_some_iff.1 h
  obtain ⟨r', hr', h⟩ := Option.bind_eq_some_iff.1 h
  simp only [Option.pure_def, Option.some.injEq, Prod.mk.injEq] at h
  obtain ⟨rfl, rfl⟩ := h
  exact ⟨r.1, r.2, r'.2, hr, hr', rfl⟩

theorem Joint.solves_nil [Elem F] {st : JStep F} {j j' : Joint F} {log : List (Arr (Vel F) × Arr (Vel F))}
    (h : j.solves st [] = some (j', log)) : j' = j ∧ log = [] := by
  simp only [Joint.solves, Option.some.injEq, Prod.mk.injEq] at h
  exact ⟨h.1.symm, h.2.symm⟩

theorem Joint.calls_some [Elem F] {st : JStep F} {bodies : Nat → JBody F} {pos : Arr (Pos F)} {j j' : Joint F}
    {v : Arr (Vel F)} {vs : List (Arr (Vel F))} {log : List (Arr (Vel F) × Arr (Vel F))}
    (h : j.calls st bodies pos v vs = some (j', log)) :
    ∃ j1 v1 log1, j.initVel st bodies pos v = some (j1, v1) ∧ j1.solves st vs = some (j', log1) ∧ log = (v, v1) :: log1 := by
  simp only [Joint.calls] at h
  obtain ⟨r, hr, h⟩ := Option.bind_eq_some_iff.1 h
  obtain ⟨r', hr', h⟩ := Option.bind_eq_some_iff.1 h
  simp only [Option.pure_def, Option.some.injEq, Prod.mk.injEq] at h
  obtain ⟨rfl, rfl⟩ := h
  exact ⟨r.1, r.2, r'.2, hr, hr', rfl⟩

/-- A chain of kicks. -/
inductive Kicks : View F → View F → List (Arr (Vel F) × Arr (Vel F)) → Prop
  | nil (v) : Kicks v v []
  | cons {u v w : View F} {a b : Arr (Vel F)} {log} : JKick u v a b → Kicks v w log → Kicks u w ((a, b) :: log)

theorem Joint.solves_kicks [Elem F] {st : JStep F} : ∀ {vs : List (Arr (Vel F))} {j j' : Joint F}
    {log : List (Arr (Vel F) × Arr (Vel F))}, j.plain = true → j.solves st vs = some (j', log) →
    Kicks j.view j'.view log ∧ j'.strip = j.strip
  | [], j, j', log, _, h => by
    obtain ⟨rfl, rfl⟩ := Joint.solves_nil h
    exact ⟨.nil _, rfl⟩
  | v :: vs, j, j', log, hp, h => by
    obtain ⟨j1, v1, log1, h1, h2, rfl⟩ := Joint.solves_cons h
    obtain ⟨k1, s1⟩ := Joint.solveVel_plain hp h1
    have hp1 : j1.plain = true := by rw [← j1.plain_strip, s1, j.plain_strip, hp]
    obtain ⟨k2, s2⟩ := Joint.solves_kicks hp1 h2
    exact ⟨.cons k1 k2, s2.trans s1⟩

theorem Joint.calls_kicks [Elem F] {st : JStep F} {bodies : Nat → JBody F} {pos : Arr (Pos F)} {j j' : Joint F}
    {v : Arr (Vel F)} {vs : List (Arr (Vel F))} {log : List (Arr (Vel F) × Arr (Vel F))} (hp : j.plain = true)
    (hc : j.startsClean st) (h : j.calls st bodies pos v vs = some (j', log)) :
    Kicks j'.view.start j'.view log ∧ j'.strip = (j.prepared st bodies pos).strip := by
  obtain ⟨j1, v1, log1, h1, h2, rfl⟩ := Joint.calls_some h
  obtain ⟨k1, s1, _, _⟩ := Joint.initVel_plain hp hc h1
  have hp1 : j1.plain = true := by rw [← j1.plain_strip, s1, Joint.plain_strip, Joint.plain_prepared, hp]
  obtain ⟨k2, s2⟩ := Joint.solves_kicks hp1 h2
  refine ⟨?_, s2.trans s1⟩
  have hf : j'.view.start = j1.view.start := by
    simp only [View.start, ← j'.frame_strip, ← j1.frame_strip, s2]
  rw [hf]; exact .cons k1 k2

theorem Joint.calls_same [Elem F] {st : JStep F} {bodies : Nat → JBody F} {pos : Arr (Pos F)} {j j' : Joint F}
    (h : j'.strip = (j.prepared st bodies pos).strip) :
    j'.plain = j.plain ∧ j'.bodyA = j.bodyA ∧ j'.bodyB = j.bodyB ∧ j'.anchorA bodies pos = j.anchorA bodies pos ∧
    j'.anchorB bodies pos = j.anchorB bodies pos ∧ j'.pushPointA bodies pos = j.pushPointA bodies pos ∧
    j'.Armed bodies pos := by
  obtain ⟨a1, a2, a3, a4, a5, a6, a7⟩ := Joint.same_of_strip h bodies pos
  obtain ⟨b1, b2, b3, b4, b5, b6⟩ := j.same_prepared st bodies pos
  exact ⟨a1.trans b1, a2.trans b2, a3.trans b3, a4.trans b4, a5.trans b5, a6.trans b6, a7.2 (j.prepared_armed st bodies pos)⟩

theorem Kicks.frame {u v : View F} {log : List (Arr (Vel F) × Arr (Vel F))} (h : Kicks u v log) : v.frame = u.frame := by
  induction h with
  | nil => rfl
  | cons k _ ih => exact ih.trans k.frame

theorem Kicks.gainedB {u v : View F} {log : List (Arr (Vel F) × Arr (Vel F))} (h : Kicks u v log)
    (hne : u.frame.a.index ≠ u.frame.b.index) {m I : F} (hm : m * u.frame.b.invMass = 1) (hI : I * u.frame.b.invI = 1) :
    momentumGained m u.frame.b.index log = v.p - u.p ∧ spinGained I u.frame.b.index log = v.lb - u.lb := by
  induction h with
  | nil => exact ⟨by ext <;> simp [momentumGained], by simp [spinGained]⟩
  | @cons u v w a b log k _ ih =>
    rw [k.frame] at ih
    obtain ⟨i1, i2⟩ := ih hne hm hI
    have hb := k.atB hne
    refine ⟨?_, ?_⟩
    · have e1 := congrArg Vec2.x i1
      have e2 := congrArg Vec2.y i1
      simp only [momentumGained, Vec2.sub_x, Vec2.sub_y] at e1 e2
      ext <;> simp only [momentumGained, List.map_cons, List.sum_cons, hb, Vec2.add_x, Vec2.add_y, Vec2.smul_x, Vec2.smul_y,
        Vec2.sub_x, Vec2.sub_y]
      · rw [e1]; linear_combination (v.p.x - u.p.x) * hm
      · rw [e2]; linear_combination (v.p.y - u.p.y) * hm
    · simp only [spinGained] at i2
      simp only [spinGained, List.map_cons, List.sum_cons, hb]
      rw [i2]; linear_combination (v.lb - u.lb) * hI

theorem Kicks.gainedA {u v : View F} {log : List (Arr (Vel F) × Arr (Vel F))} (h : Kicks u v log)
    (hne : u.frame.a.index ≠ u.frame.b.index) {m I : F} (hm : m * u.frame.a.invMass = 1) (hI : I * u.frame.a.invI = 1) :
    momentumGained m u.frame.a.index log = u.p - v.p ∧ spinGained I u.frame.a.index log = u.la - v.la := by
  induction h with
  | nil => exact ⟨by ext <;> simp [momentumGained], by simp [spinGained]⟩
  | @cons u v w a b log k _ ih =>
    rw [k.frame] at ih
    obtain ⟨i1, i2⟩ := ih hne hm hI
    have hb := k.atA hne
    refine ⟨?_, ?_⟩
    · have e1 := congrArg Vec2.x i1
      have e2 := congrArg Vec2.y i1
      simp only [momentumGained, Vec2.sub_x, Vec2.sub_y] at e1 e2
      ext <;> simp only [momentumGained, List.map_cons, List.sum_cons, hb, Vec2.add_x, Vec2.add_y, Vec2.smul_x, Vec2.smul_y,
        Vec2.sub_x, Vec2.sub_y]
      · rw [e1]; linear_combination (u.p.x - v.p.x) * hm
      · rw [e2]; linear_combination (u.p.y - v.p.y) * hm
    · simp only [spinGained] at i2
      simp only [spinGained, List.map_cons, List.sum_cons, hb]
      rw [i2]; linear_combination (u.la - v.la) * hI

end
end B2
