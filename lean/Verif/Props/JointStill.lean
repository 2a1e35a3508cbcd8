import Verif.Proofs.JointInit
import Verif.Proofs.JointEach

/-!
# C126, C127: a satisfied joint leaves the bodies alone, and `initialize` defines satisfied joints
-/
set_option linter.unusedSectionVars false
namespace B2.Props

section
variable {F : Type} [Field F] [LinearOrder F] [IsStrictOrderedRing F] [Elem F]

/-- C126. A joint without stored impulses, whose constraint is satisfied where the bodies are, whose motors and springs have nothing to do
and whose bodies are at rest does nothing in a step: no call changes a velocity, the position correction changes no position and reports
that it is done, and the joint still stores no impulse. -/
theorem c126_still [ElemLaws F] {n : Nat} {st : JStep F} {bodies : Nat → JBody F} {pos : Arr (Pos F)} {v : Arr (Vel F)} {vs : List (Arr (Vel F))}
    {j j' : Joint F} {log : List (Arr (Vel F) × Arr (Vel F))} (hdt : 0 ≤ st.dt) (hinv : 0 ≤ st.invDt) (hok : j.Ok n bodies) (hsane : j.Sane)
    (hun : j.Unloaded) (hsat : j.Satisfied bodies pos) (hrel : j.Relaxed bodies pos) (hrest : ∀ w ∈ v :: vs, j.AtRest bodies w)
    (h : j.calls st bodies pos v vs = some (j', log)) :
    (∀ e ∈ log, e.2 = e.1) ∧ j'.Unloaded ∧ ∀ pos' r, j'.solvePos pos = some (pos', r) → pos' = pos ∧ r = true := by
  obtain ⟨hok', ha', _⟩ := Joint.calls_ready hok h
  have hsat' : j'.Satisfied bodies pos := by
    have s := Joint.calls_strip h
    rw [← Joint.satisfied_strip, s, Joint.satisfied_strip, Joint.satisfied_prepared]
    exact hsat
  obtain ⟨j1, v1, log1, h1, h2, e⟩ := Joint.calls_some h
  obtain ⟨q, ev, et⟩ := Joint.init_quiet hok hsane hun hsat hrel (hrest v (by simp)) h1
  have h0 : j.calls st bodies pos v [] = some (j1, [(v, v1)]) := by
    unfold Joint.calls
    rw [h1]
    rfl
  obtain ⟨_, ha1, _, b1, b2⟩ := Joint.calls_ready hok h0
  obtain ⟨k1, k2⟩ := q.solves hdt hinv ha1 (fun w hw b hb => hrest w (by simp [hw]) b (by rw [← et]; exact hb)) h2
  refine ⟨?_, by rw [k1]; exact q.unloaded, fun pos' r hp => Joint.solvePos_still hok' ha' hsat' hp⟩
  rw [e]
  intro x hx
  rcases List.mem_cons.1 hx with rfl | hx
  · exact ev
  · exact k2 x hx

/-- C127. A joint that was defined by `initialize` where the bodies are has the two bodies and has its anchors at the points that were given (a mouse
joint at its target); it stores no impulse, its constraint is satisfied (if the limits leave room) and its spring is at rest. So a step does
nothing to the bodies if they are at rest and the motor is idle. -/
theorem c127_initialize [ElemLaws F] {bodies : Nat → JBody F} {pos : Arr (Pos F)} {j : Joint F} {a b : Nat} {x y : Vec2 F}
    (h : j.DefinedAt bodies pos a b x y) :
    j.bodyA = a ∧ j.bodyB = b ∧ ((∀ m, j ≠ .mouse m) → j.anchorA bodies pos = x) ∧ j.anchorB bodies pos = y ∧ j.Unloaded ∧
      (j.Room x y → j.Satisfied bodies pos) ∧ (j.MotorIdle → j.Relaxed bodies pos) ∧
      ∀ {n : Nat} {st : JStep F} {v : Arr (Vel F)} {vs : List (Arr (Vel F))} {j' : Joint F} {log : List (Arr (Vel F) × Arr (Vel F))},
        0 ≤ st.dt → 0 ≤ st.invDt → j.Ok n bodies → j.Sane → j.Room x y → j.MotorIdle → (∀ w ∈ v :: vs, j.AtRest bodies w) →
        j.calls st bodies pos v vs = some (j', log) →
        (∀ e ∈ log, e.2 = e.1) ∧ ∀ pos' r, j'.solvePos pos = some (pos', r) → pos' = pos ∧ r = true := by
  obtain ⟨h1, h2, h3, h4, h5⟩ := h.anchored
  refine ⟨h1, h2, h3, h4, h5, h.satisfied, h.relaxed, ?_⟩
  intro n st v vs j' log hd hi hok hs hr hm hv hc
  obtain ⟨k1, _, k2⟩ := c126_still hd hi hok hs h5 (h.satisfied hr) (h.relaxed hm) hv hc
  exact ⟨k1, k2⟩

/-- C127, the axis: in the world the axis of a prismatic joint is the direction of the axis that was given to `initialize`, and that of a wheel
joint is the axis that was given. -/
theorem c127_axis [ElemLaws F] {bodies : Nat → JBody F} {pos : Arr (Pos F)} {a b : Nat} {x axis : Vec2 F} :
    (∀ (d : PrismaticDef F) (j : Prismatic F), Prismatic.ofDef (d.initialize bodies pos a b x axis) = some j →
      (Rot.ofAngle (pos.at' (bodies a).index).a).mulV j.localXAxisA = axis.normalize.1) ∧
    ∀ d : WheelDef F, (Rot.ofAngle (pos.at' (bodies a).index).a).mulV (Wheel.ofDef (d.initialize bodies pos a b x axis)).localXAxisA = axis := by
  constructor
  · intro d j h
    rw [(Prismatic.ofDef_some h).2.2.2.2.2.2]
    exact mulV_normalize_mulTV (ofAngle_isRot _) axis
  · intro d
    exact rot_mulTV (ofAngle_isRot _) axis

end
namespace StillEx

/-- Two bodies, the second with its centre of mass away from its origin. -/
noncomputable def bodies : Nat → JBody ℝ
  | 0 => ⟨0, ⟨0, 0⟩, 1, 1⟩
  | _ => ⟨1, ⟨1, 0⟩, 2, 3⟩
noncomputable def pos : Arr (Pos ℝ) := ⟨2, fun i => if i = 0 then ⟨⟨0, 0⟩, 1⟩ else ⟨⟨4, 0⟩, -2⟩⟩
noncomputable def rest : Arr (Vel ℝ) := ⟨2, fun _ => ⟨⟨0, 0⟩, 0⟩⟩
noncomputable def st : JStep ℝ := ⟨1 / 2, 2, 1, true⟩
/-- A hinge with limits and an idle motor. -/
noncomputable def d : RevoluteDef ℝ :=
  { RevoluteDef.default with enableLimit := true, lowerAngle := -1, upperAngle := 1, enableMotor := true, maxMotorTorque := 5 }
noncomputable def hinge : Joint ℝ := .revolute (.ofDef (d.initialize bodies pos 0 1 ⟨2, 3⟩))

theorem ok : hinge.Ok 2 bodies := by
  constructor <;> simp [hinge, Revolute.ofDef, RevoluteDef.initialize, Joint.bodyA, Joint.bodyB, bodies] <;> norm_num

/-- The hinge meets the hypotheses of both theorems; it is at the point (2, 3) on both bodies. -/
example : hinge.anchorA bodies pos = ⟨2, 3⟩ ∧ hinge.anchorB bodies pos = ⟨2, 3⟩ ∧ hinge.Satisfied bodies pos ∧ hinge.Relaxed bodies pos ∧ hinge.Unloaded ∧
    ∃ j' log, hinge.calls st bodies pos rest [rest, rest] = some (j', log) ∧ ∀ e ∈ log, e.2 = e.1 := by
  have h : hinge.DefinedAt bodies pos 0 1 ⟨2, 3⟩ ⟨2, 3⟩ := .revolute d 0 1 ⟨2, 3⟩
  have hr : hinge.Room ⟨2, 3⟩ ⟨2, 3⟩ := by
    intro _
    have hp := Real.pi_le_four
    refine ⟨?_, ?_, ?_⟩
    · show 2 * (2 / 180 * Real.pi) ≤ (1 : ℝ) - (-1)
      linarith
    · show (-1 : ℝ) ≤ 0
      norm_num
    · show (0 : ℝ) ≤ 1
      norm_num
  have hm : hinge.MotorIdle := fun _ => rfl
  obtain ⟨_, _, h3, h4, h5, h6, h7, h8⟩ := c127_initialize h
  obtain ⟨j', log, hc⟩ : ∃ j' log, hinge.calls st bodies pos rest [rest, rest] = some (j', log) :=
    Joint.calls_total st bodies pos hinge rest [rest, rest] rfl
      (by intro k hk; simp [hinge, Revolute.ofDef, RevoluteDef.initialize, Joint.touched, Joint.bodyA, Joint.bodyB] at hk; rcases hk with rfl | rfl <;> simp [bodies, rest])
      (by simp)
  refine ⟨h3 (fun m e => by cases e), h4, h6 hr, h7 hm, h5, j', log, hc, ?_⟩
  refine (h8 (n := 2) (st := st) (v := rest) (vs := [rest, rest]) ?_ ?_ ok ?_ hr hm (fun w hw k _ => ?_) hc).1
  · norm_num [st]
  · norm_num [st]
  · show (0 : ℝ) ≤ 5
    norm_num
  · simp only [List.mem_cons, List.not_mem_nil, or_false] at hw
    rcases hw with rfl | rfl | rfl <;> rfl

end StillEx

end B2.Props
