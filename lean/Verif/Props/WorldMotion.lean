import Verif.Proofs.WorldFree
import Verif.Proofs.WorldPlain
import Verif.Proofs.WorldDisabled
import Verif.Proofs.WorldExample

/-!
# How a step moves bodies

Whole steps: contact update, islands, solvers, sleeping and the sub-steps at times of impact. The numeric routines are those of
an arbitrary environment of which only what `HeavyStay` and `FreeStay` say is assumed.
-/
namespace B2.Props
set_option linter.unusedSectionVars false
open B2 Spec World

section
variable {F : Type} [Field F] [LinearOrder F] [IsStrictOrderedRing F] [Elem F]

theorem same_pose {t : BodyType} {p q : Phys F} (hp : Consistent t p) (hq : Consistent t q) (hl : q.sweep.localCenter = p.sweep.localCenter)
    (hc : q.sweep.c = p.sweep.c) (ha : q.sweep.a = p.sweep.a) : q.xf = p.xf := by
  have h1 : Posed p := posed_iff.mpr ⟨hp.rotation, hp.center⟩
  have h2 : Posed q := posed_iff.mpr ⟨hq.rotation, hq.center⟩
  unfold Posed at h1 h2
  rw [h1, h2, hl, hc, ha]

/-! ## C101 -/

/-- A step does not move a static body, whatever hits it. -/
theorem c101_static {env : Env F} {w w' : World F} (hE : LeavesBodies env) (hP : PostSolveLinks env) (hT : ToiForward env) (hH : HeavyStay env)
    (hw : PlainHist env w) {dt : F} {vi pi : Nat} (hsub : w.subStepping = false) (e : w.step env dt vi pi = some w') :
    ∀ b ∈ w.g.bodyList, w.typeOf b = .static → w'.typeOf b = .static ∧ (w'.phys b).xf = (w.phys b).xf ∧
      (w'.phys b).sweep.c = (w.phys b).sweep.c ∧ (w'.phys b).sweep.a = (w.phys b).sweep.a ∧ (w'.phys b).v = ⟨0, 0⟩ ∧ (w'.phys b).w = 0 := by
  intro b hb ht
  have hi := (whist_inv hw.hist).toWInv
  have hcon := whist_stable consistent_stable hw.hist b hb
  have hr := hw.rests hE hP hT hH b hb
  obtain ⟨r1, r2, r3, r4⟩ := hr ht
  obtain ⟨⟨k0, k1, k2, k3, k4, hc, ha⟩, -, -⟩ := rest_step hE hP hT hH hi hw.complete hb hcon (by rw [ht]; decide) ⟨r1, r2, r3, r4⟩ e
  rw [k1] at k0
  exact ⟨k1.trans ht, same_pose hcon k0 k4 hc ha, hc, ha, k2.trans r1, k3.trans r2⟩

/-! ## C102 -/

/-- A kinematic body that is awake and too fast to fall asleep moves exactly with its velocity, whatever it hits. -/
theorem c102_kinematic {env : Env F} {w w' : World F} (hE : LeavesBodies env) (hP : PostSolveLinks env) (hT : ToiForward env) (hH : HeavyStay env)
    (hw : PlainHist env w) {dt : F} {vi pi : Nat} (hpos : 0 < dt) (e : w.step env dt vi pi = some w') :
    ∀ b ∈ w.g.bodyList, w.typeOf b = .kinematic → (w.phys b).awake = true → (w.g.bodies b).enabled = true →
      (w.allowSleep = true → ¬ Sleepy (w.phys b) (w.phys b).v (w.phys b).w) → Slow dt (w.phys b).v (w.phys b).w →
      (w'.phys b).sweep.c = (w.phys b).sweep.c + dt * (w.phys b).v ∧ (w'.phys b).sweep.a = (w.phys b).sweep.a + dt * (w.phys b).w ∧
      (w'.phys b).v = (w.phys b).v ∧ (w'.phys b).w = (w.phys b).w ∧ w'.typeOf b = .kinematic ∧ Consistent .kinematic (w'.phys b) := by
  intro b hb ht haw hen hsl hs
  have hi := (whist_inv hw.hist).toWInv
  have hcon := whist_stable consistent_stable hw.hist b hb
  obtain ⟨⟨k0, k1, k2, k3, -, k5, k6⟩, -⟩ := heavy_step (S := False) hE hP hT hH hi hw.complete hb hcon (by rw [ht]; decide) (fun h => by rw [ht] at h; cases h)
    (fun h => h.elim) (fun _ => ⟨haw, hen⟩) (fun _ => hs) (fun _ ha => by
      cases hr : restless (w.phys b) with
      | true => exact .inl rfl
      | false => exact absurd (restless_sleepy hr) (hsl ha)) e
  rw [max_eq_left hpos.le] at k5 k6
  rw [k1, ht] at k0
  exact ⟨k5, k6, k2, k3, k1.trans ht, k0⟩

/-! ## C103 -/

/-- A dynamic body without joints that has no contact after the step has moved by the rule for free bodies: velocity first, then
position with the new velocity; the velocity is kept unless the body fell asleep. -/
theorem c103_free {env : Env F} {w w' : World F} (hE : LeavesBodies env) (hP : PostSolveLinks env) (hT : ToiForward env) (hF : FreeStay env)
    (hw : PlainHist env w) {dt : F} {vi pi : Nat} (hpos : 0 < dt) (e : w.step env dt vi pi = some w') :
    ∀ b ∈ w.g.bodyList, w.typeOf b = .dynamic → (w.phys b).awake = true → (w.g.bodies b).enabled = true →
      (∀ j ∈ w.g.jointList, (w.g.joints j).a ≠ b ∧ (w.g.joints j).b ≠ b) → (∀ c ∈ w'.g.contactList, ¬ OfBody w' c b) →
      Slow dt (freeV dt w.gravity (w.phys b)) (freeW dt (w.phys b)) →
      (w'.phys b).sweep.c = (w.phys b).sweep.c + dt * freeV dt w.gravity (w.phys b) ∧
      (w'.phys b).sweep.a = (w.phys b).sweep.a + dt * freeW dt (w.phys b) ∧
      (((w'.phys b).v = freeV dt w.gravity (w.phys b) ∧ (w'.phys b).w = freeW dt (w.phys b) ∧ (w'.phys b).awake = true) ∨
        (w.allowSleep = true ∧ Sleepy (w.phys b) (freeV dt w.gravity (w.phys b)) (freeW dt (w.phys b)) ∧ (w'.phys b).v = ⟨0, 0⟩ ∧ (w'.phys b).w = 0)) ∧
      w'.typeOf b = .dynamic ∧ Consistent .dynamic (w'.phys b) := by
  intro b hb ht haw hen hj hm hs
  have hi := (whist_inv hw.hist).toWInv
  have hcon := whist_stable consistent_stable hw.hist b hb
  have hi' : WInv w' := (whist_inv (WHist.call (.step dt vi pi) hw.hist trivial e)).toWInv
  have hmet : ¬ Met w'.g b := by
    intro h
    obtain ⟨p, hp⟩ := List.exists_mem_of_ne_nil _ h
    obtain ⟨h1, h2⟩ := (hi'.link.edges b p.1 p.2).mp hp
    rcases h2 with ⟨h2, -⟩ | ⟨h2, -⟩
    · exact hm _ h1 (.inl h2)
    · exact hm _ h1 (.inr h2)
  have k := free_step hE hP hT hF hi hw.complete hb ht haw hen hj hpos hs e hmet
  have k0 := step_keep consistent_stable hi e b hcon
  rw [k.type] at k0
  exact ⟨k.c, k.a, k.vel, k.type, k0⟩

/-! ## C104 -/

/-- A step leaves a disabled body where it is, with its velocity. -/
theorem c104_disabled {env : Env F} {w w' : World F} (hE : LeavesBodies env) (hP : PostSolveLinks env) (hT : ToiForward env)
    (hw : PlainHist env w) {dt : F} {vi pi : Nat} (e : w.step env dt vi pi = some w') :
    ∀ b ∈ w.g.bodyList, (w.g.bodies b).enabled = false →
      w'.typeOf b = w.typeOf b ∧ (w'.phys b).xf = (w.phys b).xf ∧ (w'.phys b).sweep.c = (w.phys b).sweep.c ∧ (w'.phys b).sweep.a = (w.phys b).sweep.a ∧
      (w'.phys b).v = (w.phys b).v ∧ (w'.phys b).w = (w.phys b).w ∧ ((w.phys b).awake = true → (w'.phys b).awake = true) := by
  intro b hb hd
  obtain ⟨h1, h2, h3, h4, h5, h6⟩ := off_step hE hP hT (whist_inv hw.hist).toWInv hw.complete hb hd e
  rw [h5]
  exact ⟨h1, h2, rfl, rfl, h3, h4, h6⟩
end

attribute [local instance] exElem

/-- `Ex.env`, but contacts hit once half-way through the step. -/
private def exEnv : Env ℚ := { Ex.env with toi := fun w c => some (if (w.cst c).toiCount = 0 then (true, 1/2) else (false, 1)) }

private theorem exEnv_calm : LeavesBodies exEnv ∧ ToiForward exEnv := by
  refine ⟨fun w k op h => (by cases h), fun w c r h => ?_⟩
  rw [← show (if (w.cst c).toiCount = 0 then ((true, 1/2) : Bool × ℚ) else (false, 1)) = r from Option.some.inj h]
  split <;> norm_num

private theorem exEnv_heavy : HeavyStay exEnv where
  velocity _ _ _ states i _ s _ _ hs _ _ := by
    show (match states[i]? with | some s => (s.v, s.w) | none => (⟨0, 0⟩, 0)) = _
    rw [hs]
  position _ _ _ states i _ s _ _ hs _ _ := by
    show (match states[i]? with | some s => (s.c, s.a) | none => (⟨0, 0⟩, 0)) = _
    rw [hs]
  toiVelocity _ _ _ states i _ s _ _ hs _ _ := by
    show (match states[i]? with | some s => (s.v, s.w) | none => (⟨0, 0⟩, 0)) = _
    rw [hs]
  toiPosition w isl _ i b _ hb _ _ := by
    show (match isl.bodies[i]? with | some b => ((w.phys b).sweep.c, (w.phys b).sweep.a) | none => (⟨0, 0⟩, 0)) = _
    rw [hb]

private theorem exEnv_free : FreeStay exEnv where
  velocity _ _ _ states i _ s _ _ hs _ _ := by
    show (match states[i]? with | some s => (s.v, s.w) | none => (⟨0, 0⟩, 0)) = _
    rw [hs]
  position _ _ _ states i _ s _ _ hs _ _ := by
    show (match states[i]? with | some s => (s.c, s.a) | none => (⟨0, 0⟩, 0)) = _
    rw [hs]

/-- A ball falls on a fixed one, a kinematic one moves through both, and a fourth ball falls far away. -/
private def exMoves : List (Call ℚ) :=
  [.createBody (Ex.body .dynamic 0 1), .createFixture 0 Ex.ball, .createBody (Ex.body .static 0 0), .createFixture 1 Ex.ball,
   .createBody { Ex.body .kinematic 1 0 with linearVelocity := ⟨1, 2⟩, angularVelocity := 3 }, .createFixture 2 Ex.ball,
   .createBody { Ex.body .dynamic 100 0 with linearDamping := 1 }, .createFixture 3 Ex.ball, .step (1/60) 8 3]
private def exMoved : World ℚ := (runPlain exEnv exMoves Ex.w0).get (by decide +kernel)
private def exNext : World ℚ := (exMoved.step exEnv (1/60) 8 3).get (by decide +kernel)

private theorem exMoved_plain : PlainHist exEnv exMoved :=
  runPlain_plain exMoves (w := Ex.w0) (.new ..) (by rw [exMoved, Option.some_get])

/-- The ball touches the static and the kinematic body; the falling balls move. -/
example : LeavesBodies exEnv ∧ ToiForward exEnv ∧ HeavyStay exEnv ∧ FreeStay exEnv ∧ PlainHist exEnv exMoved ∧
    exMoved.subStepping = false ∧ exMoved.step exEnv (1/60) 8 3 = some exNext :=
  ⟨exEnv_calm.1, exEnv_calm.2, exEnv_heavy, exEnv_free, exMoved_plain, by decide +kernel, by rw [exNext, Option.some_get]⟩
/-- A static body that is hit. -/
example : 1 ∈ exMoved.g.bodyList ∧ exMoved.typeOf 1 = .static ∧ exNext.g.contactList.length = 2 ∧
    (∃ c ∈ exNext.g.contactList, (exNext.cst c).touching = true ∧ OfBody exNext c 1) ∧ (exNext.phys 0).sweep.c ≠ (exMoved.phys 0).sweep.c := by
  unfold OfBody
  decide +kernel
/-- A kinematic body that hits. -/
example : 2 ∈ exMoved.g.bodyList ∧ exMoved.typeOf 2 = .kinematic ∧ (exMoved.phys 2).awake = true ∧ (exMoved.g.bodies 2).enabled = true ∧
    ¬ Sleepy (exMoved.phys 2) (exMoved.phys 2).v (exMoved.phys 2).w ∧ Slow (1/60) (exMoved.phys 2).v (exMoved.phys 2).w ∧ (exMoved.phys 2).v = ⟨1, 2⟩ := by
  unfold Sleepy Slow
  decide +kernel
/-- A body falling freely. -/
example : 3 ∈ exMoved.g.bodyList ∧ exMoved.typeOf 3 = .dynamic ∧ (exMoved.phys 3).awake = true ∧ (exMoved.g.bodies 3).enabled = true ∧
    (∀ j ∈ exMoved.g.jointList, (exMoved.g.joints j).a ≠ 3 ∧ (exMoved.g.joints j).b ≠ 3) ∧ (∀ c ∈ exNext.g.contactList, ¬ OfBody exNext c 3) ∧
    Slow (1/60) (freeV (1/60) exMoved.gravity (exMoved.phys 3)) (freeW (1/60) (exMoved.phys 3)) ∧ (exMoved.phys 3).v ≠ ⟨0, 0⟩ := by
  unfold OfBody Slow
  decide +kernel

/-! ## C101, what fails -/

/-- A static body whose definition has a velocity; a ball lies on it. -/
private def exDrift : List (Call ℚ) :=
  [.createBody (Ex.body .dynamic 0 1), .createFixture 0 Ex.ball,
   .createBody { Ex.body .static 0 0 with linearVelocity := ⟨6, 0⟩ }, .createFixture 1 Ex.ball, .step (1/60) 8 3]
private def exDrifted : World ℚ := (runAll Ex.env exDrift Ex.w0).get (by decide +kernel)

/-- A static body created with a velocity is moved by a step, so C101 does not hold of all histories. -/
theorem c101_static_false : ¬ ∀ (env : Env ℚ) (w w' : World ℚ), LeavesBodies env → ToiForward env → HeavyStay env →
    WHist env w → w.subStepping = false → w.step env (1/60) 8 3 = some w' → ∀ b ∈ w.g.bodyList, w.typeOf b = .static → (w'.phys b).xf = (w.phys b).xf := by
  intro h
  have hH : HeavyStay Ex.env := ⟨exEnv_heavy.velocity, exEnv_heavy.position, exEnv_heavy.toiVelocity, exEnv_heavy.toiPosition⟩
  have := h Ex.env exDrifted ((exDrifted.step Ex.env (1/60) 8 3).get (by decide +kernel)) (fun w k op h => by cases h) (fun _ _ _ h => by cases h; show (0 : ℚ) ≤ 1; norm_num)
    hH (runAll_hist exDrift Ex.w0_hist (by rw [exDrifted, Option.some_get])) (by decide +kernel) (by rw [Option.some_get]) 1 (by decide +kernel) (by decide +kernel)
  have := congrArg Xf.p this
  revert this
  decide +kernel

/-- A moving ball is disabled above a fixed one. -/
private def exOff : List (Call ℚ) :=
  [.createBody { Ex.body .dynamic 0 1 with linearVelocity := ⟨1, 2⟩ }, .createFixture 0 Ex.ball, .createBody (Ex.body .static 0 0), .createFixture 1 Ex.ball,
   .step (1/60) 8 3, .setEnabled 0 false]
private def exOffW : World ℚ := (runPlain exEnv exOff Ex.w0).get (by decide +kernel)
private def exOffNext : World ℚ := (exOffW.step exEnv (1/60) 8 3).get (by decide +kernel)
example : LeavesBodies exEnv ∧ ToiForward exEnv ∧ PlainHist exEnv exOffW ∧ exOffW.step exEnv (1/60) 8 3 = some exOffNext ∧
    0 ∈ exOffW.g.bodyList ∧ (exOffW.g.bodies 0).enabled = false ∧ (exOffW.phys 0).v ≠ ⟨0, 0⟩ :=
  ⟨exEnv_calm.1, exEnv_calm.2, runPlain_plain exOff (w := Ex.w0) (.new ..) (by rw [exOffW, Option.some_get]), by rw [exOffNext, Option.some_get],
    by decide +kernel, by decide +kernel, by decide +kernel⟩

end B2.Props
