import Verif.Proofs.WorldEnergy
import Verif.Props.Bounce
import Verif.Props.WorldStep

set_option linter.unusedSectionVars false

/-!
# C139: a world that is not fed gains no kinetic energy

Here the energy theorem of the contact solver (C73) is carried through whole steps of the world: callbacks, any number of islands of any
shape, joints, static bodies that belong to many islands, integration of damping, the engine's speed limits, sleeping. Bodies that only slide and
collide and hold each other, without friction and restitution, never have more kinetic energy after a step than before.

Joints may be there if they only hold (C87): no motors, springs, targets or friction. The steps are ones without continuous physics and
without warm starting, and the listener's `post_solve` does nothing to the world. Of root, sine and cosine only `SoftLaws` are needed.
-/
namespace B2.Props
open B2 Spec World
section
variable {F : Type} [Field F] [LinearOrder F] [IsStrictOrderedRing F] [Elem F] {E : Engine F}

/-- **C139.** A step does not add kinetic energy to a world that is not fed. -/
theorem c139_step [SoftLaws F] (hE : LeavesBodies E.env) (hC : CallbacksTame E.env) (hS : ∀ w c, E.react w (.postSolve c) = []) (hj : Seated E) (hm : MouseHasMass E)
    {w w' : World F} (h : PlainHist E.env w) (ht : TameHist E.env w) (hc : w.continuous = false) (hU : Unfed E w) {dt : F} {vi pi : Nat} (hdt : 0 < dt)
    (e : w.step E.env dt vi pi = some w') (hs : Slippery w w') : kinetic w' ≤ kinetic w ∧ Unfed E w' := by
  have hP : PostSolveLinks E.env := fun x y c h => (silent_calm (env := E.env) hS x y c h).2
  obtain ⟨k1, k2⟩ := step_energy hE hC hS (env_heavyStay hj hm) hj (whist_inv h.hist).toWInv h.complete hc hdt (whist_stable consistent_stable h.hist)
    (h.rests hE hP (env_toiForward E) (env_heavyStay hj hm)) (tame_pts hC (env_solversRun hj).impulses ht).2.2 hU e hs
  have g := step_good (whist_inv h.hist).toWInv e
  have hbl : w'.g.bodyList = w.g.bodyList := by rw [g.eq]
  have hjl : w'.g.jointList = w.g.jointList := by rw [g.eq]
  have hcf := fun b => c61_configuration h.hist hE e b
  refine ⟨?_, ?_, ?_, fun j hj' v hv => ?_, fun b hb => ?_, fun b hb => ?_, fun b hb => ?_, fun b hb => ?_⟩
  · refine le_trans (le_of_eq ?_) k2
    unfold kinetic kinOf
    rw [hbl]
    refine Finset.sum_congr rfl fun b _ => ?_
    obtain ⟨m1, -, m3, -⟩ := hcf b
    rw [m1, m3]
  · rw [g.rest.eq]; exact hU.gravity
  · rw [g.rest.eq]; exact hU.cold
  · obtain ⟨p1, p2, p3, p4, p5⟩ := hU.joints j (hjl ▸ hj') v (hv.trans (by rw [g.eq]))
    have htt : ∀ b, w'.typeOf b = w.typeOf b := fun b => by unfold World.typeOf; rw [g.body]
    refine ⟨p1, p2, p3, p4.imp fun h => h.imp id (fun h => by rw [htt]; exact h), ?_⟩
    obtain ⟨-, m2, -⟩ := hcf (E.joint v j).bodyA
    obtain ⟨-, m2', -⟩ := hcf (E.joint v j).bodyB
    rw [m2, m2']; exact p5
  · rw [hbl] at hb
    cases hcl : w.clearForces with
    | true => exact c40_cleared h.hist e hcl b (by rw [hbl]; exact hb)
    | false =>
      rcases c40_kept h.hist hE e hcl b with ⟨f1, f2⟩ | ⟨f1, f2, -⟩
      · exact ⟨f1.trans (hU.force b hb).1, f2.trans (hU.force b hb).2⟩
      · exact ⟨f1, f2⟩
  · obtain ⟨-, -, -, -, -, d1, d2, -⟩ := hcf b
    rw [d1, d2]; exact hU.damping b (hbl ▸ hb)
  · obtain ⟨m1, -, m3, -⟩ := hcf b
    rw [m1, m3]; exact hU.mass b (hbl ▸ hb)
  · obtain ⟨-, m2, -, m4, -⟩ := hcf b
    have := k1 b (hbl ▸ hb)
    unfold NoDrive at this
    rw [m2, m4]; exact this

/-- Any number of steps from `w` to `w'`, of any lengths, whose solved contacts neither rub nor bounce. -/
inductive Glides (E : Engine F) (w : World F) : World F → Prop
  | start : Glides E w w
  | step {w' w'' : World F} {dt : F} {vi pi : Nat} : Glides E w w' → 0 < dt → w'.step E.env dt vi pi = some w'' → Slippery w' w'' → Glides E w w''

/-- **C139.** However long a world that is not fed runs, its kinetic energy never exceeds what it had. -/
theorem c139_energy [SoftLaws F] (hE : LeavesBodies E.env) (hC : CallbacksTame E.env) (hS : ∀ w c, E.react w (.postSolve c) = []) (hj : Seated E) (hm : MouseHasMass E)
    {w w' : World F} (h : PlainHist E.env w) (ht : TameHist E.env w) (hc : w.continuous = false) (hsub : w.subStepping = false) (hU : Unfed E w) (hg : Glides E w w') :
    kinetic w' ≤ kinetic w := by
  have key : PlainHist E.env w' ∧ TameHist E.env w' ∧ w'.continuous = false ∧ w'.subStepping = false ∧ Unfed E w' ∧ kinetic w' ≤ kinetic w := by
    induction hg with
    | start => exact ⟨h, ht, hc, hsub, hU, le_refl _⟩
    | step _ hdt e hs ih =>
      obtain ⟨i1, i2, i3, i4, i5, i6⟩ := ih
      obtain ⟨k1, k2⟩ := c139_step hE hC hS hj hm i1 i2 i3 i5 hdt e hs
      have g := step_good (whist_inv i1.hist).toWInv e
      exact ⟨.call (.step _ _ _) i1 trivial (fun _ _ _ _ => i4) (fun d hd => by cases hd) e, .call (.step _ _ _) i2 trivial trivial e,
        by rw [g.rest.eq]; exact i3, by rw [g.rest.eq]; exact i4, k2, k1.trans i6⟩
  exact key.2.2.2.2.2

/-- The contacts that were solved neither rub nor bounce; each has one or two points, and one of its bodies can be pushed. -/
def Smooth (w w' : World F) : Prop :=
  ∀ c, Transmits w' c → (w'.cst c).friction = 0 ∧ (w'.cst c).restitution = 0 ∧ Sound (w'.cst c).manifold ∧
    ∀ x y, (w'.g.fixtures (w'.g.contacts c).fA).body = some x → (w'.g.fixtures (w'.g.contacts c).fB).body = some y → 0 < (w.phys x).invMass + (w.phys y).invMass

/-- **C139.** The same over the reals, or any field whose root, sine and cosine obey their laws: that the normals have length one need not be asked. -/
theorem c139_step_lawful [ElemLaws F] (hE : LeavesBodies E.env) (hC : CallbacksTame E.env) (hS : ∀ w c, E.react w (.postSolve c) = []) (hj : Seated E) (hm : MouseHasMass E)
    {w w' : World F} (h : PlainHist E.env w) (ht : TameHist E.env w) (hc : w.continuous = false) (hU : Unfed E w) {dt : F} {vi pi : Nat} (hdt : 0 < dt)
    (e : w.step E.env dt vi pi = some w') (hs : Smooth w w') : kinetic w' ≤ kinetic w ∧ Unfed E w' := by
  have hg := step_good (whist_inv h.hist).toWInv e
  have hbl : w'.g.bodyList = w.g.bodyList := by rw [hg.eq]
  have hq : ∀ z ∈ w.g.bodyList, (w.phys z).xf.q.s * (w.phys z).xf.q.s + (w.phys z).xf.q.c * (w.phys z).xf.q.c = 1 := fun z hz => by
    rw [(whist_stable consistent_stable h.hist z hz).rotation]
    exact ElemLaws.sin_cos _
  refine c139_step hE hC hS hj hm h ht hc hU hdt e fun c hc => ?_
  obtain ⟨s1, s2, s3, s4⟩ := hs c hc
  refine ⟨s1, s2, s3, fun x y hx hy => ⟨s4 x y hx hy, fun wm hwm => ?_⟩⟩
  obtain ⟨bA, bB, o1, o2, -, ⟨pA, m1, -, q1, -⟩, ⟨pB, m2, -, q2, -⟩, -⟩ := hg.winv.ok c hc.mem
  rw [hx] at q1; rw [hy] at q2
  cases q1; cases q2
  rw [hbl] at m1 m2
  exact worldManifold_unit (fun he => by have := s3.points; rw [he] at this; simp at this) s3.normal (hq x m1) (hq y m2) hwm

end
/-- A root that errs upwards. -/
@[reducible] def highElem : Elem ℚ := ⟨fun x => if x ≤ 0 then 0 else max x 1, fun _ => 0, fun _ => 1, fun x => x, 3⟩

namespace GlideEx
attribute [local instance] highElem

instance : SoftLaws ℚ where
  turn x := by show (0 : ℚ) * 0 + 1 * 1 = 1; norm_num
  root x hx := by
    show x ≤ (if x ≤ 0 then 0 else max x 1) * (if x ≤ 0 then 0 else max x 1)
    rw [if_neg (not_le.mpr hx)]
    rcases le_total x 1 with h | h
    · rw [max_eq_right h]; linarith
    · rw [max_eq_left h]; nlinarith

def eng : Engine ℚ where
  listener := true
  destruction := true
  react := fun _ _ => []
  filter := none
  block := true
  joint := fun w j => .revolute ⟨(w.g.joints j).a, (w.g.joints j).b, ⟨1/2, 0⟩, ⟨-1/2, 0⟩, 0, false, 0, 0, false, 0, 0, ⟨0, 0⟩, 0, 0, 0,
    ⟨⟨0, ⟨0, 0⟩, 0, 0⟩, ⟨0, ⟨0, 0⟩, 0, 0⟩⟩, ⟨0, 0⟩, ⟨0, 0⟩, ⟨⟨0, 0⟩, ⟨0, 0⟩⟩, 0, 0⟩

def ball : FixDef ℚ := ⟨.circle ⟨1/2, ⟨0, 0⟩⟩, ⟨1, 0, 0, 1, false, ⟨1, 0xFFFF, 0⟩⟩⟩
def body (t : BodyType) (x y vx : ℚ) : BodyDef ℚ := ⟨t, ⟨x, y⟩, 0, ⟨vx, 0⟩, if vx = 0 then 0 else 1, 0, 1, true, true, false, false, true, 1⟩

/-- A spinning ball flies at another with speed 3; a third hits a wall with speed 2; of two that are joined, one flies with speed 1. Spins are damped. -/
def calls : List (Call ℚ) :=
  [.setGravity ⟨0, 0⟩, .setWarmStarting false, .setContinuousPhysics false, .createBody (body .dynamic 0 0 3), .createFixture 0 ball, .createBody (body .dynamic 1 0 0), .createFixture 1 ball,
   .createBody (body .dynamic 10 0 2), .createFixture 2 ball, .createBody (body .static 11 0 0), .createFixture 3 ball,
   .createBody (body .dynamic 20 0 1), .createFixture 4 ball, .createBody (body .dynamic 21 0 0), .createFixture 5 ball, .createJoint ⟨4, 5, false⟩, .step 0 8 3]
def w0 : World ℚ := (runPlain eng.env calls Ex.w0).get (by decide +kernel)
def w1 : World ℚ := (w0.step eng.env (1/60) 8 3).get (by decide +kernel)
def w2 : World ℚ := (w1.step eng.env (1/30) 1 0).get (by decide +kernel)

theorem runPlain_all {env : Env ℚ} : ∀ (cs : List (Call ℚ)) {w w' : World ℚ}, runPlain env cs w = some w' → runAll env cs w = some w' := by
  intro cs
  induction cs with
  | nil => intro w w' e; exact e
  | cons c cs ih =>
    intro w w' e
    unfold runPlain at e
    unfold runAll
    split at e
    · rename_i h
      rw [if_pos h.1]
      simp only [Option.bind_eq_some_iff] at e ⊢
      obtain ⟨v, e1, e2⟩ := e
      exact ⟨v, e1, ih e2⟩
    · cases e

theorem slips {w w' : World ℚ} (h : ∀ c ∈ w'.g.contactList, ((w'.cst c).friction = 0 ∧ (w'.cst c).restitution = 0 ∧ (w'.cst c).manifold.points.length = 1 ∧ (w'.cst c).manifold.type = .circles) ∧
    (w'.g.fixtures (w'.g.contacts c).fA).body.all (fun x => (w'.g.fixtures (w'.g.contacts c).fB).body.all fun y => decide (0 < (w.phys x).invMass + (w.phys y).invMass) &&
      (worldManifold (w'.cst c).manifold (w.phys x).xf (w'.g.fixtures (w'.g.contacts c).fA).shape.radius (w.phys y).xf (w'.g.fixtures (w'.g.contacts c).fB).shape.radius).all
        fun wm => decide (dot wm.normal wm.normal = 1)) = true) : Slippery w w' := by
  intro c hc
  obtain ⟨⟨h1, h2, h3, h4⟩, h5⟩ := h c hc.mem
  refine ⟨h1, h2, ⟨.inl h3, fun _ => h3, fun k => absurd h4 k⟩, fun x y hx hy => ?_⟩
  rw [hx, hy] at h5
  simp only [Option.all_some, Bool.and_eq_true, decide_eq_true_eq] at h5
  refine ⟨h5.1, fun wm hwm => ?_⟩
  have := h5.2
  rw [hwm] at this
  simpa using this

/-- The hypotheses hold of two steps with collisions, and energy is lost in both. -/
example : LeavesBodies eng.env ∧ CallbacksTame eng.env ∧ (∀ w c, eng.react w (.postSolve c) = []) ∧ Seated eng ∧ MouseHasMass eng ∧ PlainHist eng.env w0 ∧
    TameHist eng.env w0 ∧ w0.continuous = false ∧ w0.subStepping = false ∧ Unfed eng w0 ∧ Glides eng w0 w2 ∧ kinetic w2 ≤ kinetic w0 ∧
    (w0.phys 0).v = ⟨3, 0⟩ ∧ (w1.phys 0).v = ⟨3/2, 0⟩ ∧ (w1.phys 1).v = ⟨3/2, 0⟩ ∧ (w0.phys 2).v = ⟨2, 0⟩ ∧ (w1.phys 2).v = ⟨0, 0⟩ ∧ 0 < (w1.phys 0).w ∧ (w1.phys 0).w < (w0.phys 0).w ∧
    kinetic w1 < kinetic w0 ∧ kinetic w2 < kinetic w1 ∧ w0.g.jointList = [0] ∧ (w0.phys 4).v = ⟨1, 0⟩ ∧ (w0.phys 5).v = ⟨0, 0⟩ ∧ (w1.phys 4).v.x = 1/2 ∧ (w1.phys 5).v.x = 1/2 := by
  have h1 : LeavesBodies eng.env := fun w k op h => (by cases h)
  have h2 : CallbacksTame eng.env := fun w k op h => (by cases h)
  have h3 : Seated eng := fun w j b hb => by
    simp only [eng, Joint.touched, List.mem_cons, List.not_mem_nil, or_false] at hb
    exact hb
  have h4 : MouseHasMass eng := fun w j m h => (by cases h)
  have h5 : runPlain eng.env calls Ex.w0 = some w0 := by rw [w0, Option.some_get]
  have h6 : PlainHist eng.env w0 := runPlain_plain calls (w := Ex.w0) (.new ..) h5
  have h7 : TameHist eng.env w0 := runAll_tame calls (by decide) (w := Ex.w0) (.new ..) (runPlain_all calls h5)
  have h8 : w0.step eng.env (1/60) 8 3 = some w1 := by rw [w1, Option.some_get]
  have h9 : w1.step eng.env (1/30) 1 0 = some w2 := by rw [w2, Option.some_get]
  have hc : w0.continuous = false := by decide +kernel
  have hs : w0.subStepping = false := by decide +kernel
  have hJ : OnlyHold eng w0 := by
    have hd : ∀ j ∈ w0.g.jointList, (w0.g.joints j).a ≠ (w0.g.joints j).b ∧ 0 < (w0.phys (w0.g.joints j).a).invMass + (w0.phys (w0.g.joints j).b).invMass := by decide +kernel
    intro j hj v hv
    obtain ⟨d1, d2⟩ := hd j hj
    rw [← hv] at d1 d2
    exact ⟨rfl, fun k h => (by cases h), d1, by simpa [eng, Joint.touched, Joint.bodyA, Joint.bodyB] using .inl d1, d2⟩
  have hU : Unfed eng w0 := ⟨by decide +kernel, by decide +kernel, hJ, by decide +kernel, by decide +kernel, by decide +kernel, by decide +kernel⟩
  have g1 : Slippery w0 w1 := slips (by decide +kernel)
  have g2 : Slippery w1 w2 := slips (by decide +kernel)
  have hG : Glides eng w0 w2 := .step (.step .start (by norm_num) h8 g1) (by norm_num) h9 g2
  exact ⟨h1, h2, fun _ _ => rfl, h3, h4, h6, h7, hc, hs, hU, hG, c139_energy h1 h2 (fun _ _ => rfl) h3 h4 h6 h7 hc hs hU hG, by decide +kernel, by decide +kernel, by decide +kernel,
    by decide +kernel, by decide +kernel, by decide +kernel, by decide +kernel, by decide +kernel, by decide +kernel, by decide +kernel, by decide +kernel, by decide +kernel, by decide +kernel, by decide +kernel⟩
end GlideEx
end B2.Props
