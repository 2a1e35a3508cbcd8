import Verif.Spec.Flight
import Verif.Proofs.WorldQuiet
import Verif.Props.WorldMotion
import Verif.Props.WorldStep
import Verif.Props.Engine
import Verif.Props.Momentum
import Mathlib.Algebra.BigOperators.Group.Finset.Basic
import Mathlib.Algebra.BigOperators.Ring.Finset

/-!
# Sensors do not disturb motion; free flight

Whole steps without time-of-impact events (continuous physics off). A contact with a sensor and a contact that a callback has
disabled have no effect on a body, and a body that has no other contacts flies on the parabola of its initial velocity.
-/
namespace B2.Props
set_option linter.unusedSectionVars false
open B2 Spec World

section
variable {F : Type} [Field F] [LinearOrder F] [IsStrictOrderedRing F] [Elem F]

/-! ## C135 -/

/-- A body that only sensors touch moves by the rule for free bodies. -/
theorem c135_free {env : Env F} {w w' : World F} (hE : LeavesBodies env) (hP : PostSolveLinks env) (hF : FreeStay env)
    (hw : PlainHist env w) (hc : w.continuous = false) {dt : F} {vi pi : Nat} (hpos : 0 < dt) (e : w.step env dt vi pi = some w') {b : Nat}
    (hb : Loose w b) (hq : Untouched w' b) (hs : Slow dt (freeV dt w.gravity (w.phys b)) (freeW dt (w.phys b))) :
    (w'.phys b).sweep.c = (w.phys b).sweep.c + dt * freeV dt w.gravity (w.phys b) ∧
    (w'.phys b).sweep.a = (w.phys b).sweep.a + dt * freeW dt (w.phys b) ∧
    (((w'.phys b).v = freeV dt w.gravity (w.phys b) ∧ (w'.phys b).w = freeW dt (w.phys b) ∧ (w'.phys b).awake = true) ∨
      (w.allowSleep = true ∧ Sleepy (w.phys b) (freeV dt w.gravity (w.phys b)) (freeW dt (w.phys b)) ∧ (w'.phys b).v = ⟨0, 0⟩ ∧ (w'.phys b).w = 0)) := by
  have k := quiet_step hE hP hF (whist_inv hw.hist).toWInv hw.complete hc hb.mem hb.dynamic hb.awake hb.enabled hb.joints hpos hs e hq
  exact ⟨k.c, k.a, k.vel⟩

/-- What is the same in all worlds of a flight. -/
structure Flying (env : Env F) (b : Nat) (w w' : World F) : Prop where
  hist : PlainHist env w'
  continuous : w'.continuous = false
  sub : w'.subStepping = false
  loose : Loose w' b
  gravity : w'.gravity = w.gravity
  mass : (w'.phys b).mass = (w.phys b).mass ∧ (w'.phys b).invMass = (w.phys b).invMass
  damping : (w'.phys b).linearDamping = (w.phys b).linearDamping ∧ (w'.phys b).angularDamping = (w.phys b).angularDamping
  scale : (w'.phys b).gravityScale = (w.phys b).gravityScale
  force : (w'.phys b).force = ⟨0, 0⟩ ∧ (w'.phys b).torque = 0

theorem Flying.step {env : Env F} (hE : LeavesBodies env) (hP : PostSolveLinks env) (hF : FreeStay env) {b : Nat} {w w' w'' : World F} (h : Flying env b w w')
    {dt : F} {vi pi : Nat} (hpos : 0 < dt) (e : w'.step env dt vi pi = some w'') (hq : Untouched w'' b)
    (hs : Slow dt (freeV dt w'.gravity (w'.phys b)) (freeW dt (w'.phys b)))
    (hn : w'.allowSleep = true → ¬ Sleepy (w'.phys b) (freeV dt w'.gravity (w'.phys b)) (freeW dt (w'.phys b))) :
    Flying env b w w'' ∧ (w''.phys b).sweep.c = (w'.phys b).sweep.c + dt * (w''.phys b).v ∧ (w''.phys b).sweep.a = (w'.phys b).sweep.a + dt * (w''.phys b).w ∧
    (w''.phys b).v = freeV dt w'.gravity (w'.phys b) ∧ (w''.phys b).w = freeW dt (w'.phys b) := by
  obtain ⟨k1, k2, k3⟩ := c135_free hE hP hF h.hist h.continuous hpos e h.loose hq hs
  obtain ⟨v1, v2, aw⟩ := k3.resolve_right fun k => hn k.1 k.2.1
  have g := step_good (whist_inv h.hist.hist).toWInv e
  obtain ⟨m1, m2, -, -, -, d1, d2, sc, -, -, -, ty, en, -⟩ := c61_configuration h.hist.hist hE e b
  have hbl : w''.g.bodyList = w'.g.bodyList := by rw [g.eq]
  have hjl : w''.g.jointList = w'.g.jointList := by rw [g.eq]
  have hjs : w''.g.joints = w'.g.joints := by rw [g.eq]
  have hfo : (w''.phys b).force = ⟨0, 0⟩ ∧ (w''.phys b).torque = 0 := by
    cases hc : w'.clearForces with
    | true => exact c40_cleared h.hist.hist e hc b (by rw [hbl]; exact h.loose.mem)
    | false =>
      rcases c40_kept h.hist.hist hE e hc b with ⟨f1, f2⟩ | ⟨f1, f2, -⟩
      · exact ⟨f1.trans h.force.1, f2.trans h.force.2⟩
      · exact ⟨f1, f2⟩
  refine ⟨⟨.call (.step dt vi pi) h.hist trivial (fun _ _ _ _ => h.sub) (fun d hd => by cases hd) e, ?_, ?_, ?_, ?_, ⟨m1.trans h.mass.1, m2.trans h.mass.2⟩,
    ⟨d1.trans h.damping.1, d2.trans h.damping.2⟩, sc.trans h.scale, hfo⟩, by rw [v1]; exact k1, by rw [v2]; exact k2, v1, v2⟩
  · rw [g.rest.eq]; exact h.continuous
  · rw [g.rest.eq]; exact h.sub
  · exact ⟨by rw [hbl]; exact h.loose.mem, ty.trans h.loose.dynamic, aw, en.trans h.loose.enabled, by rw [hjl, hjs]; exact h.loose.joints⟩
  · rw [g.rest.eq]; exact h.gravity

theorem pull {g : F} {G v : Vec2 F} {dt d m i : F} (hm : Inverses m i) (hi : i ≠ 0) :
    (1 / (1 + dt * d)) * (v + dt * (i * ((g * m) * G + ⟨0, 0⟩))) = (1 / (1 + dt * d)) * (v + dt * (g * G)) := by
  have h : i * m = 1 := by
    rcases hm with h | h
    · exact absurd h hi
    · exact h.2
  refine congrArg _ (congrArg _ (congrArg _ ?_))
  simp only [Vec2.ext_iff, Vec2.smul_x, Vec2.smul_y, Vec2.add_x, Vec2.add_y, add_zero]
  constructor
  · linear_combination (g * G.x) * h
  · linear_combination (g * G.y) * h

/-- The velocities of a body in flight after `n` steps: in each step gravity adds its share, and damping divides by the same
number. -/
theorem c135_damped {env : Env F} (hE : LeavesBodies env) (hP : PostSolveLinks env) (hF : FreeStay env) {n : Nat} {w w' : World F}
    (hw : PlainHist env w) (hc : w.continuous = false) (hsub : w.subStepping = false) {dt : F} (hpos : 0 < dt) {b : Nat} (hb : Loose w b)
    (hm : (w.phys b).invMass ≠ 0) (hf : (w.phys b).force = ⟨0, 0⟩ ∧ (w.phys b).torque = 0) (h : Flight env dt b n w w') :
    (w'.phys b).v = (1 / (1 + dt * (w.phys b).linearDamping)) ^ n * (w.phys b).v +
      (dt * ∑ k ∈ Finset.range n, (1 / (1 + dt * (w.phys b).linearDamping)) ^ (k + 1)) * ((w.phys b).gravityScale * w.gravity) ∧
    (w'.phys b).w = (w.phys b).w / (1 + dt * (w.phys b).angularDamping) ^ n ∧ (w'.phys b).awake = true := by
  suffices key : Flying env b w w' ∧ (w'.phys b).v = (1 / (1 + dt * (w.phys b).linearDamping)) ^ n * (w.phys b).v +
      (dt * ∑ k ∈ Finset.range n, (1 / (1 + dt * (w.phys b).linearDamping)) ^ (k + 1)) * ((w.phys b).gravityScale * w.gravity) ∧
      (w'.phys b).w = (w.phys b).w / (1 + dt * (w.phys b).angularDamping) ^ n from ⟨key.2.1, key.2.2, key.1.loose.awake⟩
  induction h with
  | refl w =>
    refine ⟨⟨hw, hc, hsub, hb, rfl, ⟨rfl, rfl⟩, ⟨rfl, rfl⟩, rfl, hf⟩, ?_, by simp⟩
    simp only [Vec2.ext_iff, Vec2.smul_x, Vec2.smul_y, Vec2.add_x, Vec2.add_y, Finset.range_zero, Finset.sum_empty]
    constructor <;> ring
  | @step n w w1 w2 vi pi _ e hq hs hn ih =>
    obtain ⟨fl, iv, iw⟩ := ih hw hc hsub hb hm hf
    obtain ⟨fl2, -, -, v2, w2'⟩ := fl.step hE hP hF hpos e hq hs hn
    refine ⟨fl2, ?_, ?_⟩
    · have hcon := whist_stable consistent_stable fl.hist.hist b fl.loose.mem
      rw [v2, freeV, fl.force.1, pull hcon.mass (by rw [fl.mass.2]; exact hm), fl.damping.1, fl.scale, fl.gravity, iv, Finset.sum_range_succ']
      simp only [Vec2.ext_iff, Vec2.smul_x, Vec2.smul_y, Vec2.add_x, Vec2.add_y, pow_succ, ← Finset.sum_mul]
      constructor <;> ring
    · rw [w2', freeW, fl.force.2, fl.damping.2, iw, pow_succ, mul_zero, mul_zero, add_zero, div_div]

/-- A body that is not damped flies on a parabola: after `n` steps it has the velocity and the place that the law of fall gives, with
`n (n + 1) / 2` in place of `n ^ 2 / 2`, and it spins as it did. -/
theorem c135_flight {env : Env F} (hE : LeavesBodies env) (hP : PostSolveLinks env) (hF : FreeStay env) {n : Nat} {w w' : World F}
    (hw : PlainHist env w) (hc : w.continuous = false) (hsub : w.subStepping = false) {dt : F} (hpos : 0 < dt) {b : Nat} (hb : Loose w b)
    (hm : (w.phys b).invMass ≠ 0) (hf : (w.phys b).force = ⟨0, 0⟩ ∧ (w.phys b).torque = 0)
    (hd : (w.phys b).linearDamping = 0 ∧ (w.phys b).angularDamping = 0) (h : Flight env dt b n w w') :
    (w'.phys b).v = (w.phys b).v + ((n : F) * dt) * ((w.phys b).gravityScale * w.gravity) ∧
    (w'.phys b).sweep.c = (w.phys b).sweep.c + ((n : F) * dt) * (w.phys b).v + ((n : F) * ((n : F) + 1) / 2 * dt ^ 2) * ((w.phys b).gravityScale * w.gravity) ∧
    (w'.phys b).w = (w.phys b).w ∧ (w'.phys b).sweep.a = (w.phys b).sweep.a + n * dt * (w.phys b).w := by
  suffices key : Flying env b w w' ∧ (w'.phys b).v = (w.phys b).v + ((n : F) * dt) * ((w.phys b).gravityScale * w.gravity) ∧
    (w'.phys b).sweep.c = (w.phys b).sweep.c + ((n : F) * dt) * (w.phys b).v + ((n : F) * ((n : F) + 1) / 2 * dt ^ 2) * ((w.phys b).gravityScale * w.gravity) ∧
    (w'.phys b).w = (w.phys b).w ∧ (w'.phys b).sweep.a = (w.phys b).sweep.a + n * dt * (w.phys b).w from key.2
  induction h with
  | refl w =>
    refine ⟨⟨hw, hc, hsub, hb, rfl, ⟨rfl, rfl⟩, ⟨rfl, rfl⟩, rfl, hf⟩, ?_, ?_, rfl, by simp⟩ <;>
    simp [Vec2.ext_iff, Vec2.smul_x, Vec2.smul_y, Vec2.add_x, Vec2.add_y]
  | @step n w w1 w2 vi pi _ e hq hs hn ih =>
    obtain ⟨fl, iv, ic, iw, ia⟩ := ih hw hc hsub hb hm hf hd
    obtain ⟨fl2, c2, a2, v2, w2'⟩ := fl.step hE hP hF hpos e hq hs hn
    have hcon := whist_stable consistent_stable fl.hist.hist b fl.loose.mem
    have hv : (w2.phys b).v = (w.phys b).v + (((n + 1 : Nat) : F) * dt) * ((w.phys b).gravityScale * w.gravity) := by
      rw [v2, freeV, fl.force.1, pull hcon.mass (by rw [fl.mass.2]; exact hm), fl.damping.1, hd.1, fl.scale, fl.gravity, iv]
      simp only [Vec2.ext_iff, Vec2.smul_x, Vec2.smul_y, Vec2.add_x, Vec2.add_y]
      push_cast
      constructor <;> ring
    have hw' : (w2.phys b).w = (w.phys b).w := by
      rw [w2', freeW, fl.force.2, fl.damping.2, hd.2, iw]; simp
    refine ⟨fl2, hv, ?_, hw', ?_⟩
    · rw [c2, ic, hv]
      simp only [Vec2.ext_iff, Vec2.smul_x, Vec2.smul_y, Vec2.add_x, Vec2.add_y]
      push_cast
      constructor <;> ring
    · rw [a2, ia, hw']; push_cast; ring

/-- In the whole engine, with its own solvers. -/
theorem c135_engine {E : Engine F} (hE : LeavesBodies E.env) (hP : PostSolveLinks E.env) (hj : Seated E) {n : Nat} {w w' : World F}
    (hw : PlainHist E.env w) (hc : w.continuous = false) (hsub : w.subStepping = false) {dt : F} (hpos : 0 < dt) {b : Nat} (hb : Loose w b)
    (hm : (w.phys b).invMass ≠ 0) (hf : (w.phys b).force = ⟨0, 0⟩ ∧ (w.phys b).torque = 0)
    (hd : (w.phys b).linearDamping = 0 ∧ (w.phys b).angularDamping = 0) (h : Flight E.env dt b n w w') :
    (w'.phys b).v = (w.phys b).v + ((n : F) * dt) * ((w.phys b).gravityScale * w.gravity) ∧
    (w'.phys b).sweep.c = (w.phys b).sweep.c + ((n : F) * dt) * (w.phys b).v + ((n : F) * ((n : F) + 1) / 2 * dt ^ 2) * ((w.phys b).gravityScale * w.gravity) ∧
    (w'.phys b).w = (w.phys b).w ∧ (w'.phys b).sweep.a = (w.phys b).sweep.a + n * dt * (w.phys b).w :=
  c135_flight hE hP (env_freeStay hj) hw hc hsub hpos hb hm hf hd h

/-! ## C136 -/

/-- What is the same in all worlds that a set of bodies goes through. -/
structure Going (env : Env F) (S : Finset Nat) (w w' : World F) : Prop where
  hist : PlainHist env w'
  continuous : w'.continuous = false
  sub : w'.subStepping = false
  movable : Movable w' S
  gravity : w'.gravity = w.gravity
  same : ∀ b, (w'.phys b).mass = (w.phys b).mass ∧ (w'.phys b).gravityScale = (w.phys b).gravityScale
  damping : ∀ b ∈ S, (w'.phys b).linearDamping = 0
  force : ∀ b ∈ S, (w'.phys b).force = ⟨0, 0⟩

theorem Going.step {env : Env F} (hE : LeavesBodies env) {S : Finset Nat} {w w' w'' : World F} (h : Going env S w w') {dt : F} {vi pi : Nat}
    (e : w'.step env dt vi pi = some w'') : Going env S w w'' := by
  have g := step_good (whist_inv h.hist.hist).toWInv e
  have cf := c61_configuration h.hist.hist hE e
  have hbl : w''.g.bodyList = w'.g.bodyList := by rw [g.eq]
  refine ⟨.call (.step dt vi pi) h.hist trivial (fun _ _ _ _ => h.sub) (fun d hd => by cases hd) e, ?_, ?_, ?_, ?_, ?_, ?_, ?_⟩
  · rw [g.rest.eq]; exact h.continuous
  · rw [g.rest.eq]; exact h.sub
  · refine ⟨fun b hb => by rw [hbl]; exact h.movable.mem b hb, fun b hb => ?_, fun b hb => ?_, fun b hb => ?_⟩
    · obtain ⟨-, -, -, -, -, -, -, -, -, -, -, ty, -, -⟩ := cf b
      exact ty.trans (h.movable.type b hb)
    · obtain ⟨-, -, -, -, -, -, -, -, -, -, -, -, en, -⟩ := cf b
      exact en.trans (h.movable.enabled b hb)
    · rw [(cf b).2.1]; exact h.movable.mass b hb
  · rw [g.rest.eq]; exact h.gravity
  · intro b
    obtain ⟨m, -, -, -, -, -, -, sc, -⟩ := cf b
    exact ⟨m.trans (h.same b).1, sc.trans (h.same b).2⟩
  · intro b hb
    obtain ⟨-, -, -, -, -, d, -⟩ := cf b
    exact d.trans (h.damping b hb)
  · intro b hb
    cases hc : w'.clearForces with
    | true => exact (c40_cleared h.hist.hist e hc b (by rw [hbl]; exact h.movable.mem b hb)).1
    | false =>
      rcases c40_kept h.hist.hist hE e hc b with ⟨f1, -⟩ | ⟨f1, -⟩
      · exact f1.trans (h.force b hb)
      · exact f1

/-- Bodies that have to do with each other only move as one body does that has their mass and weight, however they collide and whatever
joints hold them together: after `n` steps they have the momentum, and their centre of mass is where, the law of fall says. -/
theorem c136_together {E : Engine F} (hr : RootBelow F) (hE : LeavesBodies E.env) (hP : PostSolveCalm E.env) (hj : Seated E) {n : Nat} {w w' : World F}
    (hw : PlainHist E.env w) (hc : w.continuous = false) (hsub : w.subStepping = false) {dt : F} (hpos : 0 < dt) {S : Finset Nat} (hS : Movable w S)
    (hd : ∀ b ∈ S, (w.phys b).linearDamping = 0) (hf : ∀ b ∈ S, (w.phys b).force = ⟨0, 0⟩) (h : Together E dt S n w w') :
    momentumOf w' S (fun b => (w'.phys b).v) = momentumOf w S (fun b => (w.phys b).v) + ((n : F) * dt) * weightOf w S ∧
    centreOf w' S = centreOf w S + ((n : F) * dt) * ((1 / massOf w S) * momentumOf w S (fun b => (w.phys b).v)) +
      ((n : F) * ((n : F) + 1) / 2 * dt ^ 2) * ((1 / massOf w S) * weightOf w S) := by
  suffices key : Going E.env S w w' ∧ momentumOf w' S (fun b => (w'.phys b).v) = momentumOf w S (fun b => (w.phys b).v) + ((n : F) * dt) * weightOf w S ∧
      centreOf w' S = centreOf w S + ((n : F) * dt) * ((1 / massOf w S) * momentumOf w S (fun b => (w.phys b).v)) +
      ((n : F) * ((n : F) + 1) / 2 * dt ^ 2) * ((1 / massOf w S) * weightOf w S) from key.2
  induction h with
  | refl w =>
    refine ⟨⟨hw, hc, hsub, hS, rfl, fun _ => ⟨rfl, rfl⟩, hd, hf⟩, ?_, ?_⟩ <;> simp [Vec2.ext_iff]
  | @step n w w1 w2 vi pi _ e hI hend ih =>
    obtain ⟨go, im, ic⟩ := ih hw hc hsub hS hd hf
    have hm := c119_impulse hr hE hP hj go.hist hpos go.continuous go.movable go.damping e hI hend
    have hcc := (c120_centre hE hP hj go.hist hpos go.continuous go.movable e hI (fun b hb => (hend b hb).1)).2
    have hW : sumOf S (fun b => ((w1.phys b).gravityScale * (w1.phys b).mass) * w1.gravity + (w1.phys b).force) = weightOf w S := by
      unfold weightOf sumOf
      rw [Vec2.mk.injEq]
      refine ⟨Finset.sum_congr rfl fun b hb => ?_, Finset.sum_congr rfl fun b hb => ?_⟩ <;> dsimp only <;>
        rw [go.force b hb, go.gravity, (go.same b).1, (go.same b).2] <;> simp
    have hM : massOf w1 S = massOf w S := Finset.sum_congr rfl fun b _ => (go.same b).1
    rw [hW, im] at hm
    rw [hm, hM, ic] at hcc
    refine ⟨go.step hE e, ?_, ?_⟩
    · rw [hm]
      simp only [Vec2.ext_iff, Vec2.smul_x, Vec2.smul_y, Vec2.add_x, Vec2.add_y]
      push_cast
      constructor <;> ring
    · rw [hcc]
      simp only [Vec2.ext_iff, Vec2.smul_x, Vec2.smul_y, Vec2.add_x, Vec2.add_y]
      push_cast
      constructor <;> ring

end

/-! ### Example -/

namespace QuietEx
attribute [local instance] lowElem

/-- The engine of the example of C119; a callback disables every contact. -/
def eng : Engine ℚ := { MomEx.eng with react := fun _ k => match k with
  | .preSolve c => [.contactSetEnabled c false]
  | _ => [] }

def halo : FixDef ℚ := ⟨.circle ⟨1, ⟨0, 0⟩⟩, ⟨1, 1, 0, 1, true, ⟨1, 0xFFFF, 0⟩⟩⟩

/-- A ball flies through a sensor that stands in its way, and through a wall of which the callback says that it is open. -/
def calls : List (Call ℚ) :=
  [.setContinuousPhysics false, .createBody (MomEx.body .dynamic 0 0 3), .createFixture 0 MomEx.ball, .createBody (MomEx.body .static (1/2) 0 0), .createFixture 1 halo,
   .createBody (MomEx.body .static (1/2) 0 0), .createFixture 2 MomEx.ball]
def w0 : World ℚ := (runPlain eng.env calls Ex.w0).get (by decide +kernel)
def w1 : World ℚ := (w0.step eng.env (1/60) 8 3).get (by decide +kernel)
def w2 : World ℚ := (w1.step eng.env (1/60) 4 2).get (by decide +kernel)

/-- The ball touches both and goes on as if nothing were there. -/
example : LeavesBodies eng.env ∧ PostSolveLinks eng.env ∧ Seated eng ∧ PlainHist eng.env w0 ∧ w0.continuous = false ∧ w0.subStepping = false ∧ Loose w0 0 ∧
    (w0.phys 0).invMass ≠ 0 ∧ ((w0.phys 0).force = ⟨0, 0⟩ ∧ (w0.phys 0).torque = 0) ∧ ((w0.phys 0).linearDamping = 0 ∧ (w0.phys 0).angularDamping = 0) ∧
    Flight eng.env (1/60) 0 2 w0 w2 ∧ (w0.phys 0).v = ⟨3, 0⟩ ∧
    w2.g.contactList.map (fun c => ((w2.cst c).touching, (w2.cst c).enabled, (w2.fattr (w2.g.contacts c).fB).sensor, (w2.g.fixtures (w2.g.contacts c).fA).body, (w2.g.fixtures (w2.g.contacts c).fB).body)) =
      [(true, false, false, some 0, some 2), (true, true, true, some 0, some 1)] ∧
    (w2.phys 0).v = ⟨3, -1/3⟩ ∧ (w2.phys 0).sweep.c = ⟨1/10, -1/120⟩ := by
  have h1 : LeavesBodies eng.env := fun w k op h b o => by
    simp only [eng, Engine.env] at h
    split at h
    · rw [List.mem_singleton] at h; rw [h]; intro h; cases h
    · cases h
  have h2 : PostSolveLinks eng.env := fun w w' c e => by
    unfold listen emit at e
    dsimp only at e
    split at e <;> (cases e; exact ⟨fun _ => rfl, fun _ => rfl⟩)
  have h3 : Seated eng := fun w j b hb => by
    simp only [eng, MomEx.eng, Joint.touched, List.mem_cons, List.not_mem_nil, or_false] at hb
    exact hb
  have h4 : PlainHist eng.env w0 := runPlain_plain calls (w := Ex.w0) (.new ..) (by rw [w0, Option.some_get])
  have s1 : w0.step eng.env (1/60) 8 3 = some w1 := by rw [w1, Option.some_get]
  have s2 : w1.step eng.env (1/60) 4 2 = some w2 := by rw [w2, Option.some_get]
  have un : ∀ u : World ℚ, (∀ c ∈ u.g.contactList, (u.cst c).enabled = false ∨ (u.fattr (u.g.contacts c).fA).sensor = true ∨ (u.fattr (u.g.contacts c).fB).sensor = true) → Untouched u 0 := by
    intro u hu c hc
    rcases hu c hc.mem with h | h | h
    · rw [hc.enabled] at h; cases h
    · rw [hc.solidA] at h; cases h
    · rw [hc.solidB] at h; cases h
  refine ⟨h1, h2, h3, h4, by decide +kernel, by decide +kernel, ⟨by decide +kernel, by decide +kernel, by decide +kernel, by decide +kernel, by decide +kernel⟩,
    by decide +kernel, by decide +kernel, by decide +kernel,
    .step 4 2 (.step 8 3 (.refl w0) s1 (un w1 (by decide +kernel)) (by unfold Slow; decide +kernel) (fun _ h => absurd h.2.2 (by decide +kernel))) s2 (un w2 (by decide +kernel))
      (by unfold Slow; decide +kernel) (fun _ h => absurd h.2.2 (by decide +kernel)), by decide +kernel, by decide +kernel, by decide +kernel, by decide +kernel⟩

end QuietEx

namespace TogetherEx
attribute [local instance] lowElem
open MomEx

/-- The three balls of the example of C119, a step later. -/
def w2 : World ℚ := (w1.step eng.env (1/60) 8 3).get (by decide +kernel)

/-- The first ball has pushed the second, to which the third is joined; their momentum has changed by their weight alone. -/
example : Together eng (1/60) {0, 1, 2} 2 w0 w2 ∧ Movable w0 {0, 1, 2} ∧ (∀ b ∈ ({0, 1, 2} : Finset Nat), (w0.phys b).linearDamping = 0 ∧ (w0.phys b).force = ⟨0, 0⟩) ∧ w0.subStepping = false ∧
    momentumOf w0 {0, 1, 2} (fun b => (w0.phys b).v) = ⟨9/4, 0⟩ ∧ weightOf w0 {0, 1, 2} = ⟨0, -45/2⟩ ∧ momentumOf w2 {0, 1, 2} (fun b => (w2.phys b).v) = ⟨9/4, -3/4⟩ := by
  have is : ∀ u v : World ℚ, (∀ c ∈ v.g.contactList, ((v.g.fixtures (v.g.contacts c).fA).body = some 0 ∧ (v.g.fixtures (v.g.contacts c).fB).body = some 1) ∨
      ((v.g.fixtures (v.g.contacts c).fA).body = some 3 ∧ (v.g.fixtures (v.g.contacts c).fB).body = some 4)) →
      (∀ j ∈ u.g.jointList, ((u.g.joints j).a ∈ ({0, 1, 2} : Finset Nat) ↔ (u.g.joints j).b ∈ ({0, 1, 2} : Finset Nat))) → Isolated eng u v {0, 1, 2} := by
    intro u v h1 h2
    refine ⟨fun c hc x y hx hy => ?_, h2, fun j _ _ z hz => ?_⟩
    · rcases h1 c hc.mem with ⟨k1, k2⟩ | ⟨k1, k2⟩ <;> rw [k1] at hx <;> rw [k2] at hy <;> cases hx <;> cases hy <;> decide
    · rw [← hz]; exact ⟨rfl, rfl, rfl⟩
  refine ⟨.step 8 3 (.step 8 3 (.refl w0) (by rw [w1, Option.some_get]) (is w0 w1 (by decide +kernel) (by decide +kernel)) (by unfold BelowLimit; decide +kernel))
    (by rw [w2, Option.some_get]) (is w1 w2 (by decide +kernel) (by decide +kernel)) (by unfold BelowLimit; decide +kernel),
    ⟨by decide +kernel, by decide +kernel, by decide +kernel, by decide +kernel⟩, by decide +kernel, by decide +kernel, by decide +kernel, by decide +kernel, by decide +kernel⟩

end TogetherEx
end B2.Props
