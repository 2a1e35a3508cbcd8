import Verif.Spec.Momentum
import Verif.Proofs.WorldMomentum
import Verif.Proofs.WorldExample
import Verif.Props.WorldBody

set_option linter.unusedSectionVars false

/-!
# C119, C120: momentum and the centre of mass

Contacts and joints exchange momentum between bodies, they neither make nor lose any. Here this is shown of a whole step of the world:
the momentum of bodies that have to do with each other only changes by what gravity, forces and damping do, whatever the contacts and
joints between them, however many iterations the solvers make, and whatever is warm-started.

Two things in a step do change it. A body that is faster than the engine's limit is slowed down, and an island that falls asleep is
stopped; so it is asked that the bodies be awake and slower than the limit after the step. The step is one without continuous physics.
-/
namespace B2.Props
open B2 Spec World
section
variable {F : Type} [Field F] [LinearOrder F] [IsStrictOrderedRing F] [Elem F] {E : Engine F}

theorem root_below [ElemLaws F] : RootBelow F := fun x hx => by
  have h := ElemLaws.mul_self_sqrt x hx.le
  refine ⟨fun h0 => ?_, h.le⟩
  rw [h0, mul_zero] at h
  exact absurd h hx.ne

/-- **C119.** After a step the momentum of bodies that have to do with each other only is what it is if each of them moves freely. -/
theorem c119_momentum (hr : RootBelow F) (hE : LeavesBodies E.env) (hP : PostSolveCalm E.env) (hj : Seated E) {w w' : World F} (h : PlainHist E.env w) {dt : F} {vi pi : Nat} (hdt : 0 < dt)
    (hc : w.continuous = false) {S : Finset Nat} (hS : Movable w S) (e : w.step E.env dt vi pi = some w') (hI : Isolated E w w' S)
    (hend : ∀ b ∈ S, (w'.phys b).awake = true ∧ BelowLimit dt (w'.phys b).v) :
    momentumOf w' S (fun b => (w'.phys b).v) = momentumOf w S (fun b => freeV dt w.gravity (w.phys b)) := by
  have hw := whist_inv h.hist
  have hm : ∀ b ∈ S, (w.phys b).mass * (w.phys b).invMass = 1 := fun b hb => by
    have := (whist_stable consistent_stable h.hist b (hS.mem b hb)).mass
    rcases this with h0 | h0
    · exact absurd h0 (hS.mass b hb)
    · rw [mul_comm]; exact h0.2
  exact (step_momentum hE hP hj hw.toWInv h.complete hc hdt hS hm hI (fun b hb => (hend b hb).1) e).1 hr (fun b hb => (hend b hb).2)

/-- **C119.** Without damping the momentum of bodies that have to do with each other only changes by the impulse of gravity and of the forces applied to them. -/
theorem c119_impulse (hr : RootBelow F) (hE : LeavesBodies E.env) (hP : PostSolveCalm E.env) (hj : Seated E) {w w' : World F} (h : PlainHist E.env w) {dt : F} {vi pi : Nat} (hdt : 0 < dt)
    (hc : w.continuous = false) {S : Finset Nat} (hS : Movable w S) (hd : ∀ b ∈ S, (w.phys b).linearDamping = 0) (e : w.step E.env dt vi pi = some w') (hI : Isolated E w w' S)
    (hend : ∀ b ∈ S, (w'.phys b).awake = true ∧ BelowLimit dt (w'.phys b).v) :
    momentumOf w' S (fun b => (w'.phys b).v) =
      momentumOf w S (fun b => (w.phys b).v) + dt * sumOf S (fun b => ((w.phys b).gravityScale * (w.phys b).mass) * w.gravity + (w.phys b).force) := by
  rw [c119_momentum hr hE hP hj h hdt hc hS e hI hend]
  have hm : ∀ b ∈ S, (w.phys b).mass * (w.phys b).invMass = 1 := fun b hb => by
    have := (whist_stable consistent_stable h.hist b (hS.mem b hb)).mass
    rcases this with h0 | h0
    · exact absurd h0 (hS.mass b hb)
    · rw [mul_comm]; exact h0.2
  have one : ∀ b ∈ S, (w.phys b).mass * freeV dt w.gravity (w.phys b) = (w.phys b).mass * (w.phys b).v + dt * (((w.phys b).gravityScale * (w.phys b).mass) * w.gravity + (w.phys b).force) := by
    intro b hb
    unfold freeV
    rw [hd b hb, mul_zero, add_zero, div_one]
    have := hm b hb
    simp only [Vec2.ext_iff, Vec2.smul_x, Vec2.smul_y, Vec2.add_x, Vec2.add_y]
    constructor
    · linear_combination (dt * ((w.phys b).gravityScale * (w.phys b).mass * w.gravity.x + (w.phys b).force.x)) * this
    · linear_combination (dt * ((w.phys b).gravityScale * (w.phys b).mass * w.gravity.y + (w.phys b).force.y)) * this
  unfold momentumOf sumOf
  simp only [Vec2.ext_iff, Vec2.smul_x, Vec2.smul_y, Vec2.add_x, Vec2.add_y, Finset.mul_sum, ← Finset.sum_add_distrib]
  exact ⟨Finset.sum_congr rfl fun b hb => by simpa using congrArg Vec2.x (one b hb), Finset.sum_congr rfl fun b hb => by simpa using congrArg Vec2.y (one b hb)⟩

/-- **C119.** Without gravity, forces and damping the momentum is conserved. -/
theorem c119_conserved (hr : RootBelow F) (hE : LeavesBodies E.env) (hP : PostSolveCalm E.env) (hj : Seated E) {w w' : World F} (h : PlainHist E.env w) {dt : F} {vi pi : Nat} (hdt : 0 < dt)
    (hc : w.continuous = false) {S : Finset Nat} (hS : Movable w S) (hd : ∀ b ∈ S, (w.phys b).linearDamping = 0) (hg : w.gravity = ⟨0, 0⟩) (hf : ∀ b ∈ S, (w.phys b).force = ⟨0, 0⟩)
    (e : w.step E.env dt vi pi = some w') (hI : Isolated E w w' S) (hend : ∀ b ∈ S, (w'.phys b).awake = true ∧ BelowLimit dt (w'.phys b).v) :
    momentumOf w' S (fun b => (w'.phys b).v) = momentumOf w S (fun b => (w.phys b).v) := by
  rw [c119_impulse hr hE hP hj h hdt hc hS hd e hI hend]
  have hz : sumOf S (fun b => ((w.phys b).gravityScale * (w.phys b).mass) * w.gravity + (w.phys b).force) = ⟨0, 0⟩ := by
    unfold sumOf
    rw [Vec2.mk.injEq]
    refine ⟨Finset.sum_eq_zero fun b hb => ?_, Finset.sum_eq_zero fun b hb => ?_⟩ <;> dsimp only <;> rw [hf b hb, hg] <;> simp
  rw [hz]
  simp [Vec2.ext_iff]

/-! ## C120 -/

/-- **C120.** In a step the centre of mass of bodies that have to do with each other only moves by the step's time times the velocity that belongs to their momentum after the step:
the corrections of their positions do not move it. -/
theorem c120_centre (hE : LeavesBodies E.env) (hP : PostSolveCalm E.env) (hj : Seated E) {w w' : World F} (h : PlainHist E.env w) {dt : F} {vi pi : Nat} (hdt : 0 < dt)
    (hc : w.continuous = false) {S : Finset Nat} (hS : Movable w S) (e : w.step E.env dt vi pi = some w') (hI : Isolated E w w' S) (hend : ∀ b ∈ S, (w'.phys b).awake = true) :
    massOf w' S = massOf w S ∧ centreOf w' S = centreOf w S + dt * ((1 / massOf w S) * momentumOf w' S (fun b => (w'.phys b).v)) := by
  have hw := whist_inv h.hist
  have hm : ∀ b ∈ S, (w.phys b).mass * (w.phys b).invMass = 1 := fun b hb => by
    have := (whist_stable consistent_stable h.hist b (hS.mem b hb)).mass
    rcases this with h0 | h0
    · exact absurd h0 (hS.mass b hb)
    · rw [mul_comm]; exact h0.2
  obtain ⟨-, k1, k2⟩ := step_momentum hE hP hj hw.toWInv h.complete hc hdt hS hm hI hend e
  have hM : massOf w' S = massOf w S := Finset.sum_congr rfl fun b hb => k2 b hb
  refine ⟨hM, ?_⟩
  unfold centreOf
  rw [hM, k1]
  simp only [Vec2.ext_iff, Vec2.add_x, Vec2.add_y, Vec2.smul_x, Vec2.smul_y]
  constructor <;> ring

/-- **C120.** Without gravity, forces and damping it moves straight on: with the velocity that belongs to the momentum before the step. -/
theorem c120_straight (hr : RootBelow F) (hE : LeavesBodies E.env) (hP : PostSolveCalm E.env) (hj : Seated E) {w w' : World F} (h : PlainHist E.env w) {dt : F} {vi pi : Nat} (hdt : 0 < dt)
    (hc : w.continuous = false) {S : Finset Nat} (hS : Movable w S) (hd : ∀ b ∈ S, (w.phys b).linearDamping = 0) (hg : w.gravity = ⟨0, 0⟩) (hf : ∀ b ∈ S, (w.phys b).force = ⟨0, 0⟩)
    (e : w.step E.env dt vi pi = some w') (hI : Isolated E w w' S) (hend : ∀ b ∈ S, (w'.phys b).awake = true ∧ BelowLimit dt (w'.phys b).v) :
    centreOf w' S = centreOf w S + dt * ((1 / massOf w S) * momentumOf w S (fun b => (w.phys b).v)) := by
  rw [(c120_centre hE hP hj h hdt hc hS e hI (fun b hb => (hend b hb).1)).2, c119_conserved hr hE hP hj h hdt hc hS hd hg hf e hI hend]

end
/-! ### Example -/

/-- A square root that is right up to one and too small above. -/
@[reducible] def lowElem : Elem ℚ := ⟨fun x => min x 1, fun _ => 0, fun _ => 1, fun x => x, 3⟩

namespace MomEx
attribute [local instance] lowElem

/-- The engine over the rationals, with sine, cosine and root of `lowElem`; joints are revolute joints that hold points of the bodies that are apart by one. -/
def eng : Engine ℚ where
  listener := true
  destruction := true
  react := fun _ _ => []
  filter := none
  block := true
  joint := fun w j => .revolute ⟨(w.g.joints j).a, (w.g.joints j).b, ⟨1/2, 0⟩, ⟨-1/2, 0⟩, 0, false, 0, 0, false, 0, 0, ⟨0, 0⟩, 0, 0, 0,
    ⟨⟨0, ⟨0, 0⟩, 0, 0⟩, ⟨0, ⟨0, 0⟩, 0, 0⟩⟩, ⟨0, 0⟩, ⟨0, 0⟩, ⟨⟨0, 0⟩, ⟨0, 0⟩⟩, 0, 0⟩

def ball : FixDef ℚ := ⟨.circle ⟨1/2, ⟨0, 0⟩⟩, ⟨1, 1, 0, 1, false, ⟨1, 0xFFFF, 0⟩⟩⟩
def body (t : BodyType) (x y vx : ℚ) : BodyDef ℚ := ⟨t, ⟨x, y⟩, 0, ⟨vx, 0⟩, 0, 0, 0, true, true, false, false, true, 1⟩

/-- Three balls in a row: the first flies at the second, to which the third is joined. A fourth hits a wall far away. -/
def calls : List (Call ℚ) :=
  [.setContinuousPhysics false, .createBody (body .dynamic 0 0 3), .createFixture 0 ball, .createBody (body .dynamic 1 0 0), .createFixture 1 ball,
   .createBody (body .dynamic 2 0 0), .createFixture 2 ball, .createJoint ⟨1, 2, false⟩, .createBody (body .dynamic 10 0 1), .createFixture 3 ball,
   .createBody (body .static 11 0 0), .createFixture 4 ball, .step 0 8 3]
def w0 : World ℚ := (runPlain eng.env calls Ex.w0).get (by decide +kernel)
def w1 : World ℚ := (w0.step eng.env (1/60) 8 3).get (by decide +kernel)

/-- The first ball has pushed the other two, which do not touch anything else; the three have the momentum the first one had, and have gained what gravity gave them. The fourth, which hit the wall, has lost its own. -/
example : RootBelow ℚ ∧ LeavesBodies eng.env ∧ PostSolveCalm eng.env ∧ Seated eng ∧ PlainHist eng.env w0 ∧ w0.continuous = false ∧ Movable w0 {0, 1, 2} ∧ w0.step eng.env (1/60) 8 3 = some w1 ∧
    Isolated eng w0 w1 {0, 1, 2} ∧ (∀ b ∈ ({0, 1, 2} : Finset Nat), (w0.phys b).linearDamping = 0 ∧ (w1.phys b).awake = true ∧ BelowLimit (1/60) (w1.phys b).v) ∧
    momentumOf w0 {0, 1, 2} (fun b => (w0.phys b).v) = ⟨9/4, 0⟩ ∧ (w1.phys 2).v = ⟨16383/16384, -1/6⟩ ∧ momentumOf w1 {0, 1, 2} (fun b => (w1.phys b).v) = ⟨9/4, -3/8⟩ ∧
    ¬ Isolated eng w0 w1 {3} ∧ (w0.phys 3).v = ⟨1, 0⟩ ∧ (w1.phys 3).v = ⟨0, -1/9⟩ := by
  have h0 : RootBelow ℚ := fun x hx => by
    show min x 1 ≠ 0 ∧ min x 1 * min x 1 ≤ x
    rcases le_total x 1 with h | h
    · rw [min_eq_left h]; exact ⟨hx.ne', by nlinarith⟩
    · rw [min_eq_right h]; exact ⟨one_ne_zero, by linarith⟩
  have h1 : LeavesBodies eng.env := fun w k op h => (by cases h)
  have h2 : PostSolveCalm eng.env := fun w w' c e => by
    unfold listen emit at e
    dsimp only at e
    split at e <;> (cases e; exact ⟨fun _ => rfl, fun _ => rfl, fun _ => rfl⟩)
  have h3 : Seated eng := fun w j b hb => by
    simp only [eng, Joint.touched, List.mem_cons, List.not_mem_nil, or_false] at hb
    exact hb
  have h4 : PlainHist eng.env w0 := runPlain_plain calls (w := Ex.w0) (.new ..) (by rw [w0, Option.some_get])
  have h5 : w0.step eng.env (1/60) 8 3 = some w1 := by rw [w1, Option.some_get]
  have h6 : Movable w0 {0, 1, 2} := ⟨by decide +kernel, by decide +kernel, by decide +kernel, by decide +kernel⟩
  have c1 : ∀ c ∈ w1.g.contactList, ∃ x y, (w1.g.fixtures (w1.g.contacts c).fA).body = some x ∧ (w1.g.fixtures (w1.g.contacts c).fB).body = some y ∧ (x ∈ ({0, 1, 2} : Finset Nat) ↔ y ∈ ({0, 1, 2} : Finset Nat)) := by
    have : ∀ c ∈ w1.g.contactList, ((w1.g.fixtures (w1.g.contacts c).fA).body = some 0 ∧ (w1.g.fixtures (w1.g.contacts c).fB).body = some 1) ∨
        ((w1.g.fixtures (w1.g.contacts c).fA).body = some 3 ∧ (w1.g.fixtures (w1.g.contacts c).fB).body = some 4) := by decide +kernel
    intro c hc
    rcases this c hc with h | h
    · exact ⟨0, 1, h.1, h.2, by decide⟩
    · exact ⟨3, 4, h.1, h.2, by decide⟩
  have h7 : Isolated eng w0 w1 {0, 1, 2} := by
    refine ⟨fun c hc x y hx hy => ?_, by decide +kernel, fun j _ _ v hv => ?_⟩
    · obtain ⟨x', y', k1, k2, k3⟩ := c1 c hc.mem
      rw [k1] at hx; rw [k2] at hy
      cases hx; cases hy
      exact k3
    · rw [← hv]; exact ⟨rfl, rfl, rfl⟩
  refine ⟨h0, h1, h2, h3, h4, by decide +kernel, h6, h5, h7, ?_, by decide +kernel, by decide +kernel, by decide +kernel, fun h => ?_, by decide +kernel, by decide +kernel⟩
  · unfold BelowLimit; decide +kernel
  · have hc : ∃ c ∈ w1.g.contactList, (w1.cst c).enabled = true ∧ (w1.cst c).touching = true ∧ (w1.fattr (w1.g.contacts c).fA).sensor = false ∧ (w1.fattr (w1.g.contacts c).fB).sensor = false ∧
      (w1.g.fixtures (w1.g.contacts c).fA).body = some 3 ∧ (w1.g.fixtures (w1.g.contacts c).fB).body = some 4 := by decide +kernel
    obtain ⟨c, k0, k, k1, k2, k3, k4, k5⟩ := hc
    have := h.contacts c ⟨k0, k, k1, k2, k3⟩ 3 4 k4 k5
    revert this; decide

/-- The same without gravity, for `c119_conserved`. -/
def z0 : World ℚ := (runPlain eng.env (.setGravity ⟨0, 0⟩ :: calls) Ex.w0).get (by decide +kernel)
def z1 : World ℚ := (z0.step eng.env (1/60) 8 3).get (by decide +kernel)
example : z0.gravity = ⟨0, 0⟩ ∧ (∀ b ∈ ({0, 1, 2} : Finset Nat), (z0.phys b).force = ⟨0, 0⟩ ∧ (z0.phys b).linearDamping = 0 ∧ (z1.phys b).awake = true) ∧
    ((z0.phys 0).v, (z0.phys 1).v, (z0.phys 2).v) = (⟨3, 0⟩, ⟨0, 0⟩, ⟨0, 0⟩) ∧ ((z1.phys 0).v, (z1.phys 1).v, (z1.phys 2).v) = (⟨32769/32768, 0⟩, ⟨32769/32768, 0⟩, ⟨16383/16384, 0⟩) := by decide +kernel

/-- The balls overlap more than the engine allows, so that their positions are corrected. Their centre of mass goes on with the velocity one. -/
def big : FixDef ℚ := ⟨.circle ⟨11/20, ⟨0, 0⟩⟩, ⟨1, 1, 0, 1, false, ⟨1, 0xFFFF, 0⟩⟩⟩
def pCalls : List (Call ℚ) :=
  [.setGravity ⟨0, 0⟩, .setContinuousPhysics false, .createBody (body .dynamic 0 0 3), .createFixture 0 big, .createBody (body .dynamic 1 0 0), .createFixture 1 big,
   .createBody (body .dynamic 2 0 0), .createFixture 2 big, .createJoint ⟨1, 2, false⟩, .step 0 8 3]
def p0 : World ℚ := (runPlain eng.env pCalls Ex.w0).get (by decide +kernel)
def p1 : World ℚ := (p0.step eng.env (1/60) 8 3).get (by decide +kernel)
example : PlainHist eng.env p0 ∧ p0.continuous = false ∧ Movable p0 {0, 1, 2} ∧ p0.step eng.env (1/60) 8 3 = some p1 ∧ Isolated eng p0 p1 {0, 1, 2} ∧
    (∀ b ∈ ({0, 1, 2} : Finset Nat), (p1.phys b).awake = true) ∧ 0 < (p1.phys 0).v.x ∧ (p1.phys 0).sweep.c.x < (p0.phys 0).sweep.c.x ∧
    centreOf p0 {0, 1, 2} = ⟨1, 0⟩ ∧ centreOf p1 {0, 1, 2} = ⟨1 + 1/60, 0⟩ := by
  have h4 : PlainHist eng.env p0 := runPlain_plain pCalls (w := Ex.w0) (.new ..) (by rw [p0, Option.some_get])
  have h5 : p0.step eng.env (1/60) 8 3 = some p1 := by rw [p1, Option.some_get]
  have c1 : ∀ c ∈ p1.g.contactList, (p1.g.fixtures (p1.g.contacts c).fA).body = some 0 ∧ (p1.g.fixtures (p1.g.contacts c).fB).body = some 1 := by decide +kernel
  refine ⟨h4, by decide +kernel, ⟨by decide +kernel, by decide +kernel, by decide +kernel, by decide +kernel⟩, h5, ⟨fun c hc x y hx hy => ?_, by decide +kernel, fun j _ _ v hv => ?_⟩,
    by decide +kernel, by decide +kernel, by decide +kernel, by decide +kernel, by decide +kernel⟩
  · obtain ⟨k1, k2⟩ := c1 c hc.mem
    rw [k1] at hx; rw [k2] at hy
    cases hx; cases hy
    decide
  · rw [← hv]; exact ⟨rfl, rfl, rfl⟩

end MomEx
end B2.Props
