import Verif.Proofs.WorldBounce
import Verif.Proofs.WorldExample
import Verif.Proofs.EngineNarrow
import Verif.Proofs.WorldPointsHist
import Verif.Props.Momentum

set_option linter.unusedSectionVars false

/-!
# C137: the law of impact

When two bodies meet, and meet nothing else, the engine obeys Newton's law of impact at the contact: after the step they separate at
least as fast as their restitution says, exactly that fast if the contact had to push, and the contact never pulls. Here this is shown of
a whole step of the world — callbacks, islands, warm starting, any number of iterations, storing of the impulses — not of the contact
solver alone (which is C72).

As in C119 a body that is faster than the engine's limits is slowed down, and an island that falls asleep is stopped; so it is asked that
the bodies be awake and slower than the limits after the step. The step is one without continuous physics, and the listener's
`post_solve` does nothing to the world.
-/
namespace B2.Props
open B2 Spec World
section
variable {F : Type} [Field F] [LinearOrder F] [IsStrictOrderedRing F] [Elem F] {E : Engine F}

/-- **C137.** Two bodies that meet each other only obey the law of impact. -/
theorem c137_bounce (hr : RootBelow F) (hE : LeavesBodies E.env) (hC : CallbacksTame E.env) (hS : ∀ w c, E.react w (.postSolve c) = []) (hj : Seated E) (hm : MouseHasMass E)
    (hb : E.block = true) {w w' : World F} (h : PlainHist E.env w) (ht : TameHist E.env w) (hc : w.continuous = false) {dt : F} {vi pi : Nat} (hdt : 0 < dt) (hvi : 1 ≤ vi)
    (e : w.step E.env dt vi pi = some w') {c x y : Nat} (hM : OnlyMeet w' c x y)
    (hmass : ∀ z, z = x ∨ z = y → 0 ≤ (w.phys z).invMass ∧ 0 ≤ (w.phys z).invI) (hsome : 0 < (w.phys x).invMass + (w.phys y).invMass) (hsound : Sound (w'.cst c).manifold)
    (hunit : ∀ wm, worldManifold (w'.cst c).manifold (w.phys x).xf (w'.g.fixtures (w'.g.contacts c).fA).shape.radius (w.phys y).xf (w'.g.fixtures (w'.g.contacts c).fB).shape.radius = some wm →
      dot wm.normal wm.normal = 1)
    (hend : ∀ z, z = x ∨ z = y → w.typeOf z ≠ .static → (w'.phys z).awake = true ∧ UnderLimits dt (velOf w' z)) :
    ObeysImpact dt w w' c x y := by
  have hP : PostSolveLinks E.env := fun x y c h => (silent_calm (env := E.env) hS x y c h).2
  exact step_bounce hr hE hC hS (env_heavyStay hj hm) hb (whist_inv h.hist).toWInv h.complete hc hdt hvi (whist_stable consistent_stable h.hist)
    (h.rests hE hP (env_toiForward E) (env_heavyStay hj hm)) (tame_pts hC (env_solversRun hj).impulses ht).2.2 hM hmass hsome hsound hunit hend e

/-- **C137.** The same over the reals, or any field whose root, sine and cosine obey their laws: that the normal has length one need not be asked. -/
theorem c137_bounce_lawful [ElemLaws F] (hE : LeavesBodies E.env) (hC : CallbacksTame E.env) (hS : ∀ w c, E.react w (.postSolve c) = []) (hj : Seated E) (hm : MouseHasMass E)
    (hb : E.block = true) {w w' : World F} (h : PlainHist E.env w) (ht : TameHist E.env w) (hc : w.continuous = false) {dt : F} {vi pi : Nat} (hdt : 0 < dt) (hvi : 1 ≤ vi)
    (e : w.step E.env dt vi pi = some w') {c x y : Nat} (hM : OnlyMeet w' c x y)
    (hmass : ∀ z, z = x ∨ z = y → 0 ≤ (w.phys z).invMass ∧ 0 ≤ (w.phys z).invI) (hsome : 0 < (w.phys x).invMass + (w.phys y).invMass) (hsound : Sound (w'.cst c).manifold)
    (hend : ∀ z, z = x ∨ z = y → w.typeOf z ≠ .static → (w'.phys z).awake = true ∧ UnderLimits dt (velOf w' z)) :
    ObeysImpact dt w w' c x y := by
  have hg := step_good (whist_inv h.hist).toWInv e
  have hin : ∀ z, z = x ∨ z = y → z ∈ w.g.bodyList := by
    obtain ⟨bA, bB, o1, o2, -, ⟨pA, m1, -, q1, -⟩, ⟨pB, m2, -, q2, -⟩, -⟩ := hg.winv.ok c hM.transmits.mem
    rw [hM.bodyA] at q1; rw [hM.bodyB] at q2
    cases q1; cases q2
    have hbl : w'.g.bodyList = w.g.bodyList := by rw [hg.eq]
    rw [hbl] at m1 m2
    rintro z (rfl | rfl)
    · exact m1
    · exact m2
  have hq : ∀ z, z = x ∨ z = y → (w.phys z).xf.q.s * (w.phys z).xf.q.s + (w.phys z).xf.q.c * (w.phys z).xf.q.c = 1 := fun z hz => by
    rw [(whist_stable consistent_stable h.hist z (hin z hz)).rotation]
    exact ElemLaws.sin_cos _
  refine c137_bounce root_below hE hC hS hj hm hb h ht hc hdt hvi e hM hmass hsome hsound (fun wm hwm => ?_) hend
  exact worldManifold_unit (fun he => by have := hsound.points; rw [he] at this; simp at this) hsound.normal (hq x (.inl rfl)) (hq y (.inr rfl)) hwm

/-- **C137.** So bodies that met faster than the restitution threshold rebound with at least the restitution times the speed of approach. -/
theorem c137_rebound {w w' : World F} {dt : F} {c x y : Nat} (h : ObeysImpact dt w w' c x y) : ∃ wm, worldManifold (w'.cst c).manifold (w.phys x).xf (w'.g.fixtures (w'.g.contacts c).fA).shape.radius (w.phys y).xf (w'.g.fixtures (w'.g.contacts c).fB).shape.radius = some wm ∧
    ∀ a, separatingSpeed wm.normal wm.p1 (w.phys x).sweep.c (w.phys y).sweep.c (drivenVel dt w x) (drivenVel dt w y) = -a →
      ((w'.cst c).restitutionThreshold < a → (w'.cst c).restitution * a ≤ separatingSpeed wm.normal wm.p1 (w.phys x).sweep.c (w.phys y).sweep.c (velOf w' x) (velOf w' y)) ∧
      (a ≤ (w'.cst c).restitutionThreshold → 0 ≤ separatingSpeed wm.normal wm.p1 (w.phys x).sweep.c (w.phys y).sweep.c (velOf w' x) (velOf w' y)) := by
  obtain ⟨wm, p, h1, -, h3, -⟩ := h
  refine ⟨wm, h1, fun a ha => ⟨fun hl => ?_, fun hl => ?_⟩⟩
  · unfold CState.bounce at h3
    rw [ha, if_pos (by linarith)] at h3
    linarith
  · unfold CState.bounce at h3
    rw [ha, if_neg (by linarith)] at h3
    exact h3

end

/-! ### Example -/
namespace BounceEx
attribute [local instance] lowElem
open MomEx

def ball : FixDef ℚ := ⟨.circle ⟨1/2, ⟨0, 0⟩⟩, ⟨1, 1/4, 1/2, 1, false, ⟨1, 0xFFFF, 0⟩⟩⟩

/-- A ball flies at another with speed 3; both have restitution 1/2. Another hits a wall. -/
def calls : List (Call ℚ) :=
  [.setContinuousPhysics false, .createBody (body .dynamic 0 0 3), .createFixture 0 ball, .createBody (body .dynamic 1 0 0), .createFixture 1 ball,
   .createBody (body .dynamic 10 0 2), .createFixture 2 ball, .createBody (body .static 11 0 0), .createFixture 3 ball, .step 0 8 3]
def w0 : World ℚ := (runPlain eng.env calls Ex.w0).get (by decide +kernel)
def w1 : World ℚ := (w0.step eng.env (1/60) 8 3).get (by decide +kernel)

theorem runPlain_all {env : Env ℚ} : ∀ (cs : List (Call ℚ)) {w w' : World ℚ}, runPlain env cs w = some w' → runAll env cs w = some w' := by
  intro cs
  induction cs with
  | nil => intro w w' e; exact e
  | cons c cs ih =>
    intro w w' e
    unfold runPlain at e
    unfold runAll
    split at e
    · rename_i h
      rw [if_pos h.1]
      simp only [Option.bind_eq_some_iff] at e ⊢
      obtain ⟨v, e1, e2⟩ := e
      exact ⟨v, e1, ih e2⟩
    · cases e

theorem low_root : RootBelow ℚ := fun x hx => by
  show min x 1 ≠ 0 ∧ min x 1 * min x 1 ≤ x
  rcases le_total x 1 with h | h
  · rw [min_eq_left h]; exact ⟨hx.ne', by nlinarith⟩
  · rw [min_eq_right h]; exact ⟨one_ne_zero, by linarith⟩

theorem meet {c x y : Nat} (h : c ∈ w1.g.contactList ∧ (w1.cst c).enabled = true ∧ (w1.cst c).touching = true ∧ (w1.fattr (w1.g.contacts c).fA).sensor = false ∧
    (w1.fattr (w1.g.contacts c).fB).sensor = false ∧ (w1.g.fixtures (w1.g.contacts c).fA).body = some x ∧ (w1.g.fixtures (w1.g.contacts c).fB).body = some y)
    (ho : ∀ c' ∈ w1.g.contactList, c' ≠ c → (w1.g.fixtures (w1.g.contacts c').fA).body ≠ some x ∧ (w1.g.fixtures (w1.g.contacts c').fA).body ≠ some y ∧
      (w1.g.fixtures (w1.g.contacts c').fB).body ≠ some x ∧ (w1.g.fixtures (w1.g.contacts c').fB).body ≠ some y) (hj : w1.g.jointList = []) : OnlyMeet w1 c x y := by
  refine ⟨⟨h.1, h.2.1, h.2.2.1, h.2.2.2.1, h.2.2.2.2.1⟩, h.2.2.2.2.2.1, h.2.2.2.2.2.2, fun z hz _ c' t hof => ?_, fun z _ _ j hjm => by rw [hj] at hjm; cases hjm⟩
  by_contra hc
  obtain ⟨k1, k2, k3, k4⟩ := ho c' t.mem hc
  unfold OfBody at hof
  rcases hz with rfl | rfl <;> rcases hof with hof | hof
  · exact k1 hof
  · exact k3 hof
  · exact k2 hof
  · exact k4 hof

/-- The hypotheses hold of both pairs, and the conclusion is not empty: the balls that met with speed 3 part with speed 3/2, and the ball that
hit the wall with speed 2 leaves it with speed 1. -/
example : LeavesBodies eng.env ∧ CallbacksTame eng.env ∧ (∀ w c, eng.react w (.postSolve c) = []) ∧ Seated eng ∧ MouseHasMass eng ∧ eng.block = true ∧ PlainHist eng.env w0 ∧
    TameHist eng.env w0 ∧ w0.continuous = false ∧ w0.step eng.env (1/60) 8 3 = some w1 ∧ OnlyMeet w1 0 0 1 ∧ OnlyMeet w1 1 2 3 ∧ ObeysImpact (1/60) w0 w1 0 0 1 ∧ ObeysImpact (1/60) w0 w1 1 2 3 ∧
    (w0.phys 0).v = ⟨3, 0⟩ ∧ (w0.phys 1).v = ⟨0, 0⟩ ∧ (w1.phys 0).v = ⟨3/4, -1/6⟩ ∧ (w1.phys 1).v = ⟨9/4, -1/6⟩ ∧ (w0.phys 2).v = ⟨2, 0⟩ ∧ (w1.phys 2).v.x = -1 := by
  have h0 := low_root
  have h1 : LeavesBodies eng.env := fun w k op h => (by cases h)
  have h2 : CallbacksTame eng.env := fun w k op h => (by cases h)
  have h3 : Seated eng := fun w j b hb => by
    simp only [eng, Joint.touched, List.mem_cons, List.not_mem_nil, or_false] at hb
    exact hb
  have h4 : MouseHasMass eng := fun w j m h => (by cases h)
  have h5 : runPlain eng.env calls Ex.w0 = some w0 := by rw [w0, Option.some_get]
  have h6 : PlainHist eng.env w0 := runPlain_plain calls (w := Ex.w0) (.new ..) h5
  have h7 : TameHist eng.env w0 := runAll_tame calls (by decide) (w := Ex.w0) (.new ..) (runPlain_all calls h5)
  have h8 : w0.step eng.env (1/60) 8 3 = some w1 := by rw [w1, Option.some_get]
  have m1 : OnlyMeet w1 0 0 1 := meet (by decide +kernel) (by decide +kernel) (by decide +kernel)
  have m2 : OnlyMeet w1 1 2 3 := meet (by decide +kernel) (by decide +kernel) (by decide +kernel)
  have hsound : ∀ c, c = 0 ∨ c = 1 → Sound (w1.cst c).manifold := by
    have : ∀ c < 2, (w1.cst c).manifold.points.length = 1 ∧ (w1.cst c).manifold.type = .circles := by decide +kernel
    intro c hc
    obtain ⟨k1, k2⟩ := this c (by omega)
    exact ⟨.inl k1, fun _ => k1, fun h => absurd k2 h⟩
  have hend : ∀ z < 3, (w1.phys z).awake = true ∧ UnderLimits (1/60) (velOf w1 z) := by
    unfold UnderLimits BelowLimit velOf; decide +kernel
  have hmass : ∀ z < 4, 0 ≤ (w0.phys z).invMass ∧ 0 ≤ (w0.phys z).invI := by decide +kernel
  have hst : w0.typeOf 3 = .static := by decide +kernel
  have hc : w0.continuous = false := by decide +kernel
  refine ⟨h1, h2, fun _ _ => rfl, h3, h4, rfl, h6, h7, hc, h8, m1, m2, ?_, ?_, by decide +kernel, by decide +kernel, by decide +kernel, by decide +kernel, by decide +kernel, by decide +kernel⟩
  · refine c137_bounce h0 h1 h2 (fun _ _ => rfl) h3 h4 rfl h6 h7 hc (by norm_num) (by norm_num) h8 m1 (fun z hz => hmass z (by omega)) (by decide +kernel) (hsound 0 (.inl rfl)) (fun wm hwm => ?_)
      (fun z hz _ => hend z (by omega))
    have k : (worldManifold (w1.cst 0).manifold (w0.phys 0).xf (w1.g.fixtures (w1.g.contacts 0).fA).shape.radius (w0.phys 1).xf (w1.g.fixtures (w1.g.contacts 0).fB).shape.radius).all (fun wm => decide (dot wm.normal wm.normal = 1)) = true := by
      decide +kernel
    rw [hwm] at k
    simpa using k
  · refine c137_bounce h0 h1 h2 (fun _ _ => rfl) h3 h4 rfl h6 h7 hc (by norm_num) (by norm_num) h8 m2 (fun z hz => hmass z (by omega)) (by decide +kernel) (hsound 1 (.inr rfl)) (fun wm hwm => ?_)
      (fun z hz hs => hend z (by
        rcases hz with rfl | rfl
        · omega
        · exact absurd hst hs))
    have k : (worldManifold (w1.cst 1).manifold (w0.phys 2).xf (w1.g.fixtures (w1.g.contacts 1).fA).shape.radius (w0.phys 3).xf (w1.g.fixtures (w1.g.contacts 1).fB).shape.radius).all (fun wm => decide (dot wm.normal wm.normal = 1)) = true := by
      decide +kernel
    rw [hwm] at k
    simpa using k
end BounceEx
end B2.Props
