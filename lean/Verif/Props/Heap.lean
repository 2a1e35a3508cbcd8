import Verif.Proofs.WorldHeap
import Verif.Props.Doze

/-! # C145: A sleeping heap sleeps on while other things go on elsewhere -/
namespace B2.Props
set_option linter.unusedSectionVars false
open World Spec
section
variable {F : Type} [Field F] [LinearOrder F] [IsStrictOrderedRing F] [Elem F]

/-- A step leaves bodies that sleep exactly as they are, as long as nothing but static bodies connects them with the rest of the world. -/
theorem c145_step {env : Env F} {S : Nat → Prop} {w w' : World F} (h : WHist env w) (hush : Hush env) (hn : w.newContacts = false)
    (hc : w.continuous = false ∨ (w.stepComplete = true ∧ ∀ b ∈ w.g.bodyList, (w.phys b).bullet = false ∧ w.typeOf b ≠ .kinematic))
    (hs : Heap S w) {dt : F} {vi pi : Nat} (e : w.step env dt vi pi = some w') : ∀ b, S b → Unmoved (w.phys b) (w'.phys b) :=
  step_zz hush (whist_inv h).toWInv hn hc hs e
end

namespace HeapEx
attribute [local instance] lowElem
open MomEx

/-- Two balls that are joined sleep on the right side of a static one. On its left side a ball flies at it, and one flies at a fourth that sleeps. -/
def calls : List (Call ℚ) :=
  [.createBody (body .static 0 0 0), .createFixture 0 BounceEx.ball, .createBody (body .dynamic 1 0 0), .createFixture 1 BounceEx.ball,
   .createBody (body .dynamic 2 0 0), .createFixture 2 BounceEx.ball, .createJoint ⟨1, 2, true⟩, .createBody (body .dynamic (-1) 0 3), .createFixture 3 BounceEx.ball,
   .createBody (body .dynamic (-2) 0 0), .createFixture 4 BounceEx.ball, .step 0 8 3,
   .user (.body 1 (.setAwake false)), .user (.body 2 (.setAwake false)), .user (.body 4 (.setAwake false))]
def w0 : World ℚ := (runPlain eng.env calls Ex.w0).get (by decide +kernel)
def w1 : World ℚ := (w0.step eng.env (1/60) 8 3).get (by decide +kernel)

theorem w0_hist : PlainHist eng.env w0 := runPlain_plain calls (w := Ex.w0) (.new ..) (by rw [w0, Option.some_get])

theorem w0_heap : Heap (fun b => b = 1 ∨ b = 2) w0 := by
  have h1 : ∀ b ∈ [1, 2], w0.typeOf b ≠ .static ∧ (w0.phys b).awake = false := by decide +kernel
  have h2 : ∀ c ∈ w0.g.contactList, ∀ b ∈ (w0.g.fixtures (w0.g.contacts c).fA).body, ∀ o ∈ (w0.g.fixtures (w0.g.contacts c).fB).body,
      ((b = 1 ∨ b = 2) → ((o = 1 ∨ o = 2) ∨ w0.typeOf o = .static) ∧ (w0.cst c).filter = false) ∧
      ((o = 1 ∨ o = 2) → ((b = 1 ∨ b = 2) ∨ w0.typeOf b = .static) ∧ (w0.cst c).filter = false) := by decide +kernel
  have h3 : ∀ j ∈ w0.g.jointList, (w0.g.joints j).a = 1 ∧ (w0.g.joints j).b = 2 := by decide +kernel
  refine ⟨fun b hb => h1 b (by simpa using hb), fun c hc b o ha hb => ?_, fun j hj b o ha _ => ?_⟩
  · rcases ha with ⟨a1, a2⟩ | ⟨a1, a2⟩
    · exact (h2 c hc b a1 o a2).1 hb
    · exact (h2 c hc o a2 b a1).2 hb
  · obtain ⟨k1, k2⟩ := h3 j hj
    rcases ha with ⟨a1, a2⟩ | ⟨a1, a2⟩
    · exact .inl (.inr (a2.symm.trans k2))
    · exact .inl (.inl (a2.symm.trans k1))

/-- The hypotheses hold of the two balls, with continuous physics on. They touch each other and the static ball, which another ball hits in that step. The sleeping
ball that is outside the heap is woken. -/
example : Hush eng.env ∧ WHist eng.env w0 ∧ w0.newContacts = false ∧ w0.continuous = true ∧ w0.stepComplete = true ∧
    (∀ b ∈ w0.g.bodyList, (w0.phys b).bullet = false ∧ w0.typeOf b ≠ .kinematic) ∧ Heap (fun b => b = 1 ∨ b = 2) w0 ∧ w0.step eng.env (1/60) 8 3 = some w1 ∧
    w0.g.contactList.length = 4 ∧ (∀ c ∈ w0.g.contactList, (w0.cst c).touching = true) ∧ w0.g.jointList.length = 1 ∧ w0.gravity ≠ ⟨0, 0⟩ ∧
    (w1.phys 3).v ≠ (w0.phys 3).v ∧ (w0.phys 4).awake = false ∧ (w1.phys 4).awake = true ∧ (w1.phys 1).awake = false :=
  ⟨(by intro w k op h; rw [show eng.env.react w k = [] from rfl] at h; cases h), w0_hist.hist, by decide +kernel, by decide +kernel, by decide +kernel, by decide +kernel, w0_heap,
    by rw [w1, Option.some_get], by decide +kernel, by decide +kernel, by decide +kernel, by decide +kernel, by decide +kernel, by decide +kernel, by decide +kernel, by decide +kernel⟩
end HeapEx
end B2.Props
