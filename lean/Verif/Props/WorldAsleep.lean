import Verif.Proofs.WorldAsleep
import Verif.Props.WorldMotion

/-! C121: a sleeping world stays asleep. -/
namespace B2.Props
set_option linter.unusedSectionVars false
open World Spec

section
variable {F : Type} [Field F] [LinearOrder F] [IsStrictOrderedRing F] [Elem F]

/-- A step of a sleeping world moves and wakes nothing and calls no listener: all it may call is the user's contact filter. This is so
whatever the solvers, the joints, gravity and the callbacks are. -/
theorem c121_step {env : Env F} {w w' : World F} (h : WHist env w) (d : Dormant w) {dt : F} {vi pi : Nat} (e : w.step env dt vi pi = some w') :
    Dormant w' ∧ w'.g.bodyList = w.g.bodyList ∧
    (∀ b, w'.typeOf b = w.typeOf b ∧ (w'.g.bodies b).enabled = (w.g.bodies b).enabled ∧ Unmoved (w.phys b) (w'.phys b)) ∧
    ∃ ev, w'.log = ev ++ w.log ∧ ∀ e ∈ ev, ∃ fA fB, e.kind = .filter fA fB := by
  have n := step_asleep (whist_inv h).toWInv d e
  exact ⟨n.dorm d, n.bodies, fun b => ⟨n.type b, n.enabled b, n.phys b⟩, n.log⟩

/-- So is any number of steps. -/
theorem c121_steps {env : Env F} {w w' : World F} (h : WHist env w) (d : Dormant w) (e : Steps env w w') :
    Dormant w' ∧ w'.g.bodyList = w.g.bodyList ∧
    (∀ b, w'.typeOf b = w.typeOf b ∧ (w'.g.bodies b).enabled = (w.g.bodies b).enabled ∧ Unmoved (w.phys b) (w'.phys b)) ∧
    ∃ ev, w'.log = ev ++ w.log ∧ ∀ e ∈ ev, ∃ fA fB, e.kind = .filter fA fB := by
  have : WHist env w' ∧ Naps w w' := by
    induction e with
    | refl => exact ⟨h, .refl w⟩
    | step dt vi pi _ e1 ih => exact ⟨.call (.step dt vi pi) ih.1 trivial e1, ih.2.trans (step_asleep (whist_inv ih.1).toWInv (ih.2.dorm d) e1)⟩
  obtain ⟨-, n⟩ := this
  exact ⟨n.dorm d, n.bodies, fun b => ⟨n.type b, n.enabled b, n.phys b⟩, n.log⟩
end

namespace AsleepEx
attribute [local instance] exElem

/-- Two balls fall on a fixed one, with the user's filter being asked. After a step they are put to sleep; a disabled one is awake. -/
def env : Env ℚ := { Ex.env with filter := some fun _ _ _ => true }
def calls : List (Call ℚ) :=
  [.createBody (Ex.body .dynamic 0 1), .createFixture 0 Ex.ball, .createBody (Ex.body .static 0 0), .createFixture 1 Ex.ball,
   .createBody (Ex.body .dynamic 1 1), .createFixture 2 Ex.ball, .createBody (Ex.body .dynamic 7 1), .createFixture 3 Ex.ball, .setEnabled 3 false,
   .step (1/60) 8 3, .user (.body 0 (.setAwake false)), .user (.body 2 (.setAwake false))]
def w0 : World ℚ := (runAll env calls Ex.w0).get (by decide +kernel)
def w1 : World ℚ := (w0.step env (1/60) 8 3).get (by decide +kernel)
def w2 : World ℚ := (w1.step env (1/30) 8 3).get (by decide +kernel)
theorem w0_hist : WHist env w0 := runAll_hist calls (w := Ex.w0) (.new ..) (by rw [w0, Option.some_get])

theorem w0_dormant : Dormant w0 := ⟨by decide +kernel, by decide +kernel, by decide +kernel⟩

/-- The balls overlap and have contacts that touch; gravity pulls at them. -/
example : WHist env w0 ∧ Dormant w0 ∧ w0.step env (1/60) 8 3 = some w1 ∧ Steps env w0 w2 ∧ w0.continuous = true ∧ w0.g.contactList.length = 3 ∧
    (∃ c ∈ w0.g.contactList, (w0.cst c).touching = true) ∧ w0.gravity ≠ ⟨0, 0⟩ ∧ w0.typeOf 0 = .dynamic ∧ (w0.phys 3).awake = true :=
  ⟨w0_hist, w0_dormant, by rw [w1, Option.some_get], .step (w' := w1) _ _ _ (.step _ _ _ (.refl _) (by rw [w1, Option.some_get])) (by rw [w2, Option.some_get]),
    by decide +kernel, by decide +kernel, by decide +kernel, by decide +kernel, by decide +kernel, by decide +kernel⟩
end AsleepEx
end B2.Props
