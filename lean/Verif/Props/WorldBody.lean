import Verif.Proofs.WorldBody
import Verif.Proofs.WorldExample

/-!
# The numbers of a body agree

Transform, sweep, mass and inertia of a body are stored redundantly. Every public function and the step keep them in
agreement. The constraint solvers, the time of impact, the user's callbacks and filter are arbitrary (`env`).
-/
namespace B2.Props
set_option linter.unusedSectionVars false
open B2 Spec World

section
variable {F : Type} [Field F] [LinearOrder F] [IsStrictOrderedRing F] [Elem F]

/-! ## C95 -/

/-- However a world came about, the numbers of each of its bodies agree. -/
theorem c95_consistent {env : Env F} {w : World F} (h : WHist env w) : ∀ b ∈ w.g.bodyList, Consistent (w.typeOf b) (w.phys b) :=
  whist_stable consistent_stable h

end

attribute [local instance] exElem

/-- A ball off the center of its body; a second ball; the first is placed anew, given a mass, pushed and stepped. The callback on a
new contact resets its mass data. -/
private def exBodyEnv : Env ℚ := { Ex.env with listener := true, react := fun _ k => match k with
  | .beginContact _ => [.body 0 .resetMassData]
  | _ => [] }
private def exBodyCalls : List (Call ℚ) :=
  [.createBody (Ex.body .dynamic 0 1), .createFixture 0 { Ex.ball with shape := .circle ⟨1, ⟨1/2, 0⟩⟩ },
   .createBody (Ex.body .static 0 0), .createFixture 1 Ex.ball,
   .setTransform 0 ⟨0, 3/2⟩ 1, .setMassData 0 ⟨2, ⟨0, 1/4⟩, 3⟩, .user (.body 0 (.setAngularVelocity 1)), .step (1/60) 8 3]
private def exBodyWorld : World ℚ := (runAll exBodyEnv exBodyCalls Ex.w0).get (by decide +kernel)

/-- The body has mass and its center is off its origin. -/
example : WHist exBodyEnv exBodyWorld ∧ 0 ∈ exBodyWorld.g.bodyList ∧ (exBodyWorld.phys 0).mass > 0 ∧ (exBodyWorld.phys 0).i > 0 ∧
    (exBodyWorld.phys 0).sweep.localCenter = ⟨1/2, 0⟩ ∧ (exBodyWorld.phys 0).xf.p ≠ ⟨0, 3/2⟩ :=
  ⟨runAll_hist exBodyCalls (w := Ex.w0) (.new ..) (by rw [exBodyWorld, Option.some_get]), by decide +kernel⟩

end B2.Props
