import Verif.Proofs.JointExample
import Verif.Proofs.JointExact
import Verif.Spec.Real

/-!
# Properties of joints: position correction
-/
namespace B2.Props
open B2
set_option linter.unusedSectionVars false

section
variable {F : Type} [Field F] [LinearOrder F] [IsStrictOrderedRing F] [Elem F] [ElemLaws F]

/-! ## C122 -/

/-- **C122.** After the velocity phase of a step, made from the positions `pos0`, a position iteration from any positions moves the
bodies of a joint as the joint asks, to first order in how far they are moved. -/
theorem c122_first_order (n : Nat) (st : JStep F) (bodies : Nat → JBody F) (pos0 pos pos' : Arr (Pos F)) (j j' : Joint F) (v : Arr (Vel F)) (vs : List (Arr (Vel F)))
    (log : List (Arr (Vel F) × Arr (Vel F))) (r : Bool) (hok : j.Ok n bodies) (h : j.calls st bodies pos0 v vs = some (j', log)) (hfr : j'.Framed)
    (e : j'.solvePos pos = some (pos', r)) : j'.Corrected bodies pos pos' := by
  obtain ⟨k1, k2, -, -⟩ := Joint.calls_ready hok h
  exact Joint.solvePos_corrected k1 hfr k2 e

/-- **C122.** Bodies that cannot turn are exactly where the joint wants them after one position iteration. -/
theorem c122_exact (n : Nat) (st : JStep F) (bodies : Nat → JBody F) (pos0 pos pos' : Arr (Pos F)) (j j' : Joint F) (v : Arr (Vel F)) (vs : List (Arr (Vel F)))
    (log : List (Arr (Vel F) × Arr (Vel F))) (r : Bool) (hok : j.Ok n bodies) (h : j.calls st bodies pos0 v vs = some (j', log)) (hfr : j'.Framed)
    (hA : (bodies j.bodyA).invI = 0) (hB : (bodies j.bodyB).invI = 0) (e : j'.solvePos pos = some (pos', r)) : j'.Exact bodies pos pos' := by
  obtain ⟨k1, k2, k3, q1, q2⟩ := Joint.calls_ready hok h
  exact Joint.solvePos_exact k1 hfr k2 k3 (by rw [q1]; exact hA) (by rw [q2]; exact hB) e

/-- **C122.** A position iteration reports success exactly if the joint was satisfied, up to the tolerances, where the iteration began. -/
theorem c122_flag (n : Nat) (st : JStep F) (bodies : Nat → JBody F) (pos0 pos pos' : Arr (Pos F)) (j j' : Joint F) (v : Arr (Vel F)) (vs : List (Arr (Vel F)))
    (log : List (Arr (Vel F) × Arr (Vel F))) (r : Bool) (hok : j.Ok n bodies) (h : j.calls st bodies pos0 v vs = some (j', log)) (ht : j'.Tells bodies pos)
    (e : j'.solvePos pos = some (pos', r)) : r = true ↔ j'.Close bodies pos := by
  obtain ⟨k1, k2, -, -⟩ := Joint.calls_ready hok h
  exact Joint.solvePos_flag k1 k2 ht e

end

section
attribute [local instance] jElem

/-- Nearly equal limits are not limits: a slider whose limits are both 2, and which is at 2, is pulled to 0, and the correction reports that
it was not satisfied. -/
theorem c122_prismatic_false : ∃ (st : JStep ℚ) (bodies : Nat → JBody ℚ) (pos pos' : Arr (Pos ℚ)) (k : Prismatic ℚ) (j' : Joint ℚ) (v : Arr (Vel ℚ)) (log : List (Arr (Vel ℚ) × Arr (Vel ℚ))),
    (Joint.prismatic k).Ok 5 bodies ∧ (Joint.prismatic k).Framed ∧ k.enableLimit = true ∧ k.lowerTranslation = 2 ∧ k.upperTranslation = 2 ∧
    (Joint.prismatic k).calls st bodies pos v [v] = some (j', log) ∧ j'.solvePos pos = some (pos', false) ∧
    (Joint.prismatic k).anchorB bodies pos - (Joint.prismatic k).anchorA bodies pos = ⟨2, 0⟩ ∧
    (Joint.prismatic k).anchorB bodies pos' - (Joint.prismatic k).anchorA bodies pos' = ⟨0, 0⟩ := by
  let k : Prismatic ℚ := { JEx.prismatic with lowerTranslation := 2, upperTranslation := 2 }
  let c := (Joint.prismatic k).calls JEx.st JEx.bodies JEx.pos JEx.vel [JEx.vel]
  have hs : c.isSome = true := by decide +kernel
  have hp : ((c.get hs).1.solvePos JEx.pos).isSome = true := by decide +kernel +revert
  have hr : (((c.get hs).1.solvePos JEx.pos).get hp).2 = false := by decide +kernel +revert
  refine ⟨JEx.st, JEx.bodies, JEx.pos, (((c.get hs).1.solvePos JEx.pos).get hp).1, k, (c.get hs).1, JEx.vel, (c.get hs).2, ?_, ?_, rfl, rfl, rfl, by simp [c], ?_,
    by decide +kernel, by decide +kernel +revert⟩
  · constructor <;> decide +kernel
  · exact ⟨by decide +kernel, by decide +kernel⟩
  · rw [← hr]; simp

/-- The positions of the example, body 1 moved by (1, 1). -/
def posOff : Arr (Pos ℚ) := ⟨5, fun i => if i = 1 then ⟨⟨5, 1⟩, 0⟩ else JEx.pos.at' i⟩

/-- Bodies as in the example, but they cannot turn. -/
def stiffBodies : Nat → JBody ℚ := fun i => { JEx.bodies i with invI := 0 }

/-- The hypotheses of C122, for bodies that turn and for bodies that do not: the joints of the example are prepared, body 1 is then moved away, and each joint but
the friction, motor and mouse joints (which do not correct) moves the bodies and reports that it was not satisfied. -/
example : (∀ j ∈ JEx.all.take 6, ∀ b ∈ [JEx.bodies, stiffBodies], j.Ok 5 b ∧ (j.calls JEx.st b JEx.pos JEx.vel [JEx.vel]).isSome) ∧
    (∀ j ∈ JEx.all.take 6, ∀ b ∈ [JEx.bodies, stiffBodies],
      (((j.calls JEx.st b JEx.pos JEx.vel [JEx.vel]).bind fun c => c.1.solvePos posOff).map (·.2)) = some false) ∧
    (∀ b ∈ [JEx.bodies, stiffBodies], (((Joint.pulley JEx.pulley).calls JEx.st b JEx.pos JEx.vel [JEx.vel]).bind fun c => c.1.solvePos posOff).isSome) ∧
    (Joint.prismatic JEx.prismatic).Framed ∧ (Joint.wheel JEx.wheel).Framed ∧ (Joint.pulley JEx.pulley).Framed := by
  refine ⟨?_, ?_, ?_, ?_, ?_, ?_⟩
  · intro j hj b hb
    refine ⟨?_, ?_⟩
    · simp only [JEx.all, List.take, List.mem_cons, List.not_mem_nil, or_false] at hj hb
      rcases hb with rfl | rfl <;> rcases hj with rfl | rfl | rfl | rfl | rfl | rfl <;> constructor <;> decide +kernel
    · simp only [JEx.all, List.take, List.mem_cons, List.not_mem_nil, or_false] at hj hb
      rcases hb with rfl | rfl <;> rcases hj with rfl | rfl | rfl | rfl | rfl | rfl <;> decide +kernel
  · intro j hj b hb
    simp only [JEx.all, List.take, List.mem_cons, List.not_mem_nil, or_false] at hj hb
    rcases hb with rfl | rfl <;> rcases hj with rfl | rfl | rfl | rfl | rfl | rfl <;> decide +kernel
  · intro b hb
    simp only [List.mem_cons, List.not_mem_nil, or_false] at hb
    rcases hb with rfl | rfl <;> decide +kernel
  · exact ⟨by decide +kernel, by decide +kernel⟩
  · exact ⟨by decide +kernel, by decide +kernel⟩
  · show (0 : ℚ) < 2; norm_num

end
end B2.Props
