import Verif.Proofs.JointShift
import Verif.Proofs.JointExample

/-!
# C128: joints do not notice that the origin is moved
-/
set_option linter.unusedSectionVars false
namespace B2.Props

section
variable {F : Type} [Field F] [LinearOrder F] [IsStrictOrderedRing F] [Elem F]

/-- C128. After the origin of the world was moved to `o`, and `shift_origin` of the joint was called, the joint makes the same velocities as before,
and its position correction makes the positions that it would have made before, seen from the new origin. It also panics in the same cases, and goes on
being the joint that it would have been, shifted. -/
theorem c128_shift_origin (o : Vec2 F) (st : JStep F) (bodies : Nat → JBody F) (j : Joint F) :
    (∀ pos v vs, (j.shiftOrigin o).calls st bodies (seenFrom o pos) v vs = (j.calls st bodies pos v vs).map fun r => (r.1.shiftOrigin o, r.2)) ∧
    ∀ pos, (j.shiftOrigin o).solvePos (seenFrom o pos) = (j.solvePos pos).map fun r => (seenFrom o r.1, r.2) :=
  ⟨fun pos v vs => Joint.calls_seen o st bodies pos v vs j, fun pos => Joint.solvePos_seen o pos j⟩

end

section
attribute [local instance] jElem

/-- A pulley whose bodies are apart, seen from (10, -3): the shift is there (the ground anchors move) and the pulley works. -/
example : (∃ k, (Joint.pulley JEx.pulley).shiftOrigin ⟨10, -3⟩ = .pulley k ∧ k.groundAnchorA = ⟨-10, 6⟩) ∧
    (∃ r ∈ ((Joint.pulley JEx.pulley).shiftOrigin ⟨10, -3⟩).calls JEx.st JEx.bodies (seenFrom ⟨10, -3⟩ JEx.pos) JEx.vel [JEx.vel],
      ∃ e ∈ r.2, (e.2.at' 0).v.y ≠ (e.1.at' 0).v.y) := by
  refine ⟨⟨_, rfl, by decide +kernel⟩, ?_⟩
  have h : ((((Joint.pulley JEx.pulley).shiftOrigin ⟨10, -3⟩).calls JEx.st JEx.bodies (seenFrom ⟨10, -3⟩ JEx.pos) JEx.vel [JEx.vel]).any
      fun r => r.2.any fun e => decide ((e.2.at' 0).v.y ≠ (e.1.at' 0).v.y)) = true := by decide +kernel
  cases hc : ((Joint.pulley JEx.pulley).shiftOrigin ⟨10, -3⟩).calls JEx.st JEx.bodies (seenFrom ⟨10, -3⟩ JEx.pos) JEx.vel [JEx.vel] with
  | none => rw [hc] at h; cases h
  | some r =>
    rw [hc] at h
    simp only [Option.any_some, List.any_eq_true, decide_eq_true_eq] at h
    exact ⟨r, rfl, h⟩

end
end B2.Props
