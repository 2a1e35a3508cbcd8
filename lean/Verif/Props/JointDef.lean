import Verif.Proofs.JointDef
import Verif.Spec.Real
import Mathlib.Tactic.NormNum

/-!
# Saving and loading joints
-/
namespace B2.Props

section
variable {F : Type} [Field F] [LinearOrder F] [IsStrictOrderedRing F] [Elem F] [ElemLaws F]

/-! ## C124 -/

/-- **C124.** A joint, however it was made, changed and used, can be saved. Loading it gives a joint with the same parameters that does
the same to the bodies as the saved one; the format may keep the values in order, or keep the names and return the entries in any order. -/
theorem c124_reload (j : Joint F) (h : j.Made) : ∃ s, j.save = some s ∧ (∃ j', loadSeq s = some j' ∧ j.SameAs j') ∧
    ∀ es, s.2.fields.Perm es → ∃ j', loadMap s es = some j' ∧ j.SameAs j' := by
  obtain ⟨d, j', h1, h2, h3⟩ := Joint.recreate h.sound
  refine ⟨_, by unfold Joint.save; rw [h1]; rfl, ⟨j', ?_, h3⟩, fun es p => ⟨j', ?_, h3⟩⟩
  · unfold loadSeq
    rw [JointDef.readSeq_write]
    exact h2
  · unfold loadMap
    rw [JointDef.readMap_perm d p]
    exact h2

/-! ## C125 -/

/-- **C125**, what holds: a joint that is not a distance joint is written with as many fields as were announced, and can be loaded from
a format that relies on that. Missing: distance joints (`c125_counted_false`). -/
theorem c125_counted_partial (j : Joint F) (h : j.Made) (hd : ∀ k, j ≠ .distance k) :
    ∃ s, j.save = some s ∧ s.2.fields.length = s.2.announced ∧ ∃ j', loadCounted s = some j' ∧ j.SameAs j' := by
  obtain ⟨d, j', h1, h2, h3⟩ := Joint.recreate h.sound
  have hl : d.write.2.fields.length = d.write.2.announced := by
    cases j <;> first | (exact absurd rfl (hd _)) | skip
    all_goals cases h1 <;> rfl
  refine ⟨_, by unfold Joint.save; rw [h1]; rfl, hl, j', ?_, h3⟩
  unfold loadCounted
  rw [List.take_of_length_le hl.le, JointDef.readSeq_write]
  exact h2

omit [IsStrictOrderedRing F] [ElemLaws F] in
/-- **C125** is false of the code: no distance joint can be loaded from such a format; six fields are announced and eight are written. -/
theorem c125_counted_false (k : DistanceJ F) : ∃ s, (Joint.distance k).save = some s ∧ s.2.announced = 6 ∧ s.2.fields.length = 8 ∧
    loadCounted s = none := ⟨_, rfl, rfl, rfl, rfl⟩

end

/-! ## Example -/

namespace SaveEx

/-- A prismatic joint with limits. -/
noncomputable def rail : PrismaticDef ℝ := { PrismaticDef.default with bodyB := 1, lowerTranslation := -1, upperTranslation := 2, localAxisA := ⟨3, 4⟩ }

theorem rail_made : ∃ j : Joint ℝ, j.Made ∧ (∀ k, j ≠ .distance k) ∧ ∃ d, j.getDef = some (.prismatic d) ∧ d.lowerTranslation = -5 := by
  obtain ⟨k, hk⟩ : ∃ k, Prismatic.ofDef rail = some k := by
    unfold Prismatic.ofDef Prismatic.new
    dsimp only
    rw [if_pos (by norm_num [rail])]
    exact ⟨_, rfl⟩
  have h1 : (Joint.prismatic k).Made := .create (d := .prismatic rail) (by simp only [JointDef.create, hk, Option.map_some])
  obtain ⟨r, hr, hl⟩ : ∃ r : Prismatic ℝ × Bool, k.setLimits (-5) 5 = some r ∧ r.1.lowerTranslation = -5 := by
    unfold Prismatic.setLimits
    rw [if_pos (by norm_num)]
    split
    · exact ⟨_, rfl, rfl⟩
    · rename_i h
      exact ⟨_, rfl, (not_not.mp (not_or.mp h).1).symm⟩
  exact ⟨_, .call (c := .setLimits (-5) 5) h1 (by simp only [Joint.call, hr]; rfl), (fun _ h => by cases h), _, rfl, hl⟩

/-- A prismatic joint whose limits were changed is saved and loaded. -/
example : ∃ (j : Joint ℝ) (s : _) (j' : Joint ℝ), j.Made ∧ j.save = some s ∧ loadSeq s = some j' ∧ j.SameAs j' ∧ s.2.fields.length = 11 := by
  obtain ⟨j, h, -, d, hd, -⟩ := rail_made
  obtain ⟨s, h1, ⟨j', h2, h3⟩, -⟩ := c124_reload j h
  refine ⟨j, s, j', h, h1, h2, h3, ?_⟩
  unfold Joint.save at h1
  rw [hd] at h1
  obtain rfl := Option.some.inj h1
  rfl

end SaveEx
end B2.Props
