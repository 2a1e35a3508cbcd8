import Verif.Model.WorldStep
import Verif.Spec.Body
import Verif.Spec.Real

/-!
# Properties C56-C58: mass, forces, motion of one body
-/
namespace B2.Props
open Spec
set_option linter.unusedSectionVars false

section
variable {F : Type} [Field F] [LinearOrder F] [IsStrictOrderedRing F] [Elem F]

private theorem massLoop_spec (fs : List (F × Shape F)) : ∀ (ms : List (MassData F)) (acc : MassData F),
    fs.mapM fixtureMass = some ms → massLoop fs acc = some ⟨acc.mass + totalMass ms,
      ⟨acc.center.x + momentX ms, acc.center.y + momentY ms⟩, acc.i + inertia ms⟩ := by
  induction fs with
  | nil =>
    intro ms acc h
    obtain rfl : ms = [] := by simpa using h.symm
    simp [massLoop, totalMass, momentX, momentY, inertia]
  | cons x fs ih =>
    intro ms acc h
    obtain ⟨d, s⟩ := x
    rw [List.mapM_cons] at h
    cases h1 : fixtureMass (d, s) with
    | none => simp [h1] at h
    | some m =>
      cases h2 : fs.mapM fixtureMass with
      | none => simp [h1, h2] at h
      | some ms' =>
        simp [h1, h2] at h
        subst h
        by_cases hd : d = 0
        · simp only [fixtureMass, hd, if_true, Option.some.injEq] at h1
          subst h1
          rw [massLoop, if_pos hd, ih _ _ h2]
          simp [totalMass, momentX, momentY, inertia]
        · simp only [fixtureMass, hd, if_false] at h1
          rw [massLoop, if_neg hd, h1, Option.bind_eq_bind, Option.bind_some, ih _ _ h2]
          simp only [totalMass, momentX, momentY, inertia, List.map_cons, List.sum_cons, Option.some.injEq, MassData.mk.injEq,
            Vec2.mk.injEq, Vec2.add_x, Vec2.add_y, Vec2.smul_x, Vec2.smul_y]
          refine ⟨by ring, ⟨by ring, by ring⟩, by ring⟩

/-- **C56**: after `reset_mass_data` a dynamic body has the total mass of its fixtures, the center of mass that their
first moments give, the inverse of its mass, the inertia of its fixtures moved to the center of mass (when it can
rotate), its world center where its transform puts the local center, and the velocity of that center. -/
theorem c56_dynamic (fs : List (F × Shape F)) (ms : List (MassData F)) (p p' : Phys F)
    (hm : fs.mapM fixtureMass = some ms) (h : p.resetMassData .dynamic fs = some p') :
    p'.mass = totalMass ms ∧
    (0 < totalMass ms → p'.invMass * p'.mass = 1 ∧ p'.mass * p'.sweep.localCenter.x = momentX ms ∧
      p'.mass * p'.sweep.localCenter.y = momentY ms) ∧
    (totalMass ms ≤ 0 → p'.invMass = 0) ∧
    (p.fixedRotation = false → 0 < inertia ms →
      p'.i = inertia ms - p'.mass * (p'.sweep.localCenter.x ^ 2 + p'.sweep.localCenter.y ^ 2) ∧ 0 < p'.i ∧ p'.invI * p'.i = 1) ∧
    (p.fixedRotation = true ∨ inertia ms ≤ 0 → p'.i = 0 ∧ p'.invI = 0) ∧
    p'.sweep.c = p'.xf.mulV p'.sweep.localCenter ∧ p'.sweep.c0 = p'.sweep.c ∧ p'.xf = p.xf ∧ p'.w = p.w ∧
    p'.v.x = p.v.x - p.w * (p'.sweep.c.y - p.sweep.c.y) ∧ p'.v.y = p.v.y + p.w * (p'.sweep.c.x - p.sweep.c.x) := by
  simp only [Phys.resetMassData, reduceCtorEq, or_self, if_false, massLoop_spec fs ms _ hm, Option.bind_eq_bind, Option.bind_some,
    zero_add] at h
  obtain ⟨c, hc, hcx⟩ : ∃ c : Vec2 F, (if totalMass ms > 0 then (if totalMass ms > 0 then 1 / totalMass ms else 0) *
      (⟨momentX ms, momentY ms⟩ : Vec2 F) else ⟨momentX ms, momentY ms⟩) = c ∧
      (0 < totalMass ms → totalMass ms * c.x = momentX ms ∧ totalMass ms * c.y = momentY ms) := by
    refine ⟨_, rfl, fun hpos => ?_⟩
    have hne := ne_of_gt hpos
    simp only [hpos, if_true, Vec2.smul_x, Vec2.smul_y]
    exact ⟨by field_simp, by field_simp⟩
  obtain ⟨im, him, him1, him2⟩ : ∃ im : F, (if totalMass ms > 0 then 1 / totalMass ms else 0) = im ∧
      (0 < totalMass ms → im * totalMass ms = 1) ∧ (totalMass ms ≤ 0 → im = 0) := by
    refine ⟨_, rfl, fun hpos => ?_, fun hle => if_neg (not_lt.mpr hle)⟩
    have hne := ne_of_gt hpos
    simp only [hpos, if_true]
    field_simp
  rw [hc, him] at h
  by_cases hr : inertia ms > 0 ∧ p.fixedRotation = false
  · rw [if_pos hr] at h
    by_cases hi : inertia ms - totalMass ms * dot c c > 0
    · rw [if_pos hi] at h
      obtain rfl := (Option.some.inj h).symm
      simp only [Phys.moveCenter, true_and, crossSV, Vec2.add_x, Vec2.add_y, Vec2.sub_x, Vec2.sub_y]
      refine ⟨fun hpos => ⟨him1 hpos, hcx hpos⟩, him2, ?_, ?_, by ring_nf; trivial⟩
      · intro _ _
        refine ⟨by simp only [dot]; ring, hi, by rw [one_div]; exact inv_mul_cancel₀ (ne_of_gt hi)⟩
      · rintro (hf | hf)
        · rw [hf] at hr; simp at hr
        · exact absurd hr.1 (not_lt.mpr hf)
    · rw [if_neg hi] at h; cases h
  · rw [if_neg hr] at h
    obtain rfl := (Option.some.inj h).symm
    simp only [Phys.moveCenter, true_and, crossSV, Vec2.add_x, Vec2.add_y, Vec2.sub_x, Vec2.sub_y]
    refine ⟨fun hpos => ⟨him1 hpos, hcx hpos⟩, him2, ?_, fun _ => trivial, by ring_nf; trivial⟩
    intro hf hi
    exact absurd ⟨hi, hf⟩ hr

/-- **C56**: static and kinematic bodies have no mass. -/
theorem c56_other (t : BodyType) (ht : t ≠ .dynamic) (fs : List (F × Shape F)) (p : Phys F) :
    ∃ p', p.resetMassData t fs = some p' ∧ p'.mass = 0 ∧ p'.invMass = 0 ∧ p'.i = 0 ∧ p'.invI = 0 ∧
      p'.sweep.localCenter = ⟨0, 0⟩ ∧ p'.sweep.c = p.xf.p := by
  have : t = .static ∨ t = .kinematic := by cases t <;> simp_all
  simp [Phys.resetMassData, this]

/-- **C56**: `reset_mass_data` panics only if a fixture's mass cannot be computed or the inertia about the center of
mass is not positive. -/
theorem c56_total (fs : List (F × Shape F)) (ms : List (MassData F)) (p : Phys F) (hm : fs.mapM fixtureMass = some ms)
    (hi : 0 < inertia ms → 0 < totalMass ms ∧ momentX ms ^ 2 + momentY ms ^ 2 < totalMass ms * inertia ms) :
    ∃ p', p.resetMassData .dynamic fs = some p' := by
  simp only [Phys.resetMassData, reduceCtorEq, or_self, if_false, massLoop_spec fs ms _ hm, Option.bind_eq_bind, Option.bind_some,
    zero_add]
  split
  · rename_i hr
    obtain ⟨h1, h2⟩ := hi hr.1
    rw [if_pos]
    · exact ⟨_, rfl⟩
    · simp only [h1, if_true, dot, Vec2.smul_x, Vec2.smul_y]
      have hne := ne_of_gt h1
      have : totalMass ms * (1 / totalMass ms * momentX ms * (1 / totalMass ms * momentX ms) +
          1 / totalMass ms * momentY ms * (1 / totalMass ms * momentY ms)) = (momentX ms ^ 2 + momentY ms ^ 2) / totalMass ms := by
        field_simp
      rw [this, gt_iff_lt, sub_pos, div_lt_iff₀ h1]
      linarith
  · exact ⟨_, rfl⟩

end

/-- A body with two discs and a massless edge. -/
example :
    let fs : List (ℝ × Shape ℝ) := [(1, .circle ⟨1, ⟨1, 0⟩⟩), (0, .edge ⟨1 / 100, ⟨0, 0⟩, ⟨1, 0⟩, ⟨0, 0⟩, ⟨0, 0⟩, false⟩), (1, .circle ⟨1, ⟨-1, 0⟩⟩)]
    ∃ ms, fs.mapM fixtureMass = some ms ∧ 0 < totalMass ms ∧ 0 < inertia ms ∧
      momentX ms ^ 2 + momentY ms ^ 2 < totalMass ms * inertia ms := by
  have hp : (0 : ℝ) < Elem.pi := ElemLaws.pi_pos
  refine ⟨_, by simp [fixtureMass, Shape.computeMass, Circle.computeMass]; rfl, ?_, ?_, ?_⟩ <;>
    simp [totalMass, inertia, momentX, momentY, dot] <;> nlinarith [mul_pos hp hp]

section
variable {F : Type} [Field F] [LinearOrder F] [IsStrictOrderedRing F] [Elem F]

/-- **C57**: every `apply_*` call adds exactly its amount to a dynamic body that is awake or that it wakes, and does
nothing at all otherwise. -/
theorem c57_apply (t : BodyType) (fs : List (F × Shape F)) (p : Phys F) (op : BodyOp F) (wake : Bool) (hop : wakeArg op = some wake) :
    op.run t fs p = some (if t = .dynamic ∧ (p.awake = true ∨ wake = true) then amount (woken p) op else p) := by
  cases op <;> simp only [wakeArg, Option.some.injEq, reduceCtorEq] at hop <;> subst hop <;>
    simp only [BodyOp.run, Phys.applyForce, Phys.applyForceToCenter, Phys.applyTorque, Phys.applyLinearImpulse,
      Phys.applyLinearImpulseToCenter, Phys.applyAngularImpulse, Phys.applyGate, Phys.setAwake, amount, woken, cross] <;>
    cases t <;> rcases hw : p.awake <;> rename_i wake <;> rcases wake <;> simp [hw] <;> rfl

/-- An impulse that is allowed to wake. -/
example : wakeArg (.applyLinearImpulse ⟨1, 2⟩ ⟨0, 0⟩ true : BodyOp F) = some true := rfl

end

section
variable {F : Type} [Field F] [LinearOrder F] [IsStrictOrderedRing F] [Elem F] [ElemLaws F]

/-- **C58**: velocity integration moves the center by at most `B2_MAX_TRANSLATION` = 2 and rotates by at most
`B2_MAX_ROTATION` = π/2, whatever the velocity and the time step are. -/
theorem c58_step (h : F) (s : BState F) :
    ((integratePosition h s).c.x - s.c.x) ^ 2 + ((integratePosition h s).c.y - s.c.y) ^ 2 ≤ 2 ^ 2 ∧
    |(integratePosition h s).a - s.a| ≤ Elem.pi / 2 := by
  simp only [integratePosition, clampVelocity, Vec2.add_x, Vec2.add_y, add_sub_cancel_left, Vec2.smul_x, Vec2.smul_y]
  constructor
  · by_cases hgt : dot (h * s.v) (h * s.v) > maxTranslation * maxTranslation
    · simp only [if_pos hgt, Vec2.smul_x, Vec2.smul_y]
      simp only [dot, maxTranslation, Vec2.length, Vec2.smul_x, Vec2.smul_y] at hgt ⊢
      have h0 : 0 < h * s.v.x * (h * s.v.x) + h * s.v.y * (h * s.v.y) := by linarith
      have hs := ElemLaws.mul_self_sqrt _ h0.le
      have hp := sqrt_pos' h0
      generalize hL : Elem.sqrt (h * s.v.x * (h * s.v.x) + h * s.v.y * (h * s.v.y)) = L at *
      have hne := ne_of_gt hp
      have : (h * (2 / L * s.v.x)) ^ 2 + (h * (2 / L * s.v.y)) ^ 2 =
          4 * (h * s.v.x * (h * s.v.x) + h * s.v.y * (h * s.v.y)) / (L * L) := by
        field_simp; ring
      rw [this, hs, mul_div_assoc, div_self (ne_of_gt h0)]
      norm_num
    · simp only [if_neg hgt]
      simp only [dot, maxTranslation, Vec2.smul_x, Vec2.smul_y, gt_iff_lt, not_lt] at hgt
      linarith
  · have hpi : (0 : F) < Elem.pi := ElemLaws.pi_pos
    by_cases hgt : h * s.w * (h * s.w) > maxRotation * maxRotation
    · rw [if_pos hgt]
      simp only [maxRotation] at hgt ⊢
      have hne : h * s.w ≠ 0 := by
        rintro h0
        rw [h0] at hgt
        have : (0 : F) < 1 / 2 * Elem.pi * (1 / 2 * Elem.pi) := by positivity
        linarith
      have ha : |h * s.w| ≠ 0 := abs_ne_zero.mpr hne
      have : h * (s.w * (1 / 2 * Elem.pi / |h * s.w|)) = h * s.w / |h * s.w| * (Elem.pi / 2) := by
        field_simp
      rw [this, abs_mul, abs_div, abs_abs, div_self ha, one_mul, abs_of_pos (by positivity)]
    · rw [if_neg hgt]
      rw [gt_iff_lt, not_lt, maxRotation] at hgt
      rw [abs_le]
      constructor <;> nlinarith

/-- **C58**: small velocities are used as they are. -/
theorem c58_small (h : F) (s : BState F) (hv : (h * s.v.x) ^ 2 + (h * s.v.y) ^ 2 ≤ 2 ^ 2) (hw : |h * s.w| ≤ Elem.pi / 2) :
    integratePosition h s = ⟨⟨s.c.x + h * s.v.x, s.c.y + h * s.v.y⟩, s.a + h * s.w, s.v, s.w⟩ := by
  have h1 : ¬ dot (h * s.v) (h * s.v) > maxTranslation * maxTranslation := by
    simp only [dot, Vec2.smul_x, Vec2.smul_y, maxTranslation]
    rw [not_lt]; linarith
  have h2 : ¬ h * s.w * (h * s.w) > maxRotation * maxRotation := by
    rw [not_lt, maxRotation, ← abs_mul_abs_self (h * s.w)]
    have := abs_nonneg (h * s.w)
    nlinarith
  simp only [integratePosition, clampVelocity, if_neg h1, if_neg h2]
  rfl

/-- Zero time step: both hypotheses hold. -/
example (s : BState F) : (0 * s.v.x) ^ 2 + (0 * s.v.y) ^ 2 ≤ 2 ^ 2 ∧ |0 * s.w| ≤ Elem.pi / 2 := by
  have : (0 : F) < Elem.pi := ElemLaws.pi_pos
  constructor
  · norm_num
  · rw [zero_mul, abs_zero]; positivity

end
end B2.Props
