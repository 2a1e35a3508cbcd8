import Verif.Spec.BodyGet
import Verif.Props.WorldBody
import Verif.Props.Math
import Verif.Props.Engine

set_option linter.unusedSectionVars false

/-!
# C147 to C150: what a body tells about itself is true

An impulse gives a body its momentum and does its work. Mass data are what was set, and setting them does not jolt the body. Setting the data that were read
changes nothing, if the body has mass and a center or an inertia to go with it. The points of a body move as those of a rigid body.
-/
namespace B2.Props
open B2 Spec World
section
variable {F : Type} [Field F] [LinearOrder F] [IsStrictOrderedRing F] [Elem F]

/-- **C147**: `apply_linear_impulse` on a dynamic body with mass that is awake, or is to be woken, adds the impulse to the momentum of the body. If the body can turn, it adds
the moment of the impulse to the angular momentum about any point. If it can turn or does not turn, the energy grows by the work of the impulse: impulse times the mean
of the velocities that the point has before and after. Nothing else in the world changes. -/
theorem c147_impulse {env : Env F} {w w' : World F} (h : WHist env w) {b : Nat} (hb : b ∈ w.g.bodyList) (ht : w.typeOf b = .dynamic) (hm : (w.phys b).invMass ≠ 0)
    {j x : Vec2 F} {wake : Bool} (ha : (w.phys b).awake = true ∨ wake = true) (hr : (Call.user (.body b (.applyLinearImpulse j x wake))).run env w = some w') :
    momentumIn (w'.phys b) = momentumIn (w.phys b) + j ∧
    ((w.phys b).invI ≠ 0 → ∀ o, angularIn (w'.phys b) o = angularIn (w.phys b) o + cross (x - o) j) ∧
    ((w.phys b).invI ≠ 0 ∨ (w.phys b).invI = 0 ∧ (w.phys b).w = 0 →
      energyIn (w'.phys b) = energyIn (w.phys b) + dot j ((w.phys b).velocityAt x + (w'.phys b).velocityAt x)) ∧
    w' = w.setPhys b (w'.phys b) := by
  have hc := c95_consistent h b hb
  have h1 : (w.phys b).invMass * (w.phys b).mass = 1 := (hc.mass.resolve_left hm).2
  have e : w' = w.setPhys b ((w.phys b).applyLinearImpulse (w.typeOf b) j x wake) := (Option.some.inj hr).symm
  have ep : w'.phys b = (w.phys b).applyLinearImpulse (w.typeOf b) j x wake := by rw [e]; simp [setPhys, upd]
  refine ⟨?_, ?_, ?_, by rw [ep]; exact e⟩
  all_goals
    rw [ep, ht]
    have k : ∃ p : Phys F, (w.phys b).applyLinearImpulse .dynamic j x wake =
        { p with v := (w.phys b).v + (w.phys b).invMass * j, w := (w.phys b).w + (w.phys b).invI * cross (x - (w.phys b).sweep.c) j } ∧
        p.mass = (w.phys b).mass ∧ p.i = (w.phys b).i ∧ p.sweep = (w.phys b).sweep := by
      rcases ha with ha | ha
      · exact ⟨w.phys b, by simp [Phys.applyLinearImpulse, Phys.applyGate, ha], rfl, rfl, rfl⟩
      · by_cases hk : (w.phys b).awake = true
        · exact ⟨w.phys b, by simp [Phys.applyLinearImpulse, Phys.applyGate, hk], rfl, rfl, rfl⟩
        · exact ⟨(w.phys b).setAwake .dynamic true, by simp [Phys.applyLinearImpulse, Phys.applyGate, hk, ha, Phys.setAwake], rfl, rfl, rfl⟩
    obtain ⟨p, ek, k1, k2, k3⟩ := k
    rw [ek]
    generalize w.phys b = q at *
  · ext <;> simp only [momentumIn, k1, Vec2.add_x, Vec2.add_y, Vec2.smul_x, Vec2.smul_y]
    · linear_combination j.x * h1
    · linear_combination j.y * h1
  · intro hi o
    have h2 : q.invI * q.i = 1 := (hc.inertia.resolve_left hi).2
    simp only [angularIn, k1, k2, k3, cross, Vec2.add_x, Vec2.add_y, Vec2.smul_x, Vec2.smul_y, Vec2.sub_x, Vec2.sub_y]
    linear_combination ((q.sweep.c.x - o.x) * j.y - (q.sweep.c.y - o.y) * j.x) * h1 + ((x.x - q.sweep.c.x) * j.y - (x.y - q.sweep.c.y) * j.x) * h2
  · intro hi
    simp only [energyIn, Phys.velocityAt, crossSV, dot, k1, k2, k3, cross, Vec2.add_x, Vec2.add_y, Vec2.smul_x, Vec2.smul_y, Vec2.sub_x, Vec2.sub_y]
    rcases hi with hi | ⟨hi, h0⟩
    · have h2 : q.invI * q.i = 1 := (hc.inertia.resolve_left hi).2
      linear_combination (2 * q.v.x * j.x + 2 * q.v.y * j.y + q.invMass * (j.x ^ 2 + j.y ^ 2)) * h1 +
        (2 * q.w * ((x.x - q.sweep.c.x) * j.y - (x.y - q.sweep.c.y) * j.x) + q.invI * ((x.x - q.sweep.c.x) * j.y - (x.y - q.sweep.c.y) * j.x) ^ 2) * h2
    · rw [hi, h0]
      linear_combination (2 * q.v.x * j.x + 2 * q.v.y * j.y + q.invMass * (j.x ^ 2 + j.y ^ 2)) * h1

/-- `apply_linear_impulse_to_center` is `apply_linear_impulse` at the world center. -/
theorem c147_center (env : Env F) (w : World F) (b : Nat) (j : Vec2 F) (wake : Bool) :
    (Call.user (.body b (.applyLinearImpulseToCenter j wake))).run env w = (Call.user (.body b (.applyLinearImpulse j (w.phys b).sweep.c wake))).run env w := by
  have k : (w.phys b).applyLinearImpulseToCenter (w.typeOf b) j wake = (w.phys b).applyLinearImpulse (w.typeOf b) j (w.phys b).sweep.c wake := by
    have e : ((w.phys b).applyGate (w.typeOf b) wake).1.sweep = (w.phys b).sweep := by
      unfold Phys.applyGate Phys.setAwake
      split
      · rfl
      · dsimp only
        split
        · split
          · rfl
          · rfl
        · rfl
    unfold Phys.applyLinearImpulseToCenter Phys.applyLinearImpulse
    dsimp only
    rw [e]
    simp [cross]
  change (do let p ← some _; return w.setPhys b p) = (do let p ← some _; return w.setPhys b p)
  rw [k]

/-- `apply_angular_impulse` on a dynamic body that can turn and is awake, or is to be woken, adds the impulse to the angular momentum about every point, leaves the momentum, and the
energy grows by impulse times the mean of the angular velocities before and after. -/
theorem c147_angular {env : Env F} {w w' : World F} (h : WHist env w) {b : Nat} (hb : b ∈ w.g.bodyList) (ht : w.typeOf b = .dynamic) (hi : (w.phys b).invI ≠ 0)
    {l : F} {wake : Bool} (ha : (w.phys b).awake = true ∨ wake = true) (hr : (Call.user (.body b (.applyAngularImpulse l wake))).run env w = some w') :
    momentumIn (w'.phys b) = momentumIn (w.phys b) ∧ (∀ o, angularIn (w'.phys b) o = angularIn (w.phys b) o + l) ∧
    energyIn (w'.phys b) = energyIn (w.phys b) + l * ((w.phys b).w + (w'.phys b).w) ∧ w' = w.setPhys b (w'.phys b) := by
  have h2 : (w.phys b).invI * (w.phys b).i = 1 := ((c95_consistent h b hb).inertia.resolve_left hi).2
  have e : w' = w.setPhys b ((w.phys b).applyAngularImpulse (w.typeOf b) l wake) := (Option.some.inj hr).symm
  have ep : w'.phys b = (w.phys b).applyAngularImpulse (w.typeOf b) l wake := by rw [e]; simp [setPhys, upd]
  have k : ∃ p : Phys F, (w.phys b).applyAngularImpulse .dynamic l wake = { p with w := (w.phys b).w + (w.phys b).invI * l } ∧
      p.mass = (w.phys b).mass ∧ p.i = (w.phys b).i ∧ p.sweep = (w.phys b).sweep ∧ p.v = (w.phys b).v := by
    rcases ha with ha | ha
    · exact ⟨w.phys b, by simp [Phys.applyAngularImpulse, Phys.applyGate, ha], rfl, rfl, rfl, rfl⟩
    · by_cases hk : (w.phys b).awake = true
      · exact ⟨w.phys b, by simp [Phys.applyAngularImpulse, Phys.applyGate, hk], rfl, rfl, rfl, rfl⟩
      · exact ⟨(w.phys b).setAwake .dynamic true, by simp [Phys.applyAngularImpulse, Phys.applyGate, hk, ha, Phys.setAwake], rfl, rfl, rfl, rfl⟩
  obtain ⟨p, ek, k1, k2, k3, k4⟩ := k
  refine ⟨?_, fun o => ?_, ?_, by rw [ep]; exact e⟩
  all_goals
    rw [ep, ht, ek]
    simp only [momentumIn, angularIn, energyIn, k1, k2, k3, k4]
  · linear_combination l * h2
  · linear_combination (2 * (w.phys b).w * l + (w.phys b).invI * l ^ 2) * h2

/-- **C148**: after `set_mass_data` with a positive mass, a dynamic body reports that mass and center; if it may turn and an inertia was given, that inertia too. No
point of the body has another velocity than before, and the body is where it was. -/
theorem c148_set {env : Env F} {w w' : World F} {b : Nat} (ht : w.typeOf b = .dynamic) {m : MassData F} (hm : 0 < m.mass)
    (hr : (Call.setMassData b m).run env w = some w') :
    (w'.phys b).getMassData.mass = m.mass ∧ (w'.phys b).getMassData.center = m.center ∧
    ((w.phys b).fixedRotation = false → 0 < m.i → (w'.phys b).getMassData.i = m.i ∧ (w'.phys b).getInertia = m.i) ∧
    (∀ x, (w'.phys b).velocityAt x = (w.phys b).velocityAt x) ∧ (w'.phys b).xf = (w.phys b).xf ∧ (w'.phys b).w = (w.phys b).w ∧
    w' = w.setPhys b (w'.phys b) := by
  have hn : ¬ m.mass ≤ 0 := not_le.mpr hm
  change w.setMassData b m = some w' at hr
  unfold World.setMassData at hr
  split at hr
  · cases hr
  · obtain ⟨p, e1, e2⟩ := Option.bind_eq_some_iff.mp hr
    cases e2
    have ep : (w.setPhys b p).phys b = p := by simp [setPhys, upd]
    rw [ep]
    rw [ht] at e1
    simp only [Phys.setMassData, hn, if_false, ne_eq, not_true_eq_false] at e1
    split at e1
    · split at e1
      · cases e1
        refine ⟨rfl, rfl, fun _ _ => ?_, fun x => ?_, rfl, rfl, rfl⟩
        · constructor <;> simp [Phys.getMassData, Phys.getInertia, Phys.moveCenter]
        · ext <;> simp [Phys.velocityAt, Phys.moveCenter, crossSV] <;> ring
      · cases e1
    · rename_i hk
      cases e1
      refine ⟨rfl, rfl, fun hf hi => absurd ⟨hi, hf⟩ hk, fun x => ?_, rfl, rfl, rfl⟩
      ext <;> simp [Phys.velocityAt, Phys.moveCenter, crossSV] <;> ring

/-- **C149**, for bodies with mass that either can turn, or cannot turn and have fixed rotation or their center of mass at the origin: setting the mass data that
`get_mass_data` reports does not panic and changes nothing. -/
theorem c149_round_partial {env : Env F} {w : World F} (h : WHist env w) {b : Nat} (hb : b ∈ w.g.bodyList) (ht : w.typeOf b = .dynamic) (hm : (w.phys b).invMass ≠ 0)
    (hi : (w.phys b).invI ≠ 0 ∨ (w.phys b).invI = 0 ∧ (w.phys b).i = 0 ∧ ((w.phys b).fixedRotation = true ∨ (w.phys b).sweep.localCenter = ⟨0, 0⟩)) :
    ∃ w', (Call.setMassData b (w.phys b).getMassData).run env w = some w' ∧ SameButStart (w.phys b) (w'.phys b) ∧ w' = w.setPhys b (w'.phys b) := by
  have hl : w.locked = false := (whist_inv h).unlocked
  have hc := c95_consistent h b hb
  obtain ⟨m0, m1⟩ := hc.mass.resolve_left hm
  have hn : ¬ (w.phys b).mass ≤ 0 := not_le.mpr m0
  have e1 : 1 / (w.phys b).mass = (w.phys b).invMass := by rw [div_eq_iff m0.ne']; exact m1.symm
  have hf := hc.fixed
  have cc := hc.center
  have k : ∃ p, (w.phys b).setMassData .dynamic (w.phys b).getMassData = some p ∧ SameButStart (w.phys b) p := by
    generalize w.phys b = q at *
    have hv : ∀ a : Vec2 F, a + crossSV q.w (q.sweep.c - q.sweep.c) = a := by
      intro a; ext <;> simp [crossSV]
    simp only [Phys.setMassData, Phys.getMassData, hn, if_false, ne_eq, not_true_eq_false, e1]
    rcases hi with hi | ⟨i0, i1, i2⟩
    · obtain ⟨n0, n1⟩ := hc.inertia.resolve_left hi
      have e2 : 1 / q.i = q.invI := by rw [div_eq_iff n0.ne']; exact n1.symm
      have fx : q.fixedRotation = false := by
        cases hq : q.fixedRotation
        · rfl
        · exact absurd (hf hq) hi
      have pos : 0 < q.i + q.mass * dot q.sweep.localCenter q.sweep.localCenter := by
        have : 0 ≤ dot q.sweep.localCenter q.sweep.localCenter := by unfold dot; nlinarith [sq_nonneg q.sweep.localCenter.x, sq_nonneg q.sweep.localCenter.y]
        have := mul_nonneg m0.le this
        linarith
      rw [if_pos ⟨pos, fx⟩]
      simp only [add_sub_cancel_right, gt_iff_lt, n0, if_true, e2]
      refine ⟨_, rfl, ?_⟩
      simp only [SameButStart, Phys.moveCenter, ← cc, hv]
    · rw [if_neg]
      · refine ⟨_, rfl, ?_⟩
        simp only [SameButStart, Phys.moveCenter, ← cc, hv, i0, i1]
      · rintro ⟨a, c⟩
        rcases i2 with i2 | i2
        · rw [i2] at c; cases c
        · rw [i1, i2] at a; simp [dot] at a
  obtain ⟨p, k1, k2⟩ := k
  refine ⟨w.setPhys b p, ?_, ?_, ?_⟩
  · change w.setMassData b _ = _
    simp [World.setMassData, hl, ht, k1]
  · simpa [setPhys, upd] using k2
  · simp [setPhys, upd]

/-- **C150**: `get_local_point` undoes `get_world_point` and the other way round, the same for vectors; the world center is where the local center is in the world and moves with
the linear velocity; and any two points of the body move so that their distance does not change. -/
theorem c150_points [ElemLaws F] {env : Env F} {w : World F} (h : WHist env w) {b : Nat} (hb : b ∈ w.g.bodyList) (x y : Vec2 F) :
    (w.phys b).localPoint ((w.phys b).worldPoint x) = x ∧ (w.phys b).worldPoint ((w.phys b).localPoint x) = x ∧
    (w.phys b).localVector ((w.phys b).worldVector x) = x ∧ (w.phys b).worldVector ((w.phys b).localVector x) = x ∧
    (w.phys b).worldVector (x - y) = (w.phys b).worldPoint x - (w.phys b).worldPoint y ∧
    (w.phys b).worldPoint (w.phys b).sweep.localCenter = (w.phys b).sweep.c ∧ (w.phys b).velocityAtLocal (w.phys b).sweep.localCenter = (w.phys b).v ∧
    dot ((w.phys b).velocityAtLocal x - (w.phys b).velocityAtLocal y) ((w.phys b).worldPoint x - (w.phys b).worldPoint y) = 0 ∧
    (w.phys b).velocityAtLocal x = (w.phys b).velocityAt ((w.phys b).worldPoint x) := by
  have hc := c95_consistent h b hb
  have u := c45_inverse (w.phys b).xf (by rw [hc.rotation]; exact c45_angle_is_unit _) x
  refine ⟨u.2.2.1, u.2.2.2, u.1, u.2.1, ?_, hc.center.symm, ?_, ?_, rfl⟩
  · ext <;> simp [Phys.worldVector, Phys.worldPoint, Rot.mulV, Xf.mulV] <;> ring
  · rw [Phys.velocityAtLocal, Phys.worldPoint, ← hc.center]; ext <;> simp [Phys.velocityAt, crossSV]
  · simp [Phys.velocityAtLocal, Phys.velocityAt, crossSV, dot]; ring
end

/-- A body that is turned by one radian and not at the origin. -/
example : ∃ w : World ℝ, WHist exEngine.env w ∧ 0 ∈ w.g.bodyList ∧ (w.phys 0).sweep.a = 1 ∧ (w.phys 0).xf.p = ⟨0, 3⟩ := by
  obtain ⟨w, e, k⟩ : ∃ w, (Call.createBody { EngineEx.hangDef .dynamic 3 1 with angle := 1 }).run exEngine.env EngineEx.e0 = some w ∧
      0 ∈ w.g.bodyList ∧ (w.phys 0).sweep.a = 1 ∧ (w.phys 0).xf.p = ⟨0, 3⟩ := by
    simp only [Call.run, createBody]
    rw [if_neg (by decide), show Phys.new { EngineEx.hangDef .dynamic 3 1 with angle := 1 } = some _ from if_pos ⟨le_refl _, le_refl _⟩]
    exact ⟨_, rfl, List.mem_cons_self, rfl, rfl⟩
  exact ⟨w, .call (.createBody { EngineEx.hangDef .dynamic 3 1 with angle := 1 }) (.new ..) trivial e, k⟩

namespace BodyGetEx
attribute [local instance] exElem

/-- A ball off the origin of its body, which turns and moves. -/
def calls : List (Call ℚ) :=
  [.createBody (Ex.body .dynamic 0 1), .createFixture 0 { Ex.ball with shape := .circle ⟨1, ⟨1/2, 0⟩⟩ }, .user (.body 0 (.setAngularVelocity 2)),
   .user (.body 0 (.setLinearVelocity ⟨1, 0⟩))]
def wb : World ℚ := (runAll Ex.env calls Ex.w0).get (by decide +kernel)
theorem wb_hist : WHist Ex.env wb := runAll_hist calls (w := Ex.w0) (.new ..) (by rw [wb, Option.some_get])

/-- The hypotheses of `c147_impulse` and `c149_round_partial` hold of it, and the impulse is carried out. -/
example : WHist Ex.env wb ∧ 0 ∈ wb.g.bodyList ∧ wb.typeOf 0 = .dynamic ∧ (wb.phys 0).invMass ≠ 0 ∧ (wb.phys 0).awake = true ∧ (wb.phys 0).invI ≠ 0 ∧
    (wb.phys 0).sweep.localCenter = ⟨1/2, 0⟩ ∧ ((Call.user (.body 0 (.applyLinearImpulse ⟨1, 2⟩ ⟨3, 0⟩ true))).run Ex.env wb).isSome = true :=
  ⟨wb_hist, by decide +kernel, by decide +kernel, by decide +kernel, by decide +kernel, by decide +kernel, by decide +kernel, by decide +kernel⟩

/-- That of `c147_angular` is, too. -/
example : ((Call.user (.body 0 (.applyAngularImpulse 3 false))).run Ex.env wb).isSome = true := by decide +kernel

/-- Those of `c148_set` too. -/
example : wb.typeOf 0 = .dynamic ∧ (0 : ℚ) < 2 ∧ (wb.phys 0).fixedRotation = false ∧ ((Call.setMassData 0 ⟨2, ⟨0, 1/4⟩, 3⟩).run Ex.env wb).isSome = true := by
  decide +kernel

/-- A body without fixtures, and the same given a mass off its origin but no inertia. -/
def empty : World ℚ := (runAll Ex.env [.createBody (Ex.body .dynamic 0 1)] Ex.w0).get (by decide +kernel)
def point : World ℚ := (runAll Ex.env [.createBody (Ex.body .dynamic 0 1), .setMassData 0 ⟨1, ⟨1, 0⟩, 0⟩] Ex.w0).get (by decide +kernel)

/-- As stated **C149** is false: setting the mass data that a body reports panics if the body has a mass off its origin and no inertia, and gives a mass of one to a body
that had none. -/
theorem c149_round_false : ¬ ∀ (w : World ℚ) (b : Nat), WHist Ex.env w → b ∈ w.g.bodyList → w.typeOf b = .dynamic →
    ∃ w', (Call.setMassData b (w.phys b).getMassData).run Ex.env w = some w' := by
  intro h
  obtain ⟨w', e⟩ := h point 0 (runAll_hist _ (w := Ex.w0) (.new ..) (by rw [point, Option.some_get])) (by decide +kernel) (by decide +kernel)
  have n : ((Call.setMassData 0 (point.phys 0).getMassData).run Ex.env point).isSome = false := by decide +kernel
  rw [e] at n
  cases n

theorem c149_massless_false : ¬ ∀ (w w' : World ℚ) (b : Nat), WHist Ex.env w → b ∈ w.g.bodyList → w.typeOf b = .dynamic →
    (Call.setMassData b (w.phys b).getMassData).run Ex.env w = some w' → (w'.phys b).mass = (w.phys b).mass := by
  intro h
  have n : (((Call.setMassData 0 (empty.phys 0).getMassData).run Ex.env empty).map fun w' => decide ((w'.phys 0).mass = (empty.phys 0).mass)) = some false := by decide +kernel
  obtain ⟨w', e, k⟩ := Option.map_eq_some_iff.mp n
  have := h empty w' 0 (runAll_hist _ (w := Ex.w0) (.new ..) (by rw [empty, Option.some_get])) (by decide +kernel) (by decide +kernel) e
  exact of_decide_eq_false k this
end BodyGetEx

end B2.Props
