import Verif.Proofs.WorldImpact
import Verif.Props.Touch
import Verif.Proofs.JointExample

/-! Continuous collision in a step (C123). -/
namespace B2.Props
set_option linter.unusedSectionVars false
open Spec World

section
variable {F : Type} [Field F] [LinearOrder F] [IsStrictOrderedRing F] [Elem F]

/-- C123: after a step with continuous collision, no contact that the engine watches has an impact left before the very end of the step. -/
theorem c123_no_impact_left {E : Engine F} {w w' : World F} (hE : LeavesBodies E.env) (hP : PostSolveLinks E.env) (hj : Seated E) (hm : MouseHasMass E)
    (h : SteadyHist E.env w) {dt : F} {vi pi : Nat} (hpos : 0 < dt) (hcont : w.continuous = true) (hsub : w.subStepping = false)
    (hS : Steady w (.step dt vi pi)) (e : w.step E.env dt vi pi = some w') :
    ∀ k ∈ w'.g.contactList, ∀ bA bB, w'.bodyOf (w'.g.contacts k).fA = some bA → w'.bodyOf (w'.g.contacts k).fB = some bB → Watched w' k bA bB →
      ∃ pA pB, Proxy.ofShape (w'.g.fixtures (w'.g.contacts k).fA).shape (w'.g.contacts k).iA = some pA ∧
        Proxy.ofShape (w'.g.fixtures (w'.g.contacts k).fB).shape (w'.g.contacts k).iB = some pB ∧ NoImpactLeft w' bA bB pA pB := by
  intro k hk bA bB hA hB hw
  have hT := env_toiForward E
  have hH := env_heavyStay hj hm
  obtain ⟨u, hu, hs, hl⟩ := step_impacts hE hP hT hH (whist_inv h.plain.hist).toWInv h.plain.complete hcont hsub hpos (h.heavyReady hE hP hT hH hS hpos) e
  obtain ⟨eg, ec, ef, ep⟩ := hs
  have hbo : ∀ f, u.bodyOf f = w'.bodyOf f := fun f => by unfold World.bodyOf; rw [eg]
  have hty : ∀ y, u.typeOf y = w'.typeOf y := fun y => by unfold World.typeOf; rw [eg]
  rw [eg] at hk hA hB
  rw [← hbo] at hA hB
  have hw' : Watched u k bA bB := by
    obtain ⟨a1, a2, a3, a4, a5⟩ := hw
    refine ⟨by rw [← ec]; exact a1, by rw [← ec]; exact a2, ?_, ?_, ?_⟩
    · unfold sensorContact at a3 ⊢; rw [← ef, ← eg]; exact a3
    · unfold active isAwake at a4 ⊢; rw [hty, hty, ← (ep bA).2.1, ← (ep bB).2.1]; exact a4
    · unfold collides at a5 ⊢; rw [hty, hty, ← (ep bA).2.2, ← (ep bB).2.2]; exact a5
  obtain ⟨f1, f2⟩ := hl k hk bA bB hA hB hw'
  obtain ⟨v, r, g1, g2, g3, g4, g5, g6, g7, g8, g9, g10⟩ := hu.kept k hk f1 bA bB hA hB
  change Engine.toi v k = some r at g3
  unfold Engine.toi at g3
  simp only [Option.bind_eq_bind, Option.bind_eq_some_iff] at g3
  obtain ⟨bA', k1, bB', k2, pA, k3, pB, k4, o, k5, k6⟩ := g3
  have hv : ∀ f, v.bodyOf f = u.bodyOf f := fun f => by unfold World.bodyOf; rw [g2]
  rw [g1, hv, hA] at k1
  rw [g1, hv, hB] at k2
  cases k1; cases k2; cases k6
  rw [g1, g2] at k3 k4
  refine ⟨pA, pB, by rw [eg]; exact k3, by rw [eg]; exact k4, (v.phys bA).sweep.alpha0, _, _, o, g5, rfl, g4.symm, by rw [(ep bA).1]; exact g6, by rw [(ep bB).1]; exact g7,
    by rw [(ep bA).1, ← hty]; exact g8, by rw [(ep bB).1, ← hty, g4]; exact g9, k5, fun ho => ?_⟩
  rw [g10] at f2
  simp only [ho, decide_true, if_true] at f2
  exact f2.trans_le (min_le_left _ _)

theorem placeAt_transform {s : Sweep F} {tau : F} (h : s.alpha0 < 1) : placeAt s tau = s.getTransform ((tau - s.alpha0) / (1 - s.alpha0)) := by
  have h0 : (1 - s.alpha0) ≠ 0 := by have := sub_pos.mpr h; exact ne_of_gt this
  have h1 : (1 - tau) / (1 - s.alpha0) = 1 - (tau - s.alpha0) / (1 - s.alpha0) := by field_simp; ring
  have h2 : angleAt s tau = (1 - (tau - s.alpha0) / (1 - s.alpha0)) * s.a0 + (tau - s.alpha0) / (1 - s.alpha0) * s.a := by
    unfold angleAt; rw [h1]; ring
  have h3 : centerAt s tau = (1 - (tau - s.alpha0) / (1 - s.alpha0)) * s.c0 + ((tau - s.alpha0) / (1 - s.alpha0)) * s.c := by
    unfold centerAt; rw [h1]; ext <;> simp <;> ring
  simp only [placeAt, Sweep.getTransform, h2, h3]

theorem placeAt_course {s s' : Sweep F} (h : SameCourse s s') (tau : F) : placeAt s tau = placeAt s' tau := by
  simp only [placeAt, h.center, h.path, h.turn]

theorem course_straight {s s' : Sweep F} (h : SameCourse s s') (h1 : s.alpha0 < 1) (hr : s'.a0 = s'.a) : s.a0 = s.a := by
  have h0 : (1 - s.alpha0) ≠ 0 := by have := sub_pos.mpr h1; exact ne_of_gt this
  have a := h.turn s.alpha0
  have b := h.turn 1
  simp only [angleAt, hr, sub_self, mul_zero, add_zero, zero_div, zero_mul, div_self h0, one_mul] at a b
  rw [b]; linarith

variable [ElemLaws F]

/-- C123: what that means for bodies that do not turn. From a time `tau0` not after the one from which the sweeps of the dynamic ones of the two bodies
count, until the very end of the step, the shapes stay further apart than the distance at which an impact is seen, unless they had a point in common at
`tau0`, or the search ran out of iterations. -/
theorem c123_meaning {w : World F} {bA bB : Nat} {pA pB : Proxy F} (h : NoImpactLeft w bA bB pA pB) (nA : pA.vertices ≠ []) (nB : pB.vertices ≠ [])
    (rA : (w.phys bA).sweep.a0 = (w.phys bA).sweep.a) (rB : (w.phys bB).sweep.a0 = (w.phys bB).sweep.a) (vA : VerticesApart pA) (vB : VerticesApart pB)
    (hg : ∀ sA sB : Sweep F, DistanceGood ⟨pA, pB, sA, sB, 1⟩) :
    ∃ tau0 : F, tau0 < 1 ∧ (w.typeOf bA = .dynamic → tau0 ≤ (w.phys bA).sweep.alpha0) ∧ (w.typeOf bB = .dynamic → tau0 ≤ (w.phys bB).sweep.alpha0) ∧
      ((∀ tau, tau0 ≤ tau → tau ≤ 1 - 10 * epsilon →
          ApartAt (w.phys bA).sweep (w.phys bB).sweep pA pB (max linearSlop (pA.radius + pB.radius - 3 * linearSlop) - 1 / 4 * linearSlop) tau) ∨
        MeetAt (w.phys bA).sweep (w.phys bB).sweep pA pB tau0 ∨
        ∃ sA sB, sA.alpha0 = tau0 ∧ sB.alpha0 = tau0 ∧ SameCourse sA (w.phys bA).sweep ∧ SameCourse sB (w.phys bB).sweep ∧ GivesUp sA sB pA pB) := by
  obtain ⟨tau0, sA, sB, o, h1, hA, hB, cA, cB, dA, dB, ho, ht⟩ := h
  refine ⟨tau0, h1, dA, dB, ?_⟩
  have lA : sA.alpha0 < 1 := hA ▸ h1
  have lB : sB.alpha0 < 1 := hB ▸ h1
  have hd : 0 < 1 - tau0 := sub_pos.mpr h1
  have pts : ∀ tau x, (PointsAt (w.phys bA).sweep pA tau x ↔ HullA ⟨pA, pB, sA, sB, 1⟩ ((tau - tau0) / (1 - tau0)) x) ∧
      (PointsAt (w.phys bB).sweep pB tau x ↔ HullB ⟨pA, pB, sA, sB, 1⟩ ((tau - tau0) / (1 - tau0)) x) := by
    intro tau x
    unfold PointsAt HullA HullB
    rw [← placeAt_course cA, ← placeAt_course cB, placeAt_transform lA, placeAt_transform lB, hA, hB]
    exact ⟨Iff.rfl, Iff.rfl⟩
  have far := c68_no_tunnelling (i := ⟨pA, pB, sA, sB, 1⟩) nA nB zero_le_one vA vB (hg sA sB) (course_straight cA lA rA) (course_straight cB lB rB) ho
  obtain ⟨-, -, m3⟩ := c67_meaning (i := ⟨pA, pB, sA, sB, 1⟩) nA nB zero_le_one vA vB (hg sA sB) ho
  obtain ⟨o', e', -, -, q3, -⟩ := c54_interval (i := ⟨pA, pB, sA, sB, 1⟩) nA nB zero_le_one
  rw [ho] at e'
  cases e'
  have key : (∀ tau, tau0 ≤ tau → tau ≤ 1 - 10 * epsilon → (tau - tau0) / (1 - tau0) < o.t) → ∀ tau, tau0 ≤ tau → tau ≤ 1 - 10 * epsilon →
          ApartAt (w.phys bA).sweep (w.phys bB).sweep pA pB (max linearSlop (pA.radius + pB.radius - 3 * linearSlop) - 1 / 4 * linearSlop) tau := by
    intro hlt tau t1 t2 x y hx hy
    exact far _ (div_nonneg (sub_nonneg.mpr t1) hd.le) (hlt tau t1 t2) x y ((pts tau x).1.mp hx) ((pts tau y).2.mp hy)
  have he : (0 : F) < epsilon := by unfold epsilon; norm_num
  cases hst : o.state with
  | failed => exact .inr (.inr ⟨sA, sB, hA, hB, cA, cB, o, ho, hst⟩)
  | overlapped =>
    obtain ⟨x, x1, x2⟩ := m3 hst
    refine .inr (.inl ⟨x, (pts tau0 x).1.mpr ?_, (pts tau0 x).2.mpr ?_⟩)
    · rw [sub_self, zero_div]; exact x1
    · rw [sub_self, zero_div]; exact x2
  | touching =>
    refine .inl (key fun tau t1 t2 => ?_)
    rw [div_lt_iff₀ hd]
    have := ht hst
    linarith [mul_comm (1 - tau0) o.t]
  | separated =>
    refine .inl (key fun tau t1 t2 => ?_)
    rw [q3 hst, div_lt_one hd]
    linarith

end

/-! ### Examples -/

namespace ImpactEx
open TouchEx
attribute [local instance] jElem

/-- A ball of radius 1/2 two above a fixed one, with velocity -115. -/
def halfBall : FixDef ℚ := { Ex.ball with shape := .circle ⟨1 / 2, ⟨0, 0⟩⟩ }
def calls : List (Call ℚ) := [.createBody { Ex.body .dynamic 0 2 with linearVelocity := ⟨0, -115⟩ }, .createFixture 0 halfBall, .createBody (Ex.body .static 0 0), .createFixture 1 halfBall]
def w0 : World ℚ := (runSteady qEngine.env calls Ex.w0).get (by decide +kernel)
def w1 : World ℚ := (w0.step qEngine.env (1/60) 8 3).get (by decide +kernel)

theorem ofShape_circle {s : Shape ℚ} {i : Nat} {r x y : ℚ} (h : (match s with | .circle c => some (c.radius, c.p.x, c.p.y) | _ => none) = some (r, x, y)) :
    Proxy.ofShape s i = some ⟨[⟨x, y⟩], r⟩ := by
  cases s <;> cases h
  rfl

/-- C123: without continuous collision the ball would end inside the fixed one, less than 1/10 above its centre. It hits it once and stays 0.99 above it; their
contact is still watched afterwards. -/
example : LeavesBodies qEngine.env ∧ PostSolveLinks qEngine.env ∧ Seated qEngine ∧ MouseHasMass qEngine ∧ SteadyHist qEngine.env w0 ∧ w0.continuous = true ∧ w0.subStepping = false ∧
    Steady w0 (.step (1/60) 8 3) ∧ w0.step qEngine.env (1/60) 8 3 = some w1 ∧ w1.g.contactList = [0] ∧ w1.bodyOf (w1.g.contacts 0).fA = some 0 ∧
    w1.bodyOf (w1.g.contacts 0).fB = some 1 ∧ Watched w1 0 0 1 ∧ (w1.cst 0).toiCount = 1 ∧ (w1.phys 0).sweep.c.y = 1591 / 1600 ∧
    NoImpactLeft w1 0 1 ⟨[⟨0, 0⟩], 1 / 2⟩ ⟨[⟨0, 0⟩], 1 / 2⟩ := by
  have h1 : LeavesBodies qEngine.env := fun w k op h => (by cases h)
  have h2 : PostSolveLinks qEngine.env := links_quiet _ fun _ _ => rfl
  have h3 : Seated qEngine := fun w j b hb => by
    simp only [qEngine, Joint.touched, List.mem_cons, List.not_mem_nil, or_false] at hb
    exact hb
  have h4 : MouseHasMass qEngine := fun w j m h => (by cases h)
  have h5 : SteadyHist qEngine.env w0 := runSteady_hist calls (w := Ex.w0) (.new ..) (by rw [w0, Option.some_get])
  have h6 : Steady w0 (.step (1/60) 8 3) := by
    have : ∀ b ∈ w0.g.bodyList, w0.typeOf b ≠ .kinematic := by decide +kernel
    exact fun b hb ht => absurd ht (this b hb)
  have h7 : w0.step qEngine.env (1/60) 8 3 = some w1 := by rw [w1, Option.some_get]
  have h8 : Watched w1 0 0 1 := ⟨by decide +kernel, by decide +kernel, by decide +kernel, by decide +kernel, by decide +kernel⟩
  have h9 : w1.g.contactList = [0] := by decide +kernel
  have h10 : w1.bodyOf (w1.g.contacts 0).fA = some 0 := by decide +kernel
  have h11 : w1.bodyOf (w1.g.contacts 0).fB = some 1 := by decide +kernel
  refine ⟨h1, h2, h3, h4, h5, by decide +kernel, by decide +kernel, h6, h7, h9, h10, h11, h8, by decide +kernel, by decide +kernel, ?_⟩
  obtain ⟨pA, pB, e1, e2, h⟩ := c123_no_impact_left h1 h2 h3 h4 h5 (by norm_num) (by decide +kernel) (by decide +kernel) h6 h7 0 (by rw [h9]; simp) 0 1 h10 h11 h8
  have k1 : Proxy.ofShape (w1.g.fixtures (w1.g.contacts 0).fA).shape (w1.g.contacts 0).iA = some ⟨[⟨0, 0⟩], 1 / 2⟩ := by
    exact ofShape_circle (by decide +kernel)
  have k2 : Proxy.ofShape (w1.g.fixtures (w1.g.contacts 0).fB).shape (w1.g.contacts 0).iB = some ⟨[⟨0, 0⟩], 1 / 2⟩ := by
    exact ofShape_circle (by decide +kernel)
  rw [k1] at e1
  rw [k2] at e2
  cases e1; cases e2
  exact h
end ImpactEx

/-- C123: the hypotheses of `c123_meaning` are met by balls of radius 1/2 at the centres of a fixed and of a movable body, over the reals. -/
example : ∃ (w : World ℝ) (pA pB : Proxy ℝ), NoImpactLeft w 0 1 pA pB ∧ pA.vertices ≠ [] ∧ pB.vertices ≠ [] ∧ (w.phys 0).sweep.a0 = (w.phys 0).sweep.a ∧
    (w.phys 1).sweep.a0 = (w.phys 1).sweep.a ∧ VerticesApart pA ∧ VerticesApart pB ∧ (∀ sA sB : Sweep ℝ, DistanceGood ⟨pA, pB, sA, sB, 1⟩) ∧
    w.typeOf 0 = .static ∧ w.typeOf 1 = .dynamic ∧ (w.phys 0).sweep.c = ⟨0, 0⟩ ∧ (w.phys 1).sweep.c = ⟨0, -6⟩ := by
  have v : VerticesApart (⟨[⟨0, 0⟩], 1 / 2⟩ : Proxy ℝ) := by
    refine ⟨by simp, fun j k a b hne h1 h2 => ?_⟩
    have hj := (List.getElem?_eq_some_iff.mp h1).1
    have hk := (List.getElem?_eq_some_iff.mp h2).1
    simp only [List.length_cons, List.length_nil] at hj hk
    exact absurd (by omega) hne
  have hg : ∀ sA sB : Sweep ℝ, DistanceGood ⟨⟨[⟨0, 0⟩], 1 / 2⟩, ⟨[⟨0, 0⟩], 1 / 2⟩, sA, sB, 1⟩ := fun sA sB => small_good (by simp) (by simp) v
  refine ⟨EngineEx.e3, ⟨[⟨0, 0⟩], 1 / 2⟩, ⟨[⟨0, 0⟩], 1 / 2⟩, ?_, by simp, by simp, rfl, rfl, v, v, hg, rfl, rfl, rfl, rfl⟩
  obtain ⟨o, e, -⟩ := c54_interval (i := ⟨⟨[⟨0, 0⟩], 1 / 2⟩, ⟨[⟨0, 0⟩], 1 / 2⟩, (EngineEx.e3.phys 0).sweep, (EngineEx.e3.phys 1).sweep, (1 : ℝ)⟩) (by simp) (by simp) zero_le_one
  refine ⟨0, _, _, o, one_pos, rfl, rfl, .refl _, .refl _, fun _ => le_refl _, fun _ => le_refl _, e, fun ho => ?_⟩
  obtain ⟨x, y, hx, hy, hd⟩ := (c67_meaning (by simp) (by simp) zero_le_one v v (hg _ _) e).2.1 ho
  have hull1 : ∀ {c x : Vec2 ℝ}, Hull [c] x → x = c := by
    intro c x h
    induction h with
    | vertex hm => exact List.mem_singleton.mp hm
    | between _ _ _ _ a b => rw [a, b]; ext <;> simp [onLine]
  have e1 : x = place ((EngineEx.e3.phys 0).sweep.getTransform o.t) ⟨0, 0⟩ := hull1 hx
  have e2 : y = place ((EngineEx.e3.phys 1).sweep.getTransform o.t) ⟨0, 0⟩ := hull1 hy
  have s1 : (EngineEx.e3.phys 0).sweep = ⟨⟨0, 0⟩, ⟨0, 0⟩, ⟨0, 0⟩, 0, 0, 0⟩ := rfl
  have s2 : (EngineEx.e3.phys 1).sweep = ⟨⟨0, 0⟩, ⟨0, -6⟩, ⟨0, -6⟩, 0, 0, 0⟩ := rfl
  rw [s1] at e1
  rw [s2] at e2
  rw [e1, e2] at hd
  have hT : (max linearSlop (1 / 2 + 1 / 2 - 3 * linearSlop) + 1 / 4 * linearSlop : ℝ) ≤ 1 := by
    have : (max linearSlop (1 / 2 + 1 / 2 - 3 * linearSlop) : ℝ) ≤ 9 / 10 + 1 / 11 := max_le (by unfold linearSlop; norm_num) (by unfold linearSlop; norm_num)
    unfold linearSlop at *
    linarith
  have hT0 : (0 : ℝ) ≤ max linearSlop (1 / 2 + 1 / 2 - 3 * linearSlop) + 1 / 4 * linearSlop :=
    add_nonneg (le_max_of_le_left (by unfold linearSlop; norm_num)) (by unfold linearSlop; norm_num)
  have h36 : dist2 (place (Sweep.getTransform ⟨⟨0, 0⟩, ⟨0, 0⟩, ⟨0, 0⟩, 0, 0, 0⟩ o.t) ⟨0, 0⟩) (place (Sweep.getTransform ⟨⟨0, 0⟩, ⟨0, -6⟩, ⟨0, -6⟩, 0, 0, 0⟩ o.t) ⟨0, 0⟩) = (36 : ℝ) := by
    simp [dist2, place, Sweep.getTransform, Rot.mulV]
    ring
  rw [h36] at hd
  have := mul_le_one₀ hT hT0 hT
  have hd : (36 : ℝ) ≤ (max linearSlop (1 / 2 + 1 / 2 - 3 * linearSlop) + 1 / 4 * linearSlop) * (max linearSlop (1 / 2 + 1 / 2 - 3 * linearSlop) + 1 / 4 * linearSlop) := hd
  linarith
end B2.Props
