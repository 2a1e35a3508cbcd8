import Verif.Spec.JointStill
import Verif.Proofs.JointExact
import Verif.Proofs.JointDef

/-!
# A joint with nothing to do: proofs
-/
set_option linter.unusedSectionVars false

namespace B2

section
variable {F : Type} [Field F] [LinearOrder F] [IsStrictOrderedRing F] [Elem F]

theorem kick_zero (f : PairFrame F) (s : Two F) : f.kick ⟨0, 0⟩ 0 0 s = s := by
  cases s with | mk a b => cases a; cases b; simp [PairFrame.kick, Vec2.ext_iff]
theorem twist_zero (f : PairFrame F) (s : Two F) : f.twist 0 s = s := by
  cases s with | mk a b => cases a; cases b; simp [PairFrame.twist]
theorem move_zero (f : PairFrame F) (s : TwoP F) : f.move ⟨0, 0⟩ 0 0 s = s := by
  cases s with | mk a b => cases a; cases b; simp [PairFrame.move, Vec2.ext_iff]
theorem solve_zero (m : Mat22 F) : m.solve ⟨0, 0⟩ = ⟨0, 0⟩ := by simp [Mat22.solve]
theorem solve22_zero (m : Mat33 F) : m.solve22 ⟨0, 0⟩ = ⟨0, 0⟩ := by simp [Mat33.solve22]
theorem solve33_zero (m : Mat33 F) : m.solve33 ⟨0, 0, 0⟩ = ⟨0, 0, 0⟩ := by simp [Mat33.solve33, dot3, cross3]
theorem cross_zero_right (a : Vec2 F) : cross a ⟨0, 0⟩ = 0 := by simp [cross]
theorem neg_zero_vec : -(⟨0, 0⟩ : Vec2 F) = ⟨0, 0⟩ := by ext <;> simp
theorem length_nil [ElemLaws F] : (⟨0, 0⟩ : Vec2 F).length = 0 := by
  have h1 := length_sq (⟨0, 0⟩ : Vec2 F)
  simpa [dot] using h1

/-! ## Positions -/

theorem upd_own {α : Type} (f : Nat → α) (i : Nat) : upd f i (f i) = f := by
  funext k
  unfold upd
  split
  · rename_i h; rw [h]
  · rfl

theorem onTwoP_same {pos pos' : Arr (Pos F)} {fr : PairFrame F} {f : TwoP F → TwoP F × Bool} {r : Bool}
    (h : onTwoP pos fr.a.index fr.b.index f = some (pos', r)) (hf : f (two pos fr) = (two pos fr, true)) : pos' = pos ∧ r = true := by
  unfold onTwoP loadTwoP storeTwoP Arr.get Arr.set at h
  by_cases h1 : fr.a.index < pos.len
  · by_cases h2 : fr.b.index < pos.len
    · simp only [two] at hf
      simp only [h1, h2, if_true, Option.bind_eq_bind, Option.bind_some, Option.pure_def, hf, upd_own, Option.some.injEq, Prod.mk.injEq] at h
      exact ⟨h.1.symm, h.2.symm⟩
    · simp [h1, h2] at h
  · simp [h1] at h

theorem linearSlop_pos : (0 : F) < linearSlop := by unfold linearSlop; norm_num

theorem Prismatic.limitError_zero {j : Prismatic F} {t : F} (h : j.enableLimit = true → 2 * linearSlop ≤ j.upperTranslation - j.lowerTranslation ∧
    j.lowerTranslation ≤ t ∧ t ≤ j.upperTranslation) : (j.limitError t |0|).2 = (0, 0) := by
  have sl : (0 : F) < linearSlop := linearSlop_pos
  unfold Prismatic.limitError
  rw [abs_zero]
  by_cases hc : j.enableLimit = true
  · obtain ⟨k1, k2, k3⟩ := h hc
    rw [if_pos hc, if_neg (by rw [abs_of_nonneg (by linarith)]; linarith)]
    unfold b2min b2max
    refine Prod.ext ?_ ?_ <;> split_ifs <;> dsimp only at * <;> linarith
  · rw [if_neg hc]

theorem Wheel.limitError_zero {j : Wheel F} {t : F} (h : 2 * linearSlop ≤ j.upperTranslation - j.lowerTranslation ∧
    j.lowerTranslation ≤ t ∧ t ≤ j.upperTranslation) : j.limitError t = 0 := by
  have sl : (0 : F) < linearSlop := linearSlop_pos
  obtain ⟨k1, k2, k3⟩ := h
  unfold Wheel.limitError b2min b2max
  rw [if_neg (by rw [abs_of_nonneg (by linarith)]; linarith)]
  split_ifs <;> linarith

theorem Joint.solvePos_still [ElemLaws F] {n : Nat} {bodies : Nat → JBody F} {pos0 pos pos' : Arr (Pos F)} {j : Joint F} {r : Bool} (hok : j.Ok n bodies)
    (ha : j.Armed bodies pos0) (hs : j.Satisfied bodies pos) (h : j.solvePos pos = some (pos', r)) : pos' = pos ∧ r = true := by
  have sl : (0 : F) < linearSlop := linearSlop_pos
  have al : (0 : F) ≤ angularSlop := angularSlop_nonneg
  cases j with
  | revolute j =>
    have hf : j.frame = ⟨bodies j.bodyA, bodies j.bodyB⟩ := ha.1
    refine onTwoP_same h ?_
    obtain ⟨h1, h2⟩ := hs
    have hg : ∀ q : TwoP F, q = two pos j.frame → j.posPoint q = (q, 0) := by
      rintro q rfl
      unfold Revolute.posPoint
      dsimp only
      rw [gap_world, hf]
      have e : (bodies j.bodyB).worldPoint pos j.localAnchorB - (bodies j.bodyA).worldPoint pos j.localAnchorA = ⟨0, 0⟩ := by
        have : (bodies j.bodyA).worldPoint pos j.localAnchorA = (bodies j.bodyB).worldPoint pos j.localAnchorB := h1
        rw [this]; ext <;> simp
      rw [e, solve_zero, neg_zero_vec, cross_zero_right, cross_zero_right, move_zero, length_nil]
    have hl : j.posLimit (two pos j.frame) = (two pos j.frame, 0) := by
      unfold Revolute.posLimit
      split
      · rename_i hc
        simp only [Bool.and_eq_true] at hc
        obtain ⟨k1, k2, k3⟩ := h2 hc.1
        have e : j.limitError (two pos j.frame) = 0 := by
          unfold Revolute.limitError
          simp only [two, hf]
          simp only [Joint.bodyA, Joint.bodyB] at k2 k3
          have mx : (0 : F) ≤ maxAngularCorrection := by
            have := ElemLaws.pi_pos (F := F)
            unfold maxAngularCorrection; positivity
          rw [if_neg (by rw [abs_of_nonneg (by linarith)]; linarith)]
          unfold b2clamp b2max b2min
          split_ifs <;> linarith
        dsimp only
        rw [e]
        simp [two]
      · rfl
    unfold Revolute.solvePos
    dsimp only
    rw [hl]
    dsimp only
    rw [hg _ rfl]
    simp [sl.le, al]
  | weld j =>
    have hf : j.frame = ⟨bodies j.bodyA, bodies j.bodyB⟩ := ha.1
    refine onTwoP_same h ?_
    obtain ⟨h1, h2⟩ := hs
    unfold Weld.solvePos
    dsimp only
    rw [gap_world]
    have e : j.frame.b.worldPoint pos j.localAnchorB - j.frame.a.worldPoint pos j.localAnchorA = ⟨0, 0⟩ := by
      rw [hf]
      have : (bodies j.bodyA).worldPoint pos j.localAnchorA = (bodies j.bodyB).worldPoint pos j.localAnchorB := h1
      rw [this]; ext <;> simp
    rw [e, solve22_zero, length_nil, neg_zero_vec, cross_zero_right, cross_zero_right, move_zero]
    split_ifs with k1 k2
    · simp [sl.le, al]
    all_goals
      have e2 : (two pos j.frame).b.a - (two pos j.frame).a.a - j.referenceAngle = 0 := by
        have := h2 (not_lt.mp k1)
        simp only [two, hf]
        simp only [Joint.bodyA, Joint.bodyB] at this
        linarith
      rw [e2]
      simp only [solve33_zero, neg_zero, cross_zero_right, add_zero, move_zero, abs_zero]
      simp [sl.le, al]
  | prismatic j =>
    have hf : j.frame = ⟨bodies j.bodyA, bodies j.bodyB⟩ := ha.1
    refine onTwoP_same h ?_
    obtain ⟨h1, h2, h3⟩ := hs
    unfold Prismatic.solvePos
    dsimp only
    rw [gap_world]
    have e1 : dot ((Rot.ofAngle (two pos j.frame).a.a).mulV j.localYAxisA)
        (j.frame.b.worldPoint pos j.localAnchorB - j.frame.a.worldPoint pos j.localAnchorA) = 0 := by rw [hf]; exact h1
    have e2 : (two pos j.frame).b.a - (two pos j.frame).a.a - j.referenceAngle = 0 := by
      simp only [two, hf]
      simp only [Joint.bodyA, Joint.bodyB] at h2
      linarith
    have e3 : ∃ b, j.limitError (dot ((Rot.ofAngle (two pos j.frame).a.a).mulV j.localXAxisA)
        (j.frame.b.worldPoint pos j.localAnchorB - j.frame.a.worldPoint pos j.localAnchorA)) |0| = (b, 0, 0) := by
      have h3' : j.enableLimit = true → 2 * linearSlop ≤ j.upperTranslation - j.lowerTranslation ∧
        j.lowerTranslation ≤ dot ((Rot.ofAngle (two pos j.frame).a.a).mulV j.localXAxisA)
          (j.frame.b.worldPoint pos j.localAnchorB - j.frame.a.worldPoint pos j.localAnchorA) ∧
        dot ((Rot.ofAngle (two pos j.frame).a.a).mulV j.localXAxisA)
          (j.frame.b.worldPoint pos j.localAnchorB - j.frame.a.worldPoint pos j.localAnchorA) ≤ j.upperTranslation := by rw [hf]; exact h3
      revert h3'
      generalize dot ((Rot.ofAngle (two pos j.frame).a.a).mulV j.localXAxisA)
        (j.frame.b.worldPoint pos j.localAnchorB - j.frame.a.worldPoint pos j.localAnchorA) = t
      intro h3'
      exact ⟨_, Prod.ext rfl (Prismatic.limitError_zero h3')⟩
    obtain ⟨b, e3⟩ := e3
    rw [e1, e2, e3]
    have e4 : (-(⟨0, 0⟩ : Vec2 F)) = ⟨0, 0⟩ := neg_zero_vec
    simp only [neg_zero, solve33_zero, e4, solve_zero, ite_self]
    simp only [zero_mul, add_zero, abs_zero]
    have e5 : (0 : F) * ((Rot.ofAngle (two pos j.frame).a.a).mulV j.localYAxisA) + (0 : F) * ((Rot.ofAngle (two pos j.frame).a.a).mulV j.localXAxisA) = (⟨0, 0⟩ : Vec2 F) := by
      ext <;> simp
    rw [e5, move_zero]
    simp [sl.le, al]
  | wheel j =>
    have hf : j.frame = ⟨bodies j.bodyA, bodies j.bodyB⟩ := ha.1
    refine onTwoP_same h ?_
    obtain ⟨h1, h3⟩ := hs
    have e0 : (two pos j.frame).b.c - (two pos j.frame).a.c + j.frame.b.arm (two pos j.frame).b.a j.localAnchorB -
        j.frame.a.arm (two pos j.frame).a.a j.localAnchorA = j.frame.b.worldPoint pos j.localAnchorB - j.frame.a.worldPoint pos j.localAnchorA := by
      rw [← gap_world]; ext <;> simp <;> ring
    have hl : j.posLimit (two pos j.frame) = (two pos j.frame, 0) := by
      unfold Wheel.posLimit
      split
      · rename_i hc
        dsimp only
        rw [e0, Wheel.limitError_zero (by rw [hf]; exact h3 hc), if_neg (not_not.mpr rfl)]
      · rfl
    have hg : j.posLine (two pos j.frame) = (two pos j.frame, 0) := by
      unfold Wheel.posLine
      dsimp only
      have e1 : dot (j.frame.b.worldPoint pos j.localAnchorB - j.frame.a.worldPoint pos j.localAnchorA)
          ((Rot.ofAngle (two pos j.frame).a.a).mulV j.localYAxisA) = 0 := by
        rw [hf, show ∀ a b : Vec2 F, dot a b = dot b a from fun a b => by simp only [dot]; ring]; exact h1
      rw [e0, e1]
      have e5 : (0 : F) * ((Rot.ofAngle (two pos j.frame).a.a).mulV j.localYAxisA) = (⟨0, 0⟩ : Vec2 F) := by ext <;> simp
      simp only [neg_zero, zero_div, ite_self, e5, zero_mul, move_zero, abs_zero]
    unfold Wheel.solvePos
    dsimp only
    rw [hl]
    dsimp only
    rw [hg]
    simp [b2max, sl.le]
  | distance j =>
    have hf : j.frame = ⟨bodies j.bodyA, bodies j.bodyB⟩ := ha.1
    refine onTwoP_same h ?_
    obtain ⟨h1, h2, h3⟩ := hs
    unfold DistanceJ.solvePos
    dsimp only
    rw [gap_world]
    have e1 : (j.frame.b.worldPoint pos j.localAnchorB - j.frame.a.worldPoint pos j.localAnchorA).normalize.2 =
        (j.frame.b.worldPoint pos j.localAnchorB - j.frame.a.worldPoint pos j.localAnchorA).length := by
      unfold Vec2.normalize
      dsimp only
      rw [if_neg (not_lt.mpr (by rw [hf]; exact h1))]
    rw [e1]
    have h2' : j.minLength ≤ (j.frame.b.worldPoint pos j.localAnchorB - j.frame.a.worldPoint pos j.localAnchorA).length := by rw [hf]; exact h2
    have h3' : (j.frame.b.worldPoint pos j.localAnchorB - j.frame.a.worldPoint pos j.localAnchorA).length ≤ j.maxLength := by rw [hf]; exact h3
    generalize (j.frame.b.worldPoint pos j.localAnchorB - j.frame.a.worldPoint pos j.localAnchorA).normalize.1 = u
    unfold DistanceJ.posError
    by_cases hm : j.minLength = j.maxLength
    · rw [if_pos hm, show (j.frame.b.worldPoint pos j.localAnchorB - j.frame.a.worldPoint pos j.localAnchorA).length - j.minLength = 0 by linarith]
      have e5 : (0 : F) * u = (⟨0, 0⟩ : Vec2 F) := by ext <;> simp
      simp only [mul_zero, e5, cross_zero_right, move_zero, abs_zero, sl, decide_true]
    · rw [if_neg hm, if_neg (not_lt.mpr h2'), if_neg (not_lt.mpr h3')]
  | pulley j =>
    have hf : j.frame = ⟨bodies j.bodyA, bodies j.bodyB⟩ := ha.1
    refine onTwoP_same h ?_
    have w : ∀ (b : JBody F) (l : Vec2 F), (pos.at' b.index).c + b.arm (pos.at' b.index).a l = b.worldPoint pos l := fun b l => by
      rw [worldPoint_arm]; ext <;> simp
    have hs' : (j.frame.a.worldPoint pos j.localAnchorA - j.groundAnchorA).length +
        j.ratio * (j.frame.b.worldPoint pos j.localAnchorB - j.groundAnchorB).length = j.constant := by rw [hf]; exact hs
    unfold Pulley.solvePos
    simp only [two, w]
    rw [show j.constant - (j.frame.a.worldPoint pos j.localAnchorA - j.groundAnchorA).length -
        j.ratio * (j.frame.b.worldPoint pos j.localAnchorB - j.groundAnchorB).length = 0 by linarith]
    have e5 : ∀ u : Vec2 F, (0 : F) * u = (⟨0, 0⟩ : Vec2 F) := fun u => by ext <;> simp
    have e6 : ∀ c : F, (c * (⟨0, 0⟩ : Vec2 F) : Vec2 F) = ⟨0, 0⟩ := fun u => by ext <;> simp
    have e7 : ∀ u : Vec2 F, u + (⟨0, 0⟩ : Vec2 F) = u := fun u => by ext <;> simp
    simp only [mul_zero, neg_zero, e5, e6, e7, cross_zero_right, add_zero, abs_zero, sl, decide_true]
  | friction j => obtain ⟨rfl, rfl⟩ := Prod.mk.inj (Option.some.inj h); exact ⟨rfl, rfl⟩
  | motor j => obtain ⟨rfl, rfl⟩ := Prod.mk.inj (Option.some.inj h); exact ⟨rfl, rfl⟩
  | mouse j => obtain ⟨rfl, rfl⟩ := Prod.mk.inj (Option.some.inj h); exact ⟨rfl, rfl⟩
  | gear j => exact hs.elim

/-! ## Velocities -/

/-- Two bodies at rest. -/
def Two.zero : Two F := ⟨⟨⟨0, 0⟩, 0⟩, ⟨⟨0, 0⟩, 0⟩⟩

theorem relVel_zero (rA rB : Vec2 F) : relVel (⟨⟨0, 0⟩, 0⟩ : Vel F) ⟨⟨0, 0⟩, 0⟩ rA rB = ⟨0, 0⟩ := by
  unfold relVel crossSV
  ext <;> simp
theorem limit_null {m c d i : F} (hm : 0 ≤ m) (hc : 0 ≤ c) (hi : 0 ≤ i) (hd : d = 0) : b2max (0 + -m * (d + b2max c 0 * i)) 0 = 0 := by
  have : 0 ≤ m * (c * i) := mul_nonneg hm (mul_nonneg hc hi)
  subst hd
  have e : b2max c 0 = c := b2max_of_le hc
  rw [e]
  unfold b2max
  split
  · linarith
  · rfl
theorem limit_null' {m c d i : F} (hm : 0 ≤ m) (hc : 0 ≤ c) (hi : 0 ≤ i) (hd : d = 0) : b2max 0 (0 + -m * (d + b2max 0 c * i)) = 0 := by
  have : 0 ≤ m * (c * i) := mul_nonneg hm (mul_nonneg hc hi)
  subst hd
  have e : b2max 0 c = c := by unfold b2max; split <;> linarith
  rw [e]
  unfold b2max
  split
  · rfl
  · linarith
theorem clamp_null {x m : F} (hx : x = 0) (hm : 0 ≤ m) : b2clamp x (-m) m = 0 := by
  subst hx
  unfold b2clamp b2max b2min
  split_ifs <;> linarith

/-- A revolute joint with nothing to do. -/
structure Revolute.Still (j : Revolute F) : Prop where
  impulse : j.impulse = ⟨0, 0⟩
  motorImpulse : j.motorImpulse = 0
  lowerImpulse : j.lowerImpulse = 0
  upperImpulse : j.upperImpulse = 0
  motor : j.enableMotor = true → j.motorSpeed = 0
  torque : 0 ≤ j.maxMotorTorque
  mass : 0 ≤ j.axialMass
  limit : j.enableLimit = true → j.lowerAngle ≤ j.angle ∧ j.angle ≤ j.upperAngle

theorem Revolute.Still.solve {st : JStep F} (hd : 0 ≤ st.dt) (hi : 0 ≤ st.invDt) {j : Revolute F} (h : j.Still) :
    j.solveVel st .zero = (j, .zero) := by
  have m : j.enableMotor = true → j.motor st .zero = (j, .zero) := fun e => by
    unfold Revolute.motor
    dsimp only
    rw [clamp_null (by simp [Two.zero, h.motorImpulse, h.motor e]) (mul_nonneg hd h.torque), h.motorImpulse, sub_zero, twist_zero, ← h.motorImpulse]
  have l : j.enableLimit = true → j.lower st .zero = (j, .zero) := fun e => by
    unfold Revolute.lower
    dsimp only
    rw [h.lowerImpulse, limit_null h.mass (sub_nonneg.mpr (h.limit e).1) hi (by simp [Two.zero]), sub_zero, twist_zero, ← h.lowerImpulse]
  have u : j.enableLimit = true → j.upper st .zero = (j, .zero) := fun e => by
    unfold Revolute.upper
    dsimp only
    rw [h.upperImpulse, limit_null h.mass (sub_nonneg.mpr (h.limit e).2) hi (by simp [Two.zero]), sub_zero, neg_zero, twist_zero, ← h.upperImpulse]
  have p : j.point .zero = (j, .zero) := by
    unfold Revolute.point
    dsimp only
    have e : relVel (Two.zero : Two F).a (Two.zero : Two F).b j.rA j.rB = ⟨0, 0⟩ := relVel_zero _ _
    rw [e, neg_zero_vec, solve_zero, cross_zero_right, cross_zero_right, kick_zero, h.impulse,
      show (⟨0, 0⟩ + ⟨0, 0⟩ : Vec2 F) = ⟨0, 0⟩ by ext <;> simp, ← h.impulse]
  unfold Revolute.solveVel
  dsimp only
  split_ifs with c1 c2 c2
  · simp only [Bool.and_eq_true] at c1 c2
    rw [m c2.1]; dsimp only; rw [l c1.1]; dsimp only; rw [u c1.1]; exact p
  · simp only [Bool.and_eq_true] at c1
    rw [l c1.1]; dsimp only; rw [u c1.1]; exact p
  · simp only [Bool.and_eq_true] at c2
    rw [m c2.1]; exact p
  · exact p

theorem Revolute.Still.init {st : JStep F} {bodies : Nat → JBody F} {pos : Arr (Pos F)} {j : Revolute F}
    (hok : 0 ≤ (bodies j.bodyA).invI ∧ 0 ≤ (bodies j.bodyB).invI) (hu : (Joint.revolute j).Unloaded)
    (hs : (Joint.revolute j).Satisfied bodies pos) (hr : (Joint.revolute j).Relaxed bodies pos) (hz : (Joint.revolute j).Sane) :
    (j.initVel st bodies (two pos ⟨bodies j.bodyA, bodies j.bodyB⟩) .zero).1.Still ∧
      (j.initVel st bodies (two pos ⟨bodies j.bodyA, bodies j.bodyB⟩) .zero).2 = .zero := by
  obtain ⟨u1, u2, u3, u4⟩ := hu
  have hq : (j.prepare bodies (two pos ⟨bodies j.bodyA, bodies j.bodyB⟩)).Still := by
    refine ⟨u1, ?_, ?_, ?_, hr, hz, ?_, fun e => (hs.2 e).2⟩
    · simp only [Revolute.prepare, u2, ite_self]
    · simp only [Revolute.prepare, u3, ite_self]
    · simp only [Revolute.prepare, u4, ite_self]
    · simp only [Revolute.prepare]
      split
      · rename_i c
        exact one_div_nonneg.mpr (le_of_lt c)
      · exact add_nonneg hok.1 hok.2
  unfold Revolute.initVel
  generalize j.prepare bodies (two pos ⟨bodies j.bodyA, bodies j.bodyB⟩) = k at hq
  unfold Revolute.warm
  obtain ⟨q1, q2, q3, q4, q5, q6, q7, q8⟩ := hq
  split
  · dsimp only
    have e : (st.dtRatio * (⟨0, 0⟩ : Vec2 F) : Vec2 F) = ⟨0, 0⟩ := by ext <;> simp
    simp only [q1, q2, q3, q4, e, zero_mul, cross_zero_right, add_zero, sub_zero, kick_zero]
    exact ⟨⟨rfl, rfl, rfl, rfl, q5, q6, q7, q8⟩, trivial⟩
  · exact ⟨⟨rfl, rfl, rfl, rfl, q5, q6, q7, q8⟩, rfl⟩

theorem smul_null (v : Vec2 F) : (0 : F) * v = (⟨0, 0⟩ : Vec2 F) := by ext <;> simp
theorem smul_nil (c : F) : (c * (⟨0, 0⟩ : Vec2 F) : Vec2 F) = ⟨0, 0⟩ := by ext <;> simp
theorem add_nil (v : Vec2 F) : v + (⟨0, 0⟩ : Vec2 F) = v := by ext <;> simp
theorem sub_nil (v : Vec2 F) : v - (⟨0, 0⟩ : Vec2 F) = v := by ext <;> simp
theorem dot_nil (v : Vec2 F) : dot v (⟨0, 0⟩ : Vec2 F) = 0 := by simp [dot]
theorem crossSV_null (v : Vec2 F) : crossSV (0 : F) v = (⟨0, 0⟩ : Vec2 F) := by unfold crossSV; ext <;> simp
theorem inv_pos_nonneg {m : F} (h : 0 ≤ m) : 0 ≤ if m > 0 then 1 / m else m := by
  split
  · exact one_div_nonneg.mpr h
  · exact h
theorem lever_nonneg {a b c d x y : F} (ha : 0 ≤ a) (hb : 0 ≤ b) (hc : 0 ≤ c) (hd : 0 ≤ d) : 0 ≤ a + b + c * x * x + d * y * y := by
  have h1 : 0 ≤ c * x * x := by rw [mul_assoc]; exact mul_nonneg hc (mul_self_nonneg x)
  have h2 : 0 ≤ d * y * y := by rw [mul_assoc]; exact mul_nonneg hd (mul_self_nonneg y)
  linarith

/-- A prismatic joint with nothing to do. -/
structure Prismatic.Still (j : Prismatic F) : Prop where
  impulse : j.impulse = ⟨0, 0⟩
  motorImpulse : j.motorImpulse = 0
  lowerImpulse : j.lowerImpulse = 0
  upperImpulse : j.upperImpulse = 0
  motor : j.enableMotor = true → j.motorSpeed = 0
  force : 0 ≤ j.maxMotorForce
  mass : 0 ≤ j.axialMass
  limit : j.enableLimit = true → j.lowerTranslation ≤ j.translation ∧ j.translation ≤ j.upperTranslation

theorem Prismatic.slide_zero (j : Prismatic F) (s : Two F) : j.slide 0 s = s := by
  unfold Prismatic.slide
  rw [smul_null, zero_mul, zero_mul, kick_zero]

theorem Prismatic.Still.solve {st : JStep F} (hd : 0 ≤ st.dt) (hi : 0 ≤ st.invDt) {j : Prismatic F} (h : j.Still) :
    j.solveVel st .zero = (j, .zero) := by
  have z : dot j.axis ((Two.zero : Two F).b.v - (Two.zero : Two F).a.v) + j.a2 * (Two.zero : Two F).b.w - j.a1 * (Two.zero : Two F).a.w = 0 := by
    simp [Two.zero, dot]
  have z' : dot j.axis ((Two.zero : Two F).a.v - (Two.zero : Two F).b.v) + j.a1 * (Two.zero : Two F).a.w - j.a2 * (Two.zero : Two F).b.w = 0 := by
    simp [Two.zero, dot]
  have m : j.enableMotor = true → j.motor st .zero = (j, .zero) := fun e => by
    unfold Prismatic.motor
    dsimp only
    rw [z, clamp_null (by simp [h.motorImpulse, h.motor e]) (mul_nonneg hd h.force), h.motorImpulse, sub_zero, Prismatic.slide_zero, ← h.motorImpulse]
  have l : j.enableLimit = true → j.lower st .zero = (j, .zero) := fun e => by
    unfold Prismatic.lower
    dsimp only
    rw [h.lowerImpulse, limit_null h.mass (sub_nonneg.mpr (h.limit e).1) hi z, sub_zero, Prismatic.slide_zero, ← h.lowerImpulse]
  have u : j.enableLimit = true → j.upper st .zero = (j, .zero) := fun e => by
    unfold Prismatic.upper
    dsimp only
    rw [h.upperImpulse, limit_null h.mass (sub_nonneg.mpr (h.limit e).2) hi z', sub_zero, neg_zero, Prismatic.slide_zero, ← h.upperImpulse]
  have p : j.block .zero = (j, .zero) := by
    unfold Prismatic.block
    dsimp only
    have e : dot j.perp ((Two.zero : Two F).b.v - (Two.zero : Two F).a.v) + j.s2 * (Two.zero : Two F).b.w - j.s1 * (Two.zero : Two F).a.w = 0 := by
      simp [Two.zero, dot]
    rw [e, show (Two.zero : Two F).b.w - (Two.zero : Two F).a.w = 0 by simp [Two.zero], neg_zero_vec, solve_zero]
    dsimp only
    rw [smul_null, zero_mul, zero_mul, add_zero, kick_zero, add_nil]
  unfold Prismatic.solveVel
  dsimp only
  split_ifs with c1 c2 c2
  · rw [m c2]; dsimp only; rw [l c1]; dsimp only; rw [u c1]; exact p
  · rw [l c1]; dsimp only; rw [u c1]; exact p
  · rw [m c2]; exact p
  · exact p

theorem Prismatic.Still.init {st : JStep F} {bodies : Nat → JBody F} {pos : Arr (Pos F)} {j : Prismatic F} {n : Nat}
    (hok : (Joint.prismatic j).Ok n bodies) (hu : (Joint.prismatic j).Unloaded)
    (hs : (Joint.prismatic j).Satisfied bodies pos) (hr : (Joint.prismatic j).Relaxed bodies pos) (hz : (Joint.prismatic j).Sane) :
    (j.initVel st bodies (two pos ⟨bodies j.bodyA, bodies j.bodyB⟩) .zero).1.Still ∧
      (j.initVel st bodies (two pos ⟨bodies j.bodyA, bodies j.bodyB⟩) .zero).2 = .zero := by
  obtain ⟨u1, u2, u3, u4⟩ := hu
  have hq : (j.prepare bodies (two pos ⟨bodies j.bodyA, bodies j.bodyB⟩)).Still := by
    refine ⟨u1, ?_, ?_, ?_, hr, hz, ?_, fun e => ?_⟩
    · simp only [Prismatic.prepare, u2, ite_self]
    · simp only [Prismatic.prepare, u3, ite_self]
    · simp only [Prismatic.prepare, u4, ite_self]
    · exact inv_pos_nonneg (lever_nonneg hok.massA hok.massB hok.inertiaA hok.inertiaB)
    · have e' : j.enableLimit = true := e
      have k := (hs.2.2 e').2
      simp only [Prismatic.prepare, e', if_true]
      rw [show (two pos ⟨bodies j.bodyA, bodies j.bodyB⟩).b.c - (two pos ⟨bodies j.bodyA, bodies j.bodyB⟩).a.c +
          (bodies j.bodyB).arm (two pos ⟨bodies j.bodyA, bodies j.bodyB⟩).b.a j.localAnchorB -
          (bodies j.bodyA).arm (two pos ⟨bodies j.bodyA, bodies j.bodyB⟩).a.a j.localAnchorA =
          (bodies j.bodyB).worldPoint pos j.localAnchorB - (bodies j.bodyA).worldPoint pos j.localAnchorA by
        rw [← gap_world ⟨bodies j.bodyA, bodies j.bodyB⟩]; ext <;> simp <;> ring]
      exact k
  unfold Prismatic.initVel
  generalize j.prepare bodies (two pos ⟨bodies j.bodyA, bodies j.bodyB⟩) = k at hq
  unfold Prismatic.warm
  obtain ⟨q1, q2, q3, q4, q5, q6, q7, q8⟩ := hq
  split
  · dsimp only
    simp only [q1, q2, q3, q4, smul_nil, zero_mul, add_zero, sub_zero, smul_null, add_nil, kick_zero]
    exact ⟨⟨rfl, rfl, rfl, rfl, q5, q6, q7, q8⟩, trivial⟩
  · exact ⟨⟨rfl, rfl, rfl, rfl, q5, q6, q7, q8⟩, rfl⟩

/-- A wheel joint with nothing to do. -/
structure Wheel.Still (j : Wheel F) : Prop where
  impulse : j.impulse = 0
  motorImpulse : j.motorImpulse = 0
  springImpulse : j.springImpulse = 0
  lowerImpulse : j.lowerImpulse = 0
  upperImpulse : j.upperImpulse = 0
  motor : j.motorMass * j.motorSpeed = 0
  torque : 0 ≤ j.maxMotorTorque
  mass : 0 ≤ j.axialMass
  bias : j.bias = 0
  limit : j.enableLimit = true → j.lowerTranslation ≤ j.translation ∧ j.translation ≤ j.upperTranslation

theorem Wheel.slide_zero (j : Wheel F) (s : Two F) : j.slide 0 s = s := by
  unfold Wheel.slide
  rw [smul_null, zero_mul, zero_mul, kick_zero]

theorem Wheel.Still.solve {st : JStep F} (hd : 0 ≤ st.dt) (hi : 0 ≤ st.invDt) {j : Wheel F} (h : j.Still) :
    j.solveVel st .zero = (j, .zero) := by
  have z : dot j.ax ((Two.zero : Two F).b.v - (Two.zero : Two F).a.v) + j.sBx * (Two.zero : Two F).b.w - j.sAx * (Two.zero : Two F).a.w = 0 := by
    simp [Two.zero, dot]
  have z' : dot j.ax ((Two.zero : Two F).a.v - (Two.zero : Two F).b.v) + j.sAx * (Two.zero : Two F).a.w - j.sBx * (Two.zero : Two F).b.w = 0 := by
    simp [Two.zero, dot]
  have g : j.spring .zero = (j, .zero) := by
    unfold Wheel.spring
    dsimp only
    rw [z, show -j.springMass * (0 + j.bias + j.gamma * j.springImpulse) = 0 by rw [h.bias, h.springImpulse]; ring, add_zero, Wheel.slide_zero]
  have m : j.motor st .zero = (j, .zero) := by
    unfold Wheel.motor
    dsimp only
    rw [clamp_null (by rw [h.motorImpulse]; simp only [Two.zero]; linarith [h.motor]) (mul_nonneg hd h.torque), h.motorImpulse, sub_zero, twist_zero,
      ← h.motorImpulse]
  have l : j.enableLimit = true → j.lower st .zero = (j, .zero) := fun e => by
    unfold Wheel.lower
    dsimp only
    rw [h.lowerImpulse, limit_null h.mass (sub_nonneg.mpr (h.limit e).1) hi z, sub_zero, Wheel.slide_zero, ← h.lowerImpulse]
  have u : j.enableLimit = true → j.upper st .zero = (j, .zero) := fun e => by
    unfold Wheel.upper
    dsimp only
    rw [h.upperImpulse, limit_null h.mass (sub_nonneg.mpr (h.limit e).2) hi z', sub_zero, neg_zero, Wheel.slide_zero, ← h.upperImpulse]
  have p : j.line .zero = (j, .zero) := by
    unfold Wheel.line
    dsimp only
    have e : dot j.ay ((Two.zero : Two F).b.v - (Two.zero : Two F).a.v) + j.sBy * (Two.zero : Two F).b.w - j.sAy * (Two.zero : Two F).a.w = 0 := by
      simp [Two.zero, dot]
    rw [e, mul_zero, smul_null, zero_mul, zero_mul, kick_zero, add_zero]
  unfold Wheel.solveVel
  dsimp only
  rw [g]
  dsimp only
  rw [m]
  dsimp only
  split_ifs with c1
  · rw [l c1]; dsimp only; rw [u c1]; exact p
  · exact p

theorem Wheel.Still.init {st : JStep F} {bodies : Nat → JBody F} {pos : Arr (Pos F)} {j : Wheel F} {n : Nat}
    (hok : (Joint.wheel j).Ok n bodies) (hu : (Joint.wheel j).Unloaded)
    (hs : (Joint.wheel j).Satisfied bodies pos) (hr : (Joint.wheel j).Relaxed bodies pos) (hz : (Joint.wheel j).Sane) :
    (j.initVel st bodies (two pos ⟨bodies j.bodyA, bodies j.bodyB⟩) .zero).1.Still ∧
      (j.initVel st bodies (two pos ⟨bodies j.bodyA, bodies j.bodyB⟩) .zero).2 = .zero := by
  obtain ⟨u1, u2, u3, u4, u5⟩ := hu
  have g : (two pos ⟨bodies j.bodyA, bodies j.bodyB⟩).b.c + (bodies j.bodyB).arm (two pos ⟨bodies j.bodyA, bodies j.bodyB⟩).b.a j.localAnchorB -
      (two pos ⟨bodies j.bodyA, bodies j.bodyB⟩).a.c - (bodies j.bodyA).arm (two pos ⟨bodies j.bodyA, bodies j.bodyB⟩).a.a j.localAnchorA =
      (bodies j.bodyB).worldPoint pos j.localAnchorB - (bodies j.bodyA).worldPoint pos j.localAnchorA := gap_world ⟨bodies j.bodyA, bodies j.bodyB⟩ _ _ _
  have hq : (j.prepare st bodies (two pos ⟨bodies j.bodyA, bodies j.bodyB⟩)).Still := by
    refine ⟨u1, ?_, ?_, ?_, ?_, ?_, hz, ?_, ?_, fun e => ?_⟩
    · simp only [Wheel.prepare, u2, ite_self]
    · simp only [Wheel.prepare, u3, ite_self]
    · simp only [Wheel.prepare, u4, ite_self]
    · simp only [Wheel.prepare, u5, ite_self]
    · simp only [Wheel.prepare]
      split
      · rename_i c
        rw [hr.1 c, mul_zero]
      · rw [zero_mul]
    · simp only [Wheel.prepare]
      split
      · rename_i c
        exact one_div_nonneg.mpr (le_of_lt c)
      · exact le_refl _
    · simp only [Wheel.prepare]
      rw [g]
      split
      · rename_i c
        have k := hr.2 (of_decide_eq_true c).1
        have k' : dot ((bodies j.bodyB).worldPoint pos j.localAnchorB - (bodies j.bodyA).worldPoint pos j.localAnchorA)
          ((Rot.ofAngle (two pos ⟨bodies j.bodyA, bodies j.bodyB⟩).a.a).mulV j.localXAxisA) = 0 := k
        rw [k']
        ring
      · rfl
    · have e' : j.enableLimit = true := e
      have k := (hs.2 e').2
      simp only [Wheel.prepare, e', if_true]
      rw [g]
      exact k
  unfold Wheel.initVel
  generalize j.prepare st bodies (two pos ⟨bodies j.bodyA, bodies j.bodyB⟩) = k at hq
  unfold Wheel.warm
  obtain ⟨q1, q2, q3, q4, q5, q6, q7, q8, q9, q10⟩ := hq
  split
  · dsimp only
    simp only [q1, q2, q3, q4, q5, zero_mul, add_zero, sub_zero, smul_null, add_nil, kick_zero]
    exact ⟨⟨rfl, rfl, rfl, rfl, rfl, q6, q7, q8, q9, q10⟩, trivial⟩
  · exact ⟨⟨rfl, rfl, rfl, rfl, rfl, q6, q7, q8, q9, q10⟩, rfl⟩

/-- A distance joint with nothing to do. -/
structure DistanceJ.Still (j : DistanceJ F) : Prop where
  impulse : j.impulse = 0
  lowerImpulse : j.lowerImpulse = 0
  upperImpulse : j.upperImpulse = 0
  mass : 0 ≤ j.mass
  bias : j.bias = 0
  limit : j.minLength ≤ j.currentLength ∧ j.currentLength ≤ j.maxLength

theorem DistanceJ.push_zero (j : DistanceJ F) (s : Two F) : j.push 0 s = s := by
  unfold DistanceJ.push
  dsimp only
  rw [smul_null, cross_zero_right, cross_zero_right, kick_zero]

theorem DistanceJ.speed_zero (j : DistanceJ F) : j.speed .zero = 0 := by
  simp [DistanceJ.speed, Two.zero, dot, crossSV]

theorem DistanceJ.Still.solve {st : JStep F} (hi : 0 ≤ st.invDt) {j : DistanceJ F} (h : j.Still) :
    j.solveVel st .zero = (j, .zero) := by
  have z' : dot j.u (((Two.zero : Two F).a.v + crossSV (Two.zero : Two F).a.w j.rA) - ((Two.zero : Two F).b.v + crossSV (Two.zero : Two F).b.w j.rB)) = 0 := by
    simp [Two.zero, dot, crossSV]
  have g : j.spring .zero = (j, .zero) := by
    unfold DistanceJ.spring
    dsimp only
    rw [j.speed_zero, show -j.softMass * (0 + j.bias + j.gamma * j.impulse) = 0 by rw [h.bias, h.impulse]; ring, add_zero, DistanceJ.push_zero]
  have l : j.lower st .zero = (j, .zero) := by
    unfold DistanceJ.lower
    dsimp only
    rw [h.lowerImpulse, limit_null' h.mass (sub_nonneg.mpr h.limit.1) hi j.speed_zero, sub_zero, DistanceJ.push_zero, ← h.lowerImpulse]
  have u : j.upper st .zero = (j, .zero) := by
    unfold DistanceJ.upper
    dsimp only
    rw [h.upperImpulse, limit_null' h.mass (sub_nonneg.mpr h.limit.2) hi z', sub_zero, neg_zero, DistanceJ.push_zero, ← h.upperImpulse]
  have p : j.rigid .zero = (j, .zero) := by
    unfold DistanceJ.rigid
    dsimp only
    rw [j.speed_zero, mul_zero, add_zero, DistanceJ.push_zero]
  unfold DistanceJ.solveVel
  split
  · dsimp only
    split
    · rw [g]; dsimp only; rw [l]; exact u
    · dsimp only; rw [l]; exact u
  · exact p

theorem DistanceJ.Still.init {st : JStep F} {bodies : Nat → JBody F} {pos : Arr (Pos F)} {j : DistanceJ F} {n : Nat}
    (hok : (Joint.distance j).Ok n bodies) (hu : (Joint.distance j).Unloaded)
    (hs : (Joint.distance j).Satisfied bodies pos) (hr : (Joint.distance j).Relaxed bodies pos) :
    (j.initVel st bodies (two pos ⟨bodies j.bodyA, bodies j.bodyB⟩) .zero).1.Still ∧
      (j.initVel st bodies (two pos ⟨bodies j.bodyA, bodies j.bodyB⟩) .zero).2 = .zero := by
  obtain ⟨u1, u2, u3⟩ := hu
  have g : (two pos ⟨bodies j.bodyA, bodies j.bodyB⟩).b.c + (bodies j.bodyB).arm (two pos ⟨bodies j.bodyA, bodies j.bodyB⟩).b.a j.localAnchorB -
      (two pos ⟨bodies j.bodyA, bodies j.bodyB⟩).a.c - (bodies j.bodyA).arm (two pos ⟨bodies j.bodyA, bodies j.bodyB⟩).a.a j.localAnchorA =
      (bodies j.bodyB).worldPoint pos j.localAnchorB - (bodies j.bodyA).worldPoint pos j.localAnchorA := gap_world ⟨bodies j.bodyA, bodies j.bodyB⟩ _ _ _
  have hc : (j.prepare bodies (two pos ⟨bodies j.bodyA, bodies j.bodyB⟩)).currentLength =
      ((bodies j.bodyB).worldPoint pos j.localAnchorB - (bodies j.bodyA).worldPoint pos j.localAnchorA).length := by
    simp only [DistanceJ.prepare]
    rw [g]
  have i1 : (j.prepare bodies (two pos ⟨bodies j.bodyA, bodies j.bodyB⟩)).impulse = 0 := by simp only [DistanceJ.prepare, u1, ite_self]
  have i2 : (j.prepare bodies (two pos ⟨bodies j.bodyA, bodies j.bodyB⟩)).lowerImpulse = 0 := by simp only [DistanceJ.prepare, u2, ite_self]
  have i3 : (j.prepare bodies (two pos ⟨bodies j.bodyA, bodies j.bodyB⟩)).upperImpulse = 0 := by simp only [DistanceJ.prepare, u3, ite_self]
  have i4 : 0 ≤ (j.prepare bodies (two pos ⟨bodies j.bodyA, bodies j.bodyB⟩)).mass := by
    have k : ∀ a b c d x y : F, 0 ≤ a → 0 ≤ b → 0 ≤ c → 0 ≤ d → 0 ≤ if a + c * x * x + b + d * y * y ≠ 0 then 1 / (a + c * x * x + b + d * y * y) else 0 := by
      intro a b c d x y ha hb hc hd
      split
      · refine one_div_nonneg.mpr ?_
        have := lever_nonneg (x := x) (y := y) ha hb hc hd
        linarith
      · exact le_refl _
    exact k _ _ _ _ _ _ hok.massA hok.massB hok.inertiaA hok.inertiaB
  have p1 : (j.prepare bodies (two pos ⟨bodies j.bodyA, bodies j.bodyB⟩)).minLength = j.minLength := rfl
  have p2 : (j.prepare bodies (two pos ⟨bodies j.bodyA, bodies j.bodyB⟩)).maxLength = j.maxLength := rfl
  have p3 : (j.prepare bodies (two pos ⟨bodies j.bodyA, bodies j.bodyB⟩)).stiffness = j.stiffness := rfl
  have p4 : (j.prepare bodies (two pos ⟨bodies j.bodyA, bodies j.bodyB⟩)).length = j.length := rfl
  have hq : ((j.prepare bodies (two pos ⟨bodies j.bodyA, bodies j.bodyB⟩)).soften st).Still := by
    have hl := hs.2
    unfold DistanceJ.soften
    split
    · rename_i c
      rw [p1, p2, p3] at c
      refine ⟨i1, i2, i3, i4, ?_, ?_⟩
      · have k := hr c.1 c.2
        have k' : ((bodies j.bodyB).worldPoint pos j.localAnchorB - (bodies j.bodyA).worldPoint pos j.localAnchorA).length = j.length := k
        dsimp only
        rw [hc, k', p4]
        ring
      · dsimp only
        rw [hc]
        exact hl
    · refine ⟨i1, i2, i3, i4, rfl, ?_⟩
      dsimp only
      rw [hc]
      exact hl
  unfold DistanceJ.initVel
  generalize (j.prepare bodies (two pos ⟨bodies j.bodyA, bodies j.bodyB⟩)).soften st = k at hq
  unfold DistanceJ.warm
  obtain ⟨q1, q2, q3, q4, q5, q6⟩ := hq
  split
  · dsimp only
    simp only [q1, q2, q3, zero_mul, add_zero, sub_zero, DistanceJ.push_zero]
    exact ⟨⟨rfl, rfl, rfl, q4, q5, q6⟩, trivial⟩
  · exact ⟨⟨rfl, q2, q3, q4, q5, q6⟩, rfl⟩

/-- A weld with nothing to do. -/
structure Weld.Still (j : Weld F) : Prop where
  impulse : j.impulse = ⟨0, 0, 0⟩
  bias : j.bias = 0

theorem Weld.Still.solve {j : Weld F} (h : j.Still) : j.solveVel .zero = (j, .zero) := by
  obtain ⟨h1, h2⟩ := h
  have e : relVel (Two.zero : Two F).a (Two.zero : Two F).b j.rA j.rB = ⟨0, 0⟩ := relVel_zero _ _
  have w : (Two.zero : Two F).b.w - (Two.zero : Two F).a.w = 0 := by simp [Two.zero]
  unfold Weld.solveVel
  split
  · unfold Weld.soft
    dsimp only
    rw [w, show -j.mass.ez.z * (0 + j.bias + j.gamma * j.impulse.z) = 0 by rw [h1, h2]; simp, twist_zero, e,
      show j.mass.mul22 (⟨0, 0⟩ : Vec2 F) = ⟨0, 0⟩ by simp [Mat33.mul22], neg_zero_vec, cross_zero_right, cross_zero_right, kick_zero]
    simp only [add_zero]
  · unfold Weld.rigid
    dsimp only
    rw [w, e, show j.mass.mulV (⟨0, 0, 0⟩ : Vec3 F) = ⟨0, 0, 0⟩ by ext <;> simp [Mat33.mulV, Vec3.add_x', Vec3.add_y', Vec3.add_z', Vec3.smul_x', Vec3.smul_y', Vec3.smul_z']]
    simp only [neg_zero, cross_zero_right, add_zero, kick_zero]
    rw [show j.impulse + (⟨0, 0, 0⟩ : Vec3 F) = j.impulse by ext <;> simp [Vec3.add_x', Vec3.add_y', Vec3.add_z', Vec3.smul_x', Vec3.smul_y', Vec3.smul_z']]

theorem Weld.Still.init {st : JStep F} {bodies : Nat → JBody F} {pos : Arr (Pos F)} {j : Weld F}
    (hu : (Joint.weld j).Unloaded) (hr : (Joint.weld j).Relaxed bodies pos) :
    (j.initVel st bodies (two pos ⟨bodies j.bodyA, bodies j.bodyB⟩) .zero).1.Still ∧
      (j.initVel st bodies (two pos ⟨bodies j.bodyA, bodies j.bodyB⟩) .zero).2 = .zero := by
  have hq : (j.prepare st bodies (two pos ⟨bodies j.bodyA, bodies j.bodyB⟩)).Still := by
    unfold Weld.prepare
    dsimp only
    split
    · rename_i c
      refine ⟨hu, ?_⟩
      have k := hr c
      have k' : (two pos ⟨bodies j.bodyA, bodies j.bodyB⟩).b.a - (two pos ⟨bodies j.bodyA, bodies j.bodyB⟩).a.a = j.referenceAngle := k
      dsimp only
      rw [k', sub_self]
      ring
    · split <;> exact ⟨hu, rfl⟩
  unfold Weld.initVel
  generalize j.prepare st bodies (two pos ⟨bodies j.bodyA, bodies j.bodyB⟩) = k at hq
  unfold Weld.warm
  obtain ⟨q1, q2⟩ := hq
  split
  · dsimp only
    rw [q1, show (st.dtRatio * (⟨0, 0, 0⟩ : Vec3 F) : Vec3 F) = ⟨0, 0, 0⟩ by ext <;> simp [Vec3.add_x', Vec3.add_y', Vec3.add_z', Vec3.smul_x', Vec3.smul_y', Vec3.smul_z']]
    dsimp only
    rw [cross_zero_right, cross_zero_right, add_zero, kick_zero]
    exact ⟨⟨rfl, q2⟩, rfl⟩
  · exact ⟨⟨rfl, q2⟩, rfl⟩

theorem clampImpulse_zero (m : F) : clampImpulse (⟨0, 0⟩ : Vec2 F) m = ⟨0, 0⟩ := by
  unfold clampImpulse
  rw [if_neg]
  simp [Vec2.lengthSquared, mul_self_nonneg]
theorem mulV_zero (m : Mat22 F) : m.mulV (⟨0, 0⟩ : Vec2 F) = ⟨0, 0⟩ := by simp [Mat22.mulV]

/-- A friction joint with nothing to do. -/
structure FrictionJ.Still (j : FrictionJ F) : Prop where
  linearImpulse : j.linearImpulse = ⟨0, 0⟩
  angularImpulse : j.angularImpulse = 0
  torque : 0 ≤ j.maxTorque

theorem FrictionJ.Still.solve {st : JStep F} (hd : 0 ≤ st.dt) {j : FrictionJ F} (h : j.Still) : j.solveVel st .zero = (j, .zero) := by
  obtain ⟨h1, h2, h3⟩ := h
  have e : relVel (Two.zero : Two F).a (Two.zero : Two F).b j.rA j.rB = ⟨0, 0⟩ := relVel_zero _ _
  have t : j.turn st .zero = (j, .zero) := by
    unfold FrictionJ.turn
    dsimp only
    rw [clamp_null (by simp [Two.zero, h2]) (mul_nonneg hd h3), h2, sub_zero, twist_zero, ← h2]
  unfold FrictionJ.solveVel
  dsimp only
  rw [t]
  unfold FrictionJ.slip
  dsimp only
  rw [e, mulV_zero, neg_zero_vec, h1, add_nil, clampImpulse_zero, sub_nil, cross_zero_right, cross_zero_right, kick_zero, ← h1]

theorem FrictionJ.Still.init {st : JStep F} {bodies : Nat → JBody F} {pos : Arr (Pos F)} {j : FrictionJ F}
    (hu : (Joint.friction j).Unloaded) (hz : (Joint.friction j).Sane) :
    (j.initVel st bodies (two pos ⟨bodies j.bodyA, bodies j.bodyB⟩) .zero).1.Still ∧
      (j.initVel st bodies (two pos ⟨bodies j.bodyA, bodies j.bodyB⟩) .zero).2 = .zero := by
  have hq : (j.prepare bodies (two pos ⟨bodies j.bodyA, bodies j.bodyB⟩)).Still := ⟨hu.1, hu.2, hz.2⟩
  unfold FrictionJ.initVel
  generalize j.prepare bodies (two pos ⟨bodies j.bodyA, bodies j.bodyB⟩) = k at hq
  unfold FrictionJ.warm
  obtain ⟨q1, q2, q3⟩ := hq
  split
  · dsimp only
    simp only [q1, q2, smul_nil, zero_mul, cross_zero_right, add_zero, kick_zero]
    exact ⟨⟨rfl, rfl, q3⟩, trivial⟩
  · exact ⟨⟨rfl, rfl, q3⟩, rfl⟩

/-- A motor joint with nothing to do. -/
structure MotorJ.Still (j : MotorJ F) : Prop where
  linearImpulse : j.linearImpulse = ⟨0, 0⟩
  angularImpulse : j.angularImpulse = 0
  torque : 0 ≤ j.maxTorque
  linearError : j.linearError = ⟨0, 0⟩
  angularError : j.angularError = 0

theorem MotorJ.Still.solve {st : JStep F} (hd : 0 ≤ st.dt) {j : MotorJ F} (h : j.Still) : j.solveVel st .zero = (j, .zero) := by
  obtain ⟨h1, h2, h3, h4, h5⟩ := h
  have e : relVel (Two.zero : Two F).a (Two.zero : Two F).b j.rA j.rB + (st.invDt * j.correctionFactor) * j.linearError = ⟨0, 0⟩ := by
    rw [h4, smul_nil, add_nil]; exact relVel_zero _ _
  have t : j.turn st .zero = (j, .zero) := by
    unfold MotorJ.turn
    dsimp only
    rw [clamp_null (by simp [Two.zero, h2, h5]) (mul_nonneg hd h3), h2, sub_zero, twist_zero, ← h2]
  unfold MotorJ.solveVel
  dsimp only
  rw [t]
  unfold MotorJ.slip
  dsimp only
  rw [e, mulV_zero, neg_zero_vec, h1, add_nil, clampImpulse_zero, sub_nil, cross_zero_right, cross_zero_right, kick_zero, ← h1]

theorem MotorJ.Still.init {st : JStep F} {bodies : Nat → JBody F} {pos : Arr (Pos F)} {j : MotorJ F}
    (hu : (Joint.motor j).Unloaded) (hs : (Joint.motor j).Satisfied bodies pos) (hz : (Joint.motor j).Sane) :
    (j.initVel st bodies (two pos ⟨bodies j.bodyA, bodies j.bodyB⟩) .zero).1.Still ∧
      (j.initVel st bodies (two pos ⟨bodies j.bodyA, bodies j.bodyB⟩) .zero).2 = .zero := by
  have hq : (j.prepare bodies (two pos ⟨bodies j.bodyA, bodies j.bodyB⟩)).Still := by
    refine ⟨hu.1, hu.2, hz.2, ?_, ?_⟩
    · have g := gap_world ⟨bodies j.bodyA, bodies j.bodyB⟩ j.linearOffset ⟨0, 0⟩ pos
      have k : (bodies j.bodyA).worldPoint pos j.linearOffset = (bodies j.bodyB).worldPoint pos ⟨0, 0⟩ := hs.1
      have a : (bodies j.bodyB).arm (two pos ⟨bodies j.bodyA, bodies j.bodyB⟩).b.a ⟨0, 0⟩ =
          (Rot.ofAngle (two pos ⟨bodies j.bodyA, bodies j.bodyB⟩).b.a).mulV (-(bodies j.bodyB).localCenter) := by
        unfold JBody.arm
        congr 1
        ext <;> simp
      dsimp only at g
      rw [a, ← k] at g
      simp only [MotorJ.prepare]
      rw [g]
      ext <;> simp
    · have k : (two pos ⟨bodies j.bodyA, bodies j.bodyB⟩).b.a - (two pos ⟨bodies j.bodyA, bodies j.bodyB⟩).a.a = j.angularOffset := hs.2
      simp only [MotorJ.prepare]
      rw [k, sub_self]
  unfold MotorJ.initVel
  generalize j.prepare bodies (two pos ⟨bodies j.bodyA, bodies j.bodyB⟩) = k at hq
  unfold MotorJ.warm
  obtain ⟨q1, q2, q3, q4, q5⟩ := hq
  split
  · dsimp only
    simp only [q1, q2, smul_nil, zero_mul, cross_zero_right, add_zero, kick_zero]
    exact ⟨⟨rfl, rfl, q3, q4, q5⟩, trivial⟩
  · exact ⟨⟨rfl, rfl, q3, q4, q5⟩, rfl⟩

theorem Pulley.push_zero (j : Pulley F) (s : Two F) : j.push 0 s = s := by
  unfold Pulley.push
  dsimp only
  rw [neg_zero, mul_zero, smul_null, smul_null, cross_zero_right, cross_zero_right, smul_nil, smul_nil, add_nil, add_nil, mul_zero, mul_zero, add_zero, add_zero]

theorem Pulley.quiet_solve (j : Pulley F) : j.solveVel .zero = (j, .zero) := by
  unfold Pulley.solveVel
  dsimp only
  have e : -(dot j.uA ((Two.zero : Two F).a.v + crossSV (Two.zero : Two F).a.w j.rA)) - j.ratio * dot j.uB ((Two.zero : Two F).b.v + crossSV (Two.zero : Two F).b.w j.rB) = 0 := by
    simp [Two.zero, dot, crossSV]
  rw [e, mul_zero, add_zero, Pulley.push_zero]

theorem Pulley.quiet_init {st : JStep F} {bodies : Nat → JBody F} {p : TwoP F} {j : Pulley F} (hu : j.impulse = 0) :
    (j.initVel st bodies p .zero).1.impulse = 0 ∧ (j.initVel st bodies p .zero).2 = .zero := by
  have hq : (j.prepare bodies p).impulse = 0 := hu
  unfold Pulley.initVel
  generalize j.prepare bodies p = k at hq
  unfold Pulley.warm
  split
  · dsimp only
    rw [hq, zero_mul, Pulley.push_zero]
    exact ⟨rfl, rfl⟩
  · exact ⟨rfl, rfl⟩

/-- A mouse joint with nothing to do. -/
structure Mouse.Still (j : Mouse F) : Prop where
  impulse : j.impulse = ⟨0, 0⟩
  c : j.c = ⟨0, 0⟩

theorem Mouse.push_zero (j : Mouse F) (s : Vel F) : j.push ⟨0, 0⟩ s = s := by
  unfold Mouse.push
  rw [cross_zero_right, smul_nil, add_nil, mul_zero, add_zero]

theorem Mouse.Still.solve {st : JStep F} {j : Mouse F} (h : j.Still) : j.solveVel st ⟨⟨0, 0⟩, 0⟩ = (j, ⟨⟨0, 0⟩, 0⟩) := by
  obtain ⟨h1, h2⟩ := h
  have e : -((⟨0, 0⟩ : Vec2 F) + crossSV 0 j.rB + j.c + j.gamma * j.impulse) = ⟨0, 0⟩ := by
    rw [h1, h2, crossSV_null, smul_nil, add_nil, add_nil, add_nil, neg_zero_vec]
  unfold Mouse.solveVel
  dsimp only
  rw [e, mulV_zero, h1, add_nil, if_neg (by simp [Vec2.lengthSquared, mul_self_nonneg]), sub_nil, Mouse.push_zero, ← h1]

theorem Mouse.Still.init {st : JStep F} {bodies : Nat → JBody F} {pos : Arr (Pos F)} {j : Mouse F}
    (hu : (Joint.mouse j).Unloaded) (hs : (Joint.mouse j).Satisfied bodies pos) :
    (j.initVel st bodies (pos.at' (bodies j.bodyB).index) ⟨⟨0, 0⟩, 0⟩).1.Still ∧
      (j.initVel st bodies (pos.at' (bodies j.bodyB).index) ⟨⟨0, 0⟩, 0⟩).2 = ⟨⟨0, 0⟩, 0⟩ := by
  have hq : (j.prepare st bodies (pos.at' (bodies j.bodyB).index)).Still := by
    refine ⟨hu, ?_⟩
    have k : (bodies j.bodyB).worldPoint pos j.localAnchorB = j.target := hs
    simp only [Mouse.prepare]
    rw [worldPoint_arm, k]
    ext <;> simp
  unfold Mouse.initVel
  generalize j.prepare st bodies (pos.at' (bodies j.bodyB).index) = k at hq
  unfold Mouse.warm
  obtain ⟨q1, q2⟩ := hq
  dsimp only
  rw [zero_mul]
  split
  · dsimp only
    rw [q1, smul_nil, Mouse.push_zero]
    exact ⟨⟨rfl, q2⟩, rfl⟩
  · exact ⟨⟨rfl, q2⟩, rfl⟩

theorem Revolute.initVel_touched (st : JStep F) (bodies : Nat → JBody F) (j : Revolute F) (p : TwoP F) (s : Two F) :
    (Joint.revolute (j.initVel st bodies p s).1).touched = (Joint.revolute j).touched := by
  unfold Revolute.initVel Revolute.warm
  split <;> rfl
theorem Prismatic.initVel_touched (st : JStep F) (bodies : Nat → JBody F) (j : Prismatic F) (p : TwoP F) (s : Two F) :
    (Joint.prismatic (j.initVel st bodies p s).1).touched = (Joint.prismatic j).touched := by
  unfold Prismatic.initVel Prismatic.warm
  split <;> rfl
theorem DistanceJ.initVel_touched (st : JStep F) (bodies : Nat → JBody F) (j : DistanceJ F) (p : TwoP F) (s : Two F) :
    (Joint.distance (j.initVel st bodies p s).1).touched = (Joint.distance j).touched := by
  unfold DistanceJ.initVel DistanceJ.warm DistanceJ.soften
  split_ifs <;> rfl
theorem Weld.initVel_touched (st : JStep F) (bodies : Nat → JBody F) (j : Weld F) (p : TwoP F) (s : Two F) :
    (Joint.weld (j.initVel st bodies p s).1).touched = (Joint.weld j).touched := by
  unfold Weld.initVel Weld.warm Weld.prepare
  dsimp only
  split_ifs <;> rfl
theorem Wheel.initVel_touched (st : JStep F) (bodies : Nat → JBody F) (j : Wheel F) (p : TwoP F) (s : Two F) :
    (Joint.wheel (j.initVel st bodies p s).1).touched = (Joint.wheel j).touched := by
  unfold Wheel.initVel Wheel.warm
  split <;> rfl
theorem FrictionJ.initVel_touched (st : JStep F) (bodies : Nat → JBody F) (j : FrictionJ F) (p : TwoP F) (s : Two F) :
    (Joint.friction (j.initVel st bodies p s).1).touched = (Joint.friction j).touched := by
  unfold FrictionJ.initVel FrictionJ.warm
  split <;> rfl
theorem MotorJ.initVel_touched (st : JStep F) (bodies : Nat → JBody F) (j : MotorJ F) (p : TwoP F) (s : Two F) :
    (Joint.motor (j.initVel st bodies p s).1).touched = (Joint.motor j).touched := by
  unfold MotorJ.initVel MotorJ.warm
  split <;> rfl
theorem Pulley.initVel_touched (st : JStep F) (bodies : Nat → JBody F) (j : Pulley F) (p : TwoP F) (s : Two F) :
    (Joint.pulley (j.initVel st bodies p s).1).touched = (Joint.pulley j).touched := by
  unfold Pulley.initVel Pulley.warm
  split <;> rfl
theorem Mouse.initVel_touched (st : JStep F) (bodies : Nat → JBody F) (j : Mouse F) (p : Pos F) (s : Vel F) :
    (Joint.mouse (j.initVel st bodies p s).1).touched = (Joint.mouse j).touched := by
  unfold Mouse.initVel Mouse.warm
  dsimp only
  split <;> rfl
theorem DistanceJ.soften_satisfied {st : JStep F} {bodies : Nat → JBody F} {pos : Arr (Pos F)} {p : TwoP F} {j : DistanceJ F} :
    (Joint.distance ((j.prepare bodies p).soften st)).Satisfied bodies pos ↔ (Joint.distance j).Satisfied bodies pos := by
  unfold DistanceJ.soften
  split <;> exact Iff.rfl
theorem Weld.prepare_satisfied {st : JStep F} {bodies : Nat → JBody F} {pos : Arr (Pos F)} {p : TwoP F} {j : Weld F} :
    (Joint.weld (j.prepare st bodies p)).Satisfied bodies pos ↔ (Joint.weld j).Satisfied bodies pos := by
  unfold Weld.prepare
  dsimp only
  split_ifs <;> exact Iff.rfl

/-! ## Any joint -/

/-- The joint has nothing to do. -/
def Joint.Still : Joint F → Prop
  | .revolute j => j.Still | .prismatic j => j.Still | .distance j => j.Still | .weld j => j.Still | .wheel j => j.Still
  | .friction j => j.Still | .motor j => j.Still | .mouse j => j.Still | .pulley j => j.impulse = 0 | .gear _ => False

theorem Joint.Still.unloaded {j : Joint F} (h : j.Still) : j.Unloaded := by
  cases j with
  | revolute j => exact ⟨h.1, h.2, h.3, h.4⟩
  | prismatic j => exact ⟨h.1, h.2, h.3, h.4⟩
  | distance j => exact ⟨h.1, h.2, h.3⟩
  | weld j => exact h.1
  | wheel j => exact ⟨h.1, h.2, h.3, h.4, h.5⟩
  | friction j => exact ⟨h.1, h.2⟩
  | motor j => exact ⟨h.1, h.2⟩
  | mouse j => exact h.1
  | pulley j => exact h
  | gear j => exact h.elim

theorem onTwo_quiet {α : Type} {mk : α → Joint F} {vel vel' : Arr (Vel F)} {a b : Nat} {f : Two F → α × Two F} {j' : Joint F}
    (h : onTwo mk vel a b f = some (j', vel')) (ha : vel.at' a = ⟨⟨0, 0⟩, 0⟩) (hb : vel.at' b = ⟨⟨0, 0⟩, 0⟩) (hf : (f .zero).2 = .zero) :
    j' = mk (f .zero).1 ∧ vel' = vel := by
  unfold onTwo at h
  obtain ⟨s, h1, h⟩ := Option.bind_eq_some_iff.1 h
  obtain ⟨w, h2, h⟩ := Option.bind_eq_some_iff.1 h
  unfold loadTwo Arr.get at h1
  by_cases l1 : a < vel.len
  · by_cases l2 : b < vel.len
    · simp only [l1, l2, if_true, Option.bind_eq_bind, Option.bind_some, Option.pure_def, Option.some.injEq, ha, hb] at h1
      have e : s = .zero := h1.symm
      subst e
      rw [hf, storeTwo_of _ l1 l2] at h2
      have e1 : upd (upd vel.at' a (Two.zero : Two F).a) b (Two.zero : Two F).b = vel.at' := by
        have x : (Two.zero : Two F).a = vel.at' a := ha.symm
        have y : (Two.zero : Two F).b = vel.at' b := hb.symm
        rw [x, upd_own, y, upd_own]
      rw [e1] at h2
      have e2 := Option.some.inj h2
      have e3 := Option.some.inj h
      refine ⟨(congrArg Prod.fst e3).symm, ?_⟩
      have e4 := (congrArg Prod.snd e3).symm
      dsimp only at e4
      rw [e4, ← e2]
    · simp [l1, l2] at h1
  · simp [l1] at h1

theorem Joint.Still.solveVel {st : JStep F} (hd : 0 ≤ st.dt) (hi : 0 ≤ st.invDt) {bodies : Nat → JBody F} {pos : Arr (Pos F)} {vel vel' : Arr (Vel F)}
    {j j' : Joint F} (hq : j.Still) (ha : j.Armed bodies pos) (hr : j.AtRest bodies vel) (h : j.solveVel st vel = some (j', vel')) : j' = j ∧ vel' = vel := by
  cases j with
  | revolute j =>
    have e := Revolute.Still.solve hd hi hq
    have f : j.frame = ⟨bodies j.bodyA, bodies j.bodyB⟩ := ha.1
    have k := onTwo_quiet h (by rw [f]; exact hr _ (by simp [Joint.touched, Joint.bodyA, Joint.bodyB])) (by rw [f]; exact hr _ (by simp [Joint.touched, Joint.bodyA, Joint.bodyB])) (by rw [e])
    rw [e] at k
    exact k
  | prismatic j =>
    have e := Prismatic.Still.solve hd hi hq
    have f : j.frame = ⟨bodies j.bodyA, bodies j.bodyB⟩ := ha.1
    have k := onTwo_quiet h (by rw [f]; exact hr _ (by simp [Joint.touched, Joint.bodyA, Joint.bodyB])) (by rw [f]; exact hr _ (by simp [Joint.touched, Joint.bodyA, Joint.bodyB])) (by rw [e])
    rw [e] at k
    exact k
  | distance j =>
    have e := DistanceJ.Still.solve hi hq
    have f : j.frame = ⟨bodies j.bodyA, bodies j.bodyB⟩ := ha.1
    have k := onTwo_quiet h (by rw [f]; exact hr _ (by simp [Joint.touched, Joint.bodyA, Joint.bodyB])) (by rw [f]; exact hr _ (by simp [Joint.touched, Joint.bodyA, Joint.bodyB])) (by rw [e])
    rw [e] at k
    exact k
  | weld j =>
    have e := Weld.Still.solve hq
    have f : j.frame = ⟨bodies j.bodyA, bodies j.bodyB⟩ := ha.1
    have k := onTwo_quiet h (by rw [f]; exact hr _ (by simp [Joint.touched, Joint.bodyA, Joint.bodyB])) (by rw [f]; exact hr _ (by simp [Joint.touched, Joint.bodyA, Joint.bodyB])) (by rw [e])
    rw [e] at k
    exact k
  | wheel j =>
    have e := Wheel.Still.solve hd hi hq
    have f : j.frame = ⟨bodies j.bodyA, bodies j.bodyB⟩ := ha.1
    have k := onTwo_quiet h (by rw [f]; exact hr _ (by simp [Joint.touched, Joint.bodyA, Joint.bodyB])) (by rw [f]; exact hr _ (by simp [Joint.touched, Joint.bodyA, Joint.bodyB])) (by rw [e])
    rw [e] at k
    exact k
  | friction j =>
    have e := FrictionJ.Still.solve hd hq
    have f : j.frame = ⟨bodies j.bodyA, bodies j.bodyB⟩ := ha.1
    have k := onTwo_quiet h (by rw [f]; exact hr _ (by simp [Joint.touched, Joint.bodyA, Joint.bodyB])) (by rw [f]; exact hr _ (by simp [Joint.touched, Joint.bodyA, Joint.bodyB])) (by rw [e])
    rw [e] at k
    exact k
  | motor j =>
    have e := MotorJ.Still.solve hd hq
    have f : j.frame = ⟨bodies j.bodyA, bodies j.bodyB⟩ := ha.1
    have k := onTwo_quiet h (by rw [f]; exact hr _ (by simp [Joint.touched, Joint.bodyA, Joint.bodyB])) (by rw [f]; exact hr _ (by simp [Joint.touched, Joint.bodyA, Joint.bodyB])) (by rw [e])
    rw [e] at k
    exact k
  | pulley j =>
    have e := Pulley.quiet_solve j
    have f : j.frame = ⟨bodies j.bodyA, bodies j.bodyB⟩ := ha.1
    have k := onTwo_quiet h (by rw [f]; exact hr _ (by simp [Joint.touched, Joint.bodyA, Joint.bodyB])) (by rw [f]; exact hr _ (by simp [Joint.touched, Joint.bodyA, Joint.bodyB])) (by rw [e])
    rw [e] at k
    exact k
  | mouse j =>
    have e := Mouse.Still.solve (st := st) hq
    have f : j.frame = bodies j.bodyB := ha.1
    have z : vel.at' j.frame.index = ⟨⟨0, 0⟩, 0⟩ := by rw [f]; exact hr _ (by simp [Joint.touched])
    unfold Joint.solveVel Arr.get Arr.set at h
    by_cases l : j.frame.index < vel.len
    · simp only [l, if_true, Option.bind_eq_bind, Option.bind_some, Option.pure_def, z, e, Option.some.injEq, Prod.mk.injEq] at h
      refine ⟨h.1.symm, ?_⟩
      rw [← h.2, ← z, upd_own]
    · simp [l] at h
  | gear j => exact hq.elim

theorem Joint.Still.solves {st : JStep F} (hd : 0 ≤ st.dt) (hi : 0 ≤ st.invDt) {bodies : Nat → JBody F} {pos : Arr (Pos F)} {vs : List (Arr (Vel F))}
    {j j' : Joint F} {log : List (Arr (Vel F) × Arr (Vel F))} (hq : j.Still) (ha : j.Armed bodies pos) (hr : ∀ v ∈ vs, j.AtRest bodies v)
    (h : j.solves st vs = some (j', log)) : j' = j ∧ ∀ e ∈ log, e.2 = e.1 := by
  induction vs generalizing j' log with
  | nil =>
    have e := Option.some.inj h
    have e1 : j = j' := congrArg Prod.fst e
    have e2 : [] = log := congrArg Prod.snd e
    subst e2
    exact ⟨e1.symm, by simp⟩
  | cons v vs ih =>
    unfold Joint.solves at h
    obtain ⟨r, h1, h⟩ := Option.bind_eq_some_iff.1 h
    obtain ⟨r', h2, h⟩ := Option.bind_eq_some_iff.1 h
    obtain ⟨k1, k2⟩ := hq.solveVel hd hi ha (hr v (by simp)) h1
    rw [k1] at h2
    obtain ⟨m1, m2⟩ := ih (fun w hw => hr w (by simp [hw])) h2
    have e := Option.some.inj h
    have e1 : r'.1 = j' := congrArg Prod.fst e
    have e2 : (v, r.2) :: r'.2 = log := congrArg Prod.snd e
    subst e2
    refine ⟨e1.symm.trans m1, ?_⟩
    intro x hx
    rcases List.mem_cons.1 hx with rfl | hx
    · exact k2
    · exact m2 x hx

theorem Joint.init_quiet {n : Nat} {st : JStep F} {bodies : Nat → JBody F} {pos : Arr (Pos F)} {vel vel' : Arr (Vel F)}
    {j j' : Joint F} (hok : j.Ok n bodies) (hz : j.Sane) (hu : j.Unloaded) (hs : j.Satisfied bodies pos) (hr : j.Relaxed bodies pos)
    (hv : j.AtRest bodies vel) (h : j.initVel st bodies pos vel = some (j', vel')) : j'.Still ∧ vel' = vel ∧ j'.touched = j.touched := by
  cases j with
  | revolute j =>
    have e := Revolute.Still.init (st := st) (bodies := bodies) (pos := pos) ⟨hok.inertiaA, hok.inertiaB⟩ hu hs hr hz
    obtain ⟨p, h1, h⟩ := Option.bind_eq_some_iff.1 h
    obtain ⟨_, _, rfl⟩ := loadTwoP_some h1
    have k := onTwo_quiet h (hv _ (by simp [Joint.touched, Joint.bodyA, Joint.bodyB])) (hv _ (by simp [Joint.touched, Joint.bodyA, Joint.bodyB])) e.2
    refine ⟨?_, k.2, ?_⟩
    · rw [k.1]
      exact e.1
    · rw [k.1]
      exact j.initVel_touched st bodies _ _
  | prismatic j =>
    have e := Prismatic.Still.init (st := st) (bodies := bodies) (pos := pos) hok hu hs hr hz
    obtain ⟨p, h1, h⟩ := Option.bind_eq_some_iff.1 h
    obtain ⟨_, _, rfl⟩ := loadTwoP_some h1
    have k := onTwo_quiet h (hv _ (by simp [Joint.touched, Joint.bodyA, Joint.bodyB])) (hv _ (by simp [Joint.touched, Joint.bodyA, Joint.bodyB])) e.2
    refine ⟨?_, k.2, ?_⟩
    · rw [k.1]
      exact e.1
    · rw [k.1]
      exact j.initVel_touched st bodies _ _
  | distance j =>
    have e := DistanceJ.Still.init (st := st) (bodies := bodies) (pos := pos) hok hu hs hr
    obtain ⟨p, h1, h⟩ := Option.bind_eq_some_iff.1 h
    obtain ⟨_, _, rfl⟩ := loadTwoP_some h1
    have k := onTwo_quiet h (hv _ (by simp [Joint.touched, Joint.bodyA, Joint.bodyB])) (hv _ (by simp [Joint.touched, Joint.bodyA, Joint.bodyB])) e.2
    refine ⟨?_, k.2, ?_⟩
    · rw [k.1]
      exact e.1
    · rw [k.1]
      exact j.initVel_touched st bodies _ _
  | weld j =>
    have e := Weld.Still.init (st := st) (bodies := bodies) (pos := pos) hu hr
    obtain ⟨p, h1, h⟩ := Option.bind_eq_some_iff.1 h
    obtain ⟨_, _, rfl⟩ := loadTwoP_some h1
    have k := onTwo_quiet h (hv _ (by simp [Joint.touched, Joint.bodyA, Joint.bodyB])) (hv _ (by simp [Joint.touched, Joint.bodyA, Joint.bodyB])) e.2
    refine ⟨?_, k.2, ?_⟩
    · rw [k.1]
      exact e.1
    · rw [k.1]
      exact j.initVel_touched st bodies _ _
  | wheel j =>
    have e := Wheel.Still.init (st := st) (bodies := bodies) (pos := pos) hok hu hs hr hz
    obtain ⟨p, h1, h⟩ := Option.bind_eq_some_iff.1 h
    obtain ⟨_, _, rfl⟩ := loadTwoP_some h1
    have k := onTwo_quiet h (hv _ (by simp [Joint.touched, Joint.bodyA, Joint.bodyB])) (hv _ (by simp [Joint.touched, Joint.bodyA, Joint.bodyB])) e.2
    refine ⟨?_, k.2, ?_⟩
    · rw [k.1]
      exact e.1
    · rw [k.1]
      exact j.initVel_touched st bodies _ _
  | friction j =>
    have e := FrictionJ.Still.init (st := st) (bodies := bodies) (pos := pos) hu hz
    obtain ⟨p, h1, h⟩ := Option.bind_eq_some_iff.1 h
    obtain ⟨_, _, rfl⟩ := loadTwoP_some h1
    have k := onTwo_quiet h (hv _ (by simp [Joint.touched, Joint.bodyA, Joint.bodyB])) (hv _ (by simp [Joint.touched, Joint.bodyA, Joint.bodyB])) e.2
    refine ⟨?_, k.2, ?_⟩
    · rw [k.1]
      exact e.1
    · rw [k.1]
      exact j.initVel_touched st bodies _ _
  | motor j =>
    have e := MotorJ.Still.init (st := st) (bodies := bodies) (pos := pos) hu hs hz
    obtain ⟨p, h1, h⟩ := Option.bind_eq_some_iff.1 h
    obtain ⟨_, _, rfl⟩ := loadTwoP_some h1
    have k := onTwo_quiet h (hv _ (by simp [Joint.touched, Joint.bodyA, Joint.bodyB])) (hv _ (by simp [Joint.touched, Joint.bodyA, Joint.bodyB])) e.2
    refine ⟨?_, k.2, ?_⟩
    · rw [k.1]
      exact e.1
    · rw [k.1]
      exact j.initVel_touched st bodies _ _
  | pulley j =>
    have e := Pulley.quiet_init (st := st) (bodies := bodies) (p := two pos ⟨bodies j.bodyA, bodies j.bodyB⟩) hu
    obtain ⟨p, h1, h⟩ := Option.bind_eq_some_iff.1 h
    obtain ⟨_, _, rfl⟩ := loadTwoP_some h1
    have k := onTwo_quiet h (hv _ (by simp [Joint.touched, Joint.bodyA, Joint.bodyB])) (hv _ (by simp [Joint.touched, Joint.bodyA, Joint.bodyB])) e.2
    refine ⟨?_, k.2, ?_⟩
    · rw [k.1]
      exact e.1
    · rw [k.1]
      exact j.initVel_touched st bodies _ _
  | mouse j =>
    have e := Mouse.Still.init (st := st) (bodies := bodies) (pos := pos) hu hs
    have z : vel.at' (bodies j.bodyB).index = ⟨⟨0, 0⟩, 0⟩ := hv _ (by simp [Joint.touched])
    obtain ⟨p, h1, h⟩ := Option.bind_eq_some_iff.1 h
    obtain ⟨_, rfl⟩ := Arr.get_some h1
    obtain ⟨s, h2, h⟩ := Option.bind_eq_some_iff.1 h
    obtain ⟨l, rfl⟩ := Arr.get_some h2
    obtain ⟨w, h3, h⟩ := Option.bind_eq_some_iff.1 h
    rw [z] at h3 h
    rw [e.2] at h3
    unfold Arr.set at h3
    rw [if_pos l, ← z, upd_own] at h3
    have e1 := Option.some.inj h
    have e2 := (congrArg Prod.fst e1).symm
    have e3 := (congrArg Prod.snd e1).symm
    dsimp only at e2 e3
    subst e2
    refine ⟨e.1, ?_, ?_⟩
    · rw [e3, ← Option.some.inj h3]
    · exact j.initVel_touched st bodies _ _
  | gear j => exact hs.elim

theorem Joint.satisfied_strip [Elem F] {bodies : Nat → JBody F} {pos : Arr (Pos F)} {j : Joint F} : j.strip.Satisfied bodies pos ↔ j.Satisfied bodies pos := by
  cases j <;> exact Iff.rfl

theorem Joint.satisfied_prepared [Elem F] {st : JStep F} {bodies : Nat → JBody F} {pos0 pos : Arr (Pos F)} {j : Joint F} :
    (j.prepared st bodies pos0).Satisfied bodies pos ↔ j.Satisfied bodies pos := by
  cases j with
  | distance j => exact DistanceJ.soften_satisfied
  | weld j => exact Weld.prepare_satisfied
  | _ => exact Iff.rfl

end
end B2
