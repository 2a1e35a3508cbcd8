import Verif.Proofs.JointGear

/-!
# Bounds on the impulses of joints
-/
namespace B2

section
variable {F : Type} [Field F] [LinearOrder F] [IsStrictOrderedRing F]

theorem b2max_zero_le (x : F) : 0 ≤ b2max x 0 := by unfold b2max; split <;> linarith
theorem zero_le_b2max (x : F) : 0 ≤ b2max 0 x := by unfold b2max; split <;> linarith

theorem clamp_abs {x m : F} (h : 0 ≤ m) : |b2clamp x (-m) m| ≤ m := by
  rw [abs_le]; unfold b2clamp b2max b2min
  split <;> split at * <;> constructor <;> linarith

theorem clamp_zero {m : F} (h : 0 ≤ m) : b2clamp 0 (-m) m = 0 := by
  unfold b2clamp b2max b2min
  split <;> split at * <;> linarith

/-- An impulse bound is a force bound. -/
theorem force_bound {dt invDt x m : F} (hdt : 0 < dt) (h1 : dt * invDt = 1) (h : |x| ≤ dt * m) : |invDt * x| ≤ m := by
  have hi : 0 < invDt := by
    by_contra hn
    nlinarith
  rw [abs_mul, abs_of_pos hi]
  calc invDt * |x| ≤ invDt * (dt * m) := mul_le_mul_of_nonneg_left h hi.le
    _ = m := by linear_combination m * h1

theorem force_bound2 {dt invDt m : F} {x : Vec2 F} (h1 : dt * invDt = 1) (h : x.lengthSquared ≤ (dt * m) ^ 2) :
    (invDt * x).lengthSquared ≤ m ^ 2 := by
  have e : (invDt * x).lengthSquared = invDt ^ 2 * x.lengthSquared := by
    simp only [Vec2.lengthSquared, Vec2.smul_x, Vec2.smul_y]; ring
  rw [e]
  calc invDt ^ 2 * x.lengthSquared ≤ invDt ^ 2 * (dt * m) ^ 2 := mul_le_mul_of_nonneg_left h (sq_nonneg _)
    _ = m ^ 2 := by linear_combination (m ^ 2 * (dt * invDt + 1)) * h1

theorem clampImpulse_le [Elem F] [ElemLaws F] (v : Vec2 F) (m : F) : (clampImpulse v m).lengthSquared ≤ m ^ 2 := by
  unfold clampImpulse
  split
  · have h := normalize_le_one v
    have e : (m * v.normalize.1).lengthSquared = m ^ 2 * dot v.normalize.1 v.normalize.1 := by
      simp only [Vec2.lengthSquared, dot, Vec2.smul_x, Vec2.smul_y]; ring
    rw [e]
    nlinarith [sq_nonneg m]
  · rename_i h
    have := not_lt.1 h
    rw [sq]; exact this

/-- What of a joint is zero or nonnegative between the calls. -/
def Joint.Idle : Joint F → Prop
  | .revolute j => 0 ≤ j.maxMotorTorque ∧ (j.enableMotor = false ∨ j.frame.a.invI + j.frame.b.invI = 0 → j.motorImpulse = 0) ∧
      (j.enableLimit = false ∨ j.frame.a.invI + j.frame.b.invI = 0 → j.lowerImpulse = 0 ∧ j.upperImpulse = 0)
  | .prismatic j => 0 ≤ j.maxMotorForce ∧ (j.enableMotor = false → j.motorImpulse = 0) ∧
      (j.enableLimit = false → j.lowerImpulse = 0 ∧ j.upperImpulse = 0)
  | .wheel j => 0 ≤ j.maxMotorTorque ∧ (j.enableMotor = false → j.motorImpulse = 0 ∧ j.motorMass = 0) ∧
      (j.enableLimit = false → j.lowerImpulse = 0 ∧ j.upperImpulse = 0)
  | j => j.Sane

theorem revolute_idle [Elem F] {st : JStep F} {bodies : Nat → JBody F} {j : Revolute F} (p : TwoP F) (s : Two F)
    (hs : 0 ≤ j.maxMotorTorque) : (Joint.revolute (j.initVel st bodies p s).1).Idle := by
  have fx : (bodies j.bodyA).invI + (bodies j.bodyB).invI = 0 →
      (!decide ((bodies j.bodyA).invI + (bodies j.bodyB).invI > 0)) = true := by
    intro h; simp [h]
  unfold Revolute.initVel Revolute.warm
  split
  · refine ⟨hs, ?_, ?_⟩
    · rintro (h | h)
      · have h : j.enableMotor = false := h
        simp [Revolute.prepare, h]
      · have h := fx h
        simp only [Revolute.prepare, h, Bool.or_true, if_true]; simp
    · rintro (h | h)
      · have h : j.enableLimit = false := h
        simp [Revolute.prepare, h]
      · have h := fx h
        simp only [Revolute.prepare, h, Bool.or_true, if_true]; simp
  · exact ⟨hs, fun _ => rfl, fun _ => ⟨rfl, rfl⟩⟩

theorem prismatic_idle [Elem F] {st : JStep F} {bodies : Nat → JBody F} {j : Prismatic F} (p : TwoP F) (s : Two F)
    (hs : 0 ≤ j.maxMotorForce) : (Joint.prismatic (j.initVel st bodies p s).1).Idle := by
  unfold Prismatic.initVel Prismatic.warm
  split
  · refine ⟨hs, fun h => ?_, fun h => ?_⟩
    · have h : j.enableMotor = false := h
      simp [Prismatic.prepare, h]
    · have h : j.enableLimit = false := h
      simp [Prismatic.prepare, h]
  · exact ⟨hs, fun _ => rfl, fun _ => ⟨rfl, rfl⟩⟩

theorem wheel_idle [Elem F] {st : JStep F} {bodies : Nat → JBody F} {j : Wheel F} (p : TwoP F) (s : Two F)
    (hs : 0 ≤ j.maxMotorTorque) : (Joint.wheel (j.initVel st bodies p s).1).Idle := by
  unfold Wheel.initVel Wheel.warm
  split
  · refine ⟨hs, fun h => ?_, fun h => ?_⟩
    · have h : j.enableMotor = false := h
      simp [Wheel.prepare, h]
    · have h : j.enableLimit = false := h
      simp [Wheel.prepare, h]
  · refine ⟨hs, fun h => ?_, fun _ => ⟨rfl, rfl⟩⟩
    have h : j.enableMotor = false := h
    simp [Wheel.prepare, h]

theorem distance_idle [Elem F] {st : JStep F} {bodies : Nat → JBody F} {j : DistanceJ F} (p : TwoP F) (s : Two F)
    (hr : 0 ≤ st.dtRatio) (hs : 0 ≤ j.lowerImpulse ∧ 0 ≤ j.upperImpulse) :
    (Joint.distance (j.initVel st bodies p s).1).Idle := by
  have h1 : 0 ≤ (((j.prepare bodies p).soften st)).lowerImpulse ∧ 0 ≤ (((j.prepare bodies p).soften st)).upperImpulse := by
    unfold DistanceJ.soften
    split <;> refine ⟨?_, ?_⟩ <;> simp only [DistanceJ.prepare] <;> split <;> first | exact hs.1 | exact hs.2 | exact le_refl _
  unfold DistanceJ.initVel DistanceJ.warm
  split
  · exact ⟨mul_nonneg h1.1 hr, mul_nonneg h1.2 hr⟩
  · exact h1

theorem Joint.initVel_idle [Elem F] {st : JStep F} {bodies : Nat → JBody F} {pos : Arr (Pos F)} {j j' : Joint F}
    {vel vel' : Arr (Vel F)} (hr : 0 ≤ st.dtRatio) (hs : j.Sane) (h : j.initVel st bodies pos vel = some (j', vel')) :
    j'.Idle := by
  cases j with
  | revolute j =>
    obtain ⟨p, hp', h⟩ := Option.bind_eq_some_iff.1 h
    obtain ⟨h1, h2, rfl, rfl⟩ := onTwo_some h
    exact revolute_idle p _ hs
  | prismatic j =>
    obtain ⟨p, hp', h⟩ := Option.bind_eq_some_iff.1 h
    obtain ⟨h1, h2, rfl, rfl⟩ := onTwo_some h
    exact prismatic_idle p _ hs
  | wheel j =>
    obtain ⟨p, hp', h⟩ := Option.bind_eq_some_iff.1 h
    obtain ⟨h1, h2, rfl, rfl⟩ := onTwo_some h
    exact wheel_idle p _ hs
  | distance j =>
    obtain ⟨p, hp', h⟩ := Option.bind_eq_some_iff.1 h
    obtain ⟨h1, h2, rfl, rfl⟩ := onTwo_some h
    exact distance_idle p _ hr hs
  | weld j =>
    obtain ⟨p, hp', h⟩ := Option.bind_eq_some_iff.1 h
    obtain ⟨h1, h2, rfl, rfl⟩ := onTwo_some h
    trivial
  | friction j =>
    obtain ⟨p, hp', h⟩ := Option.bind_eq_some_iff.1 h
    obtain ⟨h1, h2, rfl, rfl⟩ := onTwo_some h
    simp only [FrictionJ.initVel, FrictionJ.warm]; split <;> exact hs
  | motor j =>
    obtain ⟨p, hp', h⟩ := Option.bind_eq_some_iff.1 h
    obtain ⟨h1, h2, rfl, rfl⟩ := onTwo_some h
    simp only [MotorJ.initVel, MotorJ.warm]; split <;> exact hs
  | pulley j =>
    obtain ⟨p, hp', h⟩ := Option.bind_eq_some_iff.1 h
    obtain ⟨h1, h2, rfl, rfl⟩ := onTwo_some h
    trivial
  | mouse j =>
    obtain ⟨_, rfl, rfl⟩ := mouse_initVel_some h
    simp only [Mouse.initVel, Mouse.warm]; split <;> exact hs
  | gear j =>
    obtain ⟨_, _, rfl, _⟩ := gear_initVel_some h
    trivial

theorem revolute_within [Elem F] {st : JStep F} {j : Revolute F} (s : Two F) (hdt : 0 < st.dt)
    (h1 : st.dt * st.invDt = 1) (hi : (Joint.revolute j).Idle) :
    (Joint.revolute (j.solveVel st s).1).Idle ∧ (Joint.revolute (j.solveVel st s).1).Within st.invDt := by
  obtain ⟨i1, i2, i3⟩ := hi
  have hm := mul_nonneg hdt.le i1
  have key : (Joint.revolute (j.solveVel st s).1).Idle ∧ |(j.solveVel st s).1.motorImpulse| ≤ st.dt * j.maxMotorTorque ∧
      0 ≤ (j.solveVel st s).1.lowerImpulse ∧ 0 ≤ (j.solveVel st s).1.upperImpulse := by
    by_cases hf : j.frame.a.invI + j.frame.b.invI = 0
    · have e1 := i2 (.inr hf)
      have e2 := i3 (.inr hf)
      have hd : (!decide (j.frame.a.invI + j.frame.b.invI = 0)) = false := by simp [hf]
      have : (j.solveVel st s).1 = (j.point s).1 := by
        simp only [Revolute.solveVel, hd, Bool.and_false, Bool.false_eq_true, if_false]
      rw [this]
      exact ⟨⟨i1, fun _ => e1, fun _ => e2⟩, by simp [Revolute.point, e1, hm], by simp [Revolute.point, e2],
        by simp [Revolute.point, e2]⟩
    · have hd : (!decide (j.frame.a.invI + j.frame.b.invI = 0)) = true := by simp [hf]
      simp only [Revolute.solveVel, hd, Bool.and_true]
      by_cases hM : j.enableMotor = true <;> by_cases hL : j.enableLimit = true
      · simp only [hM, hL, if_true]
        exact ⟨⟨i1, fun h => (by rcases h with h | h; exact absurd (hM.symm.trans h) (by simp); exact absurd h hf),
          fun h => (by rcases h with h | h; exact absurd (hL.symm.trans h) (by simp); exact absurd h hf)⟩, clamp_abs hm, b2max_zero_le _, b2max_zero_le _⟩
      · rw [Bool.not_eq_true] at hL
        simp only [hM, hL, if_true, Bool.false_eq_true, if_false]
        have e2 := i3 (.inl hL)
        exact ⟨⟨i1, fun h => (by rcases h with h | h; exact absurd (hM.symm.trans h) (by simp); exact absurd h hf),
          fun h => e2⟩, clamp_abs hm, by simp [Revolute.point, Revolute.motor, e2], by simp [Revolute.point, Revolute.motor, e2]⟩
      · rw [Bool.not_eq_true] at hM
        simp only [hM, hL, if_true, Bool.false_eq_true, if_false]
        have e1 := i2 (.inl hM)
        exact ⟨⟨i1, fun h => e1,
          fun h => (by rcases h with h | h; exact absurd (hL.symm.trans h) (by simp); exact absurd h hf)⟩,
          by simp [Revolute.point, Revolute.lower, Revolute.upper, e1, hm], b2max_zero_le _, b2max_zero_le _⟩
      · rw [Bool.not_eq_true] at hM hL
        simp only [hM, hL, if_true, Bool.false_eq_true, if_false]
        have e1 := i2 (.inl hM)
        have e2 := i3 (.inl hL)
        exact ⟨⟨i1, fun h => e1, fun h => e2⟩, by simp [Revolute.point, e1, hm], by simp [Revolute.point, e2],
          by simp [Revolute.point, e2]⟩
  have hst : (j.solveVel st s).1.strip = j.strip := (j.solveVel_does st s).2
  have em : (j.solveVel st s).1.maxMotorTorque = j.maxMotorTorque := by have e := congrArg Revolute.maxMotorTorque hst; exact e
  obtain ⟨k1, k2, k3⟩ := key
  refine ⟨k1, ?_, fun h => ?_, k3, fun h => k1.2.2 (.inl h)⟩
  · rw [em]; exact force_bound hdt h1 k2
  · unfold Revolute.motorTorque; rw [k1.2.1 (.inl h), mul_zero]

theorem prismatic_within [Elem F] {st : JStep F} {j : Prismatic F} (s : Two F) (hdt : 0 < st.dt)
    (h1 : st.dt * st.invDt = 1) (hi : (Joint.prismatic j).Idle) :
    (Joint.prismatic (j.solveVel st s).1).Idle ∧ (Joint.prismatic (j.solveVel st s).1).Within st.invDt := by
  obtain ⟨i1, i2, i3⟩ := hi
  have hm := mul_nonneg hdt.le i1
  have key : (Joint.prismatic (j.solveVel st s).1).Idle ∧ |(j.solveVel st s).1.motorImpulse| ≤ st.dt * j.maxMotorForce ∧
      0 ≤ (j.solveVel st s).1.lowerImpulse ∧ 0 ≤ (j.solveVel st s).1.upperImpulse := by
    simp only [Prismatic.solveVel]
    by_cases hM : j.enableMotor = true <;> by_cases hL : j.enableLimit = true
    · simp only [hM, hL, if_true]
      exact ⟨⟨i1, fun h => absurd (hM.symm.trans h) (by simp), fun h => absurd (hL.symm.trans h) (by simp)⟩, clamp_abs hm, b2max_zero_le _,
        b2max_zero_le _⟩
    · rw [Bool.not_eq_true] at hL
      simp only [hM, hL, if_true, Bool.false_eq_true, if_false]
      have e2 := i3 hL
      exact ⟨⟨i1, fun h => absurd (hM.symm.trans h) (by simp), fun h => e2⟩, clamp_abs hm, by simp [Prismatic.block, Prismatic.motor, e2],
        by simp [Prismatic.block, Prismatic.motor, e2]⟩
    · rw [Bool.not_eq_true] at hM
      simp only [hM, hL, if_true, Bool.false_eq_true, if_false]
      have e1 := i2 hM
      exact ⟨⟨i1, fun h => e1, fun h => absurd (hL.symm.trans h) (by simp)⟩,
        by simp [Prismatic.block, Prismatic.lower, Prismatic.upper, e1, hm], b2max_zero_le _, b2max_zero_le _⟩
    · rw [Bool.not_eq_true] at hM hL
      simp only [hM, hL, if_true, Bool.false_eq_true, if_false]
      have e1 := i2 hM
      have e2 := i3 hL
      exact ⟨⟨i1, fun h => e1, fun h => e2⟩, by simp [Prismatic.block, e1, hm], by simp [Prismatic.block, e2],
        by simp [Prismatic.block, e2]⟩
  have hst : (j.solveVel st s).1.strip = j.strip := (j.solveVel_does st s).2
  have em : (j.solveVel st s).1.maxMotorForce = j.maxMotorForce := by have e := congrArg Prismatic.maxMotorForce hst; exact e
  obtain ⟨k1, k2, k3⟩ := key
  refine ⟨k1, ?_, fun h => ?_, k3, fun h => k1.2.2 h⟩
  · rw [em]; exact force_bound hdt h1 k2
  · unfold Prismatic.motorForce; rw [k1.2.1 h, mul_zero]

theorem wheel_motor_idle {st : JStep F} {j : Wheel F} (s : Two F) (hi : (Joint.wheel j).Idle)
    (hm : 0 ≤ st.dt * j.maxMotorTorque) :
    (Joint.wheel (j.motor st s).1).Idle ∧ |(j.motor st s).1.motorImpulse| ≤ st.dt * j.maxMotorTorque := by
  obtain ⟨i1, i2, i3⟩ := hi
  refine ⟨⟨i1, fun h => ⟨?_, (i2 h).2⟩, i3⟩, clamp_abs hm⟩
  obtain ⟨e1, e2⟩ := i2 h
  have : (j.motor st s).1.motorImpulse = b2clamp (j.motorImpulse + -j.motorMass * (s.b.w - s.a.w - j.motorSpeed))
    (-(st.dt * j.maxMotorTorque)) (st.dt * j.maxMotorTorque) := rfl
  rw [this, e1, e2, show (0 : F) + -0 * (s.b.w - s.a.w - j.motorSpeed) = 0 by ring]
  exact clamp_zero hm

theorem wheel_within [Elem F] {st : JStep F} {j : Wheel F} (s : Two F) (hdt : 0 < st.dt)
    (h1 : st.dt * st.invDt = 1) (hi : (Joint.wheel j).Idle) :
    (Joint.wheel (j.solveVel st s).1).Idle ∧ (Joint.wheel (j.solveVel st s).1).Within st.invDt := by
  obtain ⟨i1, i2, i3⟩ := hi
  have hm := mul_nonneg hdt.le i1
  have key : (Joint.wheel (j.solveVel st s).1).Idle ∧ |(j.solveVel st s).1.motorImpulse| ≤ st.dt * j.maxMotorTorque ∧
      0 ≤ (j.solveVel st s).1.lowerImpulse ∧ 0 ≤ (j.solveVel st s).1.upperImpulse := by
    have hsp : (Joint.wheel (j.spring s).1).Idle := ⟨i1, i2, i3⟩
    have em : (j.spring s).1.maxMotorTorque = j.maxMotorTorque := rfl
    have el : (j.spring s).1.enableLimit = j.enableLimit := rfl
    simp only [Wheel.solveVel]
    rw [← em, ← el]
    rw [← em] at hm
    generalize j.spring s = r at *
    obtain ⟨r, s⟩ := r
    simp only at *
    have hmo := wheel_motor_idle s hsp hm
    have em : (r.motor st s).1.maxMotorTorque = r.maxMotorTorque := rfl
    have el : (r.motor st s).1.enableLimit = r.enableLimit := rfl
    rw [← em, ← el]
    rw [← em] at hmo
    generalize r.motor st s = q at *
    obtain ⟨q, s⟩ := q
    simp only at *
    obtain ⟨⟨q1, q2, q3⟩, q4⟩ := hmo
    by_cases hL : q.enableLimit = true
    · rw [if_pos hL]
      exact ⟨⟨q1, fun h => q2 h, fun h => absurd (hL.symm.trans h) (by simp)⟩, q4, b2max_zero_le _, b2max_zero_le _⟩
    · rw [if_neg hL]
      rw [Bool.not_eq_true] at hL
      obtain ⟨e1, e2⟩ := q3 hL
      exact ⟨⟨q1, q2, q3⟩, q4, e1.ge, e2.ge⟩
  have hst : (j.solveVel st s).1.strip = j.strip := (j.solveVel_does st s).2
  have em : (j.solveVel st s).1.maxMotorTorque = j.maxMotorTorque := by have e := congrArg Wheel.maxMotorTorque hst; exact e
  obtain ⟨k1, k2, k3⟩ := key
  refine ⟨k1, ?_, fun h => ?_, k3, fun h => k1.2.2 h⟩
  · rw [em]; exact force_bound hdt h1 k2
  · unfold Wheel.motorTorque; rw [(k1.2.1 h).1, mul_zero]

theorem Joint.solveVel_within [Elem F] [ElemLaws F] {st : JStep F} {j j' : Joint F} {vel vel' : Arr (Vel F)}
    (hdt : 0 < st.dt) (h1 : st.dt * st.invDt = 1) (hi : j.Idle) (h : j.solveVel st vel = some (j', vel')) :
    j'.Idle ∧ j'.Within st.invDt := by
  cases j with
  | revolute j =>
    obtain ⟨_, _, rfl, rfl⟩ := onTwo_some h
    exact revolute_within _ hdt h1 hi
  | prismatic j =>
    obtain ⟨_, _, rfl, rfl⟩ := onTwo_some h
    exact prismatic_within _ hdt h1 hi
  | wheel j =>
    obtain ⟨_, _, rfl, rfl⟩ := onTwo_some h
    exact wheel_within _ hdt h1 hi
  | distance j =>
    obtain ⟨_, _, rfl, rfl⟩ := onTwo_some h
    have key : ∀ s, 0 ≤ (j.solveVel st s).1.lowerImpulse ∧ 0 ≤ (j.solveVel st s).1.upperImpulse := by
      intro s
      unfold DistanceJ.solveVel
      split
      · exact ⟨zero_le_b2max _, zero_le_b2max _⟩
      · exact hi
    exact ⟨key _, key _⟩
  | weld j => obtain ⟨_, _, rfl, rfl⟩ := onTwo_some h; exact ⟨trivial, trivial⟩
  | friction j =>
    obtain ⟨_, _, rfl, rfl⟩ := onTwo_some h
    exact ⟨hi, force_bound2 h1 (clampImpulse_le _ _), force_bound hdt h1 (clamp_abs (mul_nonneg hdt.le hi.2))⟩
  | motor j =>
    obtain ⟨_, _, rfl, rfl⟩ := onTwo_some h
    exact ⟨hi, force_bound2 h1 (clampImpulse_le _ _), force_bound hdt h1 (clamp_abs (mul_nonneg hdt.le hi.2))⟩
  | pulley j => obtain ⟨_, _, rfl, rfl⟩ := onTwo_some h; exact ⟨trivial, trivial⟩
  | mouse j =>
    obtain ⟨_, rfl, rfl⟩ := mouse_solveVel_some h
    refine ⟨hi, force_bound2 h1 ?_⟩
    simp only [Mouse.solveVel]
    split
    · rename_i hb
      set n := j.impulse + j.mass.mulV (-((vel.at' j.frame.index).v + crossSV (vel.at' j.frame.index).w j.rB + j.c +
        j.gamma * j.impulse)) with hn
      have hpos : 0 < n.lengthSquared := lt_of_le_of_lt (mul_self_nonneg _) hb
      have hl : n.length * n.length = n.lengthSquared := by
        unfold Vec2.length
        rw [ElemLaws.mul_self_sqrt _ (by nlinarith [mul_self_nonneg n.x, mul_self_nonneg n.y])]
        rfl
      have hl0 : n.length ≠ 0 := by
        intro h0
        rw [h0, mul_zero] at hl
        exact absurd hl.symm hpos.ne'
      have e : ((st.dt * j.maxForce / n.length) * n).lengthSquared = (st.dt * j.maxForce) ^ 2 := by
        have : ((st.dt * j.maxForce / n.length) * n).lengthSquared =
          (st.dt * j.maxForce / n.length) ^ 2 * n.lengthSquared := by
          simp only [Vec2.lengthSquared, Vec2.smul_x, Vec2.smul_y]; ring
        rw [this, ← hl]; field_simp
      exact e.le
    · rename_i hb
      rw [sq]; exact not_lt.1 hb
  | gear j => obtain ⟨_, _, rfl, _⟩ := gear_solveVel_some h; exact ⟨trivial, trivial⟩

theorem Joint.solves_within [Elem F] [ElemLaws F] {st : JStep F} (hdt : 0 < st.dt) (h1 : st.dt * st.invDt = 1) :
    ∀ {vs : List (Arr (Vel F))} {j j' : Joint F} {log : List (Arr (Vel F) × Arr (Vel F))}, j.Idle →
      (vs = [] → j.Within st.invDt) → j.solves st vs = some (j', log) → j'.Within st.invDt
  | [], j, j', log, _, hw, h => by
    obtain ⟨rfl, rfl⟩ := Joint.solves_nil h
    exact hw rfl
  | v :: vs, j, j', log, hi, _, h => by
    obtain ⟨j1, v1, log1, h2, h3, rfl⟩ := Joint.solves_cons h
    obtain ⟨i, w⟩ := Joint.solveVel_within hdt h1 hi h2
    exact Joint.solves_within hdt h1 i (fun _ => w) h3

end
end B2
