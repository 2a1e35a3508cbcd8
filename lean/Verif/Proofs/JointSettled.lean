import Verif.Proofs.JointBounds
import Verif.Props.Math

/-!
# Solving the constraint of a joint

The constraint solved last by a joint holds after it is solved: the effective mass matrices can be inverted.
-/
namespace B2

section
variable {F : Type} [Field F] [LinearOrder F]

/-- What a joint holds besides `Armed`: its axes and its effective masses belong to its bodies and arms. -/
def Joint.Tuned [Elem F] (bodies : Nat → JBody F) (pos : Arr (Pos F)) (j : Joint F) : Prop :=
  let xA := j.anchorA bodies pos
  let xB := j.anchorB bodies pos
  let world := (Rot.ofAngle (pos.at' (bodies j.bodyA).index).a).mulV
  match j with
  | .revolute j => j.k = j.frame.pointK j.rA j.rB
  | .prismatic j => j.perp = world j.localYAxisA ∧ j.k = j.frame.slideK j.s1 j.s2
  | .distance j =>
      let m := j.frame.a.invMass + j.frame.a.invI * cross j.rA j.u * cross j.rA j.u + j.frame.b.invMass +
        j.frame.b.invI * cross j.rB j.u * cross j.rB j.u
      j.currentLength = (xB - xA).length ∧ (linearSlop < (xB - xA).length → j.u = (1 / (xB - xA).length) * (xB - xA)) ∧
        j.mass = if m ≠ 0 then 1 / m else 0
  | .weld j =>
      let k := j.frame.weldK j.rA j.rB
      if j.stiffness > 0 then ∀ v, j.mass.mul22 v = k.inverse22.mul22 v
      else j.mass = if k.ez.z = 0 then k.inverse22 else k.symInverse33
  | .wheel j => j.ay = world j.localYAxisA ∧ j.mass = invIfPos (j.frame.a.invMass + j.frame.b.invMass +
      j.frame.a.invI * j.sAy * j.sAy + j.frame.b.invI * j.sBy * j.sBy)
  | .friction j => j.linearMass = (j.frame.pointK j.rA j.rB).inverse
  | .motor j => j.linearMass = (j.frame.pointK j.rA j.rB).inverse ∧ j.linearError = xB - xA
  | .pulley j => j.uA = pulleyAxis (xA - j.groundAnchorA) ∧ j.uB = pulleyAxis (xB - j.groundAnchorB) ∧
      j.mass = invIfPos (j.frame.pulleyMass j.ratio j.rA j.rB j.uA j.uB)
  | .mouse _ => True
  | .gear _ => True

theorem Joint.tuned_strip [Elem F] {bodies : Nat → JBody F} {pos : Arr (Pos F)} {j : Joint F} :
    j.strip.Tuned bodies pos ↔ j.Tuned bodies pos := by cases j <;> exact Iff.rfl

theorem d_pull (cA xA g : Vec2 F) : cA + (xA - cA) - g = xA - g := by ext <;> simp

theorem Joint.prepared_tuned [Elem F] (st : JStep F) (bodies : Nat → JBody F) (pos : Arr (Pos F)) (j : Joint F) :
    (j.prepared st bodies pos).Tuned bodies pos := by
  cases j with
  | revolute j => exact rfl
  | prismatic j => exact ⟨rfl, rfl⟩
  | distance j =>
    have hA := arm_anchorA bodies pos (.distance j)
    have hB := arm_anchorB bodies pos (.distance j)
    have e := d_eq'' (pos.at' (bodies j.bodyA).index).c (pos.at' (bodies j.bodyB).index).c
      ((Joint.distance j).anchorA bodies pos) ((Joint.distance j).anchorB bodies pos)
    simp only [Joint.bodyA, Joint.bodyB, Joint.localAnchorA, Joint.localAnchorB] at hA hB
    have key : (Joint.distance (j.prepare bodies ⟨pos.at' (bodies j.bodyA).index, pos.at' (bodies j.bodyB).index⟩)).Tuned
        bodies pos := by
      refine ⟨?_, fun h => ?_, rfl⟩
      · show (((pos.at' (bodies j.bodyB).index).c + (bodies j.bodyB).arm (pos.at' (bodies j.bodyB).index).a j.localAnchorB -
          (pos.at' (bodies j.bodyA).index).c - (bodies j.bodyA).arm (pos.at' (bodies j.bodyA).index).a j.localAnchorA).length) = _
        rw [hA, hB, e]; rfl
      · have hu : (j.prepare bodies ⟨pos.at' (bodies j.bodyA).index, pos.at' (bodies j.bodyB).index⟩).u =
            (let u := (pos.at' (bodies j.bodyB).index).c + (bodies j.bodyB).arm (pos.at' (bodies j.bodyB).index).a j.localAnchorB -
              (pos.at' (bodies j.bodyA).index).c - (bodies j.bodyA).arm (pos.at' (bodies j.bodyA).index).a j.localAnchorA;
             if decide (u.length > linearSlop) = true then (1 / u.length) * u else ⟨0, 0⟩) := rfl
        rw [hu, hA, hB, e]
        exact if_pos (decide_eq_true h)
    simp only [Joint.prepared, DistanceJ.soften]
    split
    · exact key
    · exact key
  | weld j =>
    simp only [Joint.prepared, Weld.prepare]
    split
    · rename_i h
      simp only [Joint.Tuned]
      rw [if_pos h]
      intro v; rfl
    · rename_i h
      split
      · rename_i h'
        simp only [Joint.Tuned]
        rw [if_neg h, if_pos h']
      · rename_i h'
        simp only [Joint.Tuned]
        rw [if_neg h, if_neg h']
  | wheel j => exact ⟨rfl, rfl⟩
  | friction j => exact rfl
  | motor j =>
    have hA := arm_anchorA bodies pos (.motor j)
    have hB := arm_anchorB bodies pos (.motor j)
    have e := d_eq'' (pos.at' (bodies j.bodyA).index).c (pos.at' (bodies j.bodyB).index).c
      ((Joint.motor j).anchorA bodies pos) ((Joint.motor j).anchorB bodies pos)
    simp only [Joint.bodyA, Joint.bodyB, Joint.localAnchorA, Joint.localAnchorB] at hA hB
    refine ⟨rfl, ?_⟩
    have hB' : (Rot.ofAngle (pos.at' (bodies j.bodyB).index).a).mulV (-(bodies j.bodyB).localCenter) =
        (Joint.motor j).anchorB bodies pos - (pos.at' (bodies j.bodyB).index).c := by
      rw [← hB]; simp only [JBody.arm]
      congr 1; ext <;> simp
    show (pos.at' (bodies j.bodyB).index).c + (Rot.ofAngle (pos.at' (bodies j.bodyB).index).a).mulV
      (-(bodies j.bodyB).localCenter) - (pos.at' (bodies j.bodyA).index).c -
      (bodies j.bodyA).arm (pos.at' (bodies j.bodyA).index).a j.linearOffset = _
    rw [hA, hB', e]; rfl
  | pulley j =>
    have hA := arm_anchorA bodies pos (.pulley j)
    have hB := arm_anchorB bodies pos (.pulley j)
    simp only [Joint.bodyA, Joint.bodyB, Joint.localAnchorA, Joint.localAnchorB] at hA hB
    refine ⟨?_, ?_, rfl⟩
    · show pulleyAxis ((pos.at' (bodies j.bodyA).index).c + (bodies j.bodyA).arm (pos.at' (bodies j.bodyA).index).a
        j.localAnchorA - j.groundAnchorA) = _
      rw [hA, d_pull]; rfl
    · show pulleyAxis ((pos.at' (bodies j.bodyB).index).c + (bodies j.bodyB).arm (pos.at' (bodies j.bodyB).index).a
        j.localAnchorB - j.groundAnchorB) = _
      rw [hB, d_pull]; rfl
  | mouse j => trivial
  | gear j => trivial

theorem Joint.tuned_of_strip [Elem F] {st : JStep F} {bodies : Nat → JBody F} {pos : Arr (Pos F)} {j j' : Joint F}
    (h : j'.strip = (j.prepared st bodies pos).strip) : j'.Tuned bodies pos := by
  rw [← Joint.tuned_strip, h, Joint.tuned_strip]; exact j.prepared_tuned st bodies pos

end

section
variable {F : Type} [Field F] [LinearOrder F] [IsStrictOrderedRing F]

/-- Inverse masses are not negative and one of the masses is finite. -/
structure PairFrame.Good (f : PairFrame F) : Prop where
  massA : 0 ≤ f.a.invMass
  massB : 0 ≤ f.b.invMass
  mass : 0 < f.a.invMass + f.b.invMass
  inertiaA : 0 ≤ f.a.invI
  inertiaB : 0 ≤ f.b.invI

theorem pointK_det {f : PairFrame F} (h : f.Good) (rA rB : Vec2 F) : Props.det2 (f.pointK rA rB) ≠ 0 := by
  obtain ⟨h1, h2, h3, h4, h5⟩ := h
  have e : Props.det2 (f.pointK rA rB) = (f.a.invMass + f.b.invMass) ^ 2 + (f.a.invMass + f.b.invMass) *
      (f.a.invI * (rA.x ^ 2 + rA.y ^ 2) + f.b.invI * (rB.x ^ 2 + rB.y ^ 2)) +
      f.a.invI * f.b.invI * (rA.x * rB.y - rA.y * rB.x) ^ 2 := by
    simp only [Props.det2, PairFrame.pointK]; ring
  rw [e]
  have : 0 ≤ f.a.invI * (rA.x ^ 2 + rA.y ^ 2) + f.b.invI * (rB.x ^ 2 + rB.y ^ 2) := by positivity
  positivity

theorem slideK_det {f : PairFrame F} (h : f.Good) (s1 s2 : F) : Props.det2 (f.slideK s1 s2) ≠ 0 := by
  obtain ⟨h1, h2, h3, h4, h5⟩ := h
  by_cases h0 : f.a.invI + f.b.invI = 0
  · have hA : f.a.invI = 0 := by linarith
    have hB : f.b.invI = 0 := by linarith
    have e : Props.det2 (f.slideK s1 s2) = f.a.invMass + f.b.invMass := by
      simp only [Props.det2, PairFrame.slideK, hA, hB]; simp
    rw [e]; exact h3.ne'
  · have e : Props.det2 (f.slideK s1 s2) = (f.a.invMass + f.b.invMass) * (f.a.invI + f.b.invI) +
        f.a.invI * f.b.invI * (s1 - s2) ^ 2 := by
      simp only [Props.det2, PairFrame.slideK, if_neg h0]; ring
    have h0' : 0 < f.a.invI + f.b.invI := lt_of_le_of_ne (by linarith) (Ne.symm h0)
    rw [e]; positivity

theorem weldK_det {f : PairFrame F} (h : f.Good) (hi : 0 < f.a.invI + f.b.invI) (rA rB : Vec2 F) :
    Props.det3 (f.weldK rA rB) ≠ 0 := by
  obtain ⟨h1, h2, h3, h4, h5⟩ := h
  have e : Props.det3 (f.weldK rA rB) = (f.a.invMass + f.b.invMass) ^ 2 * (f.a.invI + f.b.invI) +
      (f.a.invMass + f.b.invMass) * (f.a.invI * f.b.invI) * ((rA.x - rB.x) ^ 2 + (rA.y - rB.y) ^ 2) := by
    simp only [Props.det3, PairFrame.weldK]; ring
  rw [e]; positivity

theorem weldK_det22 {f : PairFrame F} (h : f.Good) (rA rB : Vec2 F) :
    (f.weldK rA rB).ex.x * (f.weldK rA rB).ey.y - (f.weldK rA rB).ey.x * (f.weldK rA rB).ex.y ≠ 0 := by
  have := pointK_det h rA rB
  simp only [Props.det2, PairFrame.pointK] at this
  simp only [PairFrame.weldK]
  intro h0; apply this; rw [← h0]; ring

/-! ## The speed of a constraint after an impulse -/

theorem relVel_kick (f : PairFrame F) (P rA rB : Vec2 F) (s : Two F) :
    relVel (f.kick P (cross rA P) (cross rB P) s).a (f.kick P (cross rA P) (cross rB P) s).b rA rB =
      relVel s.a s.b rA rB + (f.pointK rA rB).mulV P := by
  ext <;> simp only [relVel, PairFrame.kick, crossSV, cross, Mat22.mulV, PairFrame.pointK, Vec2.add_x, Vec2.add_y, Vec2.sub_x,
    Vec2.sub_y, Vec2.smul_x, Vec2.smul_y] <;> ring

theorem weld_kick (f : PairFrame F) (i : Vec3 F) (rA rB : Vec2 F) (s : Two F) :
    let P : Vec2 F := ⟨i.x, i.y⟩
    let t := f.kick P (cross rA P + i.z) (cross rB P + i.z) s
    relVel t.a t.b rA rB = ⟨(relVel s.a s.b rA rB).x + ((f.weldK rA rB).mulV i).x,
      (relVel s.a s.b rA rB).y + ((f.weldK rA rB).mulV i).y⟩ ∧
    t.b.w - t.a.w = s.b.w - s.a.w + ((f.weldK rA rB).mulV i).z := by
  refine ⟨?_, ?_⟩
  · ext <;> simp only [relVel, PairFrame.kick, crossSV, cross, Props.mulV3_x, Props.mulV3_y, PairFrame.weldK, Vec2.add_x,
      Vec2.add_y, Vec2.sub_x, Vec2.sub_y, Vec2.smul_x, Vec2.smul_y] <;> ring
  · simp only [PairFrame.kick, cross, Props.mulV3_z, PairFrame.weldK]; ring

theorem row_kick (f : PairFrame F) (x : F) (d : Vec2 F) (sA sB : F) (s : Two F) :
    let t := f.kick (x * d) (x * sA) (x * sB) s
    dot d (t.b.v - t.a.v) + sB * t.b.w - sA * t.a.w = dot d (s.b.v - s.a.v) + sB * s.b.w - sA * s.a.w +
      x * ((f.a.invMass + f.b.invMass) * dot d d + f.a.invI * sA * sA + f.b.invI * sB * sB) := by
  simp only [PairFrame.kick, dot, Vec2.add_x, Vec2.add_y, Vec2.sub_x, Vec2.sub_y, Vec2.smul_x, Vec2.smul_y]; ring

theorem slide_kick {f : PairFrame F} (h : f.Good) (df d : Vec2 F) (hd : dot d d = 1) (s1 s2 : F) (s : Two F) :
    let t := f.kick (df.x * d) (df.x * s1 + df.y) (df.x * s2 + df.y) s
    dot d (t.b.v - t.a.v) + s2 * t.b.w - s1 * t.a.w = dot d (s.b.v - s.a.v) + s2 * s.b.w - s1 * s.a.w +
      ((f.slideK s1 s2).mulV df).x ∧
    (0 < f.a.invI + f.b.invI → t.b.w - t.a.w = s.b.w - s.a.w + ((f.slideK s1 s2).mulV df).y) := by
  refine ⟨?_, fun h0 => ?_⟩
  · simp only [dot] at hd
    simp only [PairFrame.kick, dot, PairFrame.slideK, Mat22.mulV, Vec2.add_x, Vec2.add_y, Vec2.sub_x, Vec2.sub_y, Vec2.smul_x,
      Vec2.smul_y]
    linear_combination (df.x * (f.a.invMass + f.b.invMass)) * hd
  · simp only [PairFrame.kick, PairFrame.slideK, Mat22.mulV, if_neg h0.ne']; ring

end

section
variable {F : Type} [Field F] [LinearOrder F]

theorem onTwo_at {α : Type} {mk : α → Joint F} {vel vel' : Arr (Vel F)} {a b : Nat} {f : Two F → α × Two F} {j' : Joint F}
    (h : onTwo mk vel a b f = some (j', vel')) (hne : a ≠ b) :
    ∃ s : Two F, j' = mk (f s).1 ∧ vel'.at' a = (f s).2.a ∧ vel'.at' b = (f s).2.b := by
  obtain ⟨_, _, rfl, rfl⟩ := onTwo_some h
  refine ⟨⟨vel.at' a, vel.at' b⟩, rfl, ?_, ?_⟩
  · show upd _ _ _ a = _
    rw [upd_other _ _ hne, upd_same]
  · show upd _ _ _ b = _
    rw [upd_same]

theorem relVel_at (pos : Arr (Pos F)) (vel : Arr (Vel F)) (a b : Nat) (xA xB : Vec2 F) :
    relVel (vel.at' a) (vel.at' b) (xA - (pos.at' a).c) (xB - (pos.at' b).c) =
      velocityAt pos vel b xB - velocityAt pos vel a xA := by
  ext <;> simp only [relVel, crossSV, velocityAt, Vec2.add_x, Vec2.add_y, Vec2.sub_x, Vec2.sub_y] <;> ring

theorem row_at (pos : Arr (Pos F)) (vel : Arr (Vel F)) (a b : Nat) (d xA xB : Vec2 F) :
    dot d ((vel.at' b).v - (vel.at' a).v) + cross (xB - (pos.at' b).c) d * (vel.at' b).w -
      cross (xA - (pos.at' a).c) d * (vel.at' a).w = dot d (velocityAt pos vel b xB - velocityAt pos vel a xA) := by
  simp only [dot, cross, velocityAt, Vec2.sub_x, Vec2.sub_y]; ring

theorem sub_eq_zero_vec {u v : Vec2 F} (h : v - u = ⟨0, 0⟩) : u = v := by
  have h1 := congrArg Vec2.x h
  have h2 := congrArg Vec2.y h
  simp only [Vec2.sub_x, Vec2.sub_y] at h1 h2
  ext
  · linear_combination -h1
  · linear_combination -h2

theorem add_neg_vec (v : Vec2 F) : v + -v = ⟨0, 0⟩ := by ext <;> simp

/-! ## Each kind of joint on its two bodies -/

theorem Revolute.solveVel_last (st : JStep F) (j : Revolute F) (s : Two F) :
    ∃ (q : Revolute F) (t : Two F), (q.k = j.k ∧ q.rA = j.rA ∧ q.rB = j.rB ∧ q.frame = j.frame) ∧ j.solveVel st s = q.point t := by
  unfold Revolute.solveVel
  refine ⟨_, _, ⟨?_, ?_, ?_, ?_⟩, rfl⟩ <;> (split <;> split <;> rfl)

theorem Prismatic.solveVel_last (st : JStep F) (j : Prismatic F) (s : Two F) :
    ∃ (q : Prismatic F) (t : Two F), (q.k = j.k ∧ q.perp = j.perp ∧ q.s1 = j.s1 ∧ q.s2 = j.s2 ∧ q.frame = j.frame) ∧
      j.solveVel st s = q.block t := by
  unfold Prismatic.solveVel
  refine ⟨_, _, ⟨?_, ?_, ?_, ?_, ?_⟩, rfl⟩ <;> (split <;> split <;> rfl)

/-- Two wheel joints with the same line constraint. -/
def Wheel.Same (q j : Wheel F) : Prop :=
  q.mass = j.mass ∧ q.ay = j.ay ∧ q.sAy = j.sAy ∧ q.sBy = j.sBy ∧ q.frame = j.frame

theorem Wheel.Same.trans {p q r : Wheel F} (h : p.Same q) (h' : q.Same r) : p.Same r :=
  ⟨h.1.trans h'.1, h.2.1.trans h'.2.1, h.2.2.1.trans h'.2.2.1, h.2.2.2.1.trans h'.2.2.2.1, h.2.2.2.2.trans h'.2.2.2.2⟩

theorem Wheel.spring_same (j : Wheel F) (s : Two F) : (j.spring s).1.Same j := ⟨rfl, rfl, rfl, rfl, rfl⟩
theorem Wheel.motor_same (st : JStep F) (j : Wheel F) (s : Two F) : (j.motor st s).1.Same j := ⟨rfl, rfl, rfl, rfl, rfl⟩
theorem Wheel.lower_same (st : JStep F) (j : Wheel F) (s : Two F) : (j.lower st s).1.Same j := ⟨rfl, rfl, rfl, rfl, rfl⟩
theorem Wheel.upper_same (st : JStep F) (j : Wheel F) (s : Two F) : (j.upper st s).1.Same j := ⟨rfl, rfl, rfl, rfl, rfl⟩

theorem Wheel.solveVel_last (st : JStep F) (j : Wheel F) (s : Two F) :
    ∃ (q : Wheel F) (t : Two F), q.Same j ∧ j.solveVel st s = q.line t := by
  unfold Wheel.solveVel
  refine ⟨_, _, ?_, rfl⟩
  have h1 := j.spring_same s
  generalize j.spring s = r1 at h1 ⊢
  have h2 := (r1.1.motor_same st r1.2).trans h1
  simp only
  generalize r1.1.motor st r1.2 = r2 at h2 ⊢
  split
  · have h3 := (r2.1.lower_same st r2.2).trans h2
    generalize r2.1.lower st r2.2 = r3 at h3 ⊢
    exact (r3.1.upper_same st r3.2).trans h3
  · exact h2

theorem DistanceJ.solveVel_last (st : JStep F) (j : DistanceJ F) (s : Two F) (h : j.minLength < j.maxLength) :
    ∃ (q : DistanceJ F) (t : Two F), (q.mass = j.mass ∧ q.u = j.u ∧ q.rA = j.rA ∧ q.rB = j.rB ∧ q.frame = j.frame ∧
      q.maxLength = j.maxLength ∧ q.currentLength = j.currentLength) ∧ j.solveVel st s = q.upper st t := by
  unfold DistanceJ.solveVel
  rw [if_pos h]
  refine ⟨_, _, ⟨?_, ?_, ?_, ?_, ?_, ?_, ?_⟩, rfl⟩ <;> (split <;> rfl)

end

section
variable {F : Type} [Field F] [LinearOrder F] [IsStrictOrderedRing F]

theorem Revolute.settled {st : JStep F} {j : Revolute F} (hk : j.k = j.frame.pointK j.rA j.rB) (hf : j.frame.Good) (s : Two F) :
    relVel (j.solveVel st s).2.a (j.solveVel st s).2.b j.rA j.rB = ⟨0, 0⟩ := by
  obtain ⟨q, t, ⟨h1, h2, h3, h4⟩, e⟩ := j.solveVel_last st s
  rw [e, ← h2, ← h3]
  simp only [Revolute.point]
  rw [relVel_kick, h1, h4, hk, h2, h3, ((Props.c46_solve2 _ _).1 (pointK_det hf _ _)).1]
  exact add_neg_vec _

theorem Prismatic.settled {st : JStep F} {j : Prismatic F} (hk : j.k = j.frame.slideK j.s1 j.s2) (hf : j.frame.Good)
    (hd : dot j.perp j.perp = 1) (s : Two F) :
    dot j.perp ((j.solveVel st s).2.b.v - (j.solveVel st s).2.a.v) + j.s2 * (j.solveVel st s).2.b.w -
      j.s1 * (j.solveVel st s).2.a.w = 0 ∧
    (0 < j.frame.a.invI + j.frame.b.invI → (j.solveVel st s).2.b.w - (j.solveVel st s).2.a.w = 0) := by
  obtain ⟨q, t, ⟨h1, h2, h3, h4, h5⟩, e⟩ := j.solveVel_last st s
  rw [e]
  simp only [Prismatic.block, h1, h2, h3, h4, h5]
  obtain ⟨k1, k2⟩ := slide_kick hf (j.k.solve (-⟨dot j.perp (t.b.v - t.a.v) + j.s2 * t.b.w - j.s1 * t.a.w, t.b.w - t.a.w⟩))
    j.perp hd j.s1 j.s2 t
  have hs := ((Props.c46_solve2 _ (-⟨dot j.perp (t.b.v - t.a.v) + j.s2 * t.b.w - j.s1 * t.a.w, t.b.w - t.a.w⟩)).1
    (slideK_det hf j.s1 j.s2)).1
  rw [← hk] at hs k1 k2
  rw [hs] at k1 k2
  refine ⟨?_, fun h0 => ?_⟩
  · rw [k1]; simp
  · rw [k2 h0]; simp

theorem row_zero {c K : F} (h : 0 < K) : c + (-(invIfPos K) * c) * K = 0 := by
  unfold invIfPos
  rw [if_pos h]
  field_simp
  ring

theorem Wheel.settled {st : JStep F} {j : Wheel F} (hm : j.mass = invIfPos (j.frame.a.invMass + j.frame.b.invMass +
      j.frame.a.invI * j.sAy * j.sAy + j.frame.b.invI * j.sBy * j.sBy)) (hf : j.frame.Good)
    (hd : dot j.ay j.ay = 1) (s : Two F) :
    dot j.ay ((j.solveVel st s).2.b.v - (j.solveVel st s).2.a.v) + j.sBy * (j.solveVel st s).2.b.w -
      j.sAy * (j.solveVel st s).2.a.w = 0 := by
  obtain ⟨q, t, ⟨h1, h2, h3, h4, h5⟩, e⟩ := j.solveVel_last st s
  rw [e]
  simp only [Wheel.line, h1, h2, h3, h4, h5]
  rw [row_kick, hd, mul_one, hm]
  obtain ⟨g1, g2, g3, g4, g5⟩ := hf
  exact row_zero (by
    have : 0 ≤ j.frame.a.invI * j.sAy * j.sAy := by rw [mul_assoc]; exact mul_nonneg g4 (mul_self_nonneg _)
    have : 0 ≤ j.frame.b.invI * j.sBy * j.sBy := by rw [mul_assoc]; exact mul_nonneg g5 (mul_self_nonneg _)
    linarith)

theorem Weld.settled {j : Weld F} (hf : j.frame.Good)
    (hm : if j.stiffness > 0 then ∀ v, j.mass.mul22 v = (j.frame.weldK j.rA j.rB).inverse22.mul22 v
      else j.mass = if (j.frame.weldK j.rA j.rB).ez.z = 0 then (j.frame.weldK j.rA j.rB).inverse22
        else (j.frame.weldK j.rA j.rB).symInverse33) (s : Two F) :
    relVel (j.solveVel s).2.a (j.solveVel s).2.b j.rA j.rB = ⟨0, 0⟩ ∧
    (j.stiffness ≤ 0 → 0 < j.frame.a.invI + j.frame.b.invI → (j.solveVel s).2.b.w - (j.solveVel s).2.a.w = 0) := by
  have h22 := fun b => (Props.c46_solve22 (j.frame.weldK j.rA j.rB) b).1 (weldK_det22 hf _ _)
  have e22 : ∀ v, (j.frame.weldK j.rA j.rB).mul22 v = (j.frame.pointK j.rA j.rB).mulV v := by
    intro v
    ext <;> simp only [Mat33.mul22, Mat22.mulV, PairFrame.weldK, PairFrame.pointK] <;> ring
  by_cases hs : j.stiffness > 0
  · rw [if_pos hs] at hm
    refine ⟨?_, fun h => absurd h (not_le.mpr hs)⟩
    unfold Weld.solveVel
    rw [if_pos hs]
    simp only [Weld.soft]
    rw [relVel_kick, hm, ← e22]
    have := (h22 (relVel (j.frame.twist (-j.mass.ez.z * (s.b.w - s.a.w + j.bias + j.gamma * j.impulse.z)) s).a
      (j.frame.twist (-j.mass.ez.z * (s.b.w - s.a.w + j.bias + j.gamma * j.impulse.z)) s).b j.rA j.rB)).2.1
    have e : ∀ (m : Mat33 F) (v : Vec2 F), m.mul22 (-v) = -(m.mul22 v) := by
      intro m v; ext <;> simp only [Mat33.mul22, Vec2.neg_x, Vec2.neg_y] <;> ring
    rw [e, this]
    exact add_neg_vec _
  · rw [if_neg hs] at hm
    unfold Weld.solveVel
    rw [if_neg hs]
    simp only [Weld.rigid]
    obtain ⟨k1, k2⟩ := weld_kick j.frame ⟨-(j.mass.mulV ⟨(relVel s.a s.b j.rA j.rB).x, (relVel s.a s.b j.rA j.rB).y,
      s.b.w - s.a.w⟩).x, -(j.mass.mulV ⟨(relVel s.a s.b j.rA j.rB).x, (relVel s.a s.b j.rA j.rB).y, s.b.w - s.a.w⟩).y,
      -(j.mass.mulV ⟨(relVel s.a s.b j.rA j.rB).x, (relVel s.a s.b j.rA j.rB).y, s.b.w - s.a.w⟩).z⟩ j.rA j.rB s
    generalize relVel s.a s.b j.rA j.rB = c at *
    rw [k1, k2]
    have hneg : ∀ (m : Mat33 F) (v : Vec3 F), m.mulV ⟨-v.x, -v.y, -v.z⟩ = ⟨-(m.mulV v).x, -(m.mulV v).y, -(m.mulV v).z⟩ := by
      intro m v; ext <;> simp only [Props.mulV3_x, Props.mulV3_y, Props.mulV3_z] <;> ring
    rw [hneg]
    by_cases h0 : (j.frame.weldK j.rA j.rB).ez.z = 0
    · rw [if_pos h0] at hm
      have hi : j.frame.a.invI + j.frame.b.invI = 0 := h0
      have hA : j.frame.a.invI = 0 := by have := hf.inertiaA; have := hf.inertiaB; linarith
      have hB : j.frame.b.invI = 0 := by linarith
      refine ⟨?_, fun _ h => absurd hi h.ne'⟩
      have h2 := (h22 c).2.1
      rw [← hm] at h2
      have ex := congrArg Vec2.x h2
      have ey := congrArg Vec2.y h2
      simp only [Mat33.mul22] at ex ey
      have hz : j.mass.ez.x = 0 ∧ j.mass.ez.y = 0 := by
        rw [hm]; simp [Mat33.inverse22]
      have hkz : (j.frame.weldK j.rA j.rB).ez.x = 0 ∧ (j.frame.weldK j.rA j.rB).ez.y = 0 := by
        simp [PairFrame.weldK, hA, hB]
      ext
      · simp only [Props.mulV3_x, Props.mulV3_y, Props.mulV3_z, hz.1, hz.2, hkz.1, hkz.2]
        linear_combination -ex
      · simp only [Props.mulV3_x, Props.mulV3_y, Props.mulV3_z, hz.1, hz.2, hkz.1, hkz.2]
        linear_combination -ey
    · rw [if_neg h0] at hm
      have hi : 0 < j.frame.a.invI + j.frame.b.invI := by
        have := hf.inertiaA; have := hf.inertiaB
        exact lt_of_le_of_ne (by linarith) (Ne.symm h0)
      have := ((Props.c46_sym_inverse33 (j.frame.weldK j.rA j.rB) rfl rfl rfl ⟨c.x, c.y, s.b.w - s.a.w⟩).1
        (weldK_det hf hi _ _)).1
      rw [hm, this]
      refine ⟨by simp, fun _ _ => by simp⟩

theorem distance_push (j : DistanceJ F) (x : F) (s : Two F) :
    j.speed (j.push x s) = j.speed s + x * ((j.frame.a.invMass + j.frame.b.invMass) * dot j.u j.u +
      j.frame.a.invI * cross j.rA j.u * cross j.rA j.u + j.frame.b.invI * cross j.rB j.u * cross j.rB j.u) := by
  simp only [DistanceJ.speed, DistanceJ.push, PairFrame.kick, dot, cross, crossSV, Vec2.add_x, Vec2.add_y, Vec2.sub_x,
    Vec2.sub_y, Vec2.smul_x, Vec2.smul_y]
  ring

/-- The upper limit: with `m` the inverse of `K`, the speed after is at most the bias, and equal to it if the impulse is
not zero. -/
theorem upper_row {m K v b o n : F} (hK : 0 < K) (hm : m * K = 1) (hn : n = b2max 0 (o + -m * (-v + b))) :
    v + -(n - o) * K ≤ b ∧ (n = 0 ∨ v + -(n - o) * K = b) := by
  unfold b2max at hn
  split at hn
  · rename_i h
    subst hn
    refine ⟨?_, Or.inl rfl⟩
    have h1 := mul_neg_of_neg_of_pos h hK
    have h2 : (o + -m * (-v + b)) * K = o * K + v - b := by linear_combination (v - b) * hm
    have h3 : v + -(0 - o) * K = v + o * K := by ring
    rw [h3]; linarith
  · subst hn
    have e : v + -(o + -m * (-v + b) - o) * K = b := by linear_combination (-v + b) * hm
    exact ⟨e.le, Or.inr e⟩

theorem DistanceJ.settled {st : JStep F} {j : DistanceJ F} (hf : j.frame.Good) (hu : dot j.u j.u = 1)
    (hm : let m := j.frame.a.invMass + j.frame.a.invI * cross j.rA j.u * cross j.rA j.u + j.frame.b.invMass +
        j.frame.b.invI * cross j.rB j.u * cross j.rB j.u
      j.mass = if m ≠ 0 then 1 / m else 0) (s : Two F) :
    if j.minLength < j.maxLength then
      j.speed (j.solveVel st s).2 ≤ b2max 0 (j.maxLength - j.currentLength) * st.invDt ∧
        ((j.solveVel st s).1.upperImpulse = 0 ∨
          j.speed (j.solveVel st s).2 = b2max 0 (j.maxLength - j.currentLength) * st.invDt)
    else j.speed (j.solveVel st s).2 = 0 := by
  have hK : 0 < j.frame.a.invMass + j.frame.b.invMass + j.frame.a.invI * cross j.rA j.u * cross j.rA j.u +
      j.frame.b.invI * cross j.rB j.u * cross j.rB j.u := by
    have h1 := hf.mass
    have : 0 ≤ j.frame.a.invI * cross j.rA j.u * cross j.rA j.u := by
      rw [mul_assoc]; exact mul_nonneg hf.inertiaA (mul_self_nonneg _)
    have : 0 ≤ j.frame.b.invI * cross j.rB j.u * cross j.rB j.u := by
      rw [mul_assoc]; exact mul_nonneg hf.inertiaB (mul_self_nonneg _)
    linarith
  have hmK : j.mass * (j.frame.a.invMass + j.frame.b.invMass + j.frame.a.invI * cross j.rA j.u * cross j.rA j.u +
      j.frame.b.invI * cross j.rB j.u * cross j.rB j.u) = 1 := by
    have e : j.frame.a.invMass + j.frame.a.invI * cross j.rA j.u * cross j.rA j.u + j.frame.b.invMass +
        j.frame.b.invI * cross j.rB j.u * cross j.rB j.u = j.frame.a.invMass + j.frame.b.invMass +
        j.frame.a.invI * cross j.rA j.u * cross j.rA j.u + j.frame.b.invI * cross j.rB j.u * cross j.rB j.u := by ring
    simp only [e] at hm
    rw [hm, if_pos hK.ne', one_div_mul_cancel hK.ne']
  have hp := fun x t => distance_push j x t
  simp only [hu, mul_one] at hp
  generalize j.frame.a.invMass + j.frame.b.invMass + j.frame.a.invI * cross j.rA j.u * cross j.rA j.u +
      j.frame.b.invI * cross j.rB j.u * cross j.rB j.u = K at hK hmK hp
  by_cases h : j.minLength < j.maxLength
  · rw [if_pos h]
    obtain ⟨q, t, ⟨h1, h2, h3, h4, h5, h6, h7⟩, e⟩ := j.solveVel_last st s h
    rw [e]
    simp only [DistanceJ.upper]
    have ep : ∀ x, q.push x t = j.push x t := by intro x; simp only [DistanceJ.push, h2, h3, h4, h5]
    have es : dot q.u ((t.a.v + crossSV t.a.w q.rA) - (t.b.v + crossSV t.b.w q.rB)) = -(j.speed t) := by
      simp only [DistanceJ.speed, h2, h3, h4, dot, crossSV, Vec2.add_x, Vec2.add_y, Vec2.sub_x, Vec2.sub_y]; ring
    rw [ep, hp, es, h1, h6, h7]
    exact upper_row hK hmK rfl
  · rw [if_neg h]
    unfold DistanceJ.solveVel
    rw [if_neg h]
    simp only [DistanceJ.rigid]
    rw [hp]
    linear_combination (-(j.speed s)) * hmK

theorem clampImpulse_full [Elem F] [ElemLaws F] {v : Vec2 F} {m : F} (h : epsilon ≤ m) :
    clampImpulse v m = v ∨ (clampImpulse v m).lengthSquared = m ^ 2 := by
  unfold clampImpulse
  split
  · rename_i hv
    right
    have he : (0 : F) < epsilon := by unfold epsilon; positivity
    have hl : v.length * v.length = dot v v := ElemLaws.mul_self_sqrt _ (by
      have := mul_self_nonneg v.x; have := mul_self_nonneg v.y; linarith)
    have h0 : 0 ≤ v.length := ElemLaws.sqrt_nonneg _
    have hn : ¬ v.length < epsilon := by
      intro hlt
      have : v.lengthSquared = v.length * v.length := by rw [hl]; rfl
      nlinarith
    have e := (normalize_spec hn).1
    simp only [dot] at e
    simp only [Vec2.lengthSquared, Vec2.smul_x, Vec2.smul_y]
    linear_combination m ^ 2 * e
  · exact Or.inl rfl

/-- The linear part of a friction or motor joint. -/
theorem slip_row [Elem F] [ElemLaws F] {f : PairFrame F} (hf : f.Good) {rA rB o e : Vec2 F} {m : F} (hm : epsilon ≤ m) (s : Two F) :
    let new := clampImpulse (o + -((f.pointK rA rB).inverse.mulV (relVel s.a s.b rA rB + e))) m
    let t := f.kick (new - o) (cross rA (new - o)) (cross rB (new - o)) s
    relVel t.a t.b rA rB = -e ∨ new.lengthSquared = m ^ 2 := by
  simp only
  rcases clampImpulse_full (v := o + -((f.pointK rA rB).inverse.mulV (relVel s.a s.b rA rB + e))) hm with h | h
  · left
    rw [h, relVel_kick]
    have hc := ((Props.c46_solve2 (f.pointK rA rB) (⟨0, 0⟩ : Vec2 F)).1 (pointK_det hf rA rB)).2.1
    generalize relVel s.a s.b rA rB = c
    generalize (f.pointK rA rB).inverse = W at hc
    generalize f.pointK rA rB = K at hc
    simp only [Mat22.mul, Mat22.mulV, Mat22.mk.injEq, Vec2.mk.injEq] at hc
    obtain ⟨⟨k1, k2⟩, k3, k4⟩ := hc
    ext
    · simp only [Mat22.mulV, Vec2.add_x, Vec2.add_y, Vec2.sub_x, Vec2.sub_y, Vec2.neg_x, Vec2.neg_y]
      linear_combination -(c.x + e.x) * k1 - (c.y + e.y) * k3
    · simp only [Mat22.mulV, Vec2.add_x, Vec2.add_y, Vec2.sub_x, Vec2.sub_y, Vec2.neg_x, Vec2.neg_y]
      linear_combination -(c.x + e.x) * k2 - (c.y + e.y) * k4
  · exact Or.inr h

theorem FrictionJ.settled [Elem F] [ElemLaws F] {st : JStep F} {j : FrictionJ F} (hf : j.frame.Good)
    (hm : j.linearMass = (j.frame.pointK j.rA j.rB).inverse) (he : epsilon ≤ st.dt * j.maxForce) (s : Two F) :
    relVel (j.solveVel st s).2.a (j.solveVel st s).2.b j.rA j.rB = ⟨0, 0⟩ ∨
      (j.solveVel st s).1.linearImpulse.lengthSquared = (st.dt * j.maxForce) ^ 2 := by
  have h := slip_row (rA := j.rA) (rB := j.rB) (o := j.linearImpulse) (e := ⟨0, 0⟩) hf he (j.turn st s).2
  have e0 : ∀ v : Vec2 F, v + ⟨0, 0⟩ = v := by intro v; ext <;> simp
  have e1 : -(⟨0, 0⟩ : Vec2 F) = ⟨0, 0⟩ := by ext <;> simp
  rw [e0, e1, ← hm] at h
  exact h

theorem MotorJ.settled [Elem F] [ElemLaws F] {st : JStep F} {j : MotorJ F} (hf : j.frame.Good)
    (hm : j.linearMass = (j.frame.pointK j.rA j.rB).inverse) (he : epsilon ≤ st.dt * j.maxForce) (s : Two F) :
    relVel (j.solveVel st s).2.a (j.solveVel st s).2.b j.rA j.rB = -((st.invDt * j.correctionFactor) * j.linearError) ∨
      (j.solveVel st s).1.linearImpulse.lengthSquared = (st.dt * j.maxForce) ^ 2 := by
  have h := slip_row (rA := j.rA) (rB := j.rB) (o := j.linearImpulse) (e := (st.invDt * j.correctionFactor) * j.linearError)
    hf he (j.turn st s).2
  rw [← hm] at h
  exact h

theorem Pulley.settled {j : Pulley F} (hf : j.frame.Good) (hr : j.ratio ≠ 0)
    (hm : j.mass = invIfPos (j.frame.pulleyMass j.ratio j.rA j.rB j.uA j.uB)) (hA : dot j.uA j.uA = 1) (hB : dot j.uB j.uB = 1)
    (s : Two F) :
    dot j.uA ((j.solveVel s).2.a.v + crossSV (j.solveVel s).2.a.w j.rA) +
      j.ratio * dot j.uB ((j.solveVel s).2.b.v + crossSV (j.solveVel s).2.b.w j.rB) = 0 := by
  have hK : 0 < j.frame.pulleyMass j.ratio j.rA j.rB j.uA j.uB := by
    obtain ⟨h1, h2, h3, h4, h5⟩ := hf
    unfold PairFrame.pulleyMass
    have hr2 : 0 < j.ratio * j.ratio := mul_self_pos.mpr hr
    have k1 : 0 ≤ j.frame.a.invI * cross j.rA j.uA * cross j.rA j.uA := by
      rw [mul_assoc]; exact mul_nonneg h4 (mul_self_nonneg _)
    have k2 : 0 ≤ j.frame.b.invI * cross j.rB j.uB * cross j.rB j.uB := by
      rw [mul_assoc]; exact mul_nonneg h5 (mul_self_nonneg _)
    rcases h1.lt_or_eq with h | h
    · have := mul_nonneg hr2.le (add_nonneg h2 k2)
      linarith
    · have := mul_pos hr2 (by linarith : 0 < j.frame.b.invMass + j.frame.b.invI * cross j.rB j.uB * cross j.rB j.uB)
      linarith
  have hz := row_zero (c := -(dot j.uA (s.a.v + crossSV s.a.w j.rA)) - j.ratio * dot j.uB (s.b.v + crossSV s.b.w j.rB)) hK
  rw [← hm] at hz
  have e : ∀ x, dot j.uA ((j.push x s).a.v + crossSV (j.push x s).a.w j.rA) +
      j.ratio * dot j.uB ((j.push x s).b.v + crossSV (j.push x s).b.w j.rB) =
      dot j.uA (s.a.v + crossSV s.a.w j.rA) + j.ratio * dot j.uB (s.b.v + crossSV s.b.w j.rB) -
        x * j.frame.pulleyMass j.ratio j.rA j.rB j.uA j.uB := by
    intro x
    simp only [dot] at hA hB
    simp only [Pulley.push, PairFrame.pulleyMass, dot, cross, crossSV, Vec2.add_x, Vec2.add_y, Vec2.smul_x, Vec2.smul_y]
    linear_combination (-x * j.frame.a.invMass) * hA + (-x * j.ratio * j.ratio * j.frame.b.invMass) * hB
  simp only [Pulley.solveVel]
  rw [e]
  linear_combination -hz

/-! ## On the arrays -/

theorem axis_unit [Elem F] [ElemLaws F] (a : F) {d : Vec2 F} (h : d.lengthSquared = 1) :
    dot ((Rot.ofAngle a).mulV d) ((Rot.ofAngle a).mulV d) = 1 :=
  rot_unit (ElemLaws.sin_cos a) h

theorem div_unit [Elem F] [ElemLaws F] {d : Vec2 F} {c : F} (hc : 0 ≤ c) (h : c < d.length) :
    dot ((1 / d.length) * d) ((1 / d.length) * d) = 1 := by
  have hl : d.length * d.length = dot d d := ElemLaws.mul_self_sqrt _ (by
    have := mul_self_nonneg d.x; have := mul_self_nonneg d.y; linarith)
  have h0 : 0 < d.length := lt_of_le_of_lt hc h
  have e : dot ((1 / d.length) * d) ((1 / d.length) * d) = dot d d * (1 / d.length * (1 / d.length)) := by
    simp only [dot, Vec2.smul_x, Vec2.smul_y]; ring
  rw [e, ← hl]; field_simp

theorem dot_div {d v : Vec2 F} {l : F} : dot ((1 / l) * d) v = dot d v / l := by
  simp only [dot, Vec2.smul_x, Vec2.smul_y]; ring

theorem force_full {dt invDt m : F} {x : Vec2 F} (h1 : dt * invDt = 1) (h : x.lengthSquared = (dt * m) ^ 2) :
    (invDt * x).lengthSquared = m ^ 2 := by
  have e : (invDt * x).lengthSquared = invDt ^ 2 * x.lengthSquared := by
    simp only [Vec2.lengthSquared, Vec2.smul_x, Vec2.smul_y]; ring
  rw [e, h]; linear_combination (m ^ 2 * (dt * invDt + 1)) * h1

theorem Joint.Ok.good {n : Nat} {bodies : Nat → JBody F} {j : Joint F} (h : j.Ok n bodies) :
    (⟨bodies j.bodyA, bodies j.bodyB⟩ : PairFrame F).Good := ⟨h.massA, h.massB, h.mass, h.inertiaA, h.inertiaB⟩

theorem Joint.solveVel_settled [Elem F] [ElemLaws F] {n : Nat} {st : JStep F} {bodies : Nat → JBody F} {pos : Arr (Pos F)}
    {j j' : Joint F} {vel vel' : Arr (Vel F)} (hok : j.Ok n bodies) (hsv : j.Solvable st) (hdt : st.dt * st.invDt = 1)
    (ha : j.Armed bodies pos) (ht : j.Tuned bodies pos) (h : j.solveVel st vel = some (j', vel')) :
    j'.Settled st bodies pos vel' := by
  cases j with
  | revolute j =>
    obtain ⟨hf, hA, hB⟩ := ha
    have hg := hok.good
    rw [← hf] at hg
    obtain ⟨s, rfl, vA, vB⟩ := onTwo_at h (by rw [hf]; exact hok.ne)
    have hq : (Joint.revolute (j.solveVel st s).1).strip = (Joint.revolute j).strip := congrArg Joint.revolute (j.solveVel_does st s).2
    obtain ⟨_, q1, q2, q3, q4, _⟩ := Joint.same_of_strip hq bodies pos
    have hs := Revolute.settled (st := st) ht hg s
    rw [← vA, ← vB, hA, hB, hf, relVel_at] at hs
    simp only [Joint.Settled]
    rw [q1, q2, q3, q4]
    exact sub_eq_zero_vec hs
  | prismatic j =>
    obtain ⟨hf, ⟨hA, _⟩, hB, _⟩ := ha
    have hg := hok.good
    rw [← hf] at hg
    obtain ⟨s, rfl, vA, vB⟩ := onTwo_at h (by rw [hf]; exact hok.ne)
    have hq : (Joint.prismatic (j.solveVel st s).1).strip = (Joint.prismatic j).strip :=
      congrArg Joint.prismatic (j.solveVel_does st s).2
    have hy : (j.solveVel st s).1.localYAxisA = j.localYAxisA := by
      have e := congrArg Prismatic.localYAxisA (j.solveVel_does st s).2; exact e
    obtain ⟨_, q1, q2, q3, q4, _⟩ := Joint.same_of_strip hq bodies pos
    obtain ⟨hs, hw⟩ := Prismatic.settled (st := st) ht.2 hg (by rw [ht.1]; exact axis_unit _ hsv) s
    rw [← vA, ← vB, hA, hB, ht.1, hf, row_at] at hs
    rw [← vA, ← vB, hf] at hw
    simp only [Joint.Settled]
    rw [q1, q2, q4, hy]
    exact ⟨hs, fun h0 => (sub_eq_zero.1 (hw h0)).symm⟩
  | distance j =>
    obtain ⟨hf, ⟨hA, _⟩, hB⟩ := ha
    obtain ⟨tl, tu, tm⟩ := ht
    have hg := hok.good
    rw [← hf] at hg
    obtain ⟨s, rfl, vA, vB⟩ := onTwo_at h (by rw [hf]; exact hok.ne)
    have hq : (Joint.distance (j.solveVel st s).1).strip = (Joint.distance j).strip :=
      congrArg Joint.distance (j.solveVel_does st s).2
    have h1 : (j.solveVel st s).1.minLength = j.minLength := by
      have e := congrArg DistanceJ.minLength (j.solveVel_does st s).2; exact e
    have h2 : (j.solveVel st s).1.maxLength = j.maxLength := by
      have e := congrArg DistanceJ.maxLength (j.solveVel_does st s).2; exact e
    obtain ⟨_, q1, q2, q3, q4, _⟩ := Joint.same_of_strip hq bodies pos
    simp only [Joint.Settled]
    rw [q1, q2, q3, q4, h1, h2]
    intro hl
    have hu := tu hl
    have h0 : 0 < ((Joint.distance j).anchorB bodies pos - (Joint.distance j).anchorA bodies pos).length :=
      lt_of_le_of_lt (by unfold linearSlop; positivity) hl
    have hs := DistanceJ.settled (st := st) hg (by rw [hu]; exact div_unit (by unfold linearSlop; positivity) hl) tm s
    have e : j.speed (j.solveVel st s).2 = dot ((Joint.distance j).anchorB bodies pos - (Joint.distance j).anchorA bodies pos)
        (velocityAt pos vel' (bodies (Joint.distance j).bodyB).index ((Joint.distance j).anchorB bodies pos) -
          velocityAt pos vel' (bodies (Joint.distance j).bodyA).index ((Joint.distance j).anchorA bodies pos)) /
        ((Joint.distance j).anchorB bodies pos - (Joint.distance j).anchorA bodies pos).length := by
      rw [← dot_div, ← hu, ← relVel_at]
      simp only [DistanceJ.speed, ← vA, ← vB, hA, hB, hf, relVel]
      congr 1
      ext <;> simp only [Vec2.add_x, Vec2.add_y, Vec2.sub_x, Vec2.sub_y] <;> ring
    rw [e, tl] at hs
    have hmax : b2max 0 (j.maxLength - ((Joint.distance j).anchorB bodies pos - (Joint.distance j).anchorA bodies pos).length) =
        max 0 (j.maxLength - ((Joint.distance j).anchorB bodies pos - (Joint.distance j).anchorA bodies pos).length) := by
      unfold b2max
      split
      · rename_i h; rw [max_eq_left h.le]
      · rename_i h; rw [max_eq_right (not_lt.mp h)]
    rw [hmax] at hs
    by_cases hmm : j.minLength < j.maxLength
    · rw [if_pos hmm] at hs ⊢
      refine ⟨?_, hs.2.imp_right fun h => ?_⟩
      · have := (div_le_iff₀ h0).1 hs.1
        rw [mul_comm] at this; exact this
      · rw [div_eq_iff h0.ne'] at h
        rw [h, mul_comm]
    · rw [if_neg hmm] at hs ⊢
      rw [div_eq_iff h0.ne', zero_mul] at hs
      exact hs
  | weld j =>
    obtain ⟨hf, hA, hB⟩ := ha
    have hg := hok.good
    rw [← hf] at hg
    obtain ⟨s, rfl, vA, vB⟩ := onTwo_at h (by rw [hf]; exact hok.ne)
    have hq : (Joint.weld (j.solveVel s).1).strip = (Joint.weld j).strip := congrArg Joint.weld (j.solveVel_does s).2
    have hk : (j.solveVel s).1.stiffness = j.stiffness := by
      have e := congrArg Weld.stiffness (j.solveVel_does s).2; exact e
    obtain ⟨_, q1, q2, q3, q4, _⟩ := Joint.same_of_strip hq bodies pos
    obtain ⟨hs, hw⟩ := Weld.settled hg ht s
    rw [← vA, ← vB, hA, hB, hf, relVel_at] at hs
    rw [← vA, ← vB, hf] at hw
    simp only [Joint.Settled]
    rw [q1, q2, q3, q4, hk]
    exact ⟨sub_eq_zero_vec hs, fun h1 h0 => (sub_eq_zero.1 (hw h1 h0)).symm⟩
  | wheel j =>
    obtain ⟨hf, ⟨hA, _⟩, hB, _⟩ := ha
    have hg := hok.good
    rw [← hf] at hg
    obtain ⟨s, rfl, vA, vB⟩ := onTwo_at h (by rw [hf]; exact hok.ne)
    have hq : (Joint.wheel (j.solveVel st s).1).strip = (Joint.wheel j).strip := congrArg Joint.wheel (j.solveVel_does st s).2
    have hy : (j.solveVel st s).1.localYAxisA = j.localYAxisA := by
      have e := congrArg Wheel.localYAxisA (j.solveVel_does st s).2; exact e
    obtain ⟨_, q1, q2, q3, q4, _⟩ := Joint.same_of_strip hq bodies pos
    have hs := Wheel.settled (st := st) ht.2 hg (by rw [ht.1]; exact axis_unit _ hsv) s
    rw [← vA, ← vB, hA, hB, ht.1, hf, row_at] at hs
    simp only [Joint.Settled]
    rw [q1, q2, q4, hy]
    exact hs
  | friction j =>
    obtain ⟨hf, hA, hB⟩ := ha
    have hg := hok.good
    rw [← hf] at hg
    obtain ⟨s, rfl, vA, vB⟩ := onTwo_at h (by rw [hf]; exact hok.ne)
    have hq : (Joint.friction (j.solveVel st s).1).strip = (Joint.friction j).strip :=
      congrArg Joint.friction (j.solveVel_does st s).2
    have hk : (j.solveVel st s).1.maxForce = j.maxForce := by
      have e := congrArg FrictionJ.maxForce (j.solveVel_does st s).2; exact e
    obtain ⟨_, q1, q2, q3, q4, _⟩ := Joint.same_of_strip hq bodies pos
    have hs := FrictionJ.settled hg ht hsv s
    rw [← vA, ← vB, hA, hB, hf, relVel_at] at hs
    simp only [Joint.Settled]
    rw [q1, q2, q3, q4, hk]
    exact hs.imp sub_eq_zero_vec (force_full hdt)
  | motor j =>
    obtain ⟨hf, hA, hB⟩ := ha
    have hg := hok.good
    rw [← hf] at hg
    obtain ⟨s, rfl, vA, vB⟩ := onTwo_at h (by rw [hf]; exact hok.ne)
    have hq : (Joint.motor (j.solveVel st s).1).strip = (Joint.motor j).strip := congrArg Joint.motor (j.solveVel_does st s).2
    have hk : (j.solveVel st s).1.maxForce = j.maxForce := by
      have e := congrArg MotorJ.maxForce (j.solveVel_does st s).2; exact e
    have hc : (j.solveVel st s).1.correctionFactor = j.correctionFactor := by
      have e := congrArg MotorJ.correctionFactor (j.solveVel_does st s).2; exact e
    obtain ⟨_, q1, q2, q3, q4, _⟩ := Joint.same_of_strip hq bodies pos
    have hs := MotorJ.settled hg ht.1 hsv s
    rw [← vA, ← vB, hA, hB, hf, relVel_at, ht.2] at hs
    simp only [Joint.Settled]
    rw [q1, q2, q3, q4, hk, hc]
    refine hs.imp (fun h => ?_) (force_full hdt)
    rw [h]
    ext <;> simp only [Vec2.neg_x, Vec2.neg_y, Vec2.smul_x, Vec2.smul_y] <;> ring
  | pulley j =>
    obtain ⟨hf, hA, hB⟩ := ha
    have hg := hok.good
    rw [← hf] at hg
    obtain ⟨s, rfl, vA, vB⟩ := onTwo_at h (by rw [hf]; exact hok.ne)
    obtain ⟨tA, tB, tm⟩ := ht
    have e0 : (0 : F) ≤ 10 * linearSlop := by unfold linearSlop; positivity
    simp only [Joint.Settled]
    intro l1 l2
    replace l1 : 10 * linearSlop < ((Joint.pulley j).anchorA bodies pos - j.groundAnchorA).length := l1
    replace l2 : 10 * linearSlop < ((Joint.pulley j).anchorB bodies pos - j.groundAnchorB).length := l2
    have uA : j.uA = (1 / ((Joint.pulley j).anchorA bodies pos - j.groundAnchorA).length) *
      ((Joint.pulley j).anchorA bodies pos - j.groundAnchorA) := by rw [tA]; exact if_pos l1
    have uB : j.uB = (1 / ((Joint.pulley j).anchorB bodies pos - j.groundAnchorB).length) *
      ((Joint.pulley j).anchorB bodies pos - j.groundAnchorB) := by rw [tB]; exact if_pos l2
    have hs := Pulley.settled hg hsv tm (by rw [uA]; exact div_unit e0 l1) (by rw [uB]; exact div_unit e0 l2) s
    rw [← vA, ← vB, hA, hB, uA, uB, dot_div, dot_div] at hs
    have e1 : ∀ (i : Nat) (x : Vec2 F), (vel'.at' i).v + crossSV (vel'.at' i).w (x - (pos.at' i).c) = velocityAt pos vel' i x := by
      intro i x
      ext <;> simp only [velocityAt, crossSV, Vec2.add_x, Vec2.add_y, Vec2.sub_x, Vec2.sub_y] <;> ring
    rw [hf] at hs
    simp only [Joint.bodyA, Joint.bodyB] at hs
    rw [e1, e1] at hs
    exact hs
  | mouse j =>
    obtain ⟨_, rfl, _⟩ := mouse_solveVel_some h
    trivial
  | gear j =>
    obtain ⟨_, _, rfl, _⟩ := gear_solveVel_some h
    trivial

theorem Joint.solvable_strip [Elem F] {st : JStep F} {j : Joint F} : j.strip.Solvable st ↔ j.Solvable st := by
  cases j <;> exact Iff.rfl

theorem Joint.solvable_prepared [Elem F] {st : JStep F} {bodies : Nat → JBody F} {pos : Arr (Pos F)} {j : Joint F} :
    (j.prepared st bodies pos).Solvable st ↔ j.Solvable st := by
  cases j <;> exact Iff.rfl

theorem Joint.solves_settled [Elem F] [ElemLaws F] {n : Nat} {st : JStep F} {bodies : Nat → JBody F} {pos : Arr (Pos F)}
    (hdt : st.dt * st.invDt = 1) : ∀ {vs : List (Arr (Vel F))} {j j' : Joint F} {log : List (Arr (Vel F) × Arr (Vel F))},
    j.Ok n bodies → j.Solvable st → j.Armed bodies pos → j.Tuned bodies pos → j.solves st vs = some (j', log) →
    ∀ e, log.getLast? = some e → j'.Settled st bodies pos e.2
  | [], j, j', log, _, _, _, _, h => by
    obtain ⟨rfl, rfl⟩ := Joint.solves_nil h
    intro e he; cases he
  | v :: vs, j, j', log, hok, hsv, ha, ht, h => by
    obtain ⟨j1, v1, log1, h1, h2, rfl⟩ := Joint.solves_cons h
    obtain ⟨_, hs⟩ := Joint.solveVel_pushed ha h1
    cases vs with
    | nil =>
      obtain ⟨rfl, rfl⟩ := Joint.solves_nil h2
      intro e he
      simp only [List.getLast?_singleton, Option.some.injEq] at he
      subst he
      exact Joint.solveVel_settled hok hsv hdt ha ht h1
    | cons w ws =>
      obtain ⟨j2, v2, log2, h3, h4, rfl⟩ := Joint.solves_cons h2
      obtain ⟨_, q1, q2, q3, q4, _, q6⟩ := Joint.same_of_strip hs bodies pos
      intro e he
      rw [List.getLast?_cons_cons] at he
      refine Joint.solves_settled (n := n) hdt (j := j1) ?_ ?_ (q6.2 ha) ?_ h2 e he
      · obtain ⟨a1, a2, a3, a4, a5, a6, a7, a8⟩ := hok
        refine ⟨?_, ?_, ?_, ?_, ?_, ?_, ?_, ?_⟩ <;> (first | rw [q1, q2] | rw [q1] | rw [q2]) <;> assumption
      · rw [← Joint.solvable_strip, hs, Joint.solvable_strip]; exact hsv
      · rw [← Joint.tuned_strip, hs, Joint.tuned_strip]; exact ht

end
end B2
