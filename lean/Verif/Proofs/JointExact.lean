import Verif.Proofs.JointSettled
import Verif.Proofs.JointPos
import Verif.Proofs.Distance
import Verif.Spec.JointPos

/-!
# Position correction of joints
-/
namespace B2
set_option linter.unusedSectionVars false

section
variable {F : Type} [Field F] [LinearOrder F] [IsStrictOrderedRing F]

/-- The way two bodies have been moved, as velocities. -/
def moved (p q : TwoP F) : Two F := ⟨⟨q.a.c - p.a.c, q.a.a - p.a.a⟩, ⟨q.b.c - p.b.c, q.b.a - p.b.a⟩⟩

def still : Two F := ⟨⟨⟨0, 0⟩, 0⟩, ⟨⟨0, 0⟩, 0⟩⟩

theorem moved_move (f : PairFrame F) (P : Vec2 F) (la lb : F) (p : TwoP F) : moved p (f.move P la lb p) = f.kick P la lb still := by
  simp only [moved, PairFrame.move, PairFrame.kick, still, Two.mk.injEq, Vel.mk.injEq]
  refine ⟨⟨?_, ?_⟩, ?_, ?_⟩ <;> first | (ext <;> simp) | simp

/-- The positions of the two bodies in the array. -/
def two (pos : Arr (Pos F)) (f : PairFrame F) : TwoP F := ⟨pos.at' f.a.index, pos.at' f.b.index⟩

theorem onTwoP_at {pos pos' : Arr (Pos F)} {fr : PairFrame F} {f : TwoP F → TwoP F × Bool} {r : Bool}
    (h : onTwoP pos fr.a.index fr.b.index f = some (pos', r)) (hne : fr.a.index ≠ fr.b.index) :
    two pos' fr = (f (two pos fr)).1 ∧ r = (f (two pos fr)).2 := by
  unfold onTwoP at h
  simp only [Option.bind_eq_bind, Option.bind_eq_some_iff] at h
  obtain ⟨s, h1, q, h2, h3⟩ := h
  unfold loadTwoP at h1
  simp only [Option.bind_eq_bind, Option.bind_eq_some_iff] at h1
  obtain ⟨x, g1, y, g2, g3⟩ := h1
  obtain ⟨l1, rfl⟩ := Arr.get_some g1
  obtain ⟨l2, rfl⟩ := Arr.get_some g2
  cases g3
  rw [storeTwoP_of _ l1 l2] at h2
  cases h2
  cases h3
  refine ⟨?_, rfl⟩
  unfold two
  dsimp only
  rw [upd_same, upd_other _ _ hne, upd_same]

theorem drift_rel (pos pos' : Arr (Pos F)) (f : PairFrame F) (xA xB : Vec2 F) :
    drift pos pos' f.b.index xB - drift pos pos' f.a.index xA =
      relVel (moved (two pos f) (two pos' f)).a (moved (two pos f) (two pos' f)).b (xA - (pos.at' f.a.index).c) (xB - (pos.at' f.b.index).c) := by
  ext <;> simp only [drift, relVel, moved, two, crossSV, Vec2.sub_x, Vec2.sub_y, Vec2.add_x, Vec2.add_y] <;> ring

theorem drift_row (pos pos' : Arr (Pos F)) (f : PairFrame F) (d xA xB : Vec2 F) :
    dot d (drift pos pos' f.b.index xB - drift pos pos' f.a.index xA) =
      (let m := moved (two pos f) (two pos' f)
       dot d (m.b.v - m.a.v) + cross (xB - (pos.at' f.b.index).c) d * m.b.w - cross (xA - (pos.at' f.a.index).c) d * m.a.w) := by
  simp only [drift, dot, cross, moved, two, Vec2.sub_x, Vec2.sub_y]; ring

theorem relVel_still (rA rB : Vec2 F) : relVel (still : Two F).a (still : Two F).b rA rB = ⟨0, 0⟩ := by
  ext <;> simp [relVel, still, crossSV]

variable [Elem F]

theorem Revolute.posPoint_corrected (j : Revolute F) (hf : j.frame.Good) (p : TwoP F) :
    let rA := j.frame.a.arm p.a.a j.localAnchorA
    let rB := j.frame.b.arm p.b.a j.localAnchorB
    let m := moved p (j.posPoint p).1
    relVel m.a m.b rA rB = -(p.b.c + rB - p.a.c - rA) := by
  dsimp only
  unfold Revolute.posPoint
  dsimp only
  rw [moved_move, relVel_kick, relVel_still]
  have := (Props.c46_solve2 (j.frame.pointK (j.frame.a.arm p.a.a j.localAnchorA) (j.frame.b.arm p.b.a j.localAnchorB))
    (p.b.c + j.frame.b.arm p.b.a j.localAnchorB - p.a.c - j.frame.a.arm p.a.a j.localAnchorA)).1 (pointK_det hf _ _)
  have h := this.1
  generalize p.b.c + j.frame.b.arm p.b.a j.localAnchorB - p.a.c - j.frame.a.arm p.a.a j.localAnchorA = c at h ⊢
  generalize j.frame.pointK (j.frame.a.arm p.a.a j.localAnchorA) (j.frame.b.arm p.b.a j.localAnchorB) = K at h ⊢
  generalize K.solve c = x at h ⊢
  rw [← h]
  ext <;> simp [Mat22.mulV] <;> ring

theorem Weld.solvePos_corrected (j : Weld F) (hf : j.frame.Good) (p : TwoP F) :
    let rA := j.frame.a.arm p.a.a j.localAnchorA
    let rB := j.frame.b.arm p.b.a j.localAnchorB
    let m := moved p (j.solvePos p).1
    relVel m.a m.b rA rB = -(p.b.c + rB - p.a.c - rA) ∧
    (j.stiffness ≤ 0 → 0 < j.frame.a.invI + j.frame.b.invI → m.b.w - m.a.w = -(p.b.a - p.a.a - j.referenceAngle)) := by
  dsimp only
  unfold Weld.solvePos
  dsimp only
  have h22 := fun c => ((Props.c46_solve22 (j.frame.weldK (j.frame.a.arm p.a.a j.localAnchorA) (j.frame.b.arm p.b.a j.localAnchorB)) c).1 (weldK_det22 hf _ _)).1
  have h33 := fun (hi : 0 < j.frame.a.invI + j.frame.b.invI) c => (Props.c46_solve33 (j.frame.weldK (j.frame.a.arm p.a.a j.localAnchorA) (j.frame.b.arm p.b.a j.localAnchorB)) c).1
    (weldK_det hf hi _ _)
  generalize j.frame.a.arm p.a.a j.localAnchorA = rA at h22 h33 ⊢
  generalize j.frame.b.arm p.b.a j.localAnchorB = rB at h22 h33 ⊢
  have k22 : ∀ (i : Vec2 F), relVel (j.frame.kick i (cross rA i) (cross rB i) still).a (j.frame.kick i (cross rA i) (cross rB i) still).b rA rB =
      (j.frame.weldK rA rB).mul22 i := fun i => by
    rw [relVel_kick, relVel_still]
    ext <;> simp [Mat22.mulV, Mat33.mul22, PairFrame.pointK, PairFrame.weldK] <;> ring
  split
  · rename_i hs
    refine ⟨?_, fun h => absurd hs (not_lt.mpr h)⟩
    rw [moved_move, k22]
    have h := h22 (p.b.c + rB - p.a.c - rA)
    generalize p.b.c + rB - p.a.c - rA = c at h ⊢
    generalize (j.frame.weldK rA rB).solve22 c = x at h ⊢
    rw [← h]
    ext <;> simp [Mat33.mul22] <;> ring
  · by_cases hk : (j.frame.weldK rA rB).ez.z > 0
    · have hi : 0 < j.frame.a.invI + j.frame.b.invI := hk
      rw [if_pos hk, moved_move]
      have h := h33 hi ⟨(p.b.c + rB - p.a.c - rA).x, (p.b.c + rB - p.a.c - rA).y, p.b.a - p.a.a - j.referenceAngle⟩
      generalize (j.frame.weldK rA rB).solve33 ⟨(p.b.c + rB - p.a.c - rA).x, (p.b.c + rB - p.a.c - rA).y, p.b.a - p.a.a - j.referenceAngle⟩ = x at h ⊢
      obtain ⟨k1, k2⟩ := weld_kick j.frame ⟨-x.x, -x.y, -x.z⟩ rA rB still
      have hx := congrArg Vec3.x h
      have hy := congrArg Vec3.y h
      have hz := congrArg Vec3.z h
      simp only [Props.mulV3_x, Props.mulV3_y, Props.mulV3_z] at hx hy hz
      refine ⟨k1.trans ?_, fun _ _ => k2.trans ?_⟩
      · rw [relVel_still]
        ext
        · simp only [Props.mulV3_x, Vec2.neg_x]; rw [← hx]; ring
        · simp only [Props.mulV3_y, Vec2.neg_y]; rw [← hy]; ring
      · simp only [Props.mulV3_z, still]; rw [← hz]; ring
    · have h := h22 (p.b.c + rB - p.a.c - rA)
      rw [if_neg hk, moved_move]
      refine ⟨?_, fun _ h => absurd h hk⟩
      dsimp only
      generalize p.b.c + rB - p.a.c - rA = c at h ⊢
      generalize (j.frame.weldK rA rB).solve22 c = x at h ⊢
      rw [add_zero, add_zero]
      have := k22 (-x)
      rw [← h]
      refine this.trans ?_
      ext <;> simp [Mat33.mul22] <;> ring

theorem slideK3_det {f : PairFrame F} (h : f.Good) (s1 s2 a1 a2 : F) : Props.det3 (f.slideK3 s1 s2 a1 a2) ≠ 0 := by
  obtain ⟨h1, h2, h3, h4, h5⟩ := h
  by_cases h0 : f.a.invI + f.b.invI = 0
  · have hA : f.a.invI = 0 := by linarith
    have hB : f.b.invI = 0 := by linarith
    have e : Props.det3 (f.slideK3 s1 s2 a1 a2) = (f.a.invMass + f.b.invMass) ^ 2 := by
      simp only [Props.det3, PairFrame.slideK3, hA, hB, add_zero, if_true]; ring
    rw [e]; positivity
  · have hi : 0 < f.a.invI + f.b.invI := lt_of_le_of_ne (by linarith) (Ne.symm h0)
    have e : Props.det3 (f.slideK3 s1 s2 a1 a2) = (f.a.invMass + f.b.invMass) ^ 2 * (f.a.invI + f.b.invI) +
        (f.a.invMass + f.b.invMass) * (f.a.invI * f.b.invI) * ((s1 - s2) ^ 2 + (a1 - a2) ^ 2) := by
      simp only [Props.det3, PairFrame.slideK3, if_neg h0]; ring
    rw [e]; positivity

/-- The movement of body B against body A along `d`, at the places where an impulse of arms `sA` and `sB` acts. -/
def along (d : Vec2 F) (sA sB : F) (m : Two F) : F := dot d (m.b.v - m.a.v) + sB * m.b.w - sA * m.a.w

theorem slide3_kick {f : PairFrame F} (i : Vec3 F) (d e : Vec2 F) (hd : dot d d = 1) (he : dot e e = 1) (hde : dot d e = 0) (s1 s2 a1 a2 : F) :
    let t := f.kick (i.x * d + i.z * e) (i.x * s1 + i.y + i.z * a1) (i.x * s2 + i.y + i.z * a2) still
    along d s1 s2 t = ((f.slideK3 s1 s2 a1 a2).mulV i).x ∧ along e a1 a2 t = ((f.slideK3 s1 s2 a1 a2).mulV i).z ∧
    (0 < f.a.invI + f.b.invI → t.b.w - t.a.w = ((f.slideK3 s1 s2 a1 a2).mulV i).y) := by
  simp only [dot] at hd he hde
  refine ⟨?_, ?_, fun h0 => ?_⟩
  · simp only [along, still, PairFrame.kick, dot, PairFrame.slideK3, Props.mulV3_x, Vec2.add_x, Vec2.add_y, Vec2.sub_x, Vec2.sub_y, Vec2.smul_x, Vec2.smul_y]
    linear_combination (i.x * (f.a.invMass + f.b.invMass)) * hd + (i.z * (f.a.invMass + f.b.invMass)) * hde
  · simp only [along, still, PairFrame.kick, dot, PairFrame.slideK3, Props.mulV3_z, Vec2.add_x, Vec2.add_y, Vec2.sub_x, Vec2.sub_y, Vec2.smul_x, Vec2.smul_y]
    linear_combination (i.z * (f.a.invMass + f.b.invMass)) * he + (i.x * (f.a.invMass + f.b.invMass)) * hde
  · simp only [still, PairFrame.kick, PairFrame.slideK3, Props.mulV3_y, if_neg h0.ne']; ring

/-- What a prismatic joint does to the two bodies. -/
theorem Prismatic.solvePos_corrected (j : Prismatic F) (hf : j.frame.Good) (p : TwoP F)
    (hd : dot ((Rot.ofAngle p.a.a).mulV j.localYAxisA) ((Rot.ofAngle p.a.a).mulV j.localYAxisA) = 1)
    (he : dot ((Rot.ofAngle p.a.a).mulV j.localXAxisA) ((Rot.ofAngle p.a.a).mulV j.localXAxisA) = 1)
    (hde : dot ((Rot.ofAngle p.a.a).mulV j.localYAxisA) ((Rot.ofAngle p.a.a).mulV j.localXAxisA) = 0) :
    let rA := j.frame.a.arm p.a.a j.localAnchorA
    let rB := j.frame.b.arm p.b.a j.localAnchorB
    let d := p.b.c + rB - p.a.c - rA
    let axis := (Rot.ofAngle p.a.a).mulV j.localXAxisA
    let perp := (Rot.ofAngle p.a.a).mulV j.localYAxisA
    let m := moved p (j.solvePos p).1
    along perp (cross (d + rA) perp) (cross rB perp) m = -(dot perp d) ∧
    (0 < j.frame.a.invI + j.frame.b.invI → m.b.w - m.a.w = -(p.b.a - p.a.a - j.referenceAngle)) ∧
    ((j.limitError (dot axis d) |dot perp d|).1 = true → along axis (cross (d + rA) axis) (cross rB axis) m = -(j.limitError (dot axis d) |dot perp d|).2.1) ∧
    (j.frame.a.invI = 0 → j.frame.b.invI = 0 → (j.limitError (dot axis d) |dot perp d|).1 = false → along axis (cross (d + rA) axis) (cross rB axis) m = 0) := by
  dsimp only
  unfold Prismatic.solvePos
  dsimp only
  rw [moved_move]
  generalize (Rot.ofAngle p.a.a).mulV j.localXAxisA = axis at *
  generalize (Rot.ofAngle p.a.a).mulV j.localYAxisA = perp at *
  generalize j.frame.a.arm p.a.a j.localAnchorA = rA
  generalize j.frame.b.arm p.b.a j.localAnchorB = rB
  generalize p.b.c + rB - p.a.c - rA = d
  generalize j.limitError (dot axis d) |dot perp d| = l
  cases l.1
  · simp only [Bool.false_eq_true, if_false]
    obtain ⟨k1, k2⟩ := slide_kick hf ((j.frame.slideK (cross (d + rA) perp) (cross rB perp)).solve (-(⟨dot perp d, p.b.a - p.a.a - j.referenceAngle⟩ : Vec2 F))) perp hd
      (cross (d + rA) perp) (cross rB perp) still
    have h := ((Props.c46_solve2 (j.frame.slideK (cross (d + rA) perp) (cross rB perp)) (-(⟨dot perp d, p.b.a - p.a.a - j.referenceAngle⟩ : Vec2 F))).1 (slideK_det hf _ _)).1
    rw [h] at k1 k2
    generalize (j.frame.slideK (cross (d + rA) perp) (cross rB perp)).solve (-(⟨dot perp d, p.b.a - p.a.a - j.referenceAngle⟩ : Vec2 F)) = x at k1 k2 ⊢
    have e : (j.frame.kick (x.x * perp + (0 : F) * axis) (x.x * cross (d + rA) perp + x.y + 0 * cross (d + rA) axis) (x.x * cross rB perp + x.y + 0 * cross rB axis) still) =
        j.frame.kick (x.x * perp) (x.x * cross (d + rA) perp + x.y) (x.x * cross rB perp + x.y) still := by
      congr 1
      · ext <;> simp
      · ring
      · ring
    rw [e]
    refine ⟨?_, fun hi => (k2 hi).trans (by simp [still]), fun h => (by cases h), fun h1 h2 _ => ?_⟩
    · unfold along; rw [k1]; simp [still, dot]
    · simp only [along, PairFrame.kick, still, h1, h2, dot] at hde ⊢
      simp
      linear_combination (x.x * (j.frame.a.invMass + j.frame.b.invMass)) * hde
  · simp only [if_true]
    have h := (Props.c46_solve33 (j.frame.slideK3 (cross (d + rA) perp) (cross rB perp) (cross (d + rA) axis) (cross rB axis))
      ⟨-dot perp d, -(p.b.a - p.a.a - j.referenceAngle), -l.2.1⟩).1 (slideK3_det hf _ _ _ _)
    obtain ⟨k1, k2, k3⟩ := slide3_kick (f := j.frame) ((j.frame.slideK3 (cross (d + rA) perp) (cross rB perp) (cross (d + rA) axis) (cross rB axis)).solve33
      ⟨-dot perp d, -(p.b.a - p.a.a - j.referenceAngle), -l.2.1⟩) perp axis hd he hde (cross (d + rA) perp) (cross rB perp) (cross (d + rA) axis) (cross rB axis)
    rw [h] at k1 k2 k3
    exact ⟨k1, k3, fun _ => k2, fun _ _ h => (by cases h)⟩

theorem pulleyMass_pos {f : PairFrame F} (h : f.Good) {ratio : F} (hr : 0 < ratio) (rA rB uA uB : Vec2 F) : 0 < f.pulleyMass ratio rA rB uA uB := by
  obtain ⟨h1, h2, h3, h4, h5⟩ := h
  have e : f.pulleyMass ratio rA rB uA uB = f.a.invMass + ratio * ratio * f.b.invMass + (f.a.invI * (cross rA uA) ^ 2 + ratio * ratio * (f.b.invI * (cross rB uB) ^ 2)) := by
    unfold PairFrame.pulleyMass; ring
  rw [e]
  have : 0 < f.a.invMass + ratio * ratio * f.b.invMass := by
    rcases h1.lt_or_eq with h | h
    · have : 0 ≤ ratio * ratio * f.b.invMass := by positivity
      linarith
    · have hb : 0 < f.b.invMass := by linarith
      have : 0 < ratio * ratio * f.b.invMass := by positivity
      linarith
  have : 0 ≤ f.a.invI * (cross rA uA) ^ 2 + ratio * ratio * (f.b.invI * (cross rB uB) ^ 2) := by positivity
  linarith

/-- What a pulley does to the two bodies. -/
theorem Pulley.solvePos_corrected (j : Pulley F) (hf : j.frame.Good) (hr : 0 < j.ratio) (p : TwoP F) :
    let rA := j.frame.a.arm p.a.a j.localAnchorA
    let rB := j.frame.b.arm p.b.a j.localAnchorB
    let dA := p.a.c + rA - j.groundAnchorA
    let dB := p.b.c + rB - j.groundAnchorB
    let uA := pulleyAxis dA
    let uB := pulleyAxis dB
    let m := moved p (j.solvePos p).1
    dot uA uA = 1 → dot uB uB = 1 →
    dot uA (m.a.v + crossSV m.a.w rA) + j.ratio * dot uB (m.b.v + crossSV m.b.w rB) = j.constant - dA.length - j.ratio * dB.length := by
  dsimp only
  unfold Pulley.solvePos
  dsimp only
  generalize j.frame.a.arm p.a.a j.localAnchorA = rA
  generalize j.frame.b.arm p.b.a j.localAnchorB = rB
  generalize pulleyAxis (p.a.c + rA - j.groundAnchorA) = uA
  generalize pulleyAxis (p.b.c + rB - j.groundAnchorB) = uB
  intro hA hB
  have hp := pulleyMass_pos hf hr rA rB uA uB
  have hm : invIfPos (j.frame.pulleyMass j.ratio rA rB uA uB) * j.frame.pulleyMass j.ratio rA rB uA uB = 1 := by
    unfold invIfPos; rw [if_pos hp]; field_simp
  generalize j.constant - (p.a.c + rA - j.groundAnchorA).length - j.ratio * (p.b.c + rB - j.groundAnchorB).length = c
  generalize invIfPos (j.frame.pulleyMass j.ratio rA rB uA uB) = M at hm ⊢
  simp only [PairFrame.pulleyMass, cross] at hm
  simp only [dot] at hA hB
  simp only [moved, dot, crossSV, cross, Vec2.add_x, Vec2.add_y, Vec2.sub_x, Vec2.sub_y, Vec2.smul_x, Vec2.smul_y]
  linear_combination c * hm + (M * c * j.frame.a.invMass) * hA + (j.ratio * j.ratio * M * c * j.frame.b.invMass) * hB

/-- A joint on bodies that cannot turn: only the centres move. -/
theorem kick_straight {f : PairFrame F} (hA : f.a.invI = 0) (hB : f.b.invI = 0) (P : Vec2 F) (la lb : F) (p : TwoP F) :
    f.move P la lb p = ⟨⟨p.a.c - f.a.invMass * P, p.a.a⟩, ⟨p.b.c + f.b.invMass * P, p.b.a⟩⟩ := by
  simp [PairFrame.move, hA, hB]

/-- The anchors of the two bodies apart. -/
def gap (f : PairFrame F) (lA lB : Vec2 F) (p : TwoP F) : Vec2 F := p.b.c + f.b.arm p.b.a lB - p.a.c - f.a.arm p.a.a lA

theorem gap_straight {f : PairFrame F} (hA : f.a.invI = 0) (hB : f.b.invI = 0) (lA lB P : Vec2 F) (la lb : F) (p : TwoP F) :
    gap f lA lB (f.move P la lb p) = gap f lA lB p + (f.a.invMass + f.b.invMass) * P := by
  rw [kick_straight hA hB]
  unfold gap
  dsimp only
  ext <;> simp <;> ring

theorem Wheel.posLine_exact (j : Wheel F) (hf : j.frame.Good) (hA : j.frame.a.invI = 0) (hB : j.frame.b.invI = 0) (p : TwoP F)
    (hd : dot ((Rot.ofAngle p.a.a).mulV j.localYAxisA) ((Rot.ofAngle p.a.a).mulV j.localYAxisA) = 1)
    (hde : dot ((Rot.ofAngle p.a.a).mulV j.localYAxisA) ((Rot.ofAngle p.a.a).mulV j.localXAxisA) = 0) :
    let q := (j.posLine p).1
    q.a.a = p.a.a ∧ dot ((Rot.ofAngle p.a.a).mulV j.localYAxisA) (gap j.frame j.localAnchorA j.localAnchorB q) = 0 ∧
    dot ((Rot.ofAngle p.a.a).mulV j.localXAxisA) (gap j.frame j.localAnchorA j.localAnchorB q) =
      dot ((Rot.ofAngle p.a.a).mulV j.localXAxisA) (gap j.frame j.localAnchorA j.localAnchorB p) := by
  have hm : j.frame.a.invMass + j.frame.b.invMass ≠ 0 := hf.mass.ne'
  dsimp only
  unfold Wheel.posLine
  dsimp only
  simp only [hA, hB, zero_mul, add_zero]
  rw [if_pos hm]
  have hg : p.b.c - p.a.c + j.frame.b.arm p.b.a j.localAnchorB - j.frame.a.arm p.a.a j.localAnchorA = gap j.frame j.localAnchorA j.localAnchorB p := by
    unfold gap; ext <;> simp <;> ring
  rw [hg, gap_straight hA hB]
  refine ⟨by simp [PairFrame.move, hA], ?_, ?_⟩
  all_goals generalize gap j.frame j.localAnchorA j.localAnchorB p = g
  all_goals generalize (Rot.ofAngle p.a.a).mulV j.localYAxisA = perp at hd hde ⊢
  all_goals generalize (Rot.ofAngle p.a.a).mulV j.localXAxisA = axis at hde ⊢
  all_goals simp only [dot] at hd hde
  all_goals simp only [dot, Vec2.add_x, Vec2.add_y, Vec2.smul_x, Vec2.smul_y]
  all_goals field_simp
  · linear_combination (-(g.x * perp.x + g.y * perp.y)) * hd
  · linear_combination (-(g.x * perp.x + g.y * perp.y)) * hde

theorem Wheel.posLimit_exact (j : Wheel F) (hf : j.frame.Good) (hA : j.frame.a.invI = 0) (hB : j.frame.b.invI = 0) (p : TwoP F)
    (he : dot ((Rot.ofAngle p.a.a).mulV j.localXAxisA) ((Rot.ofAngle p.a.a).mulV j.localXAxisA) = 1) :
    let q := (j.posLimit p).1
    q.a.a = p.a.a ∧ q.b.a = p.b.a ∧ (j.enableLimit = true → dot ((Rot.ofAngle p.a.a).mulV j.localXAxisA) (gap j.frame j.localAnchorA j.localAnchorB q) =
      dot ((Rot.ofAngle p.a.a).mulV j.localXAxisA) (gap j.frame j.localAnchorA j.localAnchorB p) -
        j.limitError (dot ((Rot.ofAngle p.a.a).mulV j.localXAxisA) (gap j.frame j.localAnchorA j.localAnchorB p))) := by
  have hm : j.frame.a.invMass + j.frame.b.invMass ≠ 0 := hf.mass.ne'
  have hg : p.b.c - p.a.c + j.frame.b.arm p.b.a j.localAnchorB - j.frame.a.arm p.a.a j.localAnchorA = gap j.frame j.localAnchorA j.localAnchorB p := by
    unfold gap; ext <;> simp <;> ring
  dsimp only
  unfold Wheel.posLimit
  simp only [hA, hB, zero_mul, add_zero, hg]
  by_cases hl : j.enableLimit = true
  · rw [if_pos hl]
    by_cases hc : j.limitError (dot ((Rot.ofAngle p.a.a).mulV j.localXAxisA) (gap j.frame j.localAnchorA j.localAnchorB p)) = 0
    · rw [if_neg (by simpa using hc), hc]; simp
    · rw [if_pos hc, if_pos hm, gap_straight hA hB]
      refine ⟨by simp [PairFrame.move, hA], by simp [PairFrame.move, hB], fun _ => ?_⟩
      generalize j.limitError (dot ((Rot.ofAngle p.a.a).mulV j.localXAxisA) (gap j.frame j.localAnchorA j.localAnchorB p)) = e
      generalize gap j.frame j.localAnchorA j.localAnchorB p = g
      generalize (Rot.ofAngle p.a.a).mulV j.localXAxisA = axis at he ⊢
      simp only [dot] at he
      simp only [dot, Vec2.add_x, Vec2.add_y, Vec2.smul_x, Vec2.smul_y]
      field_simp
      linear_combination (-e) * he
  · rw [if_neg hl]; exact ⟨rfl, rfl, fun h => absurd h hl⟩

theorem Wheel.limit_within (j : Wheel F) (hl : 2 * linearSlop ≤ j.upperTranslation - j.lowerTranslation) (t : F) :
    j.lowerTranslation ≤ t - j.limitError t ∧ t - j.limitError t ≤ j.upperTranslation := by
  have hs : (0 : F) < linearSlop := by unfold linearSlop; norm_num
  unfold Wheel.limitError b2min b2max
  rw [if_neg (by rw [abs_of_nonneg (by linarith)]; linarith)]
  split_ifs <;> constructor <;> linarith

theorem Prismatic.limit_within (j : Prismatic F) (hE : j.enableLimit = true) (hl : 2 * linearSlop ≤ j.upperTranslation - j.lowerTranslation) (t e : F) :
    ((j.limitError t e).1 = true → (t ≤ j.lowerTranslation ∧ t - (j.limitError t e).2.1 = j.lowerTranslation) ∨
      (j.upperTranslation ≤ t ∧ t - (j.limitError t e).2.1 = j.upperTranslation)) ∧
    ((j.limitError t e).1 = false → j.lowerTranslation < t ∧ t < j.upperTranslation) := by
  have hs : (0 : F) < linearSlop := by unfold linearSlop; norm_num
  unfold Prismatic.limitError b2min b2max
  rw [if_pos hE, if_neg (by rw [abs_of_nonneg (by linarith)]; linarith)]
  split_ifs <;> refine ⟨fun h => ?_, fun h => ?_⟩ <;> first | (cases h; done) | (left; constructor <;> linarith) | (right; constructor <;> linarith) | (constructor <;> linarith) | (exfalso; linarith)

/-! ## In the arrays -/

theorem gap_two (f : PairFrame F) (lA lB : Vec2 F) (pos : Arr (Pos F)) :
    gap f lA lB (two pos f) = f.b.worldPoint pos lB - f.a.worldPoint pos lA := by
  unfold gap two
  dsimp only
  rw [worldPoint_arm, worldPoint_arm]
  ext <;> simp

theorem gap_moved {f : PairFrame F} {p q : TwoP F} (hA : q.a.a = p.a.a) (hB : q.b.a = p.b.a) (lA lB : Vec2 F) :
    gap f lA lB q = gap f lA lB p + ((moved p q).b.v - (moved p q).a.v) := by
  unfold gap moved
  rw [hA, hB]
  ext <;> simp <;> ring

theorem moved_turn {p q : TwoP F} (hA : q.a.a = p.a.a) (hB : q.b.a = p.b.a) : (moved p q).a.w = 0 ∧ (moved p q).b.w = 0 := by
  unfold moved; rw [hA, hB]; simp

theorem arms_gap (f : PairFrame F) (lA lB : Vec2 F) (p : TwoP F) : p.b.c + f.b.arm p.b.a lB - p.a.c - f.a.arm p.a.a lA = gap f lA lB p := rfl

theorem neg_eq_gap {x y : Vec2 F} (h : x = -y) : y + x = ⟨0, 0⟩ := by rw [h]; ext <;> simp

theorem Revolute.solvePos_plain (j : Revolute F) (hl : j.enableLimit = true → ¬ 0 < j.frame.a.invI + j.frame.b.invI) (hf : j.frame.Good) (p : TwoP F) :
    (j.solvePos p).1 = (j.posPoint p).1 := by
  unfold Revolute.solvePos Revolute.posLimit
  dsimp only
  rw [if_neg]
  intro h
  simp only [Bool.and_eq_true, Bool.not_eq_true', decide_eq_false_iff_not] at h
  have := hl h.1
  have h0 := hf.inertiaA
  have h1 := hf.inertiaB
  exact h.2 (le_antisymm (not_lt.mp this) (by linarith))

theorem Revolute.solvePos_exact (j : Revolute F) (hf : j.frame.Good) (hA : j.frame.a.invI = 0) (hB : j.frame.b.invI = 0) (p : TwoP F) :
    gap j.frame j.localAnchorA j.localAnchorB (j.solvePos p).1 = ⟨0, 0⟩ := by
  have hh := j.solvePos_hold p
  have h := j.posPoint_corrected hf p
  dsimp only at h
  rw [← Revolute.solvePos_plain j (fun _ => by rw [hA, hB]; simp) hf p, arms_gap] at h
  have g := gap_moved (f := j.frame) (hh.1.2 hA) (hh.2.2 hB) j.localAnchorA j.localAnchorB
  obtain ⟨wA, wB⟩ := moved_turn (hh.1.2 hA) (hh.2.2 hB)
  rw [g]
  refine neg_eq_gap ?_
  rw [← h]
  ext <;> simp [relVel, crossSV, wA, wB]

theorem Weld.solvePos_exact (j : Weld F) (hf : j.frame.Good) (hA : j.frame.a.invI = 0) (hB : j.frame.b.invI = 0) (p : TwoP F) :
    gap j.frame j.localAnchorA j.localAnchorB (j.solvePos p).1 = ⟨0, 0⟩ := by
  have hh := j.solvePos_hold p
  have h := (j.solvePos_corrected hf p).1
  rw [arms_gap] at h
  have g := gap_moved (f := j.frame) (hh.1.2 hA) (hh.2.2 hB) j.localAnchorA j.localAnchorB
  obtain ⟨wA, wB⟩ := moved_turn (hh.1.2 hA) (hh.2.2 hB)
  rw [g]
  refine neg_eq_gap ?_
  rw [← h]
  ext <;> simp [relVel, crossSV, wA, wB]

theorem dot_add_right (d u v : Vec2 F) : dot d (u + v) = dot d u + dot d v := by simp only [dot, Vec2.add_x, Vec2.add_y]; ring

theorem Prismatic.solvePos_exact (j : Prismatic F) (hf : j.frame.Good) (hA : j.frame.a.invI = 0) (hB : j.frame.b.invI = 0) (p : TwoP F)
    (hd : dot ((Rot.ofAngle p.a.a).mulV j.localYAxisA) ((Rot.ofAngle p.a.a).mulV j.localYAxisA) = 1)
    (he : dot ((Rot.ofAngle p.a.a).mulV j.localXAxisA) ((Rot.ofAngle p.a.a).mulV j.localXAxisA) = 1)
    (hde : dot ((Rot.ofAngle p.a.a).mulV j.localYAxisA) ((Rot.ofAngle p.a.a).mulV j.localXAxisA) = 0) :
    let g := gap j.frame j.localAnchorA j.localAnchorB (j.solvePos p).1
    dot ((Rot.ofAngle p.a.a).mulV j.localYAxisA) g = 0 ∧
    (j.enableLimit = true → 2 * linearSlop ≤ j.upperTranslation - j.lowerTranslation →
      j.lowerTranslation ≤ dot ((Rot.ofAngle p.a.a).mulV j.localXAxisA) g ∧ dot ((Rot.ofAngle p.a.a).mulV j.localXAxisA) g ≤ j.upperTranslation) := by
  have hs : (0 : F) < linearSlop := by unfold linearSlop; norm_num
  have hh := j.solvePos_hold p
  obtain ⟨h1, -, h3, h4⟩ := j.solvePos_corrected hf p hd he hde
  have g := gap_moved (f := j.frame) (hh.1.2 hA) (hh.2.2 hB) j.localAnchorA j.localAnchorB
  obtain ⟨wA, wB⟩ := moved_turn (hh.1.2 hA) (hh.2.2 hB)
  dsimp only
  rw [arms_gap] at h1 h3 h4
  unfold along at h1 h3 h4
  rw [wA, wB] at h1 h3 h4
  simp only [mul_zero, add_zero, sub_zero] at h1 h3 h4
  rw [g, dot_add_right, dot_add_right, h1]
  refine ⟨by ring, fun hl hlt => ?_⟩
  obtain ⟨k1, k2⟩ := j.limit_within hl hlt (dot ((Rot.ofAngle p.a.a).mulV j.localXAxisA) (gap j.frame j.localAnchorA j.localAnchorB p))
    |dot ((Rot.ofAngle p.a.a).mulV j.localYAxisA) (gap j.frame j.localAnchorA j.localAnchorB p)|
  cases hc : (j.limitError (dot ((Rot.ofAngle p.a.a).mulV j.localXAxisA) (gap j.frame j.localAnchorA j.localAnchorB p))
    |dot ((Rot.ofAngle p.a.a).mulV j.localYAxisA) (gap j.frame j.localAnchorA j.localAnchorB p)|).1
  · rw [h4 hA hB hc]
    have := k2 hc
    constructor <;> linarith
  · rw [h3 hc]
    rcases k1 hc with h | h <;> constructor <;> linarith

theorem Wheel.solvePos_exact (j : Wheel F) (hf : j.frame.Good) (hA : j.frame.a.invI = 0) (hB : j.frame.b.invI = 0) (p : TwoP F)
    (hd : dot ((Rot.ofAngle p.a.a).mulV j.localYAxisA) ((Rot.ofAngle p.a.a).mulV j.localYAxisA) = 1)
    (he : dot ((Rot.ofAngle p.a.a).mulV j.localXAxisA) ((Rot.ofAngle p.a.a).mulV j.localXAxisA) = 1)
    (hde : dot ((Rot.ofAngle p.a.a).mulV j.localYAxisA) ((Rot.ofAngle p.a.a).mulV j.localXAxisA) = 0) :
    let g := gap j.frame j.localAnchorA j.localAnchorB (j.solvePos p).1
    dot ((Rot.ofAngle p.a.a).mulV j.localYAxisA) g = 0 ∧
    (j.enableLimit = true → 2 * linearSlop ≤ j.upperTranslation - j.lowerTranslation →
      j.lowerTranslation ≤ dot ((Rot.ofAngle p.a.a).mulV j.localXAxisA) g ∧ dot ((Rot.ofAngle p.a.a).mulV j.localXAxisA) g ≤ j.upperTranslation) := by
  dsimp only
  unfold Wheel.solvePos
  dsimp only
  obtain ⟨a1, -, a3⟩ := j.posLimit_exact hf hA hB p he
  obtain ⟨-, b2, b3⟩ := j.posLine_exact hf hA hB (j.posLimit p).1 (by rw [a1]; exact hd) (by rw [a1]; exact hde)
  rw [a1] at b2 b3
  refine ⟨b2, fun hl hlt => ?_⟩
  rw [b3, a3 hl]
  exact j.limit_within hlt _

theorem stretched_length [ElemLaws F] {u : Vec2 F} (hu : dot u u = 1) {h : F} (h0 : 0 ≤ h) : (h * u : Vec2 F).length = h := by
  have e : (h * u : Vec2 F).x * (h * u : Vec2 F).x + (h * u : Vec2 F).y * (h * u : Vec2 F).y = h * h := by
    simp only [Vec2.smul_x, Vec2.smul_y]; unfold dot at hu; linear_combination h * h * hu
  unfold Vec2.length
  rw [e]
  have a := ElemLaws.mul_self_sqrt (h * h) (mul_nonneg h0 h0)
  have b := ElemLaws.sqrt_nonneg (h * h)
  rcases mul_self_eq_mul_self_iff.mp a with e | e
  · exact e
  · linarith

theorem DistanceJ.solvePos_exact [ElemLaws F] (j : DistanceJ F) (hf : j.frame.Good) (hA : j.frame.a.invI = 0) (hB : j.frame.b.invI = 0)
    (hm : j.mass = 1 / (j.frame.a.invMass + j.frame.b.invMass)) (h0 : 0 ≤ j.minLength) (h1 : j.minLength ≤ j.maxLength) (p : TwoP F)
    (hL : epsilon ≤ (gap j.frame j.localAnchorA j.localAnchorB p).length) :
    let g := gap j.frame j.localAnchorA j.localAnchorB (j.solvePos p).1
    j.minLength ≤ g.length ∧ g.length ≤ j.maxLength := by
  obtain ⟨u1, u2, u3⟩ := normalize_spec (a := gap j.frame j.localAnchorA j.localAnchorB p) (not_lt.mpr hL)
  have hn : (gap j.frame j.localAnchorA j.localAnchorB p).normalize.2 = (gap j.frame j.localAnchorA j.localAnchorB p).length := by
    unfold Vec2.normalize; rw [if_neg (not_lt.mpr hL)]
  have hM := hf.mass.ne'
  dsimp only
  unfold DistanceJ.solvePos
  simp only [arms_gap, hn]
  have key : ∀ c, 0 ≤ (gap j.frame j.localAnchorA j.localAnchorB p).length - c →
      ∀ la lb, (gap j.frame j.localAnchorA j.localAnchorB (j.frame.move ((-j.mass * c) * (gap j.frame j.localAnchorA j.localAnchorB p).normalize.1) la lb p)).length =
        (gap j.frame j.localAnchorA j.localAnchorB p).length - c := by
    intro c hc la lb
    rw [gap_straight hA hB]
    have e : gap j.frame j.localAnchorA j.localAnchorB p + (j.frame.a.invMass + j.frame.b.invMass) * ((-j.mass * c) * (gap j.frame j.localAnchorA j.localAnchorB p).normalize.1) =
        ((gap j.frame j.localAnchorA j.localAnchorB p).length - c) * (gap j.frame j.localAnchorA j.localAnchorB p).normalize.1 := by
      rw [hm]
      generalize (gap j.frame j.localAnchorA j.localAnchorB p).normalize.1 = u at *
      generalize (gap j.frame j.localAnchorA j.localAnchorB p).length = L at *
      rw [u2]
      ext <;> simp only [Vec2.add_x, Vec2.add_y, Vec2.smul_x, Vec2.smul_y] <;> field_simp <;> ring
    rw [e, stretched_length u1 hc]
  unfold DistanceJ.posError
  split_ifs with k1 k2 k3
  · rw [key _ (by linarith)]; constructor <;> linarith
  · rw [key _ (by linarith)]; constructor <;> linarith
  · rw [key _ (by linarith)]; constructor <;> linarith
  · exact ⟨not_lt.mp k2, not_lt.mp k3⟩

theorem pulley_side [ElemLaws F] {d : Vec2 F} (h : 10 * linearSlop < d.length) : dot (pulleyAxis d) (pulleyAxis d) = 1 ∧ d = d.length * pulleyAxis d := by
  have hs : (0 : F) < linearSlop := by unfold linearSlop; norm_num
  unfold pulleyAxis
  rw [if_pos h]
  refine ⟨div_unit (by linarith) h, ?_⟩
  have : d.length ≠ 0 := by linarith
  ext <;> simp only [Vec2.smul_x, Vec2.smul_y] <;> field_simp

theorem Pulley.solvePos_exact [ElemLaws F] (j : Pulley F) (hf : j.frame.Good) (hr : 0 < j.ratio) (hA : j.frame.a.invI = 0) (hB : j.frame.b.invI = 0) (p : TwoP F) :
    let rope := fun p : TwoP F => ((p.a.c + j.frame.a.arm p.a.a j.localAnchorA - j.groundAnchorA).length, (p.b.c + j.frame.b.arm p.b.a j.localAnchorB - j.groundAnchorB).length)
    10 * linearSlop < (rope p).1 → 10 * linearSlop < (rope p).2 → (rope p).1 ≤ j.constant → j.ratio * (rope p).2 ≤ j.constant →
      (rope (j.solvePos p).1).1 + j.ratio * (rope (j.solvePos p).1).2 = j.constant := by
  dsimp only
  intro h1 h2 h3 h4
  unfold Pulley.solvePos
  simp only [hA, hB, zero_mul, add_zero]
  generalize j.frame.a.arm p.a.a j.localAnchorA = rA at *
  generalize j.frame.b.arm p.b.a j.localAnchorB = rB at *
  have hp := pulleyMass_pos hf hr rA rB (pulleyAxis (p.a.c + rA - j.groundAnchorA)) (pulleyAxis (p.b.c + rB - j.groundAnchorB))
  unfold invIfPos
  rw [if_pos hp]
  unfold PairFrame.pulleyMass at hp ⊢
  simp only [hA, hB, zero_mul, add_zero] at hp ⊢
  obtain ⟨a1, a2⟩ := pulley_side h1
  obtain ⟨b1, b2⟩ := pulley_side h2
  have eA : ∀ x : F, p.a.c + j.frame.a.invMass * (x * pulleyAxis (p.a.c + rA - j.groundAnchorA)) + rA - j.groundAnchorA =
      ((p.a.c + rA - j.groundAnchorA).length + j.frame.a.invMass * x) * pulleyAxis (p.a.c + rA - j.groundAnchorA) := fun x => by
    have : p.a.c + j.frame.a.invMass * (x * pulleyAxis (p.a.c + rA - j.groundAnchorA)) + rA - j.groundAnchorA =
        (p.a.c + rA - j.groundAnchorA) + j.frame.a.invMass * (x * pulleyAxis (p.a.c + rA - j.groundAnchorA)) := by
      ext <;> simp <;> ring
    rw [this]
    generalize pulleyAxis (p.a.c + rA - j.groundAnchorA) = u at a2 ⊢
    generalize (p.a.c + rA - j.groundAnchorA).length = L at a2 ⊢
    rw [a2]
    ext <;> simp <;> ring
  have eB : ∀ x : F, p.b.c + j.frame.b.invMass * (x * pulleyAxis (p.b.c + rB - j.groundAnchorB)) + rB - j.groundAnchorB =
      ((p.b.c + rB - j.groundAnchorB).length + j.frame.b.invMass * x) * pulleyAxis (p.b.c + rB - j.groundAnchorB) := fun x => by
    have : p.b.c + j.frame.b.invMass * (x * pulleyAxis (p.b.c + rB - j.groundAnchorB)) + rB - j.groundAnchorB =
        (p.b.c + rB - j.groundAnchorB) + j.frame.b.invMass * (x * pulleyAxis (p.b.c + rB - j.groundAnchorB)) := by
      ext <;> simp <;> ring
    rw [this]
    generalize pulleyAxis (p.b.c + rB - j.groundAnchorB) = u at b2 ⊢
    generalize (p.b.c + rB - j.groundAnchorB).length = L at b2 ⊢
    rw [b2]
    ext <;> simp <;> ring
  rw [eA, eB]
  generalize pulleyAxis (p.a.c + rA - j.groundAnchorA) = uA at *
  generalize pulleyAxis (p.b.c + rB - j.groundAnchorB) = uB at *
  generalize (p.a.c + rA - j.groundAnchorA).length = LA at *
  generalize (p.b.c + rB - j.groundAnchorB).length = LB at *
  have hs : (0 : F) < linearSlop := by unfold linearSlop; norm_num
  have m1 := hf.massA
  have m2 := hf.massB
  set M := j.frame.a.invMass + j.ratio * j.ratio * j.frame.b.invMass with hM
  have hb : 0 ≤ j.ratio * j.ratio * j.frame.b.invMass := by positivity
  have w1 : 0 ≤ j.frame.a.invMass * (1 / M) := by positivity
  have w2 : 0 ≤ j.ratio * j.ratio * j.frame.b.invMass * (1 / M) := by positivity
  have w3 : j.frame.a.invMass * (1 / M) + j.ratio * j.ratio * j.frame.b.invMass * (1 / M) = 1 := by
    rw [← add_mul, ← hM]; field_simp
  set c := j.constant - LA - j.ratio * LB with hc
  have n1 : 0 ≤ LA + j.frame.a.invMass * -(-(1 / M) * c) := by
    have e : LA + j.frame.a.invMass * -(-(1 / M) * c) = LA + j.frame.a.invMass * (1 / M) * c := by ring
    rw [e]
    rcases le_total 0 c with k | k
    · have := mul_nonneg w1 k; linarith
    · have : j.frame.a.invMass * (1 / M) * c ≥ 1 * c := mul_le_mul_of_nonpos_right (by linarith) k
      linarith
  have n2 : 0 ≤ LB + j.frame.b.invMass * (-j.ratio * (-(1 / M) * c)) := by
    have e : j.ratio * (LB + j.frame.b.invMass * (-j.ratio * (-(1 / M) * c))) = j.ratio * LB + j.ratio * j.ratio * j.frame.b.invMass * (1 / M) * c := by ring
    refine nonneg_of_mul_nonneg_right (a := j.ratio) ?_ hr
    rw [e]
    rcases le_total 0 c with k | k
    · have := mul_nonneg w2 k
      have : 0 ≤ j.ratio * LB := mul_nonneg hr.le (by linarith)
      linarith
    · have : j.ratio * j.ratio * j.frame.b.invMass * (1 / M) * c ≥ 1 * c := mul_le_mul_of_nonpos_right (by linarith) k
      linarith
  rw [stretched_length a1 n1, stretched_length b1 n2]
  linear_combination c * w3 + hc

theorem axes_rot [ElemLaws F] (a : F) {x y : Vec2 F} (hx : x.lengthSquared = 1) (hy : y = x.skew) :
    dot ((Rot.ofAngle a).mulV y) ((Rot.ofAngle a).mulV y) = 1 ∧ dot ((Rot.ofAngle a).mulV x) ((Rot.ofAngle a).mulV x) = 1 ∧
      dot ((Rot.ofAngle a).mulV y) ((Rot.ofAngle a).mulV x) = 0 := by
  have hy' : y.lengthSquared = 1 := by
    rw [← hx, hy]; simp only [Vec2.lengthSquared, Vec2.skew]; ring
  refine ⟨axis_unit a hy', axis_unit a hx, ?_⟩
  rw [hy]
  simp only [dot, Rot.mulV, Vec2.skew]; ring

/-- A joint that is prepared, on bodies that cannot turn. -/
theorem Joint.solvePos_exact [ElemLaws F] {n : Nat} {bodies : Nat → JBody F} {pos0 pos pos' : Arr (Pos F)} {j : Joint F} {r : Bool} (hok : j.Ok n bodies)
    (hfr : j.Framed) (ha : j.Armed bodies pos0) (ht : j.Tuned bodies pos0) (hA : (bodies j.bodyA).invI = 0) (hB : (bodies j.bodyB).invI = 0)
    (h : j.solvePos pos = some (pos', r)) : j.Exact bodies pos pos' := by
  cases j with
  | revolute j =>
    have hf : j.frame = ⟨bodies j.bodyA, bodies j.bodyB⟩ := ha.1
    obtain ⟨e, -⟩ := onTwoP_at h (by rw [hf]; exact hok.ne)
    have k := Revolute.solvePos_exact j (by rw [hf]; exact hok.good) (by rw [hf]; exact hA) (by rw [hf]; exact hB) (two pos j.frame)
    rw [← e, gap_two, hf] at k
    exact sub_eq_zero_vec k
  | weld j =>
    have hf : j.frame = ⟨bodies j.bodyA, bodies j.bodyB⟩ := ha.1
    obtain ⟨e, -⟩ := onTwoP_at h (by rw [hf]; exact hok.ne)
    have k := Weld.solvePos_exact j (by rw [hf]; exact hok.good) (by rw [hf]; exact hA) (by rw [hf]; exact hB) (two pos j.frame)
    rw [← e, gap_two, hf] at k
    exact sub_eq_zero_vec k
  | prismatic j =>
    have hf : j.frame = ⟨bodies j.bodyA, bodies j.bodyB⟩ := ha.1
    obtain ⟨e, -⟩ := onTwoP_at h (by rw [hf]; exact hok.ne)
    obtain ⟨x1, x2, x3⟩ := axes_rot (two pos j.frame).a.a hfr.1 hfr.2
    have k := Prismatic.solvePos_exact j (by rw [hf]; exact hok.good) (by rw [hf]; exact hA) (by rw [hf]; exact hB) (two pos j.frame) x1 x2 x3
    dsimp only at k
    rw [← e, gap_two, hf] at k
    exact k
  | wheel j =>
    have hf : j.frame = ⟨bodies j.bodyA, bodies j.bodyB⟩ := ha.1
    obtain ⟨e, -⟩ := onTwoP_at h (by rw [hf]; exact hok.ne)
    obtain ⟨x1, x2, x3⟩ := axes_rot (two pos j.frame).a.a hfr.1 hfr.2
    have k := Wheel.solvePos_exact j (by rw [hf]; exact hok.good) (by rw [hf]; exact hA) (by rw [hf]; exact hB) (two pos j.frame) x1 x2 x3
    dsimp only at k
    rw [← e, gap_two, hf] at k
    exact k
  | distance j =>
    have hf : j.frame = ⟨bodies j.bodyA, bodies j.bodyB⟩ := ha.1
    obtain ⟨e, -⟩ := onTwoP_at h (by rw [hf]; exact hok.ne)
    have hm : j.mass = 1 / (j.frame.a.invMass + j.frame.b.invMass) := by
      have := ht.2.2
      have hA' : j.frame.a.invI = 0 := by rw [hf]; exact hA
      have hB' : j.frame.b.invI = 0 := by rw [hf]; exact hB
      simp only [hA', hB', zero_mul, add_zero] at this
      rwa [if_pos (by rw [hf]; exact hok.mass.ne')] at this
    intro h0 h1 hL
    have k := DistanceJ.solvePos_exact j (by rw [hf]; exact hok.good) (by rw [hf]; exact hA) (by rw [hf]; exact hB) hm h0 h1 (two pos j.frame)
      (by rw [gap_two, hf]; exact hL)
    dsimp only at k
    rw [← e, gap_two, hf] at k
    exact k
  | pulley j =>
    have hf : j.frame = ⟨bodies j.bodyA, bodies j.bodyB⟩ := ha.1
    obtain ⟨e, -⟩ := onTwoP_at h (by rw [hf]; exact hok.ne)
    have k := Pulley.solvePos_exact j (by rw [hf]; exact hok.good) hfr (by rw [hf]; exact hA) (by rw [hf]; exact hB) (two pos j.frame)
    have w : ∀ (q : Arr (Pos F)) (b : JBody F) (l : Vec2 F), (q.at' b.index).c + b.arm (q.at' b.index).a l = b.worldPoint q l := fun q b l => by
      rw [worldPoint_arm]; ext <;> simp
    dsimp only at k
    rw [← e] at k
    simp only [two, w] at k
    rw [hf] at k
    exact k
  | friction j => trivial
  | motor j => trivial
  | mouse j => trivial
  | gear j => trivial

theorem add_drift {xA xB dA dB : Vec2 F} (h : dB - dA = -(xB - xA)) : xA + dA = xB + dB := by
  have hx := congrArg Vec2.x h
  have hy := congrArg Vec2.y h
  simp only [Vec2.sub_x, Vec2.neg_x, Vec2.sub_y, Vec2.neg_y] at hx hy
  ext <;> simp only [Vec2.add_x, Vec2.add_y] <;> linarith

theorem gap_world (f : PairFrame F) (lA lB : Vec2 F) (pos : Arr (Pos F)) :
    (two pos f).b.c + f.b.arm (two pos f).b.a lB - (two pos f).a.c - f.a.arm (two pos f).a.a lA = f.b.worldPoint pos lB - f.a.worldPoint pos lA := gap_two f lA lB pos

/-- A joint that is prepared, on any bodies. -/
theorem Joint.solvePos_corrected [ElemLaws F] {n : Nat} {bodies : Nat → JBody F} {pos0 pos pos' : Arr (Pos F)} {j : Joint F} {r : Bool} (hok : j.Ok n bodies)
    (hfr : j.Framed) (ha : j.Armed bodies pos0) (h : j.solvePos pos = some (pos', r)) : j.Corrected bodies pos pos' := by
  cases j with
  | revolute j =>
    have hf : j.frame = ⟨bodies j.bodyA, bodies j.bodyB⟩ := ha.1
    obtain ⟨e, -⟩ := onTwoP_at h (by rw [hf]; exact hok.ne)
    intro hl
    have hg : j.frame.Good := by rw [hf]; exact hok.good
    have k := Revolute.posPoint_corrected j hg (two pos j.frame)
    dsimp only at k
    rw [← Revolute.solvePos_plain j (fun q => by rw [hf]; exact hl q) hg, ← e, gap_world] at k
    have d := drift_rel pos pos' j.frame (j.frame.a.worldPoint pos j.localAnchorA) (j.frame.b.worldPoint pos j.localAnchorB)
    rw [← worldPoint_arm, ← worldPoint_arm] at d
    have := d.trans k
    rw [hf] at this
    exact add_drift this
  | weld j =>
    have hf : j.frame = ⟨bodies j.bodyA, bodies j.bodyB⟩ := ha.1
    obtain ⟨e, -⟩ := onTwoP_at h (by rw [hf]; exact hok.ne)
    have hg : j.frame.Good := by rw [hf]; exact hok.good
    have k := Weld.solvePos_corrected j hg (two pos j.frame)
    dsimp only at k
    rw [← e, gap_world] at k
    have d := drift_rel pos pos' j.frame (j.frame.a.worldPoint pos j.localAnchorA) (j.frame.b.worldPoint pos j.localAnchorB)
    rw [← worldPoint_arm, ← worldPoint_arm] at d
    have := d.trans k.1
    rw [hf] at this k
    refine ⟨add_drift this, fun h1 h2 => ?_⟩
    have q := k.2 h1 h2
    simp only [moved, two] at q
    simp only [Joint.bodyA, Joint.bodyB]
    linarith
  | prismatic j =>
    have hf : j.frame = ⟨bodies j.bodyA, bodies j.bodyB⟩ := ha.1
    obtain ⟨e, -⟩ := onTwoP_at h (by rw [hf]; exact hok.ne)
    have hg : j.frame.Good := by rw [hf]; exact hok.good
    obtain ⟨x1, x2, x3⟩ := axes_rot (two pos j.frame).a.a hfr.1 hfr.2
    obtain ⟨k1, k2, k3, -⟩ := Prismatic.solvePos_corrected j hg (two pos j.frame) x1 x2 x3
    have row : ∀ d : Vec2 F, along d (cross (gap j.frame j.localAnchorA j.localAnchorB (two pos j.frame) + j.frame.a.arm (two pos j.frame).a.a j.localAnchorA) d)
        (cross (j.frame.b.arm (two pos j.frame).b.a j.localAnchorB) d) (moved (two pos j.frame) (two pos' j.frame)) =
        dot d (drift pos pos' j.frame.b.index (j.frame.b.worldPoint pos j.localAnchorB) - drift pos pos' j.frame.a.index (j.frame.b.worldPoint pos j.localAnchorB)) := fun d => by
      rw [drift_row, gap_two]
      unfold along
      dsimp only
      have e1 : j.frame.b.worldPoint pos j.localAnchorB - j.frame.a.worldPoint pos j.localAnchorA + j.frame.a.arm (two pos j.frame).a.a j.localAnchorA =
          j.frame.b.worldPoint pos j.localAnchorB - (pos.at' j.frame.a.index).c := by
        have : j.frame.a.arm (two pos j.frame).a.a j.localAnchorA = _ := worldPoint_arm j.frame.a pos j.localAnchorA
        rw [this]; ext <;> simp
      have e2 : j.frame.b.arm (two pos j.frame).b.a j.localAnchorB = _ := worldPoint_arm j.frame.b pos j.localAnchorB
      rw [e1, e2]
    rw [← e, arms_gap, row] at k1 k3
    rw [← e] at k2
    rw [gap_two] at k1 k3
    have apart : ∀ d xA xB dA dB : Vec2 F, dot d (xB + dB - (xA + dA)) = dot d (xB - xA) + dot d (dB - dA) := fun d xA xB dA dB => by
      simp only [dot, Vec2.add_x, Vec2.add_y, Vec2.sub_x, Vec2.sub_y]; ring
    rw [hf] at k1 k2 k3
    refine ⟨?_, fun h2 => ?_, fun hl hlt => ?_⟩
    · rw [apart]
      have := k1
      simp only [two] at this
      simp only [Joint.anchorA, Joint.anchorB, Joint.bodyA, Joint.bodyB, Joint.localAnchorA, Joint.localAnchorB]
      rw [this]; ring
    · have q := k2 h2
      simp only [moved, two] at q
      simp only [Joint.bodyA, Joint.bodyB]
      linarith
    · rw [apart]
      simp only [two] at k3
      simp only [Joint.anchorA, Joint.anchorB, Joint.bodyA, Joint.bodyB, Joint.localAnchorA, Joint.localAnchorB]
      obtain ⟨q1, q2⟩ := j.limit_within hl hlt (dot ((Rot.ofAngle (pos.at' (bodies j.bodyA).index).a).mulV j.localXAxisA)
        ((bodies j.bodyB).worldPoint pos j.localAnchorB - (bodies j.bodyA).worldPoint pos j.localAnchorA))
        |dot ((Rot.ofAngle (pos.at' (bodies j.bodyA).index).a).mulV j.localYAxisA)
          ((bodies j.bodyB).worldPoint pos j.localAnchorB - (bodies j.bodyA).worldPoint pos j.localAnchorA)|
      have hs : (0 : F) < linearSlop := by unfold linearSlop; norm_num
      refine ⟨fun c => ?_, fun c => ?_⟩
      all_goals
        cases hc : (j.limitError (dot ((Rot.ofAngle (pos.at' (bodies j.bodyA).index).a).mulV j.localXAxisA)
          ((bodies j.bodyB).worldPoint pos j.localAnchorB - (bodies j.bodyA).worldPoint pos j.localAnchorA))
          |dot ((Rot.ofAngle (pos.at' (bodies j.bodyA).index).a).mulV j.localYAxisA)
            ((bodies j.bodyB).worldPoint pos j.localAnchorB - (bodies j.bodyA).worldPoint pos j.localAnchorA)|).1
        · have := q2 hc
          exfalso; linarith
        · rw [k3 hc]
          rcases q1 hc with h | h <;> linarith
  | pulley j =>
    have hf : j.frame = ⟨bodies j.bodyA, bodies j.bodyB⟩ := ha.1
    obtain ⟨e, -⟩ := onTwoP_at h (by rw [hf]; exact hok.ne)
    have hg : j.frame.Good := by rw [hf]; exact hok.good
    have k := Pulley.solvePos_corrected j hg hfr (two pos j.frame)
    dsimp only at k
    rw [← e] at k
    have w : ∀ (q : Arr (Pos F)) (b : JBody F) (l : Vec2 F), (q.at' b.index).c + b.arm (q.at' b.index).a l = b.worldPoint q l := fun q b l => by
      rw [worldPoint_arm]; ext <;> simp
    have dr : ∀ (b : JBody F) (l : Vec2 F) (m : Vel F), m = ⟨(pos'.at' b.index).c - (pos.at' b.index).c, (pos'.at' b.index).a - (pos.at' b.index).a⟩ →
        m.v + crossSV m.w (b.arm (pos.at' b.index).a l) = drift pos pos' b.index (b.worldPoint pos l) := fun b l m hm => by
      rw [worldPoint_arm, hm]
      ext <;> simp only [drift, crossSV, Vec2.add_x, Vec2.add_y, Vec2.sub_x, Vec2.sub_y] <;> ring
    intro h1 h2
    simp only [two] at k
    rw [dr _ _ _ (by rfl), dr _ _ _ (by rfl)] at k
    simp only [w] at k
    rw [hf] at k
    have hs : (0 : F) < linearSlop := by unfold linearSlop; norm_num
    have q := k (pulley_side h1).1 (pulley_side h2).1
    unfold pulleyAxis at q
    simp only [Joint.anchorA, Joint.anchorB, Joint.bodyA, Joint.bodyB, Joint.localAnchorA, Joint.localAnchorB] at h1 h2 ⊢
    rw [if_pos h1, if_pos h2, dot_div, dot_div] at q
    linear_combination q
  | distance j => trivial
  | wheel j => trivial
  | friction j => trivial
  | motor j => trivial
  | mouse j => trivial
  | gear j => trivial

theorem b2max_le {a b c : F} : b2max a b ≤ c ↔ a ≤ c ∧ b ≤ c := by
  unfold b2max
  split_ifs with h
  · exact ⟨fun k => ⟨k, by linarith⟩, fun k => k.1⟩
  · exact ⟨fun k => ⟨by linarith [not_lt.mp h], k⟩, fun k => k.2⟩

theorem angularSlop_nonneg [ElemLaws F] : (0 : F) ≤ angularSlop := by
  have := ElemLaws.pi_pos (F := F)
  unfold angularSlop; positivity

/-- The report of the position correction of a joint. -/
theorem Joint.solvePos_flag [ElemLaws F] {n : Nat} {bodies : Nat → JBody F} {pos0 pos pos' : Arr (Pos F)} {j : Joint F} {r : Bool} (hok : j.Ok n bodies)
    (ha : j.Armed bodies pos0) (ht : j.Tells bodies pos) (h : j.solvePos pos = some (pos', r)) : r = true ↔ j.Close bodies pos := by
  have hs : (0 : F) < linearSlop := by unfold linearSlop; norm_num
  cases j with
  | revolute j =>
    have hf : j.frame = ⟨bodies j.bodyA, bodies j.bodyB⟩ := ha.1
    obtain ⟨-, rfl⟩ := onTwoP_at h (by rw [hf]; exact hok.ne)
    have hl : j.enableLimit = false := ht
    unfold Revolute.solvePos Revolute.posLimit Revolute.posPoint
    dsimp only
    rw [if_neg (by rw [hl]; simp)]
    simp only [Bool.and_eq_true, decide_eq_true_eq, angularSlop_nonneg, and_true]
    rw [gap_world, hf]
    exact Iff.rfl
  | weld j =>
    have hf : j.frame = ⟨bodies j.bodyA, bodies j.bodyB⟩ := ha.1
    obtain ⟨-, rfl⟩ := onTwoP_at h (by rw [hf]; exact hok.ne)
    unfold Weld.solvePos
    dsimp only
    rw [gap_world, hf]
    split_ifs with hst
    · simp only [Bool.and_eq_true, decide_eq_true_eq, angularSlop_nonneg, and_true]
      exact ⟨fun k => ⟨k, fun q => absurd hst (not_lt.mpr q)⟩, fun k => k.1⟩
    all_goals
      simp only [Bool.and_eq_true, decide_eq_true_eq]
      exact ⟨fun k => ⟨k.1, fun _ => k.2⟩, fun k => ⟨k.1, k.2 (not_lt.mp hst)⟩⟩
  | prismatic j =>
    have hf : j.frame = ⟨bodies j.bodyA, bodies j.bodyB⟩ := ha.1
    obtain ⟨-, rfl⟩ := onTwoP_at h (by rw [hf]; exact hok.ne)
    have hl : j.enableLimit = true → 2 * linearSlop ≤ j.upperTranslation - j.lowerTranslation := ht
    unfold Prismatic.solvePos
    dsimp only
    rw [gap_world, hf]
    simp only [Bool.and_eq_true, decide_eq_true_eq]
    simp only [Joint.Close, Joint.anchorA, Joint.anchorB, Joint.bodyA, Joint.bodyB, Joint.localAnchorA, Joint.localAnchorB, two]
    generalize dot ((Rot.ofAngle (pos.at' (bodies j.bodyA).index).a).mulV j.localXAxisA)
      ((bodies j.bodyB).worldPoint pos j.localAnchorB - (bodies j.bodyA).worldPoint pos j.localAnchorA) = t
    generalize |dot ((Rot.ofAngle (pos.at' (bodies j.bodyA).index).a).mulV j.localYAxisA)
      ((bodies j.bodyB).worldPoint pos j.localAnchorB - (bodies j.bodyA).worldPoint pos j.localAnchorA)| = e
    unfold Prismatic.limitError
    by_cases hE : j.enableLimit = true
    · have := hl hE
      rw [if_pos hE, if_neg (by rw [abs_of_nonneg (by linarith)]; linarith)]
      split_ifs with k1 k2
      · rw [b2max_le]
        exact ⟨fun k => ⟨k.1.1, k.2, fun _ => ⟨by linarith, by linarith⟩⟩, fun k => ⟨⟨k.1, by linarith [(k.2.2 hE).1]⟩, k.2.1⟩⟩
      · rw [b2max_le]
        exact ⟨fun k => ⟨k.1.1, k.2, fun _ => ⟨by linarith, by linarith⟩⟩, fun k => ⟨⟨k.1, by linarith [(k.2.2 hE).2]⟩, k.2.1⟩⟩
      · have k1' := not_le.mp k1
        have k2' := not_le.mp k2
        exact ⟨fun k => ⟨k.1, k.2, fun _ => ⟨by linarith, by linarith⟩⟩, fun k => ⟨k.1, k.2.1⟩⟩
    · rw [if_neg hE]
      exact ⟨fun k => ⟨k.1, k.2, fun q => absurd q hE⟩, fun k => ⟨k.1, k.2.1⟩⟩
  | wheel j =>
    have hf : j.frame = ⟨bodies j.bodyA, bodies j.bodyB⟩ := ha.1
    obtain ⟨-, rfl⟩ := onTwoP_at h (by rw [hf]; exact hok.ne)
    have hl : j.enableLimit = false := ht
    unfold Wheel.solvePos Wheel.posLimit Wheel.posLine
    dsimp only
    rw [if_neg (by rw [hl]; simp)]
    simp only [decide_eq_true_eq, b2max_le, hs.le, true_and]
    have e : (two pos j.frame).b.c - (two pos j.frame).a.c + j.frame.b.arm (two pos j.frame).b.a j.localAnchorB - j.frame.a.arm (two pos j.frame).a.a j.localAnchorA =
        j.frame.b.worldPoint pos j.localAnchorB - j.frame.a.worldPoint pos j.localAnchorA := by
      rw [← gap_two]; unfold gap; ext <;> simp <;> ring
    rw [e, hf, show ∀ x y : Vec2 F, dot x y = dot y x from fun x y => by simp only [dot]; ring]
    exact Iff.rfl
  | distance j =>
    have hf : j.frame = ⟨bodies j.bodyA, bodies j.bodyB⟩ := ha.1
    obtain ⟨-, rfl⟩ := onTwoP_at h (by rw [hf]; exact hok.ne)
    obtain ⟨hm, hL⟩ := ht
    unfold DistanceJ.solvePos
    dsimp only
    rw [gap_world, hf]
    have hn : ((bodies j.bodyB).worldPoint pos j.localAnchorB - (bodies j.bodyA).worldPoint pos j.localAnchorA).normalize.2 =
        ((bodies j.bodyB).worldPoint pos j.localAnchorB - (bodies j.bodyA).worldPoint pos j.localAnchorA).length := by
      unfold Vec2.normalize; exact congrArg Prod.snd (if_neg (not_lt.mpr hL))
    rw [hn]
    simp only [Joint.Close, Joint.anchorA, Joint.anchorB, Joint.bodyA, Joint.bodyB, Joint.localAnchorA, Joint.localAnchorB]
    generalize ((bodies j.bodyB).worldPoint pos j.localAnchorB - (bodies j.bodyA).worldPoint pos j.localAnchorA).length = L
    unfold DistanceJ.posError
    split_ifs with k1 k2 k3
    · simp only [decide_eq_true_eq, abs_lt]
      constructor
      · intro k; constructor <;> linarith [k.1, k.2]
      · intro k; constructor <;> linarith [k.1, k.2]
    · simp only [decide_eq_true_eq, abs_lt]
      constructor
      · intro k; constructor <;> linarith [k.1, k.2]
      · intro k; constructor <;> linarith [k.1, k.2]
    · simp only [decide_eq_true_eq, abs_lt]
      constructor
      · intro k; constructor <;> linarith [k.1, k.2]
      · intro k; constructor <;> linarith [k.1, k.2]
    · have k2' := not_lt.mp k2
      have k3' := not_lt.mp k3
      exact ⟨fun _ => ⟨by linarith, by linarith⟩, fun _ => rfl⟩
  | pulley j =>
    have hf : j.frame = ⟨bodies j.bodyA, bodies j.bodyB⟩ := ha.1
    obtain ⟨-, rfl⟩ := onTwoP_at h (by rw [hf]; exact hok.ne)
    have w : ∀ (q : Arr (Pos F)) (b : JBody F) (l : Vec2 F), (q.at' b.index).c + b.arm (q.at' b.index).a l = b.worldPoint q l := fun q b l => by
      rw [worldPoint_arm]; ext <;> simp
    unfold Pulley.solvePos
    dsimp only
    simp only [decide_eq_true_eq, two, w]
    rw [hf]
    exact Iff.rfl
  | friction j => cases h; exact ⟨fun _ => trivial, fun _ => rfl⟩
  | motor j => cases h; exact ⟨fun _ => trivial, fun _ => rfl⟩
  | mouse j => cases h; exact ⟨fun _ => trivial, fun _ => rfl⟩
  | gear j => exact ht.elim

theorem Joint.solves_strip [ElemLaws F] {st : JStep F} {bodies : Nat → JBody F} {pos : Arr (Pos F)} : ∀ {vs : List (Arr (Vel F))} {j j' : Joint F} {log : List (Arr (Vel F) × Arr (Vel F))},
    j.Armed bodies pos → j.solves st vs = some (j', log) → j'.strip = j.strip
  | [], j, j', log, _, h => by obtain ⟨rfl, -⟩ := Joint.solves_nil h; rfl
  | v :: vs, j, j', log, ha, h => by
    obtain ⟨j1, v1, log1, h1, h2, rfl⟩ := Joint.solves_cons h
    obtain ⟨_, hs⟩ := Joint.solveVel_pushed ha h1
    obtain ⟨_, _, _, _, _, _, q⟩ := Joint.same_of_strip hs bodies pos
    exact (Joint.solves_strip (q.2 ha) h2).trans hs

theorem Joint.calls_strip [ElemLaws F] {st : JStep F} {bodies : Nat → JBody F} {pos : Arr (Pos F)} {v : Arr (Vel F)} {vs : List (Arr (Vel F))} {j j' : Joint F} {log : List (Arr (Vel F) × Arr (Vel F))}
    (h : j.calls st bodies pos v vs = some (j', log)) : j'.strip = (j.prepared st bodies pos).strip := by
  obtain ⟨j1, v1, log1, h1, h2, rfl⟩ := Joint.calls_some h
  obtain ⟨_, _, _, _, s⟩ := Joint.initVel_pushed h1
  obtain ⟨_, _, _, _, _, _, ha⟩ := Joint.calls_same s
  exact (Joint.solves_strip ha h2).trans s

theorem Joint.calls_ready {n : Nat} [ElemLaws F] {st : JStep F} {bodies : Nat → JBody F} {pos : Arr (Pos F)} {v : Arr (Vel F)} {vs : List (Arr (Vel F))} {j j' : Joint F}
    {log : List (Arr (Vel F) × Arr (Vel F))} (hok : j.Ok n bodies) (h : j.calls st bodies pos v vs = some (j', log)) :
    j'.Ok n bodies ∧ j'.Armed bodies pos ∧ j'.Tuned bodies pos ∧ j'.bodyA = j.bodyA ∧ j'.bodyB = j.bodyB := by
  have s := Joint.calls_strip h
  obtain ⟨_, q1, q2, _, _, _, ha⟩ := Joint.calls_same s
  refine ⟨?_, ha, Joint.tuned_of_strip s, q1, q2⟩
  obtain ⟨a1, a2, a3, a4, a5, a6, a7, a8⟩ := hok
  refine ⟨?_, ?_, ?_, ?_, ?_, ?_, ?_, ?_⟩ <;> (first | rw [q1, q2] | rw [q1] | rw [q2]) <;> assumption
end
end B2
