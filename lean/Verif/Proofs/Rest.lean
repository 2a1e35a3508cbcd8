import Verif.Proofs.WorldBounce
import Verif.Spec.Viewpoint

/-! # One contact point that bears a body: the solvers leave the body where it is -/
set_option linter.unusedSectionVars false
namespace B2
open Spec World
section
variable {F : Type} [Field F] [LinearOrder F] [IsStrictOrderedRing F] [Elem F]
variable {E : Engine F}

/-- A contact of one point presses straight: the bodies do not turn, they part with speed `u` along the normal, and the impulse that stops them pushes. -/
structure Leaning (vc : VConstraint F) (vel : Arr (Vel F)) (u : F) : Prop where
  count : vc.pointCount = 1
  ne : vc.indexA ≠ vc.indexB
  speed : vc.tangentSpeed = 0
  rough : 0 ≤ vc.friction
  armA : vc.invIA * cross vc.p1.rA vc.normal = 0
  armB : vc.invIB * cross vc.p1.rB vc.normal = 0
  unit : dot vc.normal vc.normal = 1
  mass : vc.p1.normalMass * (vc.invMassA + vc.invMassB) = 1
  bias : vc.p1.velocityBias = 0
  grip : vc.p1.tangentImpulse = 0
  acc : 0 ≤ vc.p1.normalImpulse
  left : 0 ≤ vc.p1.normalImpulse - vc.p1.normalMass * u
  wA : (vel.at' vc.indexA).w = 0
  wB : (vel.at' vc.indexB).w = 0
  rel : (vel.at' vc.indexB).v = (vel.at' vc.indexA).v + u * vc.normal

theorem cross_mul (r n : Vec2 F) (s : F) : cross r (s * n) = s * cross r n := by
  simp only [cross, Vec2.smul_x, Vec2.smul_y]; ring

theorem push_straight {mA mB iA iB : F} {rA rB n : Vec2 F} {s : Two F} (l : F) (hA : iA * cross rA n = 0) (hB : iB * cross rB n = 0) :
    push mA mB iA iB rA rB (l * n) s = ⟨⟨s.a.v - mA * (l * n), s.a.w⟩, ⟨s.b.v + mB * (l * n), s.b.w⟩⟩ := by
  unfold push
  have h1 : iA * cross rA (l * n) = 0 := by rw [cross_mul, mul_left_comm, hA, mul_zero]
  have h2 : iB * cross rB (l * n) = 0 := by rw [cross_mul, mul_left_comm, hB, mul_zero]
  rw [h1, h2, sub_zero, add_zero]

theorem zero_mulV (n : Vec2 F) : (0 : F) * n = ⟨0, 0⟩ := by ext <;> simp

theorem relVel_straight {a b : Vel F} (rA rB : Vec2 F) (hA : a.w = 0) (hB : b.w = 0) : relVel a b rA rB = b.v - a.v := by
  unfold relVel crossSV
  rw [hA, hB]
  ext <;> simp

/-- One iteration stops the bodies. -/
theorem Leaning.once {vc vc' : VConstraint F} {vel vel' : Arr (Vel F)} {u : F} {block : Bool} (h : Leaning vc vel u) (e : solveConstraint block vc vel = some (vc', vel')) :
    Leaning vc' vel' 0 ∧ vc'.indexA = vc.indexA ∧ vc'.indexB = vc.indexB ∧ vc'.pointCount = vc.pointCount := by
  unfold solveConstraint at e
  simp only [Option.bind_eq_bind, Option.bind_eq_some_iff] at e
  obtain ⟨s, e1, ⟨vc1, s1⟩, e2, vel1, e3, e4⟩ := e
  cases e4
  have hs : s = ⟨vel.at' vc.indexA, vel.at' vc.indexB⟩ := by
    unfold VConstraint.load Arr.get at e1
    simp only [Option.bind_eq_bind, Option.bind_eq_some_iff] at e1
    obtain ⟨a, e5, b, e6, e7⟩ := e1
    split at e5 <;> cases e5
    split at e6 <;> cases e6
    cases e7; rfl
  have hsaw : s.a.w = 0 := by rw [hs]; exact h.wA
  have hsbw : s.b.w = 0 := by rw [hs]; exact h.wB
  have hrel : s.b.v - s.a.v = u * vc.normal := by
    rw [hs]; dsimp only; rw [h.rel]; ext <;> simp
  have hab : s.b.v = s.a.v + u * vc.normal := by rw [hs]; exact h.rel
  clear hs e1
  unfold solveContact at e2
  rw [h.count] at e2
  dsimp only at e2
  have ht : solveTangent vc vc.p1 s = (vc.p1, s) := by
    unfold solveTangent
    dsimp only
    have hvt : dot (relVel s.a s.b vc.p1.rA vc.p1.rB) (crossVS vc.normal 1) - vc.tangentSpeed = 0 := by
      rw [relVel_straight _ _ hsaw hsbw, hrel, h.speed]
      simp only [dot, crossVS, Vec2.smul_x, Vec2.smul_y]; ring
    have hm : 0 ≤ vc.friction * vc.p1.normalImpulse := mul_nonneg h.rough h.acc
    have hcl : b2clamp (vc.p1.tangentImpulse + vc.p1.tangentMass * -0) (-(vc.friction * vc.p1.normalImpulse)) (vc.friction * vc.p1.normalImpulse) = 0 := by
      rw [h.grip, neg_zero, mul_zero, add_zero]
      unfold b2clamp b2max b2min
      split_ifs <;> linarith
    rw [hvt, hcl, h.grip, sub_zero]
    unfold VConstraint.push
    rw [zero_mulV, push_zero]
    have : ({ vc.p1 with tangentImpulse := 0 } : VPoint F) = vc.p1 := by rw [← h.grip]
    rw [this]
  rw [ht] at e2
  dsimp only at e2
  have hM : vc.p1.normalMass * (vc.invMassA + vc.invMassB) = 1 := h.mass
  have hn : solveNormal vc vc.p1 s = ({ vc.p1 with normalImpulse := vc.p1.normalImpulse - vc.p1.normalMass * u },
      ⟨⟨s.a.v - vc.invMassA * ((-(vc.p1.normalMass * u)) * vc.normal), s.a.w⟩, ⟨s.b.v + vc.invMassB * ((-(vc.p1.normalMass * u)) * vc.normal), s.b.w⟩⟩) := by
    unfold solveNormal
    dsimp only
    have hvn : dot (relVel s.a s.b vc.p1.rA vc.p1.rB) vc.normal = u := by
      rw [relVel_straight _ _ hsaw hsbw, hrel]
      have := h.unit
      simp only [dot, Vec2.smul_x, Vec2.smul_y] at this ⊢
      linear_combination u * this
    have hi : b2max (vc.p1.normalImpulse + -vc.p1.normalMass * (u - 0)) 0 = vc.p1.normalImpulse - vc.p1.normalMass * u := by
      have := h.left
      unfold b2max
      split_ifs <;> linarith
    rw [hvn, h.bias, hi]
    unfold VConstraint.push
    rw [push_straight _ h.armA h.armB, show vc.p1.normalImpulse - vc.p1.normalMass * u - vc.p1.normalImpulse = -(vc.p1.normalMass * u) by ring]
  rw [hn] at e2
  cases e2
  unfold VConstraint.store Arr.set at e3
  dsimp only at e3
  simp only [Option.bind_eq_bind, Option.bind_eq_some_iff] at e3
  obtain ⟨vel2, e5, e6⟩ := e3
  split at e5 <;> cases e5
  split at e6 <;> cases e6
  have hA : upd (upd vel.at' vc.indexA (⟨s.a.v - vc.invMassA * ((-(vc.p1.normalMass * u)) * vc.normal), s.a.w⟩ : Vel F)) vc.indexB (⟨s.b.v + vc.invMassB * ((-(vc.p1.normalMass * u)) * vc.normal), s.b.w⟩ : Vel F) vc.indexA =
      ⟨s.a.v - vc.invMassA * ((-(vc.p1.normalMass * u)) * vc.normal), s.a.w⟩ := by rw [upd_other _ _ h.ne, upd_same]
  have hB : upd (upd vel.at' vc.indexA (⟨s.a.v - vc.invMassA * ((-(vc.p1.normalMass * u)) * vc.normal), s.a.w⟩ : Vel F)) vc.indexB (⟨s.b.v + vc.invMassB * ((-(vc.p1.normalMass * u)) * vc.normal), s.b.w⟩ : Vel F) vc.indexB =
      ⟨s.b.v + vc.invMassB * ((-(vc.p1.normalMass * u)) * vc.normal), s.b.w⟩ := upd_same _ _ _
  refine ⟨⟨rfl, h.ne, h.speed, h.rough, h.armA, h.armB, h.unit, h.mass, h.bias, h.grip, h.left, ?_, ?_, ?_, ?_⟩, rfl, rfl, h.count.symm⟩
  · dsimp only; rw [mul_zero, sub_zero]; exact h.left
  · dsimp only; rw [hA]; exact hsaw
  · dsimp only; rw [hB]; exact hsbw
  · dsimp only
    rw [hA, hB]
    dsimp only
    rw [hab]
    ext
    · simp only [Vec2.add_x, Vec2.sub_x, Vec2.smul_x]
      linear_combination (-u * vc.normal.x) * hM
    · simp only [Vec2.add_y, Vec2.sub_y, Vec2.smul_y]
      linear_combination (-u * vc.normal.y) * hM

theorem Leaning.iterate {block : Bool} : ∀ (n i : Nat) {vc : VConstraint F} {vel : Arr (Vel F)} {u : F} {r : List (VConstraint F) × Arr (Vel F)}, Leaning vc vel u →
    B2.iterate block (fun _ v => v) i n [vc] vel = some r → ∃ vc', r.1 = [vc'] ∧ Leaning vc' r.2 (if n = 0 then u else 0) ∧ vc'.indexA = vc.indexA ∧ vc'.indexB = vc.indexB ∧ vc'.pointCount = vc.pointCount := by
  intro n
  induction n with
  | zero => intro i vc vel u r h e; cases e; exact ⟨vc, rfl, h, rfl, rfl, rfl⟩
  | succ n ih =>
    intro i vc vel u r h e
    unfold B2.iterate at e
    simp only [Option.bind_eq_bind, Option.bind_eq_some_iff] at e
    obtain ⟨⟨l, vel1⟩, e1, e2⟩ := e
    unfold solveVelocities at e1
    simp only [Option.bind_eq_bind, Option.bind_eq_some_iff] at e1
    obtain ⟨⟨vc1, vel2⟩, e3, ⟨l2, vel3⟩, e4, e5⟩ := e1
    cases e4
    cases e5
    obtain ⟨k1, k2, k3, k4⟩ := h.once e3
    obtain ⟨vc', q1, q2, q3, q4, q5⟩ := ih (i + 1) k1 e2
    refine ⟨vc', q1, ?_, q3.trans k2, q4.trans k3, q5.trans k4⟩
    rw [if_neg (by omega)]
    split at q2 <;> exact q2

/-- What the contact solver makes of one contact point that bears a body. -/
theorem velocityPhase_rest {ph : VelocityPhase F} {pos : Arr (Pos F)} {vel : Arr (Vel F)} {ci : ContactIn F} {r : List (VConstraint F) × Arr (Vel F) × List (Manifold F)} {q : ManifoldPoint F} {wm : WorldManifold F} {u : F}
    (hji : ∀ v, ph.jointInit v = v) (hjs : ph.joints = fun _ v => v) (hn : 1 ≤ ph.iterations) (hd : 0 ≤ ph.dtRatio) (hq : ci.manifold.points = [q]) (hpush : 0 ≤ q.normalImpulse) (hgrip : q.tangentImpulse = 0)
    (hne : ci.indexA ≠ ci.indexB) (hmass : 0 < ci.invMassA + ci.invMassB) (hspeed : ci.tangentSpeed = 0) (hrough : 0 ≤ ci.friction)
    (hwm : ci.worldAt pos = some wm) (hunit : dot wm.normal wm.normal = 1)
    (harmA : ci.invIA * cross (wm.p1 - (pos.at' ci.indexA).c) wm.normal = 0) (harmB : ci.invIB * cross (wm.p1 - (pos.at' ci.indexB).c) wm.normal = 0)
    (hwA : (vel.at' ci.indexA).w = 0) (hwB : (vel.at' ci.indexB).w = 0) (hrel : (vel.at' ci.indexB).v = (vel.at' ci.indexA).v + (-u) * wm.normal) (hu : 0 ≤ u) (hthr : u ≤ ci.threshold ∨ ci.restitution = 0)
    (e : velocityPhase ph pos vel [ci] = some r) :
    (r.2.1.at' ci.indexA).w = 0 ∧ (r.2.1.at' ci.indexB).w = 0 ∧ (r.2.1.at' ci.indexB).v = (r.2.1.at' ci.indexA).v ∧ ∃ m p, r.2.2 = [m] ∧ m.points = [p] ∧ p.tangentImpulse = 0 := by
  unfold velocityPhase at e
  simp only [Option.bind_eq_bind, Option.bind_eq_some_iff] at e
  obtain ⟨cs, e1, vel1, e2, r1, e3, e4⟩ := e
  cases e4
  rw [hji] at e3
  unfold setUp at e1
  simp only [List.mapM_cons, List.mapM_nil, Option.bind_eq_bind, Option.pure_def, Option.bind_eq_some_iff, Option.some.injEq] at e1
  obtain ⟨x, ⟨⟨vc0, pc0⟩, e5, vc, e6, rfl⟩, _, rfl, rfl⟩ := e1
  unfold newConstraint at e5
  rw [hq] at e5
  dsimp only at e5
  cases e5
  unfold initConstraint at e6
  simp only [Option.bind_eq_bind, Option.bind_eq_some_iff] at e6
  obtain ⟨pA, f1, vA, f2, pB, f3, vB, f4, e6⟩ := e6
  rw [hq] at e6
  simp only [List.isEmpty_cons, Bool.false_eq_true, if_false, Option.bind_eq_some_iff] at e6
  obtain ⟨wm', e7, e6⟩ := e6
  have hvc := (Option.some.inj e6).symm
  clear e6
  unfold Arr.get at f1 f2 f3 f4
  split at f1 <;> cases f1
  split at f2 <;> cases f2
  split at f3 <;> cases f3
  split at f4 <;> cases f4
  have : wm' = wm := by
    unfold ContactIn.worldAt at hwm
    rw [hwm] at e7
    exact (Option.some.inj e7).symm
  subst this
  have hkn : effMass ci.invMassA ci.invMassB ci.invIA ci.invIB (wm'.p1 - (pos.at' ci.indexA).c) (wm'.p1 - (pos.at' ci.indexB).c) wm'.normal = ci.invMassA + ci.invMassB := by
    unfold effMass
    rw [harmA, harmB]; ring
  have hvr : dot wm'.normal (relVel (vel.at' ci.indexA) (vel.at' ci.indexB) (wm'.p1 - (pos.at' ci.indexA).c) (wm'.p1 - (pos.at' ci.indexB).c)) = -u := by
    rw [relVel_straight _ _ hwA hwB, hrel]
    simp only [dot, Vec2.sub_x, Vec2.sub_y, Vec2.add_x, Vec2.add_y, Vec2.smul_x, Vec2.smul_y] at hunit ⊢
    linear_combination (-u) * hunit
  obtain ⟨acc, hacc⟩ : ∃ acc : F, acc = if ph.warm then ph.dtRatio * q.normalImpulse else 0 := ⟨_, rfl⟩
  have hacc0 : 0 ≤ acc := by
    rw [hacc]; split
    · exact mul_nonneg hd hpush
    · exact le_rfl
  have hM : 0 < ci.invMassA + ci.invMassB := hmass
  have key : Leaning vc vel1 (-u + (ci.invMassA + ci.invMassB) * acc) := by
    have hv1 : (vel1.at' ci.indexA).w = 0 ∧ (vel1.at' ci.indexB).w = 0 ∧ (vel1.at' ci.indexB).v = (vel1.at' ci.indexA).v + (-u + (ci.invMassA + ci.invMassB) * acc) * wm'.normal := by
      unfold warmIf at e2
      split at e2
      · rename_i hw
        rw [if_pos hw] at hacc
        unfold warmStart at e2
        simp only [List.map_cons, List.map_nil, List.foldlM_cons, List.foldlM_nil, Option.bind_eq_bind, Option.bind_eq_some_iff] at e2
        obtain ⟨vel2, e8, e9⟩ := e2
        cases e9
        unfold warmConstraint at e8
        simp only [Option.bind_eq_bind, Option.bind_eq_some_iff] at e8
        obtain ⟨s, e9, e10⟩ := e8
        have hs : s = ⟨vel.at' ci.indexA, vel.at' ci.indexB⟩ := by
          unfold VConstraint.load Arr.get at e9
          simp only [Option.bind_eq_bind, Option.bind_eq_some_iff] at e9
          obtain ⟨a, e11, b, e12, e13⟩ := e9
          split at e11 <;> cases e11
          split at e12 <;> cases e12
          cases e13; rw [hvc]
        rw [show vc.pointCount = 1 by rw [hvc]] at e10
        have hwp : ∀ s : Two F, warmPoint vc vc.p1 s = ⟨⟨s.a.v - ci.invMassA * (acc * wm'.normal), s.a.w⟩, ⟨s.b.v + ci.invMassB * (acc * wm'.normal), s.b.w⟩⟩ := by
          intro s
          unfold warmPoint VConstraint.push
          have e1 : vc.p1.normalImpulse * vc.normal + vc.p1.tangentImpulse * crossVS vc.normal 1 = acc * wm'.normal := by
            rw [hvc]
            dsimp only [initPoint, newPoint]
            rw [if_pos hw, if_pos hw, hgrip, mul_zero, hacc]
            ext <;> simp
          rw [e1, hvc]
          exact push_straight _ harmA harmB
        rw [hwp, hs] at e10
        unfold VConstraint.store Arr.set at e10
        simp only [Option.bind_eq_bind, Option.bind_eq_some_iff] at e10
        obtain ⟨vel3, e11, e12⟩ := e10
        split at e11 <;> cases e11
        split at e12 <;> cases e12
        have iA : vc.indexA = ci.indexA := by rw [hvc]
        have iB : vc.indexB = ci.indexB := by rw [hvc]
        dsimp only
        rw [iA, iB, upd_same, upd_other _ _ hne, upd_same]
        refine ⟨hwA, hwB, ?_⟩
        dsimp only
        rw [hrel]
        ext <;> simp only [Vec2.add_x, Vec2.add_y, Vec2.sub_x, Vec2.sub_y, Vec2.smul_x, Vec2.smul_y] <;> ring
      · rename_i hw
        cases e2
        rw [if_neg hw] at hacc
        rw [hacc, mul_zero, add_zero]
        exact ⟨hwA, hwB, hrel⟩
    refine ⟨by rw [hvc], by rw [hvc]; exact hne, by rw [hvc]; exact hspeed, by rw [hvc]; exact hrough, by rw [hvc]; exact harmA, by rw [hvc]; exact harmB, by rw [hvc]; exact hunit, ?_, ?_, ?_, ?_, ?_,
      by rw [hvc]; exact hv1.1, by rw [hvc]; exact hv1.2.1, by rw [hvc]; exact hv1.2.2⟩
    · rw [hvc]
      dsimp only [initPoint]
      rw [hkn, if_pos hM]
      exact one_div_mul_cancel hM.ne'
    · rw [hvc]
      dsimp only [initPoint]
      rw [hvr]
      split
      · rename_i hlt
        rcases hthr with h | h
        · linarith
        · rw [h]; simp
      · rfl
    · rw [hvc]
      dsimp only [initPoint, newPoint]
      rw [hgrip]; simp
    · rw [hvc]
      show 0 ≤ (if ph.warm then ph.dtRatio * q.normalImpulse else 0)
      rw [← hacc]; exact hacc0
    · rw [hvc]
      dsimp only [initPoint]
      rw [hkn, if_pos hM]
      dsimp only [newPoint]
      rw [← hacc]
      have : acc - 1 / (ci.invMassA + ci.invMassB) * (-u + (ci.invMassA + ci.invMassB) * acc) = u / (ci.invMassA + ci.invMassB) := by field_simp; ring
      rw [this]
      exact div_nonneg hu hM.le
  obtain ⟨vc', k1, k2, k3, k4, k5⟩ := Leaning.iterate _ _ key (by rw [hjs] at e3; exact e3)
  rw [if_neg (by omega)] at k2
  have iA : vc'.indexA = ci.indexA := k3.trans (by rw [hvc])
  have iB : vc'.indexB = ci.indexB := k4.trans (by rw [hvc])
  refine ⟨by have := k2.wA; rwa [iA] at this, by have := k2.wB; rwa [iB] at this, ?_, storeInto vc' ci.manifold, { q with normalImpulse := vc'.p1.normalImpulse, tangentImpulse := vc'.p1.tangentImpulse }, ?_, ?_, k2.grip⟩
  · have := k2.rel
    rw [iA, iB, zero_mulV] at this
    rw [this]; ext <;> simp
  · dsimp only
    rw [k1]; rfl
  · unfold storeInto
    rw [hq]
    simp [k2.count]

/-! ### Positions -/

/-- Bodies that overlap by no more than the slop are not pushed apart. -/
theorem solvePosConstraint_rest {pc : PConstraint F} {beta minSep : F} (hb : 0 ≤ beta) {ms : InvMasses F} {pos : Arr (Pos F)} {r : F × Arr (Pos F)} (hc : pc.pointCount = 1)
    (hs : -linearSlop ≤ (psm pc ((pos.at' pc.indexA).xf pc.localCenterA) ((pos.at' pc.indexB).xf pc.localCenterB) pc.lp1).separation)
    (e : solvePosConstraint beta pc ms minSep pos = some r) : r.2 = pos := by
  unfold solvePosConstraint at e
  simp only [Option.bind_eq_bind, Option.bind_eq_some_iff] at e
  obtain ⟨a, e1, b, e2, s, e3, p1, e4, p2, e5, e6⟩ := e
  cases e6
  unfold Arr.get at e1 e2
  split at e1 <;> cases e1
  split at e2 <;> cases e2
  unfold solvePoints at e3
  rw [hc] at e3
  cases e3
  have hcl : b2clamp (beta * ((psm pc ((pos.at' pc.indexA).xf pc.localCenterA) ((pos.at' pc.indexB).xf pc.localCenterB) pc.lp1).separation + linearSlop)) (-maxLinearCorrection) 0 = 0 := by
    have h1 : 0 ≤ beta * ((psm pc ((pos.at' pc.indexA).xf pc.localCenterA) ((pos.at' pc.indexB).xf pc.localCenterB) pc.lp1).separation + linearSlop) := mul_nonneg hb (by linarith)
    have h2 : (-maxLinearCorrection : F) < 0 := by unfold maxLinearCorrection; norm_num
    unfold b2clamp b2max b2min
    rw [if_neg (not_lt.mpr h1), if_neg (not_lt.mpr h2.le)]
  have hA : (solvePoint beta pc ms pc.lp1 ⟨pos.at' pc.indexA, pos.at' pc.indexB, minSep⟩).a = pos.at' pc.indexA := by
    unfold solvePoint
    dsimp only
    rw [hcl]
    simp only [neg_zero, zero_div, ite_self, zero_mulV]
    ext <;> simp [cross]
  have hB : (solvePoint beta pc ms pc.lp1 ⟨pos.at' pc.indexA, pos.at' pc.indexB, minSep⟩).b = pos.at' pc.indexB := by
    unfold solvePoint
    dsimp only
    rw [hcl]
    simp only [neg_zero, zero_div, ite_self, zero_mulV]
    ext <;> simp [cross]
  have hset : ∀ (p : Arr (Pos F)) i v p', p.at' i = v → p.set i v = some p' → p' = p := by
    rintro ⟨len, f⟩ i v p' hv hset
    unfold Arr.set at hset
    split at hset <;> cases hset
    dsimp only at hv ⊢
    congr 1
    funext j
    unfold upd
    split
    · rename_i h; subst h; exact hv.symm
    · rfl
  have h1 := hset _ _ _ _ hA.symm e4
  subst h1
  exact hset _ _ _ _ hB.symm e5

theorem islandPositions_rest {pc : PConstraint F} (hc : pc.pointCount = 1) : ∀ (n : Nat) {pos : Arr (Pos F)} {r : Arr (Pos F) × Bool},
    -linearSlop ≤ (psm pc ((pos.at' pc.indexA).xf pc.localCenterA) ((pos.at' pc.indexB).xf pc.localCenterB) pc.lp1).separation →
    islandPositions [] [pc] n pos = some r → r.1 = pos := by
  intro n
  induction n with
  | zero => intro pos r _ e; cases e; rfl
  | succ n ih =>
    intro pos r hs e
    unfold islandPositions at e
    simp only [Option.bind_eq_bind, Option.bind_eq_some_iff] at e
    obtain ⟨q, e1, r2, e2, e3⟩ := e
    have hq : q.2 = pos := by
      unfold solvePositions at e1
      simp only [Option.bind_eq_bind, Option.bind_eq_some_iff] at e1
      obtain ⟨x, e4, e5⟩ := e1
      cases e5
      unfold solvePosLoop at e4
      simp only [Option.bind_eq_bind, Option.bind_eq_some_iff] at e4
      obtain ⟨y, e6, e7⟩ := e4
      cases e7
      exact solvePosConstraint_rest (by unfold baumgarte; norm_num) hc hs e6
    unfold solvePosJoints at e2
    cases e2
    rw [hq] at e3
    dsimp only at e3
    split at e3
    · cases e3; rfl
    · exact ih hs e3

/-- The position solver's separation is that of the world manifold. -/
theorem psm_world {ci : ContactIn F} {q : ManifoldPoint F} {warm : Bool} {ratio : F} {vc : VConstraint F} {pc : PConstraint F} {xA xB : Xf F} {wm : WorldManifold F} (hq : ci.manifold.points = [q])
    (hn : newConstraint warm ratio ci = some (vc, pc)) (hwm : worldManifold ci.manifold xA ci.radiusA xB ci.radiusB = some wm) (hu : dot wm.normal wm.normal = 1)
    (hap : CentresApart ci.manifold xA xB) : (psm pc xA xB pc.lp1).separation = wm.s1 ∧ pc.pointCount = 1 ∧ pc.indexA = ci.indexA ∧ pc.indexB = ci.indexB ∧ pc.localCenterA = ci.localCenterA ∧ pc.localCenterB = ci.localCenterB := by
  unfold newConstraint at hn
  rw [hq] at hn
  cases hn
  refine ⟨?_, rfl, rfl, rfl, rfl, rfl⟩
  unfold worldManifold at hwm
  rw [hq] at hwm
  unfold psm
  dsimp only at hwm ⊢
  cases ht : ci.manifold.type with
  | circles =>
    rw [ht] at hwm
    dsimp only at hwm ⊢
    cases hwm
    have h1 := hap ht q (by rw [hq]; simp)
    dsimp only at hu ⊢
    rw [if_pos h1] at hu ⊢
    simp only [dot, Vec2.sub_x, Vec2.sub_y, Vec2.add_x, Vec2.add_y, Vec2.smul_x, Vec2.smul_y] at hu ⊢
    linear_combination (ci.radiusA + ci.radiusB) * hu
  | faceA =>
    rw [ht] at hwm
    dsimp only at hwm ⊢
    cases hwm
    exact (worldPoint_sep hu).symm
  | faceB =>
    rw [ht] at hwm
    dsimp only at hwm ⊢
    cases hwm
    have hu' : dot (xB.q.mulV ci.manifold.localNormal) (xB.q.mulV ci.manifold.localNormal) = 1 := by
      dsimp only at hu
      rw [← hu]
      simp only [dot, Vec2.neg_x, Vec2.neg_y]; ring
    have := worldPoint_sep (clip := xA.mulV q.localPoint) (plane := xB.mulV ci.manifold.localPoint) (rRef := ci.radiusB) (rOther := ci.radiusA) hu'
    dsimp only
    rw [this]; ring

end
end B2
