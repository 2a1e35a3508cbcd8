import Verif.Spec.JointInit
import Verif.Proofs.JointStill
import Verif.Proofs.EngineNarrow

/-!
# Joints that were defined where the bodies are
-/
set_option linter.unusedSectionVars false
namespace B2

section
variable {F : Type} [Field F] [LinearOrder F] [IsStrictOrderedRing F] [Elem F] [ElemLaws F]

theorem worldPoint_localPoint (bodies : Nat → JBody F) (pos : Arr (Pos F)) (b : Nat) (x : Vec2 F) :
    (bodies b).worldPoint pos (localPoint bodies pos b x) = x := by
  have h : Spec.IsRot (Rot.ofAngle (pos.at' (bodies b).index).a) := ofAngle_isRot _
  unfold JBody.worldPoint localPoint bodyXf
  simp only [Spec.IsRot] at h
  ext
  · simp only [Xf.mulV, Xf.mulTV, Pos.xf] at h ⊢
    linear_combination (x.x - ((pos.at' (bodies b).index).c - (Rot.ofAngle (pos.at' (bodies b).index).a).mulV (bodies b).localCenter).x) * h
  · simp only [Xf.mulV, Xf.mulTV, Pos.xf] at h ⊢
    linear_combination (x.y - ((pos.at' (bodies b).index).c - (Rot.ofAngle (pos.at' (bodies b).index).a).mulV (bodies b).localCenter).y) * h

theorem worldPoint_origin (bodies : Nat → JBody F) (pos : Arr (Pos F)) (b : Nat) : (bodyXf bodies pos b).p = (bodies b).worldPoint pos ⟨0, 0⟩ := by
  unfold bodyXf JBody.worldPoint
  ext <;> simp [Xf.mulV]

theorem sub_self_nil (v : Vec2 F) : v - v = (⟨0, 0⟩ : Vec2 F) := by ext <;> simp

theorem Prismatic.ofDef_some {d : PrismaticDef F} {j : Prismatic F} (h : Prismatic.ofDef d = some j) :
    j.bodyA = d.bodyA ∧ j.bodyB = d.bodyB ∧ j.localAnchorA = d.localAnchorA ∧ j.localAnchorB = d.localAnchorB ∧ j.referenceAngle = d.referenceAngle ∧
      (Joint.prismatic j).Unloaded ∧ j.localXAxisA = d.localAxisA.normalize.1 := by
  unfold Prismatic.ofDef Prismatic.new at h
  dsimp only at h
  split at h
  · obtain rfl := Option.some.inj h
    exact ⟨rfl, rfl, rfl, rfl, rfl, ⟨rfl, rfl, rfl, rfl⟩, rfl⟩
  · cases h

theorem Pulley.ofDef_some {d : PulleyDef F} {j : Pulley F} (h : Pulley.ofDef d = some j) :
    j.bodyA = d.bodyA ∧ j.bodyB = d.bodyB ∧ j.localAnchorA = d.localAnchorA ∧ j.localAnchorB = d.localAnchorB ∧ j.groundAnchorA = d.groundAnchorA ∧
      j.groundAnchorB = d.groundAnchorB ∧ j.ratio = d.ratio ∧ j.constant = d.lengthA + d.ratio * d.lengthB ∧ j.impulse = 0 := by
  unfold Pulley.ofDef Pulley.new at h
  split at h
  · obtain rfl := Option.some.inj h
    exact ⟨rfl, rfl, rfl, rfl, rfl, rfl, rfl, rfl, rfl⟩
  · cases h

theorem PulleyDef.initialize_some {d d' : PulleyDef F} {bodies : Nat → JBody F} {pos : Arr (Pos F)} {a b : Nat} {gx gy x y : Vec2 F} {ratio : F}
    (h : d.initialize bodies pos a b gx gy x y ratio = some d') :
    d'.bodyA = a ∧ d'.bodyB = b ∧ d'.localAnchorA = localPoint bodies pos a x ∧ d'.localAnchorB = localPoint bodies pos b y ∧
      d'.groundAnchorA = gx ∧ d'.groundAnchorB = gy ∧ d'.ratio = ratio ∧ d'.lengthA = (x - gx).length ∧ d'.lengthB = (y - gy).length := by
  unfold PulleyDef.initialize at h
  split at h
  · obtain rfl := Option.some.inj h
    exact ⟨rfl, rfl, rfl, rfl, rfl, rfl, rfl, rfl, rfl⟩
  · cases h

theorem dot_zero_right (v : Vec2 F) : dot v (⟨0, 0⟩ : Vec2 F) = 0 := by simp [dot]
theorem dot_zero_left (v : Vec2 F) : dot (⟨0, 0⟩ : Vec2 F) v = 0 := by simp [dot]

/-- The bodies, the anchors and the impulses of a joint that was defined where the bodies are. -/
theorem Joint.DefinedAt.anchored {bodies : Nat → JBody F} {pos : Arr (Pos F)} {j : Joint F} {a b : Nat} {x y : Vec2 F} (h : j.DefinedAt bodies pos a b x y) :
    j.bodyA = a ∧ j.bodyB = b ∧ ((∀ m, j ≠ .mouse m) → j.anchorA bodies pos = x) ∧ j.anchorB bodies pos = y ∧ j.Unloaded := by
  cases h with
  | revolute d =>
    exact ⟨rfl, rfl, fun _ => worldPoint_localPoint bodies pos a x, worldPoint_localPoint bodies pos b x, rfl, rfl, rfl, rfl⟩
  | prismatic d _ _ _ axis k h =>
    obtain ⟨e1, e2, e3, e4, e5, e6, e7⟩ := Prismatic.ofDef_some h
    refine ⟨e1, e2, fun _ => ?_, ?_, e6⟩
    · unfold Joint.anchorA
      simp only [Joint.bodyA, Joint.localAnchorA]
      rw [e1, e3]
      exact worldPoint_localPoint bodies pos a x
    · unfold Joint.anchorB
      simp only [Joint.bodyB, Joint.localAnchorB]
      rw [e2, e4]
      exact worldPoint_localPoint bodies pos b x
  | wheel d => exact ⟨rfl, rfl, fun _ => worldPoint_localPoint bodies pos a x, worldPoint_localPoint bodies pos b x, rfl, rfl, rfl, rfl, rfl⟩
  | weld d => exact ⟨rfl, rfl, fun _ => worldPoint_localPoint bodies pos a x, worldPoint_localPoint bodies pos b x, rfl⟩
  | friction d => exact ⟨rfl, rfl, fun _ => worldPoint_localPoint bodies pos a x, worldPoint_localPoint bodies pos b x, rfl, rfl⟩
  | distance d => exact ⟨rfl, rfl, fun _ => worldPoint_localPoint bodies pos a x, worldPoint_localPoint bodies pos b y, rfl, rfl, rfl⟩
  | motor d =>
    refine ⟨rfl, rfl, fun _ => ?_, rfl, rfl, rfl⟩
    refine (worldPoint_localPoint bodies pos a _).trans (worldPoint_origin _ _ _)
  | pulley d d' _ _ gx gy _ _ ratio k h h' =>
    obtain ⟨e1, e2, e3, e4, e5, e6, e7, e8, e9⟩ := Pulley.ofDef_some h'
    obtain ⟨f1, f2, f3, f4, f5, f6, f7, f8, f9⟩ := PulleyDef.initialize_some h
    refine ⟨e1.trans f1, e2.trans f2, fun _ => ?_, ?_, e9⟩
    · unfold Joint.anchorA
      simp only [Joint.bodyA, Joint.localAnchorA]
      rw [e1, e3, f1, f3]
      exact worldPoint_localPoint bodies pos a x
    · unfold Joint.anchorB
      simp only [Joint.bodyB, Joint.localAnchorB]
      rw [e2, e4, f2, f4]
      exact worldPoint_localPoint bodies pos b y
  | mouse d x => exact ⟨rfl, rfl, fun h => absurd rfl (h _), worldPoint_localPoint bodies pos d.bodyB d.target, rfl⟩

theorem Joint.DefinedAt.satisfied {bodies : Nat → JBody F} {pos : Arr (Pos F)} {j : Joint F} {a b : Nat} {x y : Vec2 F} (h : j.DefinedAt bodies pos a b x y)
    (hr : j.Room x y) : j.Satisfied bodies pos := by
  obtain ⟨b1, b2, ax, ay, _⟩ := h.anchored
  cases h with
  | revolute d =>
    replace ax := ax (fun _ h => by cases h)
    · refine ⟨ax.trans ay.symm, fun e => ?_⟩
      obtain ⟨r1, r2, r3⟩ := hr e
      refine ⟨r1, ?_⟩
      have z : (pos.at' (bodies b).index).a - (pos.at' (bodies a).index).a - (bodyAngle bodies pos b - bodyAngle bodies pos a) = 0 := sub_self _
      exact ⟨le_trans r2 (le_of_eq z.symm), le_trans (le_of_eq z) r3⟩
  | prismatic d _ _ _ axis k h =>
    obtain ⟨e1, e2, e3, e4, e5, e6, e7⟩ := Prismatic.ofDef_some h
    replace ax := ax (fun _ h => by cases h)
    · have z : (Joint.prismatic k).anchorB bodies pos - (Joint.prismatic k).anchorA bodies pos = ⟨0, 0⟩ := by rw [ax, ay, sub_self_nil]
      unfold Joint.Satisfied
      dsimp only
      rw [z, dot_zero_right, dot_zero_right, b1, b2, e5]
      exact ⟨rfl, rfl, hr⟩
  | wheel d _ _ _ axis =>
    replace ax := ax (fun _ h => by cases h)
    · unfold Joint.Satisfied
      dsimp only
      rw [ax, ay, sub_self_nil, dot_zero_right, dot_zero_right]
      exact ⟨rfl, hr⟩
  | weld d =>
    replace ax := ax (fun _ h => by cases h)
    · exact ⟨ax.trans ay.symm, fun _ => rfl⟩
  | friction d => trivial
  | distance d =>
    replace ax := ax (fun _ h => by cases h)
    · unfold Joint.Satisfied
      dsimp only
      rw [ax, ay]
      have hr' : linearSlop ≤ (y - x).length := hr
      have m : b2max (y - x).length linearSlop = (y - x).length := b2max_of_le hr'
      have m1 : (DistanceJ.ofDef (d.initialize bodies pos a b x y)).minLength = (y - x).length := by
        show b2max (b2max (y - x).length linearSlop) linearSlop = _
        rw [m, m]
      have m2 : (DistanceJ.ofDef (d.initialize bodies pos a b x y)).maxLength = (y - x).length := by
        show b2max (b2max (y - x).length linearSlop) (b2max (b2max (y - x).length linearSlop) linearSlop) = _
        rw [m, m]
        exact b2max_of_le (le_refl _)
      rw [m1, m2]
      exact ⟨le_trans (by unfold epsilon linearSlop; norm_num) hr', le_refl _, le_refl _⟩
  | motor d =>
    replace ax := ax (fun _ h => by cases h)
    · exact ⟨ax.trans ay.symm, rfl⟩
  | pulley d d' _ _ gx gy _ _ ratio k h h' =>
    obtain ⟨e1, e2, e3, e4, e5, e6, e7, e8, e9⟩ := Pulley.ofDef_some h'
    obtain ⟨f1, f2, f3, f4, f5, f6, f7, f8, f9⟩ := PulleyDef.initialize_some h
    replace ax := ax (fun _ h => by cases h)
    · unfold Joint.Satisfied
      dsimp only
      rw [ax, ay, e5, e6, e7, e8, f5, f6, f7, f8, f9]
  | mouse d x => exact ay

theorem Joint.DefinedAt.relaxed {bodies : Nat → JBody F} {pos : Arr (Pos F)} {j : Joint F} {a b : Nat} {x y : Vec2 F} (h : j.DefinedAt bodies pos a b x y)
    (hm : j.MotorIdle) : j.Relaxed bodies pos := by
  obtain ⟨b1, b2, ax, ay, _⟩ := h.anchored
  cases h with
  | revolute d => exact hm
  | prismatic d => exact hm
  | wheel d =>
    replace ax := ax (fun _ h => by cases h)
    · refine ⟨hm, fun _ => ?_⟩
      rw [ax, ay, sub_self_nil, dot_zero_left]
  | weld d => exact fun _ => rfl
  | distance d =>
    intro _ c
    exfalso
    have c' : b2max (b2max (y - x).length linearSlop) linearSlop < b2max (b2max (y - x).length linearSlop) (b2max (b2max (y - x).length linearSlop) linearSlop) := c
    have m : b2max (b2max (y - x).length linearSlop) linearSlop = b2max (y - x).length linearSlop := b2max_of_le (le_b2max_r _ _)
    rw [m, b2max_of_le (le_refl _)] at c'
    exact lt_irrefl _ c'
  | _ => trivial

theorem mulTV_length {q : Rot F} (h : Spec.IsRot q) (v : Vec2 F) : (q.mulTV v).length = v.length := by
  simp only [Spec.IsRot] at h
  unfold Vec2.length
  congr 1
  simp only [Rot.mulTV]
  linear_combination (v.x * v.x + v.y * v.y) * h

theorem mulV_normalize_mulTV {q : Rot F} (h : Spec.IsRot q) (v : Vec2 F) : q.mulV (q.mulTV v).normalize.1 = v.normalize.1 := by
  have hl := mulTV_length h v
  have e := rot_mulTV h v
  unfold Vec2.normalize
  dsimp only
  rw [hl]
  split
  · exact e
  · dsimp only
    have ex := congrArg Vec2.x e
    have ey := congrArg Vec2.y e
    simp only [Rot.mulV] at ex ey
    ext
    · simp only [Rot.mulV]; linear_combination (1 / v.length) * ex
    · simp only [Rot.mulV]; linear_combination (1 / v.length) * ey

end
end B2
