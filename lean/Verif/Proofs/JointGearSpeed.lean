import Verif.Proofs.JointEnergyStep

/-!
# The speeds of the joints of a gear
-/
namespace B2

section
variable {F : Type} [Field F] [LinearOrder F] [IsStrictOrderedRing F]

theorem upd_hit {α : Type} {g G : Nat → α} {d e : Nat} {v w : α} (h : e ≠ d ∨ v = g e ∧ w = g d) (hG : G d = w) :
    upd G e v d = w := by
  by_cases hd : d = e
  · subst hd
    obtain ⟨h1, h2⟩ := h.resolve_left (fun h => h rfl)
    rw [upd_same, h1, h2]
  · rw [upd_other _ _ hd, hG]

/-- After a push each body has the velocity that was meant for it. -/
theorem gearPushed_at {g : Gear F} {x : F} {vel : Arr (Vel F)} {invM invI : Nat → F} (hn : g.loose)
    (hm : ∀ b ∈ [g.fA, g.fB, g.fC, g.fD], b.invMass = invM b.index ∧ b.invI = invI b.index) :
    let s : Four F := ⟨vel.at' g.fA.index, vel.at' g.fB.index, vel.at' g.fC.index, vel.at' g.fD.index⟩
    (gearPushed g x vel).at' g.fA.index = (g.push x s).a ∧ (gearPushed g x vel).at' g.fB.index = (g.push x s).b ∧
    (gearPushed g x vel).at' g.fC.index = (g.push x s).c ∧ (gearPushed g x vel).at' g.fD.index = (g.push x s).d := by
  intro s
  simp only [Gear.loose, List.pairwise_cons, List.mem_cons, List.not_mem_nil, or_false, forall_eq_or_imp, forall_eq,
    List.Pairwise.nil, and_true, IsEmpty.forall_iff, implies_true] at hn hm
  obtain ⟨⟨n1, n2, n3⟩, ⟨n4, n5⟩, n6⟩ := hn
  obtain ⟨mA, mB, mC, mD⟩ := hm
  -- equal bodies are static
  have st : ∀ {a b : JBody F}, (a.invMass = invM a.index ∧ a.invI = invI a.index) →
      (b.invMass = invM b.index ∧ b.invI = invI b.index) → (a.index ≠ b.index ∨ a.invMass = 0 ∧ a.invI = 0) →
      a.index ≠ b.index ∨ (a.invMass = 0 ∧ a.invI = 0) ∧ (b.invMass = 0 ∧ b.invI = 0) := by
    intro a b ha hb h
    by_cases e : a.index = b.index
    · right
      obtain ⟨h1, h2⟩ := h.resolve_left (fun h => h e)
      refine ⟨⟨h1, h2⟩, ?_, ?_⟩
      · rw [hb.1, ← e, ← ha.1, h1]
      · rw [hb.2, ← e, ← ha.2, h2]
    · exact Or.inl e
  have kA : g.fA.invMass = 0 ∧ g.fA.invI = 0 → (g.push x s).a = vel.at' g.fA.index := fun ⟨m, i⟩ => by
    simp only [Gear.push, m, i, s]; ext <;> simp
  have kB : g.fB.invMass = 0 ∧ g.fB.invI = 0 → (g.push x s).b = vel.at' g.fB.index := fun ⟨m, i⟩ => by
    simp only [Gear.push, m, i, s]; ext <;> simp
  have kC : g.fC.invMass = 0 ∧ g.fC.invI = 0 → (g.push x s).c = vel.at' g.fC.index := fun ⟨m, i⟩ => by
    simp only [Gear.push, m, i, s]; ext <;> simp
  have kD : g.fD.invMass = 0 ∧ g.fD.invI = 0 → (g.push x s).d = vel.at' g.fD.index := fun ⟨m, i⟩ => by
    simp only [Gear.push, m, i, s]; ext <;> simp
  have hAB := st mA mB n1
  have hAC := st mA mC n2
  have hAD := st mA mD n3
  have hBC := st mB mC n4
  have hBD := st mB mD n5
  have hCD := st mC mD n6
  refine ⟨?_, ?_, ?_, ?_⟩
  · exact upd_hit (g := vel.at') (hAD.imp Ne.symm fun ⟨a, d⟩ => ⟨kD d, kA a⟩)
      (upd_hit (g := vel.at') (hAC.imp Ne.symm fun ⟨a, d⟩ => ⟨kC d, kA a⟩)
        (upd_hit (g := vel.at') (hAB.imp Ne.symm fun ⟨a, d⟩ => ⟨kB d, kA a⟩) (upd_same ..)))
  · exact upd_hit (g := vel.at') (hBD.imp Ne.symm fun ⟨a, d⟩ => ⟨kD d, kB a⟩)
      (upd_hit (g := vel.at') (hBC.imp Ne.symm fun ⟨a, d⟩ => ⟨kC d, kB a⟩) (upd_same ..))
  · exact upd_hit (g := vel.at') (hCD.imp Ne.symm fun ⟨a, d⟩ => ⟨kD d, kC a⟩) (upd_same ..)
  · exact upd_same ..

/-- The speed that a gear sees of one side. -/
def gearSpeed (jv : Vec2 F) (jwF jwG : F) (f g : Vel F) : F := dot jv (f.v - g.v) + (jwF * f.w - jwG * g.w)

/-- After an iteration the two sides of a gear cancel. -/
theorem gear_coupled [Elem F] {st : JStep F} {g : Gear F} {j' : Joint F} {vel vel' : Arr (Vel F)} {invM invI : Nat → F}
    (hn : g.loose) (hm : ∀ b ∈ [g.fA, g.fB, g.fC, g.fD], b.invMass = invM b.index ∧ b.invI = invI b.index)
    (hK : g.mass * ((g.fA.invMass + g.fC.invMass) * dot g.jvAC g.jvAC + g.fA.invI * g.jwA * g.jwA + g.fC.invI * g.jwC * g.jwC +
        ((g.fB.invMass + g.fD.invMass) * dot g.jvBD g.jvBD + g.fB.invI * g.jwB * g.jwB + g.fD.invI * g.jwD * g.jwD)) = 1)
    (h : (Joint.gear g).solveVel st vel = some (j', vel')) :
    gearSpeed g.jvAC g.jwA g.jwC (vel'.at' g.fA.index) (vel'.at' g.fC.index) +
      gearSpeed g.jvBD g.jwB g.jwD (vel'.at' g.fB.index) (vel'.at' g.fD.index) = 0 := by
  obtain ⟨x, hi, rfl, rfl, hx⟩ := gear_solveVel_some h
  obtain ⟨a1, a2, a3, a4⟩ := gearPushed_at (x := x) (vel := vel) hn hm
  rw [a1, a2, a3, a4]
  simp only [gearSpeed, Gear.push, dot, Vec2.add_x, Vec2.add_y, Vec2.sub_x, Vec2.sub_y, Vec2.smul_x, Vec2.smul_y] at hx hK ⊢
  generalize hc : (g.jvAC.x * ((vel.at' g.fA.index).v.x - (vel.at' g.fC.index).v.x) +
    g.jvAC.y * ((vel.at' g.fA.index).v.y - (vel.at' g.fC.index).v.y) +
    (g.jvBD.x * ((vel.at' g.fB.index).v.x - (vel.at' g.fD.index).v.x) +
      g.jvBD.y * ((vel.at' g.fB.index).v.y - (vel.at' g.fD.index).v.y)) +
    (g.jwA * (vel.at' g.fA.index).w - g.jwC * (vel.at' g.fC.index).w +
      (g.jwB * (vel.at' g.fB.index).w - g.jwD * (vel.at' g.fD.index).w))) = c at hx
  subst hx
  linear_combination hc - c * hK

/-- What a gear sees of a joint is its speed. -/
theorem gearSide_speed [Elem F] {bodies : Nat → JBody F} {pos : Arr (Pos F)} {vel : Arr (Vel F)} {j : Joint F} {ratio : F}
    {c a : Nat} {slide : Bool} {xA xC axis : Vec2 F} {r k : F} (hg : gearJoint bodies pos j = some (c, a, slide, xA, xC, axis, r, k))
    (hal : j.Aligned bodies pos) :
    let s := gearSide slide ratio (bodies a) (bodies c) xA xC axis (pos.at' (bodies a).index).a (pos.at' (bodies c).index).a
    gearSpeed s.1 s.2.1 s.2.2 (vel.at' (bodies a).index) (vel.at' (bodies c).index) = ratio * j.speed bodies pos vel := by
  cases j with
  | revolute j =>
    simp only [gearJoint, Option.some.injEq, Prod.mk.injEq] at hg
    obtain ⟨rfl, rfl, rfl, rfl, rfl, rfl, rfl, rfl⟩ := hg
    simp only [gearSide, Bool.false_eq_true, if_false, gearSpeed, Joint.speed, Revolute.jointSpeed, dot]
    ring
  | prismatic j =>
    simp only [gearJoint, Option.some.injEq, Prod.mk.injEq] at hg
    obtain ⟨rfl, rfl, rfl, rfl, rfl, rfl, rfl, rfl⟩ := hg
    obtain ⟨t, ht⟩ := hal
    have hA := arm_anchorA bodies pos (.prismatic j)
    have hB := arm_anchorB bodies pos (.prismatic j)
    simp only [Joint.bodyA, Joint.bodyB, Joint.localAnchorA, Joint.localAnchorB] at hA hB
    simp only [gearSide, if_true, gearSpeed, Joint.speed, Prismatic.jointSpeed]
    rw [hA, hB]
    have ex := congrArg Vec2.x ht
    have ey := congrArg Vec2.y ht
    generalize (Rot.ofAngle (pos.at' (bodies j.bodyA).index).a).mulV j.localXAxisA = u at *
    generalize (Joint.prismatic j).anchorA bodies pos = pA at *
    generalize (Joint.prismatic j).anchorB bodies pos = pB at *
    simp only [Vec2.add_x, Vec2.add_y, Vec2.sub_x, Vec2.sub_y, Vec2.smul_x, Vec2.smul_y] at ex ey
    simp only [dot, cross, crossSV, Vec2.add_x, Vec2.add_y, Vec2.sub_x, Vec2.sub_y, Vec2.smul_x, Vec2.smul_y]
    linear_combination (ratio * (vel.at' (bodies j.bodyA).index).w * u.y) * ex - (ratio * (vel.at' (bodies j.bodyA).index).w * u.x) * ey
  | _ => cases hg

/-- The mass of a gear whose first joint can move. -/
theorem gearMass_pos [Elem F] [ElemLaws F] {bodies : Nat → JBody F} {pos : Arr (Pos F)} {j : Joint F}
    {c a : Nat} {slide : Bool} {xA xC axis : Vec2 F} {r k : F} (hg : gearJoint bodies pos j = some (c, a, slide, xA, xC, axis, r, k))
    (hm : j.Movable bodies) (hi : 0 ≤ (bodies a).invI ∧ 0 ≤ (bodies c).invI) (x y : F) :
    0 < gearMass slide 1 (bodies a) (bodies c) x y := by
  cases j with
  | revolute j =>
    simp only [gearJoint, Option.some.injEq, Prod.mk.injEq] at hg
    obtain ⟨rfl, rfl, rfl, rfl, rfl, rfl, rfl, rfl⟩ := hg
    simp only [Joint.Movable] at hm
    simp only [gearMass, Bool.false_eq_true, if_false]
    linarith
  | prismatic j =>
    simp only [gearJoint, Option.some.injEq, Prod.mk.injEq] at hg
    obtain ⟨rfl, rfl, rfl, rfl, rfl, rfl, rfl, rfl⟩ := hg
    simp only [Joint.Movable] at hm
    simp only [gearMass, if_true]
    have := mul_nonneg hi.1 (mul_self_nonneg x)
    have := mul_nonneg hi.2 (mul_self_nonneg y)
    nlinarith
  | _ => cases hg

theorem gearMass_nonneg {slide : Bool} {ratio : F} {f g : JBody F} (hf : 0 ≤ f.invMass ∧ 0 ≤ f.invI)
    (hg : 0 ≤ g.invMass ∧ 0 ≤ g.invI) (x y : F) : 0 ≤ gearMass slide ratio f g x y := by
  have := mul_nonneg hf.2 (mul_self_nonneg x)
  have := mul_nonneg hg.2 (mul_self_nonneg y)
  have h1 := mul_nonneg (mul_self_nonneg ratio) (add_nonneg hg.1 hf.1)
  have h2 := mul_nonneg (mul_self_nonneg ratio) (add_nonneg hf.2 hg.2)
  cases slide
  · simpa only [gearMass, Bool.false_eq_true, if_false] using h2
  · simp only [gearMass, if_true]; linarith

/-- Only the coordinate depends on where the bodies are. -/
theorem gearJoint_pos [Elem F] {bodies : Nat → JBody F} {pos pos' : Arr (Pos F)} {j : Joint F}
    {c a : Nat} {slide : Bool} {xA xC axis : Vec2 F} {r k : F} (hg : gearJoint bodies pos j = some (c, a, slide, xA, xC, axis, r, k)) :
    ∃ k', gearJoint bodies pos' j = some (c, a, slide, xA, xC, axis, r, k') := by
  cases j with
  | revolute j =>
    simp only [gearJoint, Option.some.injEq, Prod.mk.injEq] at hg
    obtain ⟨rfl, rfl, rfl, rfl, rfl, rfl, rfl, rfl⟩ := hg
    exact ⟨_, rfl⟩
  | prismatic j =>
    simp only [gearJoint, Option.some.injEq, Prod.mk.injEq] at hg
    obtain ⟨rfl, rfl, rfl, rfl, rfl, rfl, rfl, rfl⟩ := hg
    exact ⟨_, rfl⟩
  | _ => cases hg

theorem gearJoint_bodies [Elem F] {bodies : Nat → JBody F} {pos : Arr (Pos F)} {j : Joint F}
    {c a : Nat} {slide : Bool} {xA xC axis : Vec2 F} {r k : F} (hg : gearJoint bodies pos j = some (c, a, slide, xA, xC, axis, r, k)) :
    c = j.bodyA ∧ a = j.bodyB := by
  cases j with
  | revolute j =>
    simp only [gearJoint, Option.some.injEq, Prod.mk.injEq] at hg
    exact ⟨hg.1.symm, hg.2.1.symm⟩
  | prismatic j =>
    simp only [gearJoint, Option.some.injEq, Prod.mk.injEq] at hg
    exact ⟨hg.1.symm, hg.2.1.symm⟩
  | _ => cases hg

theorem gearJoint_unit [Elem F] {bodies : Nat → JBody F} {pos : Arr (Pos F)} {j : Joint F}
    {c a : Nat} {slide : Bool} {xA xC axis : Vec2 F} {r k : F} (hg : gearJoint bodies pos j = some (c, a, slide, xA, xC, axis, r, k))
    (hu : j.UnitAxis) : slide = true → axis.lengthSquared = 1 := by
  cases j with
  | revolute j =>
    simp only [gearJoint, Option.some.injEq, Prod.mk.injEq] at hg
    obtain ⟨rfl, rfl, rfl, rfl, rfl, rfl, rfl, rfl⟩ := hg
    intro h; cases h
  | prismatic j =>
    simp only [gearJoint, Option.some.injEq, Prod.mk.injEq] at hg
    obtain ⟨rfl, rfl, rfl, rfl, rfl, rfl, rfl, rfl⟩ := hg
    exact fun _ => hu
  | _ => cases hg

/-- The coordinate that a gear reads is the coordinate of the joint. -/
theorem gearJoint_coordinate [Elem F] [ElemLaws F] {bodies : Nat → JBody F} {pos : Arr (Pos F)} {j : Joint F}
    {c a : Nat} {slide : Bool} {xA xC axis : Vec2 F} {r k : F} (hg : gearJoint bodies pos j = some (c, a, slide, xA, xC, axis, r, k)) :
    k = j.coordinate bodies pos := by
  cases j with
  | revolute j =>
    simp only [gearJoint, Option.some.injEq, Prod.mk.injEq] at hg
    obtain ⟨rfl, rfl, rfl, rfl, rfl, rfl, rfl, rfl⟩ := hg
    rfl
  | prismatic j =>
    simp only [gearJoint, Option.some.injEq, Prod.mk.injEq] at hg
    obtain ⟨rfl, rfl, rfl, rfl, rfl, rfl, rfl, rfl⟩ := hg
    have hu := ElemLaws.sin_cos (F := F) (pos.at' (bodies j.bodyA).index).a
    simp only [Joint.coordinate, Prismatic.jointTranslation, Pos.xf, Xf.mulV, Rot.mulV, Rot.mulTV, Rot.ofAngle, dot,
      Vec2.add_x, Vec2.add_y, Vec2.sub_x, Vec2.sub_y]
    generalize Elem.sin (pos.at' (bodies j.bodyA).index).a = s at *
    generalize Elem.cos (pos.at' (bodies j.bodyA).index).a = c at *
    linear_combination (j.localAnchorA.x * j.localXAxisA.x + j.localAnchorA.y * j.localXAxisA.y) * hu
  | _ => cases hg

end
end B2
