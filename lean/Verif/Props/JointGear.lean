import Verif.Proofs.JointGearSpeed
import Verif.Proofs.JointExample

/-!
# Properties of gears
-/
namespace B2.Props
open B2

section
variable {F : Type} [Field F] [LinearOrder F] [IsStrictOrderedRing F]

/-! ## C89 -/

theorem gear_new_some [Elem F] {bodies : Nat → JBody F} {pos : Arr (Pos F)} {dynamic : Nat → Bool} {a b : Nat} {j1 j2 : Joint F}
    {ratio : F} {g : Gear F} (h : Gear.new bodies pos dynamic a b j1 j2 ratio = some g) :
    ∃ rA rB kA kB, gearJoint bodies pos j1 =
        some (g.bodyC, j1.bodyB, g.slideA, g.localAnchorA, g.localAnchorC, g.localAxisC, rA, kA) ∧
      gearJoint bodies pos j2 = some (g.bodyD, j2.bodyB, g.slideB, g.localAnchorB, g.localAnchorD, g.localAxisD, rB, kB) ∧
      g.bodyA = a ∧ g.bodyB = b ∧ g.ratio = ratio ∧ g.constant = kA + ratio * kB := by
  unfold Gear.new at h
  obtain ⟨x, hx, h⟩ := Option.bind_eq_some_iff.1 h
  by_cases hd : dynamic x.2.1 = true
  · rw [if_pos hd] at h
    obtain ⟨y, hy, h⟩ := Option.bind_eq_some_iff.1 h
    by_cases hd' : dynamic y.2.1 = true
    · rw [if_pos hd'] at h
      simp only [Option.pure_def, Option.some.injEq] at h
      subst h
      obtain ⟨c, a', s, xA, xC, ax, r, k⟩ := x
      obtain ⟨c', b', s', xB, xD, ax', r', k'⟩ := y
      obtain ⟨rfl, rfl⟩ := gearJoint_bodies hx
      obtain ⟨rfl, rfl⟩ := gearJoint_bodies hy
      exact ⟨r, r', k, k', hx, hy, rfl, rfl, rfl, rfl⟩
    · rw [if_neg hd'] at h; cases h
  · rw [if_neg hd] at h; cases h

theorem gear_solves_coupled [Elem F] {st : JStep F} {invM invI : Nat → F} {a b c d : JBody F} {jvAC jvBD : Vec2 F}
    {jwA jwB jwC jwD mass : F}
    (hm : ∀ f ∈ [a, b, c, d], f.invMass = invM f.index ∧ f.invI = invI f.index)
    (hK : mass * ((a.invMass + c.invMass) * dot jvAC jvAC + a.invI * jwA * jwA + c.invI * jwC * jwC +
        ((b.invMass + d.invMass) * dot jvBD jvBD + b.invI * jwB * jwB + d.invI * jwD * jwD)) = 1) :
    ∀ {vs : List (Arr (Vel F))} {g : Gear F} {j' : Joint F}
    {log : List (Arr (Vel F) × Arr (Vel F))}, g.loose → g.fA = a → g.fB = b → g.fC = c → g.fD = d → g.jvAC = jvAC →
    g.jvBD = jvBD → g.jwA = jwA → g.jwB = jwB → g.jwC = jwC → g.jwD = jwD → g.mass = mass →
    (Joint.gear g).solves st vs = some (j', log) → ∀ e ∈ log,
    gearSpeed jvAC jwA jwC (e.2.at' a.index) (e.2.at' c.index) + gearSpeed jvBD jwB jwD (e.2.at' b.index) (e.2.at' d.index) = 0
  | [], g, j', log, _, _, _, _, _, _, _, _, _, _, _, _, h => by
    obtain ⟨rfl, rfl⟩ := Joint.solves_nil h
    intro e he; cases he
  | v :: vs, g, j', log, hl, h1, h2, h3, h4, h5, h6, h7, h8, h9, h10, h11, h => by
    obtain ⟨j1, v1, log1, hs, ht, rfl⟩ := Joint.solves_cons h
    have key := gear_coupled (invM := invM) (invI := invI) hl (by rw [h1, h2, h3, h4]; exact hm)
      (by rw [h1, h2, h3, h4, h5, h6, h7, h8, h9, h10, h11]; exact hK) hs
    rw [h1, h2, h3, h4, h5, h6, h7, h8, h9, h10] at key
    obtain ⟨x, hi, rfl, rfl, _⟩ := gear_solveVel_some hs
    intro e he
    rcases List.mem_cons.1 he with rfl | he
    · exact key
    · exact gear_solves_coupled hm hK (g := { g with impulse := g.impulse + x }) hl h1 h2 h3 h4 h5 h6 h7 h8 h9 h10 h11 ht e he

/-- C89: after every velocity iteration the speeds of the two joints of a gear are coupled: speed1 + ratio · speed2 = 0.
The gear was made of the joints (maybe long ago, at other positions `pos0`), with the second bodies of the joints as its
own bodies. -/
theorem c89_coupled [Elem F] [ElemLaws F] (st : JStep F) (bodies : Nat → JBody F) (pos0 pos : Arr (Pos F))
    (dynamic : Nat → Bool) (j1 j2 : Joint F) (ratio : F) (g : Gear F) (i : F) (j' : Joint F) (v : Arr (Vel F))
    (vs : List (Arr (Vel F))) (log : List (Arr (Vel F) × Arr (Vel F))) (invM invI : Nat → F)
    (hg : Gear.new bodies pos0 dynamic j1.bodyB j2.bodyB j1 j2 ratio = some g)
    (hk : (Joint.gear g).Knows bodies invM invI)
    (hp : ∀ b ∈ (Joint.gear g).touched, 0 ≤ (bodies b).invMass ∧ 0 ≤ (bodies b).invI)
    (hm : j1.Movable bodies) (hu1 : j1.UnitAxis) (hu2 : j2.UnitAxis)
    (ha1 : j1.Aligned bodies pos) (ha2 : j2.Aligned bodies pos)
    (h : (Joint.gear { g with impulse := i }).calls st bodies pos v vs = some (j', log)) :
    ∀ e ∈ log.tail, j1.speed bodies pos e.2 + ratio * j2.speed bodies pos e.2 = 0 := by
  obtain ⟨rA, rB, kA, kB, g1, g2, hA, hB, hr, -⟩ := gear_new_some hg
  obtain ⟨kA', g1'⟩ := gearJoint_pos (pos' := pos) g1
  obtain ⟨kB', g2'⟩ := gearJoint_pos (pos' := pos) g2
  obtain ⟨hkl, hkm⟩ := hk
  simp only [Joint.touched, List.mem_cons, List.not_mem_nil, or_false, forall_eq_or_imp, forall_eq] at hp hkm
  obtain ⟨pA, pB, pC, pD⟩ := hp
  obtain ⟨mA, mB, mC, mD⟩ := hkm
  obtain ⟨j0, v1, log1, h1, h2, rfl⟩ := Joint.calls_some h
  obtain ⟨x, hi, rfl, rfl, _⟩ := gear_initVel_some h1
  intro e he
  simp only [List.tail_cons] at he
  set s1 := gearSide g.slideA 1 (bodies g.bodyA) (bodies g.bodyC) g.localAnchorA g.localAnchorC g.localAxisC
    (pos.at' (bodies g.bodyA).index).a (pos.at' (bodies g.bodyC).index).a with hs1
  set s2 := gearSide g.slideB g.ratio (bodies g.bodyB) (bodies g.bodyD) g.localAnchorB g.localAnchorD g.localAxisD
    (pos.at' (bodies g.bodyB).index).a (pos.at' (bodies g.bodyD).index).a with hs2
  have q1 := gearSide_mass (ratio := 1) (f := bodies g.bodyA) (g := bodies g.bodyC) (x := g.localAnchorA) (y := g.localAnchorC)
    (a := (pos.at' (bodies g.bodyA).index).a) (b := (pos.at' (bodies g.bodyC).index).a) (gearJoint_unit g1 hu1)
  have q2 := gearSide_mass (ratio := g.ratio) (f := bodies g.bodyB) (g := bodies g.bodyD) (x := g.localAnchorB) (y := g.localAnchorD)
    (a := (pos.at' (bodies g.bodyB).index).a) (b := (pos.at' (bodies g.bodyD).index).a) (gearJoint_unit g2 hu2)
  simp only [← hs1, ← hs2] at q1 q2
  have hpos : 0 < gearMass g.slideA 1 (bodies g.bodyA) (bodies g.bodyC) s1.2.1 s1.2.2 +
      gearMass g.slideB g.ratio (bodies g.bodyB) (bodies g.bodyD) s2.2.1 s2.2.2 := by
    have a1 := gearMass_pos g1 hm (by rw [← hA]; exact ⟨pA.2, pC.2⟩) s1.2.1 s1.2.2
    rw [← hA] at a1
    have a2 := gearMass_nonneg (slide := g.slideB) (ratio := g.ratio) pB pD s2.2.1 s2.2.2
    linarith
  have key := gear_solves_coupled (invM := invM) (invI := invI) (a := bodies g.bodyA) (b := bodies g.bodyB)
    (c := bodies g.bodyC) (d := bodies g.bodyD) (jvAC := s1.1) (jvBD := s2.1) (jwA := s1.2.1) (jwC := s1.2.2) (jwB := s2.2.1)
    (jwD := s2.2.2) (mass := if gearMass g.slideA 1 (bodies g.bodyA) (bodies g.bodyC) s1.2.1 s1.2.2 +
      gearMass g.slideB g.ratio (bodies g.bodyB) (bodies g.bodyD) s2.2.1 s2.2.2 > 0 then
      1 / (gearMass g.slideA 1 (bodies g.bodyA) (bodies g.bodyC) s1.2.1 s1.2.2 +
      gearMass g.slideB g.ratio (bodies g.bodyB) (bodies g.bodyD) s2.2.1 s2.2.2) else 0)
    (by simp only [List.mem_cons, List.not_mem_nil, or_false, forall_eq_or_imp, forall_eq]; exact ⟨mA, mB, mC, mD⟩)
    (by rw [q1, q2, if_pos hpos]; exact one_div_mul_cancel hpos.ne')
    (by
      simp only [Joint.touched, List.pairwise_cons, List.mem_cons, List.not_mem_nil, or_false, forall_eq_or_imp, forall_eq,
        List.Pairwise.nil, and_true, IsEmpty.forall_iff, implies_true] at hkl
      simp only [Gear.loose, List.pairwise_cons, List.mem_cons, List.not_mem_nil, or_false, forall_eq_or_imp, forall_eq,
        List.Pairwise.nil, and_true, IsEmpty.forall_iff, implies_true]
      exact hkl)
    rfl rfl rfl rfl rfl rfl rfl rfl rfl rfl rfl h2 e he
  have t1 := gearSide_speed (vel := e.2) (ratio := 1) g1' ha1
  have t2 := gearSide_speed (vel := e.2) (ratio := g.ratio) g2' ha2
  simp only [← hA, ← hB, ← hs1, ← hs2] at t1 t2
  rw [t1, t2, hr, one_mul] at key
  exact key

/-- C89, where the gear begins: the constant that it keeps is coordinate1 + ratio · coordinate2 at its creation. -/
theorem c89_constant [Elem F] [ElemLaws F] (bodies : Nat → JBody F) (pos : Arr (Pos F)) (dynamic : Nat → Bool) (a b : Nat)
    (j1 j2 : Joint F) (ratio : F) (g : Gear F) (hg : Gear.new bodies pos dynamic a b j1 j2 ratio = some g) :
    g.constant = j1.coordinate bodies pos + ratio * j2.coordinate bodies pos ∧ dynamic j1.bodyB ∧ dynamic j2.bodyB := by
  obtain ⟨rA, rB, kA, kB, g1, g2, -, -, -, hc⟩ := gear_new_some hg
  rw [hc, gearJoint_coordinate g1, gearJoint_coordinate g2]
  refine ⟨rfl, ?_⟩
  unfold Gear.new at hg
  rw [g1] at hg
  simp only [Option.bind_eq_bind, Option.bind_some] at hg
  by_cases hd : dynamic j1.bodyB = true
  · rw [if_pos hd, g2] at hg
    simp only [Option.bind_some] at hg
    by_cases hd' : dynamic j2.bodyB = true
    · exact ⟨hd, hd'⟩
    · rw [if_neg hd'] at hg; cases hg
  · rw [if_neg hd] at hg; cases hg

end

section
attribute [local instance] jElem

/-- A hinge that holds body 0 to body 2 and a slider that holds body 1 to body 3. -/
def gearHinge : Joint ℚ := .revolute { JEx.revolute with bodyA := 2, bodyB := 0, localAnchorA := ⟨0, -3⟩, localAnchorB := ⟨0, 3⟩ }
def gearSlider : Joint ℚ := .prismatic { JEx.prismatic with bodyA := 3, bodyB := 1, localAnchorA := ⟨0, 0⟩, localAnchorB := ⟨0, 1⟩, localXAxisA := ⟨0, 1⟩ }

/-- A gear of a hinge and a slider on moving bodies: the hypotheses of C89 hold, and the joints move before and after. -/
example : ∃ (g : Gear ℚ) (j' : Joint ℚ) (log : List (Arr (Vel ℚ) × Arr (Vel ℚ))),
    Gear.new JEx.bodies JEx.pos (fun b => b < 4) gearHinge.bodyB gearSlider.bodyB gearHinge gearSlider 2 = some g ∧
    (Joint.gear g).Knows JEx.bodies (fun i => (JEx.bodies i).invMass) (fun i => (JEx.bodies i).invI) ∧
    gearHinge.Movable JEx.bodies ∧ gearHinge.UnitAxis ∧ gearSlider.UnitAxis ∧ gearHinge.Aligned JEx.bodies JEx.pos ∧
    gearSlider.Aligned JEx.bodies JEx.pos ∧
    (Joint.gear { g with impulse := 1 }).calls JEx.st JEx.bodies JEx.pos JEx.vel [JEx.vel, JEx.vel] = some (j', log) ∧
    gearHinge.speed JEx.bodies JEx.pos JEx.vel + 2 * gearSlider.speed JEx.bodies JEx.pos JEx.vel ≠ 0 ∧
    ∀ e ∈ log.tail, gearHinge.speed JEx.bodies JEx.pos e.2 ≠ 0 ∧ gearSlider.speed JEx.bodies JEx.pos e.2 ≠ 0 := by
  let g? := Gear.new JEx.bodies JEx.pos (fun b => b < 4) gearHinge.bodyB gearSlider.bodyB gearHinge gearSlider 2
  have hg : g?.isSome = true := by decide +kernel
  let c := (Joint.gear { (g?.get hg) with impulse := 1 }).calls JEx.st JEx.bodies JEx.pos JEx.vel [JEx.vel, JEx.vel]
  have hs : c.isSome = true := by decide +kernel +revert
  refine ⟨g?.get hg, (c.get hs).1, (c.get hs).2, by simp [g?], ?_, ?_, trivial, ?_, trivial, ⟨-5, ?_⟩, by simp [c],
    by decide +kernel, by decide +kernel +revert⟩
  · constructor <;> decide +kernel +revert
  · show (0 : ℚ) < _; decide +kernel
  · show (_ : ℚ) = 1; decide +kernel
  · decide +kernel

/-- C89 needs that the bodies in the definition are the second bodies of the joints. `new` takes the geometry from the
bodies of the joints, but moves the bodies of the definition: here the first one is the first body of the hinge, and
the speeds are not coupled. -/
theorem c89_bodies_false : ∃ (g : Gear ℚ) (j' : Joint ℚ) (log : List (Arr (Vel ℚ) × Arr (Vel ℚ))) (e : Arr (Vel ℚ) × Arr (Vel ℚ)),
    Gear.new JEx.bodies JEx.pos (fun b => b < 4) gearHinge.bodyA gearSlider.bodyB gearHinge gearSlider 2 = some g ∧
    (Joint.gear g).calls JEx.st JEx.bodies JEx.pos JEx.vel [JEx.vel] = some (j', log) ∧ log.getLast? = some e ∧
    gearHinge.speed JEx.bodies JEx.pos e.2 + 2 * gearSlider.speed JEx.bodies JEx.pos e.2 ≠ 0 := by
  let g? := Gear.new JEx.bodies JEx.pos (fun b => b < 4) gearHinge.bodyA gearSlider.bodyB gearHinge gearSlider 2
  have hg : g?.isSome = true := by decide +kernel
  let c := (Joint.gear (g?.get hg)).calls JEx.st JEx.bodies JEx.pos JEx.vel [JEx.vel]
  have hs : c.isSome = true := by decide +kernel +revert
  let l := (c.get hs).2.getLast?
  have hl : l.isSome = true := by decide +kernel +revert
  exact ⟨g?.get hg, (c.get hs).1, (c.get hs).2, l.get hl, by simp [g?], by simp [c], by simp [l], by decide +kernel +revert⟩

/-- C89 needs that the anchors of a slider are on its axis: the row of a gear leaves out that the axis turns. -/
theorem c89_aligned_false : ∃ (s : Joint ℚ) (g : Gear ℚ) (j' : Joint ℚ) (log : List (Arr (Vel ℚ) × Arr (Vel ℚ)))
    (e : Arr (Vel ℚ) × Arr (Vel ℚ)), s.UnitAxis ∧
    Gear.new JEx.bodies JEx.pos (fun b => b < 4) gearHinge.bodyB s.bodyB gearHinge s 2 = some g ∧
    (Joint.gear g).calls JEx.st JEx.bodies JEx.pos JEx.vel [JEx.vel] = some (j', log) ∧ log.getLast? = some e ∧
    gearHinge.speed JEx.bodies JEx.pos e.2 + 2 * s.speed JEx.bodies JEx.pos e.2 ≠ 0 := by
  let s : Joint ℚ := .prismatic { JEx.prismatic with bodyA := 3, bodyB := 1, localAnchorA := ⟨0, 0⟩, localAnchorB := ⟨0, 1⟩, localXAxisA := ⟨1, 0⟩ }
  let g? := Gear.new JEx.bodies JEx.pos (fun b => b < 4) gearHinge.bodyB s.bodyB gearHinge s 2
  have hg : g?.isSome = true := by decide +kernel
  let c := (Joint.gear (g?.get hg)).calls JEx.st JEx.bodies JEx.pos JEx.vel [JEx.vel]
  have hs : c.isSome = true := by decide +kernel +revert
  let l := (c.get hs).2.getLast?
  have hl : l.isSome = true := by decide +kernel +revert
  refine ⟨s, g?.get hg, (c.get hs).1, (c.get hs).2, l.get hl, ?_, by simp [g?], by simp [c], by simp [l], by decide +kernel +revert⟩
  show (_ : ℚ) = 1; decide +kernel

end
end B2.Props
