import Verif.Proofs.JointEnergy
import Verif.Spec.Soft
import Verif.Proofs.JointGear

/-!
# The energy of joints in a step
-/
namespace B2

section
variable {F : Type} [Field F] [LinearOrder F]

/-- What a joint holds besides `Armed` and `Tuned` that its energy depends on. -/
def Joint.Weighed [Elem F] (bodies : Nat → JBody F) (pos : Arr (Pos F)) (j : Joint F) : Prop :=
  let xA := j.anchorA bodies pos
  let xB := j.anchorB bodies pos
  let world := (Rot.ofAngle (pos.at' (bodies j.bodyA).index).a).mulV
  match j with
  | .revolute j => j.axialMass = if j.frame.a.invI + j.frame.b.invI > 0 then 1 / (j.frame.a.invI + j.frame.b.invI)
      else j.frame.a.invI + j.frame.b.invI
  | .prismatic j => j.axis = world j.localXAxisA ∧
      let m := j.frame.a.invMass + j.frame.b.invMass + j.frame.a.invI * j.a1 * j.a1 + j.frame.b.invI * j.a2 * j.a2
      j.axialMass = if m > 0 then 1 / m else m
  | .wheel j => (j.ax = world j.localXAxisA ∧ (j.stiffness ≤ 0 → j.springMass = 0) ∧ (j.enableMotor = false → j.motorMass = 0)) ∧
      let m := j.frame.a.invMass + j.frame.b.invMass + j.frame.a.invI * j.sAx * j.sAx + j.frame.b.invI * j.sBx * j.sBx
      j.axialMass = if m > 0 then 1 / m else 0
  | .distance j => ¬ linearSlop < (xB - xA).length → j.u = ⟨0, 0⟩
  | .gear j =>
      let fA := bodies j.bodyA
      let fB := bodies j.bodyB
      let fC := bodies j.bodyC
      let fD := bodies j.bodyD
      let sa := gearSide j.slideA 1 fA fC j.localAnchorA j.localAnchorC j.localAxisC (pos.at' fA.index).a (pos.at' fC.index).a
      let sb := gearSide j.slideB j.ratio fB fD j.localAnchorB j.localAnchorD j.localAxisD (pos.at' fB.index).a (pos.at' fD.index).a
      let m := gearMass j.slideA 1 fA fC sa.2.1 sa.2.2 + gearMass j.slideB j.ratio fB fD sb.2.1 sb.2.2
      (j.jvAC = sa.1 ∧ j.jwA = sa.2.1 ∧ j.jwC = sa.2.2) ∧ (j.jvBD = sb.1 ∧ j.jwB = sb.2.1 ∧ j.jwD = sb.2.2) ∧
        j.mass = if m > 0 then 1 / m else 0
  | _ => True

theorem Joint.weighed_strip [Elem F] {bodies : Nat → JBody F} {pos : Arr (Pos F)} {j : Joint F} :
    j.strip.Weighed bodies pos ↔ j.Weighed bodies pos := by cases j <;> exact Iff.rfl

theorem Joint.prepared_weighed [Elem F] (st : JStep F) (bodies : Nat → JBody F) (pos : Arr (Pos F)) (j : Joint F) :
    (j.prepared st bodies pos).Weighed bodies pos := by
  cases j with
  | revolute j => exact rfl
  | prismatic j => exact ⟨rfl, rfl⟩
  | distance j =>
    have hA := arm_anchorA bodies pos (.distance j)
    have hB := arm_anchorB bodies pos (.distance j)
    have e := d_eq'' (pos.at' (bodies j.bodyA).index).c (pos.at' (bodies j.bodyB).index).c
      ((Joint.distance j).anchorA bodies pos) ((Joint.distance j).anchorB bodies pos)
    simp only [Joint.bodyA, Joint.bodyB, Joint.localAnchorA, Joint.localAnchorB] at hA hB
    have key : (Joint.distance (j.prepare bodies ⟨pos.at' (bodies j.bodyA).index, pos.at' (bodies j.bodyB).index⟩)).Weighed
        bodies pos := by
      intro h
      have hu : (j.prepare bodies ⟨pos.at' (bodies j.bodyA).index, pos.at' (bodies j.bodyB).index⟩).u =
          (let u := (pos.at' (bodies j.bodyB).index).c + (bodies j.bodyB).arm (pos.at' (bodies j.bodyB).index).a j.localAnchorB -
            (pos.at' (bodies j.bodyA).index).c - (bodies j.bodyA).arm (pos.at' (bodies j.bodyA).index).a j.localAnchorA;
           if decide (u.length > linearSlop) = true then (1 / u.length) * u else ⟨0, 0⟩) := rfl
      rw [hu, hA, hB, e]
      exact if_neg (fun h' => h (of_decide_eq_true h'))
    simp only [Joint.prepared, DistanceJ.soften]
    split
    · exact key
    · exact key
  | weld j =>
    simp only [Joint.prepared, Weld.prepare]
    split
    · trivial
    · split <;> trivial
  | wheel j =>
    refine ⟨⟨rfl, fun h => ?_, fun h => ?_⟩, rfl⟩
    · show (if decide (j.stiffness > 0 ∧ _) = true then _ else _) = _
      rw [if_neg]
      intro h'
      exact absurd (of_decide_eq_true h').1 (not_lt.mpr h)
    · show (if j.enableMotor = true then _ else _) = _
      rw [if_neg]
      rw [show j.enableMotor = false from h]; simp
  | friction j => trivial
  | motor j => trivial
  | pulley j => trivial
  | mouse j => trivial
  | gear j => exact ⟨⟨rfl, rfl, rfl⟩, ⟨rfl, rfl, rfl⟩, rfl⟩

theorem Joint.weighed_of_strip [Elem F] {st : JStep F} {bodies : Nat → JBody F} {pos : Arr (Pos F)} {j j' : Joint F}
    (h : j'.strip = (j.prepared st bodies pos).strip) : j'.Weighed bodies pos := by
  rw [← Joint.weighed_strip, h, Joint.weighed_strip]; exact j.prepared_weighed st bodies pos

theorem Joint.passive_strip {j : Joint F} : j.strip.Passive ↔ j.Passive := by cases j <;> exact Iff.rfl

theorem Joint.passive_prepared [Elem F] {st : JStep F} {bodies : Nat → JBody F} {pos : Arr (Pos F)} {j : Joint F} :
    (j.prepared st bodies pos).Passive ↔ j.Passive := by
  cases j with
  | weld j =>
    simp only [Joint.prepared, Weld.prepare]
    split
    · exact Iff.rfl
    · split <;> exact Iff.rfl
  | distance j =>
    simp only [Joint.prepared, DistanceJ.soften]
    split <;> exact Iff.rfl
  | _ => exact Iff.rfl

/-- Twice what the limits of a joint may still give back. -/
def Joint.stored (st : JStep F) : Joint F → F
  | .revolute j => j.stored st
  | .prismatic j => j.stored st
  | .wheel j => j.stored st
  | .distance j => j.stored st
  | _ => 0

/-- The limits only push, and a wheel has no motor impulse. -/
def Joint.Calm : Joint F → Prop
  | .revolute j => 0 ≤ j.lowerImpulse ∧ 0 ≤ j.upperImpulse
  | .prismatic j => 0 ≤ j.lowerImpulse ∧ 0 ≤ j.upperImpulse
  | .wheel j => 0 ≤ j.lowerImpulse ∧ 0 ≤ j.upperImpulse ∧ j.motorImpulse = 0
  | .distance j => 0 ≤ j.lowerImpulse ∧ 0 ≤ j.upperImpulse
  | _ => True

theorem nothingDriven_pushed {M J invM invI : Nat → F} {l : List (JBody F)} {vel vel' : Arr (Vel F)}
    (hm : ∀ b ∈ l, b.invMass = invM b.index ∧ b.invI = invI b.index) (h : NothingDriven M J invM invI vel)
    (hp : Pushed l vel vel') : NothingDriven M J invM invI vel' := by
  intro i hi
  rw [hp.len] at hi
  obtain ⟨h1, h2⟩ := h i hi
  refine ⟨h1.imp id fun ⟨a, b⟩ => ⟨a, ?_⟩, h2.imp id fun ⟨a, b⟩ => ⟨a, ?_⟩⟩
  · rw [hp.linear i (fun b hb e => by rw [(hm b hb).1, e, a])]; exact b
  · rw [hp.angular i (fun b hb e => by rw [(hm b hb).2, e, a])]; exact b

end

section
variable {F : Type} [Field F] [LinearOrder F] [IsStrictOrderedRing F]

theorem stored_nonneg {st : JStep F} (hd : 0 ≤ st.invDt) {j : Joint F} (h : j.Calm) : 0 ≤ j.stored st := by
  have h0 : ∀ c x : F, 0 ≤ x → 0 ≤ 2 * ((b2max c 0 * st.invDt) * x) := by
    intro c x hx
    have := b2max_zero_le c
    positivity
  have h0' : ∀ c x : F, 0 ≤ x → 0 ≤ 2 * ((b2max 0 c * st.invDt) * x) := by
    intro c x hx; rw [b2max_comm_zero]; exact h0 c x hx
  cases j with
  | revolute j => exact add_nonneg (h0 _ _ h.1) (h0 _ _ h.2)
  | prismatic j => exact add_nonneg (h0 _ _ h.1) (h0 _ _ h.2)
  | wheel j => exact add_nonneg (h0 _ _ h.1) (h0 _ _ h.2.1)
  | distance j => exact add_nonneg (h0' _ _ h.1) (h0' _ _ h.2)
  | _ => exact le_refl _

theorem onTwo_energy {M J invM invI : Nat → F} {α : Type} {mk : α → Joint F} {vel vel' : Arr (Vel F)} {f : PairFrame F}
    {g : Two F → α × Two F} {j' : Joint F} (h : onTwo mk vel f.a.index f.b.index g = some (j', vel'))
    (hne : f.a.index ≠ f.b.index) (hd : NothingDriven M J invM invI vel)
    (hA : f.a.invMass = invM f.a.index ∧ f.a.invI = invI f.a.index)
    (hB : f.b.invMass = invM f.b.index ∧ f.b.invI = invI f.b.index) :
    ∃ s : Two F, f.Fits (M f.a.index) (J f.a.index) (M f.b.index) (J f.b.index) s ∧ j' = mk (g s).1 ∧
      energy2 M J vel' = energy2 M J vel + (pairEnergy2 (M f.a.index) (J f.a.index) (M f.b.index) (J f.b.index) (g s).2 -
        pairEnergy2 (M f.a.index) (J f.a.index) (M f.b.index) (J f.b.index) s) := by
  obtain ⟨h1, h2, rfl, rfl⟩ := onTwo_some h
  refine ⟨⟨vel.at' f.a.index, vel.at' f.b.index⟩, ⟨?_, ?_⟩, rfl, ?_⟩
  · rw [hA.1, hA.2]; exact fits_of (hd _ h1).1 (hd _ h1).2
  · rw [hB.1, hB.2]; exact fits_of (hd _ h2).1 (hd _ h2).2
  · unfold energy2
    simp only
    rw [sum_upd2 vel.len (fun i (v : Vel F) => M i * (v.v.x ^ 2 + v.v.y ^ 2) + J i * v.w ^ 2) vel.at' _ _ h1 h2 hne]
    simp only [pairEnergy2]
    ring

theorem upd_keep {α : Type} {g G : Nat → α} {d e : Nat} {v : α} (h : e ≠ d ∨ v = g e) (hG : G d = g d) :
    upd G e v d = g d := by
  by_cases hd : d = e
  · subst hd
    rw [upd_same]; exact h.resolve_left (fun h => h rfl)
  · rw [upd_other _ _ hd, hG]

open Finset in
theorem sum_upd4_loose {α : Type} (n : Nat) (f : Nat → α → F) (g : Nat → α) {a b c d : Nat} (x y z t : α) (ha : a < n)
    (hb : b < n) (hc : c < n) (hd : d < n) (hab : a ≠ b ∨ x = g a) (hac : a ≠ c ∨ x = g a) (had : a ≠ d ∨ x = g a)
    (hbc : b ≠ c ∨ y = g b) (hbd : b ≠ d ∨ y = g b) (hcd : c ≠ d ∨ z = g c) :
    ∑ i ∈ range n, f i (upd (upd (upd (upd g a x) b y) c z) d t i) =
      ∑ i ∈ range n, f i (g i) + (f a x - f a (g a)) + (f b y - f b (g b)) + (f c z - f c (g c)) + (f d t - f d (g d)) := by
  rw [sum_upd n f _ t hd, sum_upd n f _ z hc, sum_upd n f _ y hb, sum_upd n f g x ha,
    upd_keep hcd (upd_keep hbd (upd_keep had rfl)), upd_keep hbc (upd_keep hac rfl), upd_keep hab rfl]

/-- The four bodies of a gear are different, or the same static one. -/
def Gear.loose (g : Gear F) : Prop :=
  [g.fA, g.fB, g.fC, g.fD].Pairwise fun a b => a.index ≠ b.index ∨ a.invMass = 0 ∧ a.invI = 0

theorem gearPushed_energy {M J invM invI : Nat → F} {g : Gear F} {x : F} {vel : Arr (Vel F)} (hi : g.inside vel.len)
    (hn : g.loose) (hd : NothingDriven M J invM invI vel)
    (hA : g.fA.invMass = invM g.fA.index ∧ g.fA.invI = invI g.fA.index)
    (hB : g.fB.invMass = invM g.fB.index ∧ g.fB.invI = invI g.fB.index)
    (hC : g.fC.invMass = invM g.fC.index ∧ g.fC.invI = invI g.fC.index)
    (hD : g.fD.invMass = invM g.fD.index ∧ g.fD.invI = invI g.fD.index) :
    energy2 M J (gearPushed g x vel) = energy2 M J vel +
      2 * x * ((dot g.jvAC ((vel.at' g.fA.index).v - (vel.at' g.fC.index).v) +
          dot g.jvBD ((vel.at' g.fB.index).v - (vel.at' g.fD.index).v)) +
        ((g.jwA * (vel.at' g.fA.index).w - g.jwC * (vel.at' g.fC.index).w) +
          (g.jwB * (vel.at' g.fB.index).w - g.jwD * (vel.at' g.fD.index).w))) +
      x * x * ((g.fA.invMass + g.fC.invMass) * dot g.jvAC g.jvAC + g.fA.invI * g.jwA * g.jwA + g.fC.invI * g.jwC * g.jwC +
        ((g.fB.invMass + g.fD.invMass) * dot g.jvBD g.jvBD + g.fB.invI * g.jwB * g.jwB + g.fD.invI * g.jwD * g.jwD)) := by
  obtain ⟨i1, i2, i3, i4⟩ := hi
  simp only [Gear.loose, List.pairwise_cons, List.mem_cons, List.not_mem_nil, or_false, forall_eq_or_imp, forall_eq,
    List.Pairwise.nil, and_true, IsEmpty.forall_iff, implies_true] at hn
  obtain ⟨⟨n1, n2, n3⟩, ⟨n4, n5⟩, n6⟩ := hn
  have fA := fits_of (hd _ i1).1 (hd _ i1).2
  have fB := fits_of (hd _ i2).1 (hd _ i2).2
  have fC := fits_of (hd _ i3).1 (hd _ i3).2
  have fD := fits_of (hd _ i4).1 (hd _ i4).2
  rw [← hA.1, ← hA.2] at fA
  rw [← hB.1, ← hB.2] at fB
  rw [← hC.1, ← hC.2] at fC
  rw [← hD.1, ← hD.2] at fD
  unfold energy2 gearPushed
  simp only
  have kA : ∀ {p : Prop}, (p ∨ g.fA.invMass = 0 ∧ g.fA.invI = 0) → p ∨ (g.push x ⟨vel.at' g.fA.index, vel.at' g.fB.index,
      vel.at' g.fC.index, vel.at' g.fD.index⟩).a = vel.at' g.fA.index := fun h => h.imp id fun ⟨m, i⟩ => by
    simp only [Gear.push, m, i]; ext <;> simp
  have kB : ∀ {p : Prop}, (p ∨ g.fB.invMass = 0 ∧ g.fB.invI = 0) → p ∨ (g.push x ⟨vel.at' g.fA.index, vel.at' g.fB.index,
      vel.at' g.fC.index, vel.at' g.fD.index⟩).b = vel.at' g.fB.index := fun h => h.imp id fun ⟨m, i⟩ => by
    simp only [Gear.push, m, i]; ext <;> simp
  have kC : ∀ {p : Prop}, (p ∨ g.fC.invMass = 0 ∧ g.fC.invI = 0) → p ∨ (g.push x ⟨vel.at' g.fA.index, vel.at' g.fB.index,
      vel.at' g.fC.index, vel.at' g.fD.index⟩).c = vel.at' g.fC.index := fun h => h.imp id fun ⟨m, i⟩ => by
    simp only [Gear.push, m, i]; ext <;> simp
  rw [sum_upd4_loose vel.len (fun i (v : Vel F) => M i * (v.v.x ^ 2 + v.v.y ^ 2) + J i * v.w ^ 2) vel.at' _ _ _ _ i1 i2 i3 i4
    (kA n1) (kA n2) (kA n3) (kB n4) (kB n5) (kC n6)]
  obtain ⟨a1, a2, a3, a4, a5⟩ := fA
  obtain ⟨b1, b2, b3, b4, b5⟩ := fB
  obtain ⟨c1, c2, c3, c4, c5⟩ := fC
  obtain ⟨d1, d2, d3, d4, d5⟩ := fD
  simp only [Gear.push, dot, Vec2.add_x, Vec2.add_y, Vec2.sub_x, Vec2.sub_y, Vec2.smul_x, Vec2.smul_y]
  linear_combination (x ^ 2 * (g.jvAC.x ^ 2 + g.jvAC.y ^ 2)) * a1 + 2 * x * g.jvAC.x * a2 + 2 * x * g.jvAC.y * a3 +
    x ^ 2 * g.jwA ^ 2 * a4 + 2 * x * g.jwA * a5 +
    (x ^ 2 * (g.jvBD.x ^ 2 + g.jvBD.y ^ 2)) * b1 + 2 * x * g.jvBD.x * b2 + 2 * x * g.jvBD.y * b3 +
    x ^ 2 * g.jwB ^ 2 * b4 + 2 * x * g.jwB * b5 +
    (x ^ 2 * (g.jvAC.x ^ 2 + g.jvAC.y ^ 2)) * c1 - 2 * x * g.jvAC.x * c2 - 2 * x * g.jvAC.y * c3 +
    x ^ 2 * g.jwC ^ 2 * c4 - 2 * x * g.jwC * c5 +
    (x ^ 2 * (g.jvBD.x ^ 2 + g.jvBD.y ^ 2)) * d1 - 2 * x * g.jvBD.x * d2 - 2 * x * g.jvBD.y * d3 +
    x ^ 2 * g.jwD ^ 2 * d4 - 2 * x * g.jwD * d5

theorem axis_soft [Elem F] [SoftLaws F] (a : F) {d : Vec2 F} (h : d.lengthSquared = 1) :
    dot ((Rot.ofAngle a).mulV d) ((Rot.ofAngle a).mulV d) = 1 :=
  rot_unit (SoftLaws.turn a) h

/-- With an axis of length one the mass of a side of a gear is the true one. -/
theorem gearSide_mass [Elem F] [SoftLaws F] {slide : Bool} {ratio : F} {f g : JBody F} {x y d : Vec2 F} {a b : F}
    (h : slide = true → d.lengthSquared = 1) :
    let s := gearSide slide ratio f g x y d a b
    (f.invMass + g.invMass) * dot s.1 s.1 + f.invI * s.2.1 * s.2.1 + g.invI * s.2.2 * s.2.2 =
      gearMass slide ratio f g s.2.1 s.2.2 := by
  intro s
  cases slide with
  | true =>
    have hu := axis_soft b (h rfl)
    show (f.invMass + g.invMass) * dot (ratio * (Rot.ofAngle b).mulV d) (ratio * (Rot.ofAngle b).mulV d) +
      f.invI * s.2.1 * s.2.1 + g.invI * s.2.2 * s.2.2 =
      ratio * ratio * (g.invMass + f.invMass) + g.invI * s.2.2 * s.2.2 + f.invI * s.2.1 * s.2.1
    simp only [dot, Vec2.smul_x, Vec2.smul_y] at hu ⊢
    linear_combination (ratio * ratio * (f.invMass + g.invMass)) * hu
  | false =>
    show (f.invMass + g.invMass) * dot (⟨0, 0⟩ : Vec2 F) ⟨0, 0⟩ + f.invI * ratio * ratio + g.invI * ratio * ratio =
      ratio * ratio * (f.invI + g.invI)
    simp only [dot]; ring

theorem unit_le [Elem F] [SoftLaws F] {d : Vec2 F} {c : F} (hc : 0 ≤ c) {u : Vec2 F} (h1 : c < d.length → u = (1 / d.length) * d)
    (h2 : ¬ c < d.length → u = ⟨0, 0⟩) : dot u u ≤ 1 := by
  by_cases h : c < d.length
  · rw [h1 h]
    have h0 : 0 < d.length := lt_of_le_of_lt hc h
    have e : dot ((1 / d.length) * d) ((1 / d.length) * d) = dot d d / (d.length * d.length) := by
      simp only [dot, Vec2.smul_x, Vec2.smul_y]; field_simp
    rw [e, div_le_one (mul_pos h0 h0)]
    have hn : 0 ≤ dot d d := add_nonneg (mul_self_nonneg d.x) (mul_self_nonneg d.y)
    rcases hn.eq_or_lt with hz | hz
    · rw [← hz]; exact (mul_pos h0 h0).le
    · exact SoftLaws.root _ hz
  · rw [h2 h]; simp [dot]

theorem Joint.solveVel_energy [Elem F] [SoftLaws F] {n : Nat} {st : JStep F} {bodies : Nat → JBody F} {pos : Arr (Pos F)}
    {M J invM invI : Nat → F} {j j' : Joint F} {vel vel' : Arr (Vel F)} (hdt : 0 ≤ st.dt) (hok : j.Ok n bodies)
    (hp : j.Passive) (hk : j.Knows bodies invM invI) (ha : j.Armed bodies pos) (ht : j.Tuned bodies pos)
    (hw : j.Weighed bodies pos) (hc : j.Calm)
    (hd : NothingDriven M J invM invI vel) (h : j.solveVel st vel = some (j', vel')) :
    j'.Calm ∧ energy2 M J vel' + j'.stored st ≤ energy2 M J vel + j.stored st ∧ NothingDriven M J invM invI vel' := by
  obtain ⟨hpu, _⟩ := Joint.solveVel_pushed ha h
  have hdr : NothingDriven M J invM invI vel' := nothingDriven_pushed (by
    intro b hb
    obtain ⟨c, hc, rfl⟩ := List.mem_map.1 hb
    exact hk.2 c hc) hd hpu
  obtain ⟨hk1, hk2⟩ := hk
  suffices hs : j'.Calm ∧ energy2 M J vel' + j'.stored st ≤ energy2 M J vel + j.stored st from ⟨hs.1, hs.2, hdr⟩
  have slop0 : (0 : F) ≤ linearSlop := by unfold linearSlop; norm_num
  cases j with
  | revolute j =>
    obtain ⟨hf, _, _⟩ := ha
    have hg := hok.good
    rw [← hf] at hg
    obtain ⟨s, hfit, rfl, he⟩ := onTwo_energy (M := M) (J := J) h (by rw [hf]; exact hok.ne) hd
      (by rw [hf]; exact hk2 _ (by simp [Joint.touched])) (by rw [hf]; exact hk2 _ (by simp [Joint.touched]))
    obtain ⟨r1, r2⟩ := Revolute.energy (st := st) hfit hg hp ht hw hc.1 hc.2
    refine ⟨r1, ?_⟩
    simp only [Joint.stored]
    linarith
  | prismatic j =>
    obtain ⟨hf, _, _⟩ := ha
    have hg := hok.good
    rw [← hf] at hg
    obtain ⟨s, hfit, rfl, he⟩ := onTwo_energy (M := M) (J := J) h (by rw [hf]; exact hok.ne) hd
      (by rw [hf]; exact hk2 _ (by simp [Joint.touched])) (by rw [hf]; exact hk2 _ (by simp [Joint.touched]))
    obtain ⟨r1, r2⟩ := Prismatic.energy (st := st) hfit hg hp.1 ht.2 hw.2 (by rw [hw.1]; exact axis_soft _ hp.2.1)
      (by rw [ht.1]; exact axis_soft _ hp.2.2) hc.1 hc.2
    refine ⟨r1, ?_⟩
    simp only [Joint.stored]
    linarith
  | wheel j =>
    obtain ⟨hf, _, _⟩ := ha
    have hg := hok.good
    rw [← hf] at hg
    obtain ⟨s, hfit, rfl, he⟩ := onTwo_energy (M := M) (J := J) h (by rw [hf]; exact hok.ne) hd
      (by rw [hf]; exact hk2 _ (by simp [Joint.touched])) (by rw [hf]; exact hk2 _ (by simp [Joint.touched]))
    obtain ⟨⟨p1, p2⟩, p3, p4, p5⟩ := hp
    obtain ⟨⟨w1, w2, w3⟩, w4⟩ := hw
    obtain ⟨r1, r2⟩ := Wheel.energy (st := st) hfit hg (w2 p3) (w3 p1) hc.2.2 (mul_nonneg hdt p2) ht.2 w4
      (by rw [w1]; exact axis_soft _ p4) (by rw [ht.1]; exact axis_soft _ p5) hc.1 hc.2.1
    refine ⟨r1, ?_⟩
    simp only [Joint.stored]
    linarith
  | distance j =>
    obtain ⟨hf, _, _⟩ := ha
    have hg := hok.good
    rw [← hf] at hg
    obtain ⟨s, hfit, rfl, he⟩ := onTwo_energy (M := M) (J := J) h (by rw [hf]; exact hok.ne) hd
      (by rw [hf]; exact hk2 _ (by simp [Joint.touched])) (by rw [hf]; exact hk2 _ (by simp [Joint.touched]))
    obtain ⟨r1, r2⟩ := DistanceJ.energy (st := st) hfit hg hp (unit_le slop0 ht.2.1 hw) ht.2.2 hc.1 hc.2
    refine ⟨r1, ?_⟩
    simp only [Joint.stored]
    linarith
  | weld j =>
    obtain ⟨hf, _, _⟩ := ha
    have hg := hok.good
    rw [← hf] at hg
    obtain ⟨s, hfit, rfl, he⟩ := onTwo_energy (M := M) (J := J) h (by rw [hf]; exact hok.ne) hd
      (by rw [hf]; exact hk2 _ (by simp [Joint.touched])) (by rw [hf]; exact hk2 _ (by simp [Joint.touched]))
    simp only [Joint.Tuned] at ht
    rw [if_neg (not_lt.mpr (show j.stiffness ≤ 0 from hp))] at ht
    have r2 := Weld.energy hfit hg hp ht
    refine ⟨trivial, ?_⟩
    simp only [Joint.stored]
    linarith
  | pulley j =>
    obtain ⟨hf, _, _⟩ := ha
    have hg := hok.good
    rw [← hf] at hg
    obtain ⟨s, hfit, rfl, he⟩ := onTwo_energy (M := M) (J := J) h (by rw [hf]; exact hok.ne) hd
      (by rw [hf]; exact hk2 _ (by simp [Joint.touched])) (by rw [hf]; exact hk2 _ (by simp [Joint.touched]))
    obtain ⟨t1, t2, t3⟩ := ht
    have r2 := Pulley.energy hfit hg t3
      (unit_le (mul_nonneg (by norm_num : (0:F) ≤ 10) slop0) (fun h => by rw [t1]; exact if_pos h) (fun h => by rw [t1]; exact if_neg h))
      (unit_le (mul_nonneg (by norm_num : (0:F) ≤ 10) slop0) (fun h => by rw [t2]; exact if_pos h) (fun h => by rw [t2]; exact if_neg h))
    refine ⟨trivial, ?_⟩
    simp only [Joint.stored]
    linarith
  | gear g =>
    obtain ⟨x, hi, rfl, rfl, hx⟩ := gear_solveVel_some h
    obtain ⟨aA, aB, aC, aD⟩ := ha
    simp only [Joint.bodyA, Joint.bodyB] at aA aB aC aD
    refine ⟨trivial, ?_⟩
    have hk1' := hk1
    rw [gearPushed_energy hi (by unfold Gear.loose; rw [aA, aB, aC, aD]; simpa [Joint.touched, Joint.bodyA, Joint.bodyB] using hk1') hd
      (by rw [aA]; exact hk2 _ (by simp [Joint.touched])) (by rw [aB]; exact hk2 _ (by simp [Joint.touched]))
      (by rw [aC]; exact hk2 _ (by simp [Joint.touched])) (by rw [aD]; exact hk2 _ (by simp [Joint.touched]))]
    obtain ⟨⟨w1, w2, w3⟩, ⟨w4, w5, w6⟩, w7⟩ := hw
    have mA := gearSide_mass (ratio := 1) (f := bodies g.bodyA) (g := bodies g.bodyC) (x := g.localAnchorA) (y := g.localAnchorC)
      (a := (pos.at' (bodies g.bodyA).index).a) (b := (pos.at' (bodies g.bodyC).index).a) hp.1
    have mB := gearSide_mass (ratio := g.ratio) (f := bodies g.bodyB) (g := bodies g.bodyD) (x := g.localAnchorB)
      (y := g.localAnchorD) (a := (pos.at' (bodies g.bodyB).index).a) (b := (pos.at' (bodies g.bodyD).index).a) hp.2
    simp only at mA mB
    rw [← w1, ← w2, ← w3, ← aA, ← aC] at mA
    rw [← w4, ← w5, ← w6, ← aB, ← aD] at mB
    rw [← w2, ← w3, ← w5, ← w6, ← aA, ← aB, ← aC, ← aD, ← mA, ← mB] at w7
    simp only [Joint.stored]
    generalize hKd : (g.fA.invMass + g.fC.invMass) * dot g.jvAC g.jvAC + g.fA.invI * g.jwA * g.jwA + g.fC.invI * g.jwC * g.jwC +
        ((g.fB.invMass + g.fD.invMass) * dot g.jvBD g.jvBD + g.fB.invI * g.jwB * g.jwB + g.fD.invI * g.jwD * g.jwD) = K at *
    by_cases hK : 0 < K
    · have := equality_row (m := g.mass) (K := K) (Kt := K) (c := ((dot g.jvAC ((vel.at' g.fA.index).v - (vel.at' g.fC.index).v) +
          dot g.jvBD ((vel.at' g.fB.index).v - (vel.at' g.fD.index).v)) +
        ((g.jwA * (vel.at' g.fA.index).w - g.jwC * (vel.at' g.fC.index).w) +
          (g.jwB * (vel.at' g.fB.index).w - g.jwD * (vel.at' g.fD.index).w)))) hK
          (by rw [w7, if_pos hK, one_div_mul_cancel hK.ne']) (le_refl _)
      rw [← hx] at this
      linarith
    · have h0 : x = 0 := by rw [hx, w7, if_neg hK]; ring
      rw [h0]; simp
  | friction j => exact hp.elim
  | motor j => exact hp.elim
  | mouse j => exact hp.elim

/-! ## Initialization without warm starting -/

theorem upd_self {α : Type} (f : Nat → α) (a : Nat) : upd f a (f a) = f := by
  funext i
  by_cases h : i = a
  · subst h; exact upd_same ..
  · exact upd_other _ _ h

theorem upd_self2 {α : Type} (f : Nat → α) (a b : Nat) : upd (upd f a (f a)) b (f b) = f := by
  rw [upd_self, upd_self]

theorem onTwo_cold {α : Type} {mk : α → Joint F} {vel vel' : Arr (Vel F)} {a b : Nat} {f : Two F → α × Two F} {j' : Joint F}
    {P : Joint F → Prop} (hf : ∀ s, P (mk (f s).1) ∧ (f s).2 = s) (h : onTwo mk vel a b f = some (j', vel')) :
    P j' ∧ vel' = vel := by
  obtain ⟨_, _, rfl, rfl⟩ := onTwo_some h
  refine ⟨(hf _).1, ?_⟩
  rw [(hf _).2]
  show (⟨vel.len, upd (upd vel.at' a (vel.at' a)) b (vel.at' b)⟩ : Arr (Vel F)) = vel
  rw [upd_self2]

theorem Joint.initVel_cold [Elem F] {st : JStep F} {bodies : Nat → JBody F} {pos : Arr (Pos F)} {j j' : Joint F}
    {vel vel' : Arr (Vel F)} (hw : st.warmStarting = false) (hp : j.Passive) (hc : j.startsClean st)
    (h : j.initVel st bodies pos vel = some (j', vel')) : (j'.Calm ∧ j'.stored st = 0) ∧ vel' = vel := by
  cases j with
  | revolute j =>
    obtain ⟨p, hp', h⟩ := Option.bind_eq_some_iff.1 h
    refine onTwo_cold (P := fun j' => j'.Calm ∧ j'.stored st = 0) (fun s => ?_) h
    simp only [Revolute.initVel, Revolute.warm, hw, Bool.false_eq_true, if_false]
    exact ⟨⟨⟨le_refl _, le_refl _⟩, by simp [Joint.stored, Revolute.stored]⟩, trivial⟩
  | prismatic j =>
    obtain ⟨p, hp', h⟩ := Option.bind_eq_some_iff.1 h
    refine onTwo_cold (P := fun j' => j'.Calm ∧ j'.stored st = 0) (fun s => ?_) h
    simp only [Prismatic.initVel, Prismatic.warm, hw, Bool.false_eq_true, if_false]
    exact ⟨⟨⟨le_refl _, le_refl _⟩, by simp [Joint.stored, Prismatic.stored]⟩, trivial⟩
  | wheel j =>
    obtain ⟨p, hp', h⟩ := Option.bind_eq_some_iff.1 h
    refine onTwo_cold (P := fun j' => j'.Calm ∧ j'.stored st = 0) (fun s => ?_) h
    simp only [Wheel.initVel, Wheel.warm, hw, Bool.false_eq_true, if_false]
    exact ⟨⟨⟨le_refl _, le_refl _, rfl⟩, by simp [Joint.stored, Wheel.stored]⟩, trivial⟩
  | distance j =>
    obtain ⟨p, hp', h⟩ := Option.bind_eq_some_iff.1 h
    obtain ⟨c1, c2⟩ := hc.resolve_left (by rw [hw]; simp)
    have e : ∀ p, ((j.prepare bodies p).soften st).lowerImpulse = 0 ∧ ((j.prepare bodies p).soften st).upperImpulse = 0 := by
      intro p
      have e1 : (j.prepare bodies p).lowerImpulse = 0 := by
        simp only [DistanceJ.prepare]; split
        · exact c1
        · rfl
      have e2 : (j.prepare bodies p).upperImpulse = 0 := by
        simp only [DistanceJ.prepare]; split
        · exact c2
        · rfl
      unfold DistanceJ.soften
      split
      · exact ⟨e1, e2⟩
      · exact ⟨e1, e2⟩
    refine onTwo_cold (P := fun j' => j'.Calm ∧ j'.stored st = 0) (fun s => ?_) h
    simp only [DistanceJ.initVel, DistanceJ.warm, hw, Bool.false_eq_true, if_false]
    obtain ⟨e1, e2⟩ := e p
    exact ⟨⟨⟨e1.ge, e2.ge⟩, by simp [Joint.stored, DistanceJ.stored, e1, e2]⟩, trivial⟩
  | weld j =>
    obtain ⟨p, hp', h⟩ := Option.bind_eq_some_iff.1 h
    refine onTwo_cold (P := fun j' => j'.Calm ∧ j'.stored st = 0) (fun s => ?_) h
    simp only [Weld.initVel, Weld.warm, hw, Bool.false_eq_true, if_false]
    exact ⟨⟨trivial, rfl⟩, trivial⟩
  | pulley j =>
    obtain ⟨p, hp', h⟩ := Option.bind_eq_some_iff.1 h
    refine onTwo_cold (P := fun j' => j'.Calm ∧ j'.stored st = 0) (fun s => ?_) h
    simp only [Pulley.initVel, Pulley.warm, hw, Bool.false_eq_true, if_false]
    exact ⟨⟨trivial, rfl⟩, trivial⟩
  | gear g =>
    obtain ⟨x, hi, rfl, rfl, hx⟩ := gear_initVel_some h
    rw [hw] at hx
    simp only [Bool.false_eq_true, if_false] at hx
    subst hx
    refine ⟨⟨trivial, rfl⟩, ?_⟩
    unfold gearPushed
    simp only [gear_push_zero, upd_self]
  | friction j => exact hp.elim
  | motor j => exact hp.elim
  | mouse j => exact hp.elim

/-! ## All joints of an island -/

/-- What a passive joint keeps while it is solved. -/
structure Joint.Quiet [Elem F] (bodies : Nat → JBody F) (pos : Arr (Pos F)) (invM invI : Nat → F) (n : Nat) (j : Joint F) :
    Prop where
  ok : j.Ok n bodies
  passive : j.Passive
  knows : j.Knows bodies invM invI
  armed : j.Armed bodies pos
  tuned : j.Tuned bodies pos
  weighed : j.Weighed bodies pos
  calm : j.Calm

theorem Joint.ok_same {n : Nat} {bodies : Nat → JBody F} {j j' : Joint F} (q1 : j'.bodyA = j.bodyA) (q2 : j'.bodyB = j.bodyB)
    (h : j.Ok n bodies) : j'.Ok n bodies := by
  obtain ⟨a1, a2, a3, a4, a5, a6, a7, a8⟩ := h
  refine ⟨?_, ?_, ?_, ?_, ?_, ?_, ?_, ?_⟩ <;> (first | rw [q1, q2] | rw [q1] | rw [q2]) <;> assumption

theorem Joint.initVel_quiet [Elem F] {st : JStep F} {bodies : Nat → JBody F} {pos : Arr (Pos F)} {invM invI : Nat → F} {n : Nat}
    {j j' : Joint F} {vel vel' : Arr (Vel F)} (hw : st.warmStarting = false) (ho : j.Ok n bodies) (hp : j.Passive)
    (hk : j.Knows bodies invM invI) (hc : j.startsClean st)
    (h : j.initVel st bodies pos vel = some (j', vel')) : j'.Quiet bodies pos invM invI n ∧ j'.stored st = 0 ∧ vel' = vel := by
  obtain ⟨⟨c1, c2⟩, c3⟩ := Joint.initVel_cold hw hp hc h
  obtain ⟨_, _, _, _, s⟩ := Joint.initVel_pushed h
  obtain ⟨_, q1, q2, _, _, _, ha⟩ := Joint.calls_same s
  have et : j'.touched = j.touched := by rw [← Joint.touched_strip, s, Joint.touched_strip, Joint.touched_prepared]
  refine ⟨⟨Joint.ok_same q1 q2 ho, ?_, ?_, ha, Joint.tuned_of_strip s, Joint.weighed_of_strip s, c1⟩, c2, c3⟩
  · rw [← Joint.passive_strip, s, Joint.passive_strip, Joint.passive_prepared]; exact hp
  · unfold Joint.Knows; rw [et]; exact hk

theorem Joint.solveVel_quiet [Elem F] [SoftLaws F] {n : Nat} {st : JStep F} {bodies : Nat → JBody F} {pos : Arr (Pos F)}
    {M J invM invI : Nat → F} {j j' : Joint F} {vel vel' : Arr (Vel F)} (hdt : 0 ≤ st.dt)
    (hq : j.Quiet bodies pos invM invI n) (hd : NothingDriven M J invM invI vel) (h : j.solveVel st vel = some (j', vel')) :
    j'.Quiet bodies pos invM invI n ∧ energy2 M J vel' + j'.stored st ≤ energy2 M J vel + j.stored st ∧
      NothingDriven M J invM invI vel' := by
  obtain ⟨e1, e2, e3⟩ := Joint.solveVel_energy hdt hq.ok hq.passive hq.knows hq.armed hq.tuned hq.weighed hq.calm hd h
  obtain ⟨_, s⟩ := Joint.solveVel_pushed hq.armed h
  obtain ⟨a1, a2, a3, a4, a5, a6, a7⟩ := Joint.same_of_strip s bodies pos
  have et : j'.touched = j.touched := by rw [← Joint.touched_strip, s, Joint.touched_strip]
  refine ⟨⟨Joint.ok_same a2 a3 hq.ok, ?_, ?_, a7.2 hq.armed, ?_, ?_, e1⟩, e2, e3⟩
  · rw [← Joint.passive_strip, s, Joint.passive_strip]; exact hq.passive
  · unfold Joint.Knows; rw [et]; exact hq.knows
  · rw [← Joint.tuned_strip, s, Joint.tuned_strip]; exact hq.tuned
  · rw [← Joint.weighed_strip, s, Joint.weighed_strip]; exact hq.weighed

theorem initJoints_quiet [Elem F] {st : JStep F} {bodies : Nat → JBody F} {pos : Arr (Pos F)} {invM invI : Nat → F} {n : Nat}
    (hw : st.warmStarting = false) : ∀ {l l' : List (Joint F)} {vel vel' : Arr (Vel F)},
    (∀ j ∈ l, j.Ok n bodies ∧ j.Passive ∧ j.Knows bodies invM invI ∧ j.startsClean st) →
    initJoints st bodies pos l vel = some (l', vel') →
    (∀ j ∈ l', j.Quiet bodies pos invM invI n) ∧ (l'.map (·.stored st)).sum = 0 ∧ vel' = vel
  | [], l', vel, vel', _, h => by
    simp only [initJoints, Option.some.injEq, Prod.mk.injEq] at h
    obtain ⟨rfl, rfl⟩ := h
    exact ⟨fun _ h => (by cases h), rfl, rfl⟩
  | j :: l, l', vel, vel', hl, h => by
    simp only [initJoints] at h
    obtain ⟨r, hr1, h⟩ := Option.bind_eq_some_iff.1 h
    obtain ⟨r', hr2, h⟩ := Option.bind_eq_some_iff.1 h
    simp only [Option.pure_def, Option.some.injEq, Prod.mk.injEq] at h
    obtain ⟨rfl, rfl⟩ := h
    obtain ⟨h1, h2, h3, h4⟩ := hl j (List.mem_cons_self ..)
    obtain ⟨q1, s1, v1⟩ := Joint.initVel_quiet hw h1 h2 h3 h4 hr1
    obtain ⟨q2, s2, v2⟩ := initJoints_quiet hw (fun x hx => hl x (List.mem_cons_of_mem _ hx)) hr2
    refine ⟨fun x hx => ?_, by simp [s1, s2], v2.trans v1⟩
    rcases List.mem_cons.1 hx with rfl | hx
    · exact q1
    · exact q2 x hx

theorem solveJoints_quiet [Elem F] [SoftLaws F] {st : JStep F} {bodies : Nat → JBody F} {pos : Arr (Pos F)}
    {M J invM invI : Nat → F} {n : Nat} (hdt : 0 ≤ st.dt) : ∀ {l l' : List (Joint F)} {vel vel' : Arr (Vel F)},
    (∀ j ∈ l, j.Quiet bodies pos invM invI n) → NothingDriven M J invM invI vel → solveJoints st l vel = some (l', vel') →
    (∀ j ∈ l', j.Quiet bodies pos invM invI n) ∧
      energy2 M J vel' + (l'.map (·.stored st)).sum ≤ energy2 M J vel + (l.map (·.stored st)).sum ∧
      NothingDriven M J invM invI vel'
  | [], l', vel, vel', _, hd, h => by
    simp only [solveJoints, Option.some.injEq, Prod.mk.injEq] at h
    obtain ⟨rfl, rfl⟩ := h
    exact ⟨fun _ h => (by cases h), le_refl _, hd⟩
  | j :: l, l', vel, vel', hl, hd, h => by
    simp only [solveJoints] at h
    obtain ⟨r, hr1, h⟩ := Option.bind_eq_some_iff.1 h
    obtain ⟨r', hr2, h⟩ := Option.bind_eq_some_iff.1 h
    simp only [Option.pure_def, Option.some.injEq, Prod.mk.injEq] at h
    obtain ⟨rfl, rfl⟩ := h
    obtain ⟨q1, e1, d1⟩ := Joint.solveVel_quiet hdt (hl j (List.mem_cons_self ..)) hd hr1
    obtain ⟨q2, e2, d2⟩ := solveJoints_quiet hdt (fun x hx => hl x (List.mem_cons_of_mem _ hx)) d1 hr2
    refine ⟨fun x hx => ?_, ?_, d2⟩
    · rcases List.mem_cons.1 hx with rfl | hx
      · exact q1
      · exact q2 x hx
    · simp only [List.map_cons, List.sum_cons]; linarith

theorem islandIterate_quiet [Elem F] [SoftLaws F] {st : JStep F} {block : Bool} {bodies : Nat → JBody F} {pos : Arr (Pos F)}
    {M J invM invI : Nat → F} {n : Nat} (hdt : 0 ≤ st.dt) : ∀ {k : Nat} {l l' : List (Joint F)} {cs cs' : List (VConstraint F)}
    {vel vel' : Arr (Vel F)}, (∀ j ∈ l, j.Quiet bodies pos invM invI n) → (∀ vc ∈ cs, Tame block invM invI vc) →
    NothingDriven M J invM invI vel → islandIterate st block k l cs vel = some (l', cs', vel') →
    (∀ j ∈ l', j.Quiet bodies pos invM invI n) ∧
      energy2 M J vel' + (l'.map (·.stored st)).sum ≤ energy2 M J vel + (l.map (·.stored st)).sum ∧
      NothingDriven M J invM invI vel'
  | 0, l, l', cs, cs', vel, vel', hl, _, hd, h => by
    simp only [islandIterate, Option.some.injEq, Prod.mk.injEq] at h
    obtain ⟨rfl, rfl, rfl⟩ := h
    exact ⟨hl, le_refl _, hd⟩
  | k + 1, l, l', cs, cs', vel, vel', hl, hc, hd, h => by
    simp only [islandIterate] at h
    obtain ⟨r, hr1, h⟩ := Option.bind_eq_some_iff.1 h
    obtain ⟨q, hr2, h⟩ := Option.bind_eq_some_iff.1 h
    obtain ⟨q1, e1, d1⟩ := solveJoints_quiet hdt hl hd hr1
    obtain ⟨e2, d2, t2⟩ := solveVelocities_energy hc d1 hr2
    obtain ⟨q3, e3, d3⟩ := islandIterate_quiet hdt q1 t2 d2 h
    exact ⟨q3, by linarith, d3⟩

end
end B2
