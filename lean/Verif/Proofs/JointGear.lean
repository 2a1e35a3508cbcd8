import Verif.Proofs.JointEach

/-!
# Gears and pulleys, call by call
-/
namespace B2
open Finset

section
variable {F : Type} [Field F] [LinearOrder F]

/-- The velocities after a gear pushed its four bodies with impulse `x`. -/
def gearPushed (g : Gear F) (x : F) (vel : Arr (Vel F)) : Arr (Vel F) :=
  let s : Four F := ⟨vel.at' g.fA.index, vel.at' g.fB.index, vel.at' g.fC.index, vel.at' g.fD.index⟩
  ⟨vel.len, upd (upd (upd (upd vel.at' g.fA.index (g.push x s).a) g.fB.index (g.push x s).b) g.fC.index (g.push x s).c)
    g.fD.index (g.push x s).d⟩

/-- All four bodies are in the island. -/
def Gear.inside (g : Gear F) (n : Nat) : Prop := g.fA.index < n ∧ g.fB.index < n ∧ g.fC.index < n ∧ g.fD.index < n

theorem gear_push_zero (g : Gear F) (s : Four F) : g.push 0 s = s := by
  obtain ⟨a, b, c, d⟩ := s
  simp only [Gear.push, Four.mk.injEq]
  refine ⟨?_, ?_, ?_, ?_⟩ <;> ext <;> simp

theorem gear_initVel_some [Elem F] {st : JStep F} {bodies : Nat → JBody F} {pos : Arr (Pos F)} {g : Gear F} {j' : Joint F}
    {vel vel' : Arr (Vel F)} (h : (Joint.gear g).initVel st bodies pos vel = some (j', vel')) :
    ∃ x, (g.prepare bodies ⟨pos.at' (bodies g.bodyA).index, pos.at' (bodies g.bodyB).index, pos.at' (bodies g.bodyC).index,
        pos.at' (bodies g.bodyD).index⟩).inside vel.len ∧
      j' = .gear { g.prepare bodies ⟨pos.at' (bodies g.bodyA).index, pos.at' (bodies g.bodyB).index,
        pos.at' (bodies g.bodyC).index, pos.at' (bodies g.bodyD).index⟩ with impulse := x } ∧
      vel' = gearPushed (g.prepare bodies ⟨pos.at' (bodies g.bodyA).index, pos.at' (bodies g.bodyB).index,
        pos.at' (bodies g.bodyC).index, pos.at' (bodies g.bodyD).index⟩) x vel ∧
      x = if st.warmStarting then g.impulse else 0 := by
  simp only [Joint.initVel] at h
  obtain ⟨p, hp', h⟩ := Option.bind_eq_some_iff.1 h
  obtain ⟨s, hs, h⟩ := Option.bind_eq_some_iff.1 h
  obtain ⟨v, hv, h⟩ := Option.bind_eq_some_iff.1 h
  simp only [Option.pure_def, Option.some.injEq, Prod.mk.injEq] at h
  obtain ⟨rfl, rfl⟩ := h
  obtain ⟨_, rfl⟩ := loadFourP_some hp'
  obtain ⟨hi, rfl⟩ := loadFour_some hs
  have hv := storeFour_some hv
  subst hv
  by_cases hw : st.warmStarting = true
  · refine ⟨g.impulse, hi, ?_, ?_, by rw [if_pos hw]⟩
    · unfold Gear.initVel Gear.warm; rw [if_pos hw]; rfl
    · unfold Gear.initVel Gear.warm; rw [if_pos hw]; rfl
  · refine ⟨0, hi, ?_, ?_, by rw [if_neg hw]⟩
    · unfold Gear.initVel Gear.warm; rw [if_neg hw]
    · unfold Gear.initVel Gear.warm gearPushed; rw [if_neg hw]; simp only [gear_push_zero]; rfl

theorem gear_solveVel_some [Elem F] {st : JStep F} {g : Gear F} {j' : Joint F} {vel vel' : Arr (Vel F)}
    (h : (Joint.gear g).solveVel st vel = some (j', vel')) :
    ∃ x, g.inside vel.len ∧ j' = .gear { g with impulse := g.impulse + x } ∧ vel' = gearPushed g x vel ∧
      x = -g.mass * ((dot g.jvAC ((vel.at' g.fA.index).v - (vel.at' g.fC.index).v) +
          dot g.jvBD ((vel.at' g.fB.index).v - (vel.at' g.fD.index).v)) +
        ((g.jwA * (vel.at' g.fA.index).w - g.jwC * (vel.at' g.fC.index).w) +
          (g.jwB * (vel.at' g.fB.index).w - g.jwD * (vel.at' g.fD.index).w))) := by
  simp only [Joint.solveVel] at h
  obtain ⟨s, hs, h⟩ := Option.bind_eq_some_iff.1 h
  obtain ⟨v, hv, h⟩ := Option.bind_eq_some_iff.1 h
  simp only [Option.pure_def, Option.some.injEq, Prod.mk.injEq] at h
  obtain ⟨rfl, rfl⟩ := h
  obtain ⟨hi, rfl⟩ := loadFour_some hs
  have hv := storeFour_some hv
  subst hv
  exact ⟨_, hi, rfl, rfl, rfl⟩

theorem gear_solves {st : JStep F} [Elem F] : ∀ {vs : List (Arr (Vel F))} {g : Gear F} {j' : Joint F}
    {log : List (Arr (Vel F) × Arr (Vel F))}, (Joint.gear g).solves st vs = some (j', log) →
    ∀ e ∈ log, ∃ i x, g.inside e.1.len ∧ e.2 = gearPushed { g with impulse := i } x e.1
  | [], g, j', log, h => by
    obtain ⟨rfl, rfl⟩ := Joint.solves_nil h
    intro e he; cases he
  | v :: vs, g, j', log, h => by
    obtain ⟨j1, v1, log1, h1, h2, rfl⟩ := Joint.solves_cons h
    obtain ⟨x, hi, rfl, rfl, _⟩ := gear_solveVel_some h1
    intro e he
    rcases List.mem_cons.1 he with rfl | he
    · exact ⟨g.impulse, x, hi, rfl⟩
    · obtain ⟨i, y, hi', he⟩ := gear_solves h2 e he
      exact ⟨i, y, hi', he⟩

theorem gear_calls {st : JStep F} [Elem F] {bodies : Nat → JBody F} {pos : Arr (Pos F)} {g : Gear F} {j' : Joint F}
    {v : Arr (Vel F)} {vs : List (Arr (Vel F))} {log : List (Arr (Vel F) × Arr (Vel F))}
    (h : (Joint.gear g).calls st bodies pos v vs = some (j', log)) :
    ∀ e ∈ log, ∃ (g' : Gear F) (x : F), (g'.fA = bodies g.bodyA ∧ g'.fB = bodies g.bodyB ∧ g'.fC = bodies g.bodyC ∧
      g'.fD = bodies g.bodyD) ∧ g'.inside e.1.len ∧ e.2 = gearPushed g' x e.1 := by
  obtain ⟨j1, v1, log1, h1, h2, rfl⟩ := Joint.calls_some h
  obtain ⟨x, hi, rfl, rfl, _⟩ := gear_initVel_some h1
  intro e he
  rcases List.mem_cons.1 he with rfl | he
  · exact ⟨_, x, ⟨rfl, rfl, rfl, rfl⟩, hi, rfl⟩
  · obtain ⟨i, y, hi', he⟩ := gear_solves h2 e he
    exact ⟨_, y, ⟨rfl, rfl, rfl, rfl⟩, hi', he⟩

theorem sum_upd4 {α : Type} (n : Nat) (f : Nat → α → F) (g : Nat → α) {a b c d : Nat} (x y z t : α) (ha : a < n) (hb : b < n)
    (hc : c < n) (hd : d < n) (hab : a ≠ b) (hac : a ≠ c) (had : a ≠ d) (hbc : b ≠ c) (hbd : b ≠ d) (hcd : c ≠ d) :
    ∑ i ∈ range n, f i (upd (upd (upd (upd g a x) b y) c z) d t i) =
      ∑ i ∈ range n, f i (g i) + (f a x - f a (g a)) + (f b y - f b (g b)) + (f c z - f c (g c)) + (f d t - f d (g d)) := by
  rw [sum_upd n f _ t hd, sum_upd n f _ z hc, sum_upd n f _ y hb, sum_upd n f g x ha, upd_other _ _ hcd.symm,
    upd_other _ _ hbd.symm, upd_other _ _ had.symm, upd_other _ _ hbc.symm, upd_other _ _ hac.symm, upd_other _ _ hab.symm]

/-- The four bodies of a gear are four. -/
def Gear.apart (g : Gear F) : Prop := [g.fA.index, g.fB.index, g.fC.index, g.fD.index].Nodup

theorem Gear.apart_ne {g : Gear F} (h : g.apart) : g.fA.index ≠ g.fB.index ∧ g.fA.index ≠ g.fC.index ∧
    g.fA.index ≠ g.fD.index ∧ g.fB.index ≠ g.fC.index ∧ g.fB.index ≠ g.fD.index ∧ g.fC.index ≠ g.fD.index := by
  simp [Gear.apart] at h
  tauto

theorem gearPushed_momentum {g : Gear F} {x : F} {vel : Arr (Vel F)} (hi : g.inside vel.len) (hn : g.apart) {M : Nat → F}
    (hA : M g.fA.index * g.fA.invMass = 1) (hB : M g.fB.index * g.fB.invMass = 1) (hC : M g.fC.index * g.fC.invMass = 1)
    (hD : M g.fD.index * g.fD.invMass = 1) : momentum M (gearPushed g x vel) = momentum M vel := by
  obtain ⟨i1, i2, i3, i4⟩ := hi
  obtain ⟨n1, n2, n3, n4, n5, n6⟩ := Gear.apart_ne hn
  unfold momentum gearPushed
  simp only
  rw [sum_upd4 vel.len (fun i (v : Vel F) => M i * v.v.x) vel.at' _ _ _ _ i1 i2 i3 i4 n1 n2 n3 n4 n5 n6,
    sum_upd4 vel.len (fun i (v : Vel F) => M i * v.v.y) vel.at' _ _ _ _ i1 i2 i3 i4 n1 n2 n3 n4 n5 n6]
  simp only [Gear.push, Vec2.sub_x, Vec2.sub_y, Vec2.add_x, Vec2.add_y, Vec2.smul_x, Vec2.smul_y, Vec2.mk.injEq]
  constructor
  · linear_combination x * g.jvAC.x * hA + x * g.jvBD.x * hB - x * g.jvAC.x * hC - x * g.jvBD.x * hD
  · linear_combination x * g.jvAC.y * hA + x * g.jvBD.y * hB - x * g.jvAC.y * hC - x * g.jvBD.y * hD

/-! ## Mouse joints -/

theorem mouse_solveVel_some [Elem F] {st : JStep F} {j : Mouse F} {j' : Joint F} {vel vel' : Arr (Vel F)}
    (h : (Joint.mouse j).solveVel st vel = some (j', vel')) :
    j.frame.index < vel.len ∧ j' = .mouse (j.solveVel st (vel.at' j.frame.index)).1 ∧
      vel' = ⟨vel.len, upd vel.at' j.frame.index (j.solveVel st (vel.at' j.frame.index)).2⟩ := by
  simp only [Joint.solveVel] at h
  obtain ⟨s, hs, h⟩ := Option.bind_eq_some_iff.1 h
  obtain ⟨v, hv, h⟩ := Option.bind_eq_some_iff.1 h
  simp only [Option.pure_def, Option.some.injEq, Prod.mk.injEq] at h
  obtain ⟨rfl, rfl⟩ := h
  obtain ⟨h1, rfl⟩ := Arr.get_some hs
  obtain ⟨_, rfl⟩ := Arr.set_some hv
  exact ⟨h1, rfl, rfl⟩

theorem mouse_initVel_some [Elem F] {st : JStep F} {bodies : Nat → JBody F} {pos : Arr (Pos F)} {j : Mouse F} {j' : Joint F}
    {vel vel' : Arr (Vel F)} (h : (Joint.mouse j).initVel st bodies pos vel = some (j', vel')) :
    (bodies j.bodyB).index < vel.len ∧
      j' = .mouse (j.initVel st bodies (pos.at' (bodies j.bodyB).index) (vel.at' (bodies j.bodyB).index)).1 ∧
      vel' = ⟨vel.len, upd vel.at' (bodies j.bodyB).index
        (j.initVel st bodies (pos.at' (bodies j.bodyB).index) (vel.at' (bodies j.bodyB).index)).2⟩ := by
  simp only [Joint.initVel] at h
  obtain ⟨p, hp, h⟩ := Option.bind_eq_some_iff.1 h
  obtain ⟨s, hs, h⟩ := Option.bind_eq_some_iff.1 h
  obtain ⟨v, hv, h⟩ := Option.bind_eq_some_iff.1 h
  simp only [Option.pure_def, Option.some.injEq, Prod.mk.injEq] at h
  obtain ⟨rfl, rfl⟩ := h
  obtain ⟨h1, rfl⟩ := Arr.get_some hs
  obtain ⟨_, rfl⟩ := Arr.get_some hp
  obtain ⟨_, rfl⟩ := Arr.set_some hv
  exact ⟨h1, rfl, rfl⟩

theorem mouse_solves [Elem F] {st : JStep F} {m : F} : ∀ {vs : List (Arr (Vel F))} {j : Mouse F} {j' : Joint F}
    {log : List (Arr (Vel F) × Arr (Vel F))}, m * j.frame.invMass = 1 → (Joint.mouse j).solves st vs = some (j', log) →
    ∃ k : Mouse F, j' = .mouse k ∧ momentumGained m j.frame.index log = k.impulse - j.impulse
  | [], j, j', log, _, h => by
    obtain ⟨rfl, rfl⟩ := Joint.solves_nil h
    exact ⟨j, rfl, by ext <;> simp [momentumGained]⟩
  | v :: vs, j, j', log, hm, h => by
    obtain ⟨j1, v1, log1, h1, h2, rfl⟩ := Joint.solves_cons h
    obtain ⟨_, rfl, rfl⟩ := mouse_solveVel_some h1
    obtain ⟨k, hk, g⟩ := mouse_solves (j := (j.solveVel st (v.at' j.frame.index)).1) hm h2
    refine ⟨k, hk, ?_⟩
    have e1 := congrArg Vec2.x g
    have e2 := congrArg Vec2.y g
    have ef : (j.solveVel st (v.at' j.frame.index)).1.frame = j.frame := rfl
    simp only [momentumGained, Vec2.sub_x, Vec2.sub_y, ef] at e1 e2
    have eq : (j.solveVel st (v.at' j.frame.index)).2.v =
        (v.at' j.frame.index).v + j.frame.invMass * ((j.solveVel st (v.at' j.frame.index)).1.impulse - j.impulse) := rfl
    ext <;> simp only [momentumGained, List.map_cons, List.sum_cons, upd_same, eq, Vec2.add_x, Vec2.add_y, Vec2.smul_x,
      Vec2.smul_y, Vec2.sub_x, Vec2.sub_y]
    · rw [e1]; linear_combination ((j.solveVel st (v.at' j.frame.index)).1.impulse.x - j.impulse.x) * hm
    · rw [e2]; linear_combination ((j.solveVel st (v.at' j.frame.index)).1.impulse.y - j.impulse.y) * hm

theorem mouse_calls [Elem F] {st : JStep F} {bodies : Nat → JBody F} {pos : Arr (Pos F)} {m : F} {vs : List (Arr (Vel F))}
    {j : Mouse F} {j' : Joint F} {v : Arr (Vel F)} {log : List (Arr (Vel F) × Arr (Vel F))}
    (hm : m * (bodies j.bodyB).invMass = 1) (h : (Joint.mouse j).calls st bodies pos v vs = some (j', log)) :
    ∃ k : Mouse F, j' = .mouse k ∧ momentumGained m (bodies j.bodyB).index log = k.impulse := by
  obtain ⟨j1, v1, log1, h1, h2, rfl⟩ := Joint.calls_some h
  obtain ⟨_, rfl, rfl⟩ := mouse_initVel_some h1
  set r := j.initVel st bodies (pos.at' (bodies j.bodyB).index) (v.at' (bodies j.bodyB).index) with hr
  have ef : r.1.frame = bodies j.bodyB := by
    rw [hr]; unfold Mouse.initVel Mouse.warm; split <;> rfl
  have eq : r.2.v = (v.at' (bodies j.bodyB).index).v + (bodies j.bodyB).invMass * r.1.impulse := by
    rw [hr]; unfold Mouse.initVel Mouse.warm; split
    · rfl
    · ext <;> simp
  obtain ⟨k, hk, g⟩ := mouse_solves (m := m) (by rw [ef]; exact hm) h2
  refine ⟨k, hk, ?_⟩
  have e1 := congrArg Vec2.x g
  have e2 := congrArg Vec2.y g
  simp only [momentumGained, Vec2.sub_x, Vec2.sub_y, ef] at e1 e2
  ext <;> simp only [momentumGained, List.map_cons, List.sum_cons, upd_same, eq, Vec2.add_x, Vec2.add_y, Vec2.smul_x,
    Vec2.smul_y]
  · rw [e1]; linear_combination r.1.impulse.x * hm
  · rw [e2]; linear_combination r.1.impulse.y * hm

end
end B2
