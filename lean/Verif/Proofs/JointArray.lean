import Verif.Proofs.Joint
import Verif.Spec.Joint

/-!
# Joints on the arrays of an island
-/
namespace B2

section
variable {F : Type} [Field F] [LinearOrder F]

/-- The velocities changed by what the view changed. -/
structure JKick (v v' : View F) (vel vel' : Arr (Vel F)) : Prop where
  indexA : v.frame.a.index < vel.len
  indexB : v.frame.b.index < vel.len
  frame : v'.frame = v.frame
  eq : vel' = ⟨vel.len, upd (upd vel.at' v.frame.a.index
      (v.frame.kick (v'.p - v.p) (v'.la - v.la) (v'.lb - v.lb) ⟨vel.at' v.frame.a.index, vel.at' v.frame.b.index⟩).a)
      v.frame.b.index
      (v.frame.kick (v'.p - v.p) (v'.la - v.la) (v'.lb - v.lb) ⟨vel.at' v.frame.a.index, vel.at' v.frame.b.index⟩).b⟩

theorem loadTwo_some {vel : Arr (Vel F)} {a b : Nat} {s : Two F} (h : loadTwo vel a b = some s) :
    a < vel.len ∧ b < vel.len ∧ s = ⟨vel.at' a, vel.at' b⟩ := by
  unfold loadTwo at h
  obtain ⟨x, ha, h⟩ := Option.bind_eq_some_iff.1 h
  obtain ⟨y, hb, h⟩ := Option.bind_eq_some_iff.1 h
  obtain ⟨h1, rfl⟩ := Arr.get_some ha
  obtain ⟨h2, rfl⟩ := Arr.get_some hb
  simp only [Option.pure_def, Option.some.injEq] at h
  exact ⟨h1, h2, h.symm⟩

theorem loadTwoP_some {pos : Arr (Pos F)} {a b : Nat} {s : TwoP F} (h : loadTwoP pos a b = some s) :
    a < pos.len ∧ b < pos.len ∧ s = ⟨pos.at' a, pos.at' b⟩ := by
  unfold loadTwoP at h
  obtain ⟨x, ha, h⟩ := Option.bind_eq_some_iff.1 h
  obtain ⟨y, hb, h⟩ := Option.bind_eq_some_iff.1 h
  obtain ⟨h1, rfl⟩ := Arr.get_some ha
  obtain ⟨h2, rfl⟩ := Arr.get_some hb
  simp only [Option.pure_def, Option.some.injEq] at h
  exact ⟨h1, h2, h.symm⟩

theorem storeTwo_some {vel vel' : Arr (Vel F)} {a b : Nat} {s : Two F} (h : storeTwo vel a b s = some vel') :
    vel' = ⟨vel.len, upd (upd vel.at' a s.a) b s.b⟩ := by
  unfold storeTwo at h
  obtain ⟨x, ha, h⟩ := Option.bind_eq_some_iff.1 h
  obtain ⟨_, rfl⟩ := Arr.set_some ha
  obtain ⟨_, rfl⟩ := Arr.set_some h
  rfl

theorem loadTwo_of {vel : Arr (Vel F)} {a b : Nat} (h1 : a < vel.len) (h2 : b < vel.len) :
    loadTwo vel a b = some ⟨vel.at' a, vel.at' b⟩ := by
  simp [loadTwo, Arr.get_of_lt h1, Arr.get_of_lt h2]
theorem loadTwoP_of {vel : Arr (Pos F)} {a b : Nat} (h1 : a < vel.len) (h2 : b < vel.len) :
    loadTwoP vel a b = some ⟨vel.at' a, vel.at' b⟩ := by
  simp [loadTwoP, Arr.get_of_lt h1, Arr.get_of_lt h2]
theorem storeTwo_of {vel : Arr (Vel F)} {a b : Nat} (s : Two F) (h1 : a < vel.len) (h2 : b < vel.len) :
    storeTwo vel a b s = some ⟨vel.len, upd (upd vel.at' a s.a) b s.b⟩ := by
  unfold storeTwo
  rw [Arr.set_of_lt _ h1]
  simp only [Option.bind_eq_bind, Option.bind_some]
  rw [Arr.set_of_lt _ (by exact h2)]

theorem onTwo_some {α : Type} {mk : α → Joint F} {vel vel' : Arr (Vel F)} {a b : Nat} {f : Two F → α × Two F} {j' : Joint F}
    (h : onTwo mk vel a b f = some (j', vel')) :
    a < vel.len ∧ b < vel.len ∧ j' = mk (f ⟨vel.at' a, vel.at' b⟩).1 ∧
      vel' = ⟨vel.len, upd (upd vel.at' a (f ⟨vel.at' a, vel.at' b⟩).2.a) b (f ⟨vel.at' a, vel.at' b⟩).2.b⟩ := by
  unfold onTwo at h
  obtain ⟨s, hs, h⟩ := Option.bind_eq_some_iff.1 h
  obtain ⟨h1, h2, rfl⟩ := loadTwo_some hs
  obtain ⟨v, hv, h⟩ := Option.bind_eq_some_iff.1 h
  simp only [Option.pure_def, Option.some.injEq, Prod.mk.injEq] at h
  exact ⟨h1, h2, h.1.symm, by rw [← h.2]; exact storeTwo_some hv⟩

theorem onTwo_of {α : Type} (mk : α → Joint F) {vel : Arr (Vel F)} {a b : Nat} (f : Two F → α × Two F) (h1 : a < vel.len)
    (h2 : b < vel.len) : onTwo mk vel a b f = some (mk (f ⟨vel.at' a, vel.at' b⟩).1,
      ⟨vel.len, upd (upd vel.at' a (f ⟨vel.at' a, vel.at' b⟩).2.a) b (f ⟨vel.at' a, vel.at' b⟩).2.b⟩) := by
  simp [onTwo, loadTwo_of h1 h2, storeTwo_of _ h1 h2]

/-! ## Plain joints -/

/-- The view of a plain joint. -/
def Joint.view : Joint F → View F
  | .revolute j => j.view | .prismatic j => j.view | .distance j => j.view | .weld j => j.view
  | .wheel j => j.view | .friction j => j.view | .motor j => j.view
  | _ => ⟨⟨JBody.zero, JBody.zero⟩, ⟨0, 0⟩, 0, 0⟩

/-- A joint without its impulses. -/
def Joint.strip : Joint F → Joint F
  | .revolute j => .revolute j.strip | .prismatic j => .prismatic j.strip | .distance j => .distance j.strip
  | .weld j => .weld j.strip | .wheel j => .wheel j.strip | .friction j => .friction j.strip | .motor j => .motor j.strip
  | .pulley j => .pulley { j with impulse := 0 } | .mouse j => .mouse { j with impulse := ⟨0, 0⟩ }
  | .gear j => .gear { j with impulse := 0 }

/-- The joint with its bodies looked up and its masses computed. -/
def Joint.prepared [Elem F] (st : JStep F) (bodies : Nat → JBody F) (pos : Arr (Pos F)) (j : Joint F) : Joint F :=
  let p : TwoP F := ⟨pos.at' (bodies j.bodyA).index, pos.at' (bodies j.bodyB).index⟩
  match j with
  | .revolute j => .revolute (j.prepare bodies p)
  | .prismatic j => .prismatic (j.prepare bodies p)
  | .distance j => .distance ((j.prepare bodies p).soften st)
  | .weld j => .weld (j.prepare st bodies p)
  | .wheel j => .wheel (j.prepare st bodies p)
  | .friction j => .friction (j.prepare bodies p)
  | .motor j => .motor (j.prepare bodies p)
  | .pulley j => .pulley (j.prepare bodies p)
  | .mouse j => .mouse (j.prepare st bodies p.b)
  | .gear j => .gear (j.prepare bodies ⟨p.a, p.b, pos.at' (bodies j.bodyC).index, pos.at' (bodies j.bodyD).index⟩)

theorem onTwo_does {α : Type} {view : α → View F} {strip : α → α} {mk : α → Joint F} {j : α} {f : Two F → α × Two F}
    (hd : ∀ s, Does view strip j s (f s)) {vel vel' : Arr (Vel F)} {j' : Joint F}
    (h : onTwo mk vel (view j).frame.a.index (view j).frame.b.index f = some (j', vel')) :
    ∃ r, j' = mk r ∧ JKick (view j) (view r) vel vel' ∧ strip r = strip j := by
  obtain ⟨h1, h2, rfl, rfl⟩ := onTwo_some h
  obtain ⟨⟨hf, hk⟩, hs⟩ := hd ⟨vel.at' (view j).frame.a.index, vel.at' (view j).frame.b.index⟩
  exact ⟨_, rfl, ⟨h1, h2, hf, by rw [hk]⟩, hs⟩

theorem Joint.solveVel_plain [Elem F] {st : JStep F} {j j' : Joint F} {vel vel' : Arr (Vel F)} (hp : j.plain = true)
    (h : j.solveVel st vel = some (j', vel')) : JKick j.view j'.view vel vel' ∧ j'.strip = j.strip := by
  cases j with
  | revolute j => obtain ⟨r, rfl, hk, hs⟩ := onTwo_does (j.solveVel_does st) h; exact ⟨hk, congrArg Joint.revolute hs⟩
  | prismatic j => obtain ⟨r, rfl, hk, hs⟩ := onTwo_does (j.solveVel_does st) h; exact ⟨hk, congrArg Joint.prismatic hs⟩
  | distance j => obtain ⟨r, rfl, hk, hs⟩ := onTwo_does (j.solveVel_does st) h; exact ⟨hk, congrArg Joint.distance hs⟩
  | weld j => obtain ⟨r, rfl, hk, hs⟩ := onTwo_does j.solveVel_does h; exact ⟨hk, congrArg Joint.weld hs⟩
  | wheel j => obtain ⟨r, rfl, hk, hs⟩ := onTwo_does (j.solveVel_does st) h; exact ⟨hk, congrArg Joint.wheel hs⟩
  | friction j => obtain ⟨r, rfl, hk, hs⟩ := onTwo_does (j.solveVel_does st) h; exact ⟨hk, congrArg Joint.friction hs⟩
  | motor j => obtain ⟨r, rfl, hk, hs⟩ := onTwo_does (j.solveVel_does st) h; exact ⟨hk, congrArg Joint.motor hs⟩
  | pulley j => cases hp
  | mouse j => cases hp
  | gear j => cases hp

/-- Distance joints keep the impulses of their limits when warm starting is off. -/
def Joint.startsClean (st : JStep F) : Joint F → Prop
  | .distance j => st.warmStarting = true ∨ j.lowerImpulse = 0 ∧ j.upperImpulse = 0
  | _ => True

theorem onTwo_warm {α : Type} {view : α → View F} {strip : α → α} {mk : α → Joint F} {j0 : α} {f : Two F → α × Two F}
    {fr : PairFrame F} (hf : ∀ s, (view (f s).1).frame = fr)
    (hd : ∀ s, Carried (view (f s).1).start (view (f s).1) s (f s).2 ∧ strip (f s).1 = strip j0) {vel vel' : Arr (Vel F)}
    {j' : Joint F} (h : onTwo mk vel fr.a.index fr.b.index f = some (j', vel')) :
    ∃ r, j' = mk r ∧ JKick (view r).start (view r) vel vel' ∧ strip r = strip j0 := by
  obtain ⟨h1, h2, rfl, rfl⟩ := onTwo_some h
  obtain ⟨⟨hf', hk⟩, hs⟩ := hd ⟨vel.at' fr.a.index, vel.at' fr.b.index⟩
  have hf1 := hf ⟨vel.at' fr.a.index, vel.at' fr.b.index⟩
  refine ⟨_, rfl, ⟨?_, ?_, hf', ?_⟩, hs⟩
  · simp only [View.start, hf1]; exact h1
  · simp only [View.start, hf1]; exact h2
  · rw [hk]; simp only [View.start, hf1]

theorem Joint.initVel_plain [Elem F] {st : JStep F} {bodies : Nat → JBody F} {pos : Arr (Pos F)} {j j' : Joint F}
    {vel vel' : Arr (Vel F)} (hp : j.plain = true) (hc : j.startsClean st)
    (h : j.initVel st bodies pos vel = some (j', vel')) :
    JKick j'.view.start j'.view vel vel' ∧ j'.strip = (j.prepared st bodies pos).strip ∧
      (bodies j.bodyA).index < pos.len ∧ (bodies j.bodyB).index < pos.len := by
  cases j with
  | revolute j =>
    obtain ⟨p, hp', h⟩ := Option.bind_eq_some_iff.1 h
    obtain ⟨i1, i2, rfl⟩ := loadTwoP_some hp'
    obtain ⟨r, rfl, hk, hs⟩ := onTwo_warm (view := Revolute.view) (strip := Revolute.strip)
      (fr := ⟨bodies j.bodyA, bodies j.bodyB⟩)
      (fun s => by simp only [Revolute.initVel, Revolute.warm]; split <;> rfl) (fun s => Revolute.warm_does st _ s) h
    exact ⟨hk, congrArg Joint.revolute hs, i1, i2⟩
  | prismatic j =>
    obtain ⟨p, hp', h⟩ := Option.bind_eq_some_iff.1 h
    obtain ⟨i1, i2, rfl⟩ := loadTwoP_some hp'
    obtain ⟨r, rfl, hk, hs⟩ := onTwo_warm (view := Prismatic.view) (strip := Prismatic.strip)
      (fr := ⟨bodies j.bodyA, bodies j.bodyB⟩)
      (fun s => by simp only [Prismatic.initVel, Prismatic.warm]; split <;> rfl) (fun s => Prismatic.warm_does st _ s) h
    exact ⟨hk, congrArg Joint.prismatic hs, i1, i2⟩
  | distance j =>
    obtain ⟨p, hp', h⟩ := Option.bind_eq_some_iff.1 h
    obtain ⟨i1, i2, rfl⟩ := loadTwoP_some hp'
    have hc' : st.warmStarting = true ∨
        ((j.prepare bodies ⟨pos.at' (bodies j.bodyA).index, pos.at' (bodies j.bodyB).index⟩).soften st).lowerImpulse = 0 ∧
        ((j.prepare bodies ⟨pos.at' (bodies j.bodyA).index, pos.at' (bodies j.bodyB).index⟩).soften st).upperImpulse = 0 := by
      rcases hc with hc | ⟨h1, h2⟩
      · exact .inl hc
      · right
        unfold DistanceJ.soften
        split <;> simp [DistanceJ.prepare, h1, h2]
    obtain ⟨r, rfl, hk, hs⟩ := onTwo_warm (view := DistanceJ.view) (strip := DistanceJ.strip)
      (fr := ⟨bodies j.bodyA, bodies j.bodyB⟩)
      (fun s => by simp only [DistanceJ.initVel, DistanceJ.warm, DistanceJ.soften]; split <;> split <;> rfl)
      (fun s => DistanceJ.warm_does st _ s hc') h
    exact ⟨hk, congrArg Joint.distance hs, i1, i2⟩
  | weld j =>
    obtain ⟨p, hp', h⟩ := Option.bind_eq_some_iff.1 h
    obtain ⟨i1, i2, rfl⟩ := loadTwoP_some hp'
    obtain ⟨r, rfl, hk, hs⟩ := onTwo_warm (view := Weld.view) (strip := Weld.strip)
      (fr := ⟨bodies j.bodyA, bodies j.bodyB⟩)
      (fun s => by
        simp only [Weld.initVel, Weld.warm, Weld.prepare]
        split <;> split <;> first | rfl | (split <;> rfl)) (fun s => Weld.warm_does st _ s) h
    exact ⟨hk, congrArg Joint.weld hs, i1, i2⟩
  | wheel j =>
    obtain ⟨p, hp', h⟩ := Option.bind_eq_some_iff.1 h
    obtain ⟨i1, i2, rfl⟩ := loadTwoP_some hp'
    obtain ⟨r, rfl, hk, hs⟩ := onTwo_warm (view := Wheel.view) (strip := Wheel.strip)
      (fr := ⟨bodies j.bodyA, bodies j.bodyB⟩)
      (fun s => by simp only [Wheel.initVel, Wheel.warm]; split <;> rfl) (fun s => Wheel.warm_does st _ s) h
    exact ⟨hk, congrArg Joint.wheel hs, i1, i2⟩
  | friction j =>
    obtain ⟨p, hp', h⟩ := Option.bind_eq_some_iff.1 h
    obtain ⟨i1, i2, rfl⟩ := loadTwoP_some hp'
    obtain ⟨r, rfl, hk, hs⟩ := onTwo_warm (view := FrictionJ.view) (strip := FrictionJ.strip)
      (fr := ⟨bodies j.bodyA, bodies j.bodyB⟩)
      (fun s => by simp only [FrictionJ.initVel, FrictionJ.warm]; split <;> rfl) (fun s => FrictionJ.warm_does st _ s) h
    exact ⟨hk, congrArg Joint.friction hs, i1, i2⟩
  | motor j =>
    obtain ⟨p, hp', h⟩ := Option.bind_eq_some_iff.1 h
    obtain ⟨i1, i2, rfl⟩ := loadTwoP_some hp'
    obtain ⟨r, rfl, hk, hs⟩ := onTwo_warm (view := MotorJ.view) (strip := MotorJ.strip)
      (fr := ⟨bodies j.bodyA, bodies j.bodyB⟩)
      (fun s => by simp only [MotorJ.initVel, MotorJ.warm]; split <;> rfl) (fun s => MotorJ.warm_does st _ s) h
    exact ⟨hk, congrArg Joint.motor hs, i1, i2⟩
  | pulley j => cases hp
  | mouse j => cases hp
  | gear j => cases hp

theorem Joint.plain_strip (j : Joint F) : j.strip.plain = j.plain := by cases j <;> rfl
theorem Joint.plain_prepared [Elem F] (st : JStep F) (bodies : Nat → JBody F) (pos : Arr (Pos F)) (j : Joint F) :
    (j.prepared st bodies pos).plain = j.plain := by cases j <;> rfl
theorem Joint.frame_strip (j : Joint F) : j.strip.view.frame = j.view.frame := by cases j <;> rfl

/-! ## The effect on the bodies -/

section
variable {v v' : View F} {vel vel' : Arr (Vel F)}

theorem JKick.len (h : JKick v v' vel vel') : vel'.len = vel.len := by rw [h.eq]

theorem JKick.atB (h : JKick v v' vel vel') (_hne : v.frame.a.index ≠ v.frame.b.index) :
    vel'.at' v.frame.b.index = ⟨(vel.at' v.frame.b.index).v + v.frame.b.invMass * (v'.p - v.p),
      (vel.at' v.frame.b.index).w + v.frame.b.invI * (v'.lb - v.lb)⟩ := by
  rw [h.eq]; simp only [upd_same]; rfl

theorem JKick.atA (h : JKick v v' vel vel') (hne : v.frame.a.index ≠ v.frame.b.index) :
    vel'.at' v.frame.a.index = ⟨(vel.at' v.frame.a.index).v - v.frame.a.invMass * (v'.p - v.p),
      (vel.at' v.frame.a.index).w - v.frame.a.invI * (v'.la - v.la)⟩ := by
  rw [h.eq]; simp only [upd_other _ _ hne, upd_same]; rfl

theorem JKick.other (h : JKick v v' vel vel') {i : Nat} (h1 : i ≠ v.frame.a.index) (h2 : i ≠ v.frame.b.index) :
    vel'.at' i = vel.at' i := by
  rw [h.eq]; simp only [upd_other _ _ h1, upd_other _ _ h2]

theorem JKick.momentum {M : Nat → F} (h : JKick v v' vel vel') (hne : v.frame.a.index ≠ v.frame.b.index)
    (hA : M v.frame.a.index * v.frame.a.invMass = 1) (hB : M v.frame.b.index * v.frame.b.invMass = 1) :
    B2.momentum M vel' = B2.momentum M vel := by
  have h1 := h.indexA
  have h2 := h.indexB
  rw [h.eq]
  unfold B2.momentum
  simp only
  rw [sum_upd2 vel.len (fun i (v : Vel F) => M i * v.v.x) vel.at' _ _ h1 h2 hne,
    sum_upd2 vel.len (fun i (v : Vel F) => M i * v.v.y) vel.at' _ _ h1 h2 hne]
  simp only [PairFrame.kick, Vec2.sub_x, Vec2.sub_y, Vec2.add_x, Vec2.add_y, Vec2.smul_x, Vec2.smul_y, Vec2.mk.injEq]
  constructor
  · linear_combination (-(v'.p.x - v.p.x)) * hA + (v'.p.x - v.p.x) * hB
  · linear_combination (-(v'.p.y - v.p.y)) * hA + (v'.p.y - v.p.y) * hB

theorem JKick.angular {M J : Nat → F} {c : Nat → Vec2 F} (h : JKick v v' vel vel') (hne : v.frame.a.index ≠ v.frame.b.index)
    (hA : M v.frame.a.index * v.frame.a.invMass = 1) (hB : M v.frame.b.index * v.frame.b.invMass = 1)
    (hIA : J v.frame.a.index * v.frame.a.invI = 1) (hIB : J v.frame.b.index * v.frame.b.invI = 1)
    (hr : cross (c v.frame.a.index) (v'.p - v.p) + (v'.la - v.la) = cross (c v.frame.b.index) (v'.p - v.p) + (v'.lb - v.lb)) :
    angularMomentum M J c vel' = angularMomentum M J c vel := by
  have h1 := h.indexA
  have h2 := h.indexB
  rw [h.eq]
  unfold angularMomentum
  simp only
  rw [sum_upd2 vel.len (fun i (v : Vel F) => M i * ((c i).x * v.v.y - (c i).y * v.v.x) + J i * v.w) vel.at' _ _ h1 h2 hne]
  simp only [PairFrame.kick, Vec2.sub_x, Vec2.sub_y, Vec2.add_x, Vec2.add_y, Vec2.smul_x, Vec2.smul_y, cross] at hr ⊢
  set xA := c v.frame.a.index
  set xB := c v.frame.b.index
  linear_combination (-(xA.x * (v'.p.y - v.p.y) - xA.y * (v'.p.x - v.p.x))) * hA +
    (xB.x * (v'.p.y - v.p.y) - xB.y * (v'.p.x - v.p.x)) * hB - (v'.la - v.la) * hIA + (v'.lb - v.lb) * hIB - hr

end
end
end B2
