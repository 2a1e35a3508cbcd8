import Verif.Proofs.JointTouch

/-!
# Every call of a joint's solver functions
-/
namespace B2

section
variable {F : Type} [Field F] [LinearOrder F]

/-- A push on B at `xB` and the opposite push on A at `xA`, with opposite torques. -/
structure Opposed [Elem F] (bodies : Nat → JBody F) (pos : Arr (Pos F)) (j : Joint F) (vel vel' : Arr (Vel F)) : Prop where
  ex : ∃ (u v : View F) (t : F), JKick u v vel vel' ∧ u.frame = ⟨bodies j.bodyA, bodies j.bodyB⟩ ∧
    v.lb - u.lb = cross (j.anchorB bodies pos - (pos.at' (bodies j.bodyB).index).c) (v.p - u.p) + t ∧
    v.la - u.la = cross (j.pushPointA bodies pos - (pos.at' (bodies j.bodyA).index).c) (v.p - u.p) + t

theorem cross_sub_right (a b c : Vec2 F) : cross a (b - c) = cross a b - cross a c := by
  simp only [cross, Vec2.sub_x, Vec2.sub_y]; ring

theorem jkick_refl (f : PairFrame F) {vel : Arr (Vel F)} (h1 : f.a.index < vel.len) (h2 : f.b.index < vel.len) :
    JKick ⟨f, ⟨0, 0⟩, 0, 0⟩ ⟨f, ⟨0, 0⟩, 0, 0⟩ vel
      ⟨vel.len, upd (upd vel.at' f.a.index (vel.at' f.a.index)) f.b.index (vel.at' f.b.index)⟩ := by
  refine ⟨h1, h2, rfl, ?_⟩
  congr 2
  · congr 1
    ext <;> simp [PairFrame.kick]
  · ext <;> simp [PairFrame.kick]

theorem Joint.solveVel_opposed [Elem F] {st : JStep F} {bodies : Nat → JBody F} {pos : Arr (Pos F)} {j j' : Joint F}
    {vel vel' : Arr (Vel F)} (hp : j.plain = true) (ha : j.Armed bodies pos) (h : j.solveVel st vel = some (j', vel')) :
    Opposed bodies pos j vel vel' := by
  obtain ⟨k, s⟩ := Joint.solveVel_plain hp h
  obtain ⟨e1, e2, e3, e4, e5, e6, e7⟩ := Joint.same_of_strip s bodies pos
  have ha' : j'.Armed bodies pos := e7.2 ha
  have hp' : j'.plain = true := e1.trans hp
  obtain ⟨w1, w2⟩ := Joint.armed_wrench hp ha
  obtain ⟨w1', w2'⟩ := Joint.armed_wrench hp' ha'
  rw [e3, e5] at w1'
  rw [e2, e6] at w2'
  refine ⟨j.view, j'.view, j'.reactionTorque 1 - j.reactionTorque 1, k, Joint.armed_frame hp ha, ?_, ?_⟩
  · rw [w1, w1', cross_sub_right]; ring
  · rw [w2, w2', cross_sub_right]; ring

theorem Joint.initVel_opposed [Elem F] {st : JStep F} {bodies : Nat → JBody F} {pos : Arr (Pos F)} {j j' : Joint F}
    {vel vel' : Arr (Vel F)} (hp : j.plain = true) (h : j.initVel st bodies pos vel = some (j', vel')) :
    Opposed bodies pos j vel vel' ∧ j'.strip = (j.prepared st bodies pos).strip := by
  by_cases hc : j.startsClean st
  · obtain ⟨k, s, _⟩ := Joint.initVel_plain hp hc h
    refine ⟨?_, s⟩
    obtain ⟨e1, e2, e3, e4, e5, e6, ha⟩ := Joint.calls_same s
    have hp' : j'.plain = true := e1.trans hp
    obtain ⟨w1, w2⟩ := Joint.armed_wrench hp' ha
    rw [e3, e5] at w1
    rw [e2, e6] at w2
    refine ⟨j'.view.start, j'.view, j'.reactionTorque 1, k, ?_, ?_, ?_⟩
    · simp only [View.start]; rw [Joint.armed_frame hp' ha, e2, e3]
    · rw [w1, cross_sub_right]; simp [View.start, cross]
    · rw [w2, cross_sub_right]; simp [View.start, cross]
  · cases j with
    | distance j =>
      obtain ⟨p, hp', h⟩ := Option.bind_eq_some_iff.1 h
      obtain ⟨i1, i2, rfl⟩ := loadTwoP_some hp'
      obtain ⟨h1, h2, rfl, rfl⟩ := onTwo_some h
      have hw : st.warmStarting = false := by
        by_contra hw
        exact hc (.inl (by simpa using hw))
      obtain ⟨e1, e2⟩ := distance_init_dirty (bodies := bodies) (j := j) hw
        ⟨pos.at' (bodies j.bodyA).index, pos.at' (bodies j.bodyB).index⟩
        ⟨vel.at' (bodies j.bodyA).index, vel.at' (bodies j.bodyB).index⟩
      rw [e1]
      refine ⟨⟨_, _, 0, jkick_refl ⟨bodies j.bodyA, bodies j.bodyB⟩ h1 h2, rfl, ?_, ?_⟩, congrArg Joint.distance e2⟩
      · simp [cross]
      · simp [cross]
    | _ => first | exact absurd trivial hc | cases hp

theorem Joint.solves_opposed [Elem F] {st : JStep F} {bodies : Nat → JBody F} {pos : Arr (Pos F)} {j0 : Joint F} :
    ∀ {vs : List (Arr (Vel F))} {j j' : Joint F} {log : List (Arr (Vel F) × Arr (Vel F))}, j.plain = true →
      j.Armed bodies pos → (j.bodyA = j0.bodyA ∧ j.bodyB = j0.bodyB ∧ j.anchorB bodies pos = j0.anchorB bodies pos ∧
        j.pushPointA bodies pos = j0.pushPointA bodies pos) → j.solves st vs = some (j', log) →
      ∀ e ∈ log, Opposed bodies pos j0 e.1 e.2
  | [], j, j', log, _, _, _, h => by
    obtain ⟨rfl, rfl⟩ := Joint.solves_nil h
    intro e he; cases he
  | v :: vs, j, j', log, hp, ha, hs, h => by
    obtain ⟨j1, v1, log1, h1, h2, rfl⟩ := Joint.solves_cons h
    obtain ⟨_, s1⟩ := Joint.solveVel_plain hp h1
    obtain ⟨e1, e2, e3, e4, e5, e6, e7⟩ := Joint.same_of_strip s1 bodies pos
    intro e he
    rcases List.mem_cons.1 he with rfl | he
    · obtain ⟨u, v, t, k, f, x1, x2⟩ := Joint.solveVel_opposed hp ha h1
      rw [hs.1, hs.2.1] at f
      rw [hs.2.1, hs.2.2.1] at x1
      rw [hs.1, hs.2.2.2] at x2
      exact ⟨u, v, t, k, f, x1, x2⟩
    · exact Joint.solves_opposed (e1.trans hp) (e7.2 ha)
        ⟨e2.trans hs.1, e3.trans hs.2.1, e5.trans hs.2.2.1, e6.trans hs.2.2.2⟩ h2 e he

theorem Joint.calls_opposed [Elem F] {st : JStep F} {bodies : Nat → JBody F} {pos : Arr (Pos F)} {j j' : Joint F}
    {v : Arr (Vel F)} {vs : List (Arr (Vel F))} {log : List (Arr (Vel F) × Arr (Vel F))} (hp : j.plain = true)
    (h : j.calls st bodies pos v vs = some (j', log)) : ∀ e ∈ log, Opposed bodies pos j e.1 e.2 := by
  obtain ⟨j1, v1, log1, h1, h2, rfl⟩ := Joint.calls_some h
  obtain ⟨o, s⟩ := Joint.initVel_opposed hp h1
  obtain ⟨e1, e2, e3, e4, e5, e6, ha⟩ := Joint.calls_same s
  intro e he
  rcases List.mem_cons.1 he with rfl | he
  · exact o
  · exact Joint.solves_opposed (e1.trans hp) ha ⟨e2, e3, e5, e6⟩ h2 e he

theorem Opposed.momentum [Elem F] {bodies : Nat → JBody F} {pos : Arr (Pos F)} {j : Joint F} {vel vel' : Arr (Vel F)}
    {M : Nat → F} (h : Opposed bodies pos j vel vel') (hne : (bodies j.bodyA).index ≠ (bodies j.bodyB).index)
    (hA : M (bodies j.bodyA).index * (bodies j.bodyA).invMass = 1)
    (hB : M (bodies j.bodyB).index * (bodies j.bodyB).invMass = 1) : B2.momentum M vel' = B2.momentum M vel := by
  obtain ⟨u, v, t, k, f, _, _⟩ := h.ex
  exact k.momentum (by rw [f]; exact hne) (by rw [f]; exact hA) (by rw [f]; exact hB)

theorem Opposed.angular [Elem F] {bodies : Nat → JBody F} {pos : Arr (Pos F)} {j : Joint F} {vel vel' : Arr (Vel F)}
    {M J : Nat → F} (h : Opposed bodies pos j vel vel') (hne : (bodies j.bodyA).index ≠ (bodies j.bodyB).index)
    (hA : M (bodies j.bodyA).index * (bodies j.bodyA).invMass = 1)
    (hB : M (bodies j.bodyB).index * (bodies j.bodyB).invMass = 1)
    (hIA : J (bodies j.bodyA).index * (bodies j.bodyA).invI = 1)
    (hIB : J (bodies j.bodyB).index * (bodies j.bodyB).invI = 1)
    (hx : j.pushPointA bodies pos = j.anchorB bodies pos) :
    angularMomentum M J (fun i => (pos.at' i).c) vel' = angularMomentum M J (fun i => (pos.at' i).c) vel := by
  obtain ⟨u, v, t, k, f, w1, w2⟩ := h.ex
  refine k.angular (by rw [f]; exact hne) (by rw [f]; exact hA) (by rw [f]; exact hB) (by rw [f]; exact hIA)
    (by rw [f]; exact hIB) ?_
  rw [f, w1, w2, hx]
  simp only [cross, Vec2.sub_x, Vec2.sub_y]; ring

/-! ## Other bodies, and bodies that cannot be moved -/

theorem Joint.solves_pushed [Elem F] {st : JStep F} {bodies : Nat → JBody F} {pos : Arr (Pos F)} {l : List (JBody F)} :
    ∀ {vs : List (Arr (Vel F))} {j j' : Joint F} {log : List (Arr (Vel F) × Arr (Vel F))},
      j.Armed bodies pos → j.touched.map bodies = l → j.solves st vs = some (j', log) → ∀ e ∈ log, Pushed l e.1 e.2
  | [], j, j', log, _, _, h => by
    obtain ⟨rfl, rfl⟩ := Joint.solves_nil h
    intro e he; cases he
  | v :: vs, j, j', log, ha, hl, h => by
    obtain ⟨j1, v1, log1, h1, h2, rfl⟩ := Joint.solves_cons h
    obtain ⟨p1, s1⟩ := Joint.solveVel_pushed ha h1
    obtain ⟨_, _, _, _, _, _, e7⟩ := Joint.same_of_strip s1 bodies pos
    intro e he
    rcases List.mem_cons.1 he with rfl | he
    · rw [← hl]; exact p1
    · refine Joint.solves_pushed (e7.2 ha) ?_ h2 e he
      rw [← hl, ← j1.touched_strip, s1, j.touched_strip]

theorem Joint.calls_pushed [Elem F] {st : JStep F} {bodies : Nat → JBody F} {pos : Arr (Pos F)} {j j' : Joint F}
    {v : Arr (Vel F)} {vs : List (Arr (Vel F))} {log : List (Arr (Vel F) × Arr (Vel F))}
    (h : j.calls st bodies pos v vs = some (j', log)) : ∀ e ∈ log, e.2.len = e.1.len ∧
      (∀ i, (∀ b ∈ j.touched.map bodies, b.index ≠ i) → e.2.at' i = e.1.at' i) ∧
      (∀ i, (∀ b ∈ j.touched.map bodies, b.index = i → b.invMass = 0) → (e.2.at' i).v = (e.1.at' i).v) ∧
      (j.isMouse = false → ∀ i, (∀ b ∈ j.touched.map bodies, b.index = i → b.invI = 0) → (e.2.at' i).w = (e.1.at' i).w) := by
  obtain ⟨j1, v1, log1, h1, h2, rfl⟩ := Joint.calls_some h
  obtain ⟨p1, p2, p3, p4, s⟩ := Joint.initVel_pushed h1
  intro e he
  rcases List.mem_cons.1 he with rfl | he
  · exact ⟨p1, p2, p3, p4⟩
  · have := Joint.solves_pushed (Joint.calls_same s).2.2.2.2.2.2 (l := j.touched.map bodies)
      (by rw [← j1.touched_strip, s, Joint.touched_strip, Joint.touched_prepared]) h2 e he
    exact ⟨this.len, this.other, this.linear, fun _ => this.angular⟩

/-! ## The joints never panic -/

/-- All bodies of the joint are among the `n` bodies of the island. -/
def Joint.In (n : Nat) (bodies : Nat → JBody F) (j : Joint F) : Prop := ∀ b ∈ j.touched, (bodies b).index < n

theorem Joint.solveVel_total [Elem F] {st : JStep F} {bodies : Nat → JBody F} {pos : Arr (Pos F)} {j : Joint F}
    {vel : Arr (Vel F)} (ha : j.Armed bodies pos) (hi : j.In vel.len bodies) :
    ∃ j' vel', j.solveVel st vel = some (j', vel') := by
  have two : ∀ {α : Type} (mk : α → Joint F) (f : Two F → α × Two F) (fr : PairFrame F),
      fr = ⟨bodies j.bodyA, bodies j.bodyB⟩ → j.touched = [j.bodyA, j.bodyB] →
      ∃ j' vel', onTwo mk vel fr.a.index fr.b.index f = some (j', vel') := by
    intro α mk f fr hf ht
    subst hf
    exact ⟨_, _, onTwo_of mk f (hi _ (by rw [ht]; simp)) (hi _ (by rw [ht]; simp))⟩
  cases j with
  | revolute j => exact two _ _ _ ha.1 rfl
  | prismatic j => exact two _ _ _ ha.1 rfl
  | distance j => exact two _ _ _ ha.1 rfl
  | weld j => exact two _ _ _ ha.1 rfl
  | wheel j => exact two _ _ _ ha.1 rfl
  | friction j => exact two _ _ _ ha.1 rfl
  | motor j => exact two _ _ _ ha.1 rfl
  | pulley j => exact two _ _ _ ha.1 rfl
  | mouse j =>
    have h1 : j.frame.index < vel.len := by rw [ha.1]; exact hi _ (by simp [Joint.touched]; rfl)
    refine ⟨.mouse (j.solveVel st (vel.at' j.frame.index)).1,
      ⟨vel.len, upd vel.at' j.frame.index (j.solveVel st (vel.at' j.frame.index)).2⟩, ?_⟩
    simp only [Joint.solveVel, Arr.get_of_lt h1, Option.bind_eq_bind, Option.bind_some, Arr.set_of_lt _ h1]
    rfl
  | gear j =>
    obtain ⟨a1, a2, a3, a4⟩ := ha
    have h1 : j.fA.index < vel.len := by rw [a1]; exact hi _ (by simp [Joint.touched, Joint.bodyA])
    have h2 : j.fB.index < vel.len := by rw [a2]; exact hi _ (by simp [Joint.touched, Joint.bodyB])
    have h3 : j.fC.index < vel.len := by rw [a3]; exact hi _ (by simp [Joint.touched])
    have h4 : j.fD.index < vel.len := by rw [a4]; exact hi _ (by simp [Joint.touched])
    simp only [Joint.solveVel, loadFour_of h1 h2 h3 h4, Option.bind_eq_bind, Option.bind_some, storeFour_of _ h1 h2 h3 h4]
    exact ⟨_, _, rfl⟩

theorem Joint.initVel_total [Elem F] {st : JStep F} {bodies : Nat → JBody F} {pos : Arr (Pos F)} {j : Joint F}
    {vel : Arr (Vel F)} (hl : pos.len = vel.len) (hi : j.In vel.len bodies) :
    ∃ j' vel', j.initVel st bodies pos vel = some (j', vel') := by
  have hi' : j.In pos.len bodies := by rw [hl]; exact hi
  have two : ∀ {α : Type} (mk : α → Joint F) (f : TwoP F → Two F → α × Two F), j.touched = [j.bodyA, j.bodyB] →
      ∃ j' vel', ((loadTwoP pos (bodies j.bodyA).index (bodies j.bodyB).index).bind fun p =>
        onTwo mk vel (bodies j.bodyA).index (bodies j.bodyB).index (f p)) = some (j', vel') := by
    intro α mk f ht
    rw [loadTwoP_of (hi' _ (by rw [ht]; simp)) (hi' _ (by rw [ht]; simp))]
    exact ⟨_, _, onTwo_of mk _ (hi _ (by rw [ht]; simp)) (hi _ (by rw [ht]; simp))⟩
  cases j with
  | revolute j => exact two Joint.revolute _ rfl
  | prismatic j => exact two Joint.prismatic _ rfl
  | distance j => exact two Joint.distance _ rfl
  | weld j => exact two Joint.weld _ rfl
  | wheel j => exact two Joint.wheel _ rfl
  | friction j => exact two Joint.friction _ rfl
  | motor j => exact two Joint.motor _ rfl
  | pulley j => exact two Joint.pulley _ rfl
  | mouse j =>
    have h1 : (bodies j.bodyB).index < vel.len := hi _ (by simp [Joint.touched])
    have h1' : (bodies j.bodyB).index < pos.len := by rw [hl]; exact h1
    simp only [Joint.initVel, Arr.get_of_lt h1, Arr.get_of_lt h1', Option.bind_eq_bind, Option.bind_some, Arr.set_of_lt _ h1]
    exact ⟨_, _, rfl⟩
  | gear j =>
    have h1 : (bodies j.bodyA).index < vel.len := hi _ (by simp [Joint.touched])
    have h2 : (bodies j.bodyB).index < vel.len := hi _ (by simp [Joint.touched])
    have h3 : (bodies j.bodyC).index < vel.len := hi _ (by simp [Joint.touched])
    have h4 : (bodies j.bodyD).index < vel.len := hi _ (by simp [Joint.touched])
    have e := loadFourP_of (vel := pos) (by rw [hl]; exact h1) (by rw [hl]; exact h2) (by rw [hl]; exact h3) (by rw [hl]; exact h4)
    simp only [Joint.initVel, e, loadFour_of h1 h2 h3 h4, Option.bind_eq_bind, Option.bind_some, storeFour_of _ h1 h2 h3 h4]
    exact ⟨_, _, rfl⟩

theorem Joint.solves_total [Elem F] {st : JStep F} {bodies : Nat → JBody F} {pos : Arr (Pos F)} :
    ∀ {vs : List (Arr (Vel F))} {j : Joint F}, j.Armed bodies pos → (∀ v ∈ vs, j.In v.len bodies) →
      ∃ j' log, j.solves st vs = some (j', log)
  | [], j, _, _ => ⟨j, [], rfl⟩
  | v :: vs, j, ha, hi => by
    obtain ⟨j1, v1, h1⟩ := Joint.solveVel_total (st := st) ha (hi v (by simp))
    obtain ⟨_, s1⟩ := Joint.solveVel_pushed ha h1
    obtain ⟨_, _, _, _, _, _, e7⟩ := Joint.same_of_strip s1 bodies pos
    have ht : j1.touched = j.touched := by rw [← j1.touched_strip, s1, j.touched_strip]
    obtain ⟨j', log, h2⟩ := Joint.solves_total (st := st) (vs := vs) (e7.2 ha) (fun v hv => by
      unfold Joint.In; rw [ht]; exact hi v (by simp [hv]))
    refine ⟨j', (v, v1) :: log, ?_⟩
    simp only [Joint.solves, h1, h2, Option.bind_eq_bind, Option.bind_some, Option.pure_def]

theorem Joint.calls_total [Elem F] (st : JStep F) (bodies : Nat → JBody F) (pos : Arr (Pos F)) (j : Joint F)
    (v : Arr (Vel F)) (vs : List (Arr (Vel F))) (hl : pos.len = v.len) (hi : j.In v.len bodies)
    (hs : ∀ u ∈ vs, u.len = v.len) : ∃ j' log, j.calls st bodies pos v vs = some (j', log) := by
  obtain ⟨j1, v1, h1⟩ := Joint.initVel_total (st := st) hl hi
  obtain ⟨_, _, _, _, s⟩ := Joint.initVel_pushed h1
  have ht : j1.touched = j.touched := by rw [← j1.touched_strip, s, Joint.touched_strip, Joint.touched_prepared]
  obtain ⟨j', log, h2⟩ := Joint.solves_total (st := st) (vs := vs) (Joint.calls_same s).2.2.2.2.2.2 (fun u hu => by
    unfold Joint.In; rw [ht, hs u hu]; exact hi)
  refine ⟨j', (v, v1) :: log, ?_⟩
  simp only [Joint.calls, h1, h2, Option.bind_eq_bind, Option.bind_some, Option.pure_def]

end
end B2
