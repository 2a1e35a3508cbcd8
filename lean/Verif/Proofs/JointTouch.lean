import Verif.Proofs.JointArms

/-!
# Which bodies a joint changes
-/
namespace B2

section
variable {F : Type} [Field F] [LinearOrder F]

/-- From `vel` to `vel'` only the bodies `l` were pushed. -/
structure Pushed (l : List (JBody F)) (vel vel' : Arr (Vel F)) : Prop where
  len : vel'.len = vel.len
  other : ∀ i, (∀ b ∈ l, b.index ≠ i) → vel'.at' i = vel.at' i
  linear : ∀ i, (∀ b ∈ l, b.index = i → b.invMass = 0) → (vel'.at' i).v = (vel.at' i).v
  angular : ∀ i, (∀ b ∈ l, b.index = i → b.invI = 0) → (vel'.at' i).w = (vel.at' i).w

/-- A single write. -/
theorem upd_eq_of {α : Type} {f : Nat → α} {a i : Nat} {x : α} {P : α → Prop} (h1 : i = a → P x) (h2 : i ≠ a → P (f i)) :
    P (upd f a x i) := by
  by_cases h : i = a
  · rw [h, upd_same]; exact h1 h
  · rw [upd_other _ _ h]; exact h2 h

theorem pushed_two {fa fb : JBody F} {vel : Arr (Vel F)} {t : Two F}
    (ha : fa.invMass = 0 → t.a.v = (vel.at' fa.index).v) (ha' : fa.invI = 0 → t.a.w = (vel.at' fa.index).w)
    (hb : fb.invMass = 0 → t.b.v = (vel.at' fb.index).v) (hb' : fb.invI = 0 → t.b.w = (vel.at' fb.index).w) :
    Pushed [fa, fb] vel ⟨vel.len, upd (upd vel.at' fa.index t.a) fb.index t.b⟩ := by
  refine ⟨rfl, fun i hi => ?_, fun i hi => ?_, fun i hi => ?_⟩
  · show upd _ _ _ i = _
    rw [upd_other _ _ (fun h => hi fb (by simp) h.symm), upd_other _ _ (fun h => hi fa (by simp) h.symm)]
  · refine upd_eq_of (P := fun x : Vel F => x.v = (vel.at' i).v) (fun h => ?_) (fun _ => ?_)
    · subst h; exact hb (hi fb (by simp) rfl)
    · refine upd_eq_of (P := fun x : Vel F => x.v = (vel.at' i).v) (fun h => ?_) (fun _ => rfl)
      subst h; exact ha (hi fa (by simp) rfl)
  · refine upd_eq_of (P := fun x : Vel F => x.w = (vel.at' i).w) (fun h => ?_) (fun _ => ?_)
    · subst h; exact hb' (hi fb (by simp) rfl)
    · refine upd_eq_of (P := fun x : Vel F => x.w = (vel.at' i).w) (fun h => ?_) (fun _ => rfl)
      subst h; exact ha' (hi fa (by simp) rfl)

theorem pushed_one {fa : JBody F} {vel : Arr (Vel F)} {t : Vel F} (ha : fa.invMass = 0 → t.v = (vel.at' fa.index).v)
    (ha' : fa.invI = 0 → t.w = (vel.at' fa.index).w) : Pushed [fa] vel ⟨vel.len, upd vel.at' fa.index t⟩ := by
  refine ⟨rfl, fun i hi => ?_, fun i hi => ?_, fun i hi => ?_⟩
  · show upd _ _ _ i = _
    rw [upd_other _ _ (fun h => hi fa (by simp) h.symm)]
  · refine upd_eq_of (P := fun x : Vel F => x.v = (vel.at' i).v) (fun h => ?_) (fun _ => rfl)
    subst h; exact ha (hi fa (by simp) rfl)
  · refine upd_eq_of (P := fun x : Vel F => x.w = (vel.at' i).w) (fun h => ?_) (fun _ => rfl)
    subst h; exact ha' (hi fa (by simp) rfl)

theorem pushed_trans {l : List (JBody F)} {u v w : Arr (Vel F)} (h : Pushed l u v) (h' : Pushed l v w) : Pushed l u w :=
  ⟨h'.len.trans h.len, fun i hi => (h'.other i hi).trans (h.other i hi), fun i hi => (h'.linear i hi).trans (h.linear i hi),
    fun i hi => (h'.angular i hi).trans (h.angular i hi)⟩

theorem pushed_refl (l : List (JBody F)) (v : Arr (Vel F)) : Pushed l v v := ⟨rfl, fun _ _ => rfl, fun _ _ => rfl, fun _ _ => rfl⟩

theorem JKick.pushed {v v' : View F} {vel vel' : Arr (Vel F)} (h : JKick v v' vel vel') :
    Pushed [v.frame.a, v.frame.b] vel vel' := by
  rw [h.eq]
  refine pushed_two (fun h => ?_) (fun h => ?_) (fun h => ?_) (fun h => ?_) <;> simp only [PairFrame.kick, h] <;>
    first | (ext <;> simp) | simp

/-! ## Reading and writing four bodies -/

theorem loadFour_some {vel : Arr (Vel F)} {a b c d : Nat} {s : Four F} (h : loadFour vel a b c d = some s) :
    (a < vel.len ∧ b < vel.len ∧ c < vel.len ∧ d < vel.len) ∧ s = ⟨vel.at' a, vel.at' b, vel.at' c, vel.at' d⟩ := by
  unfold loadFour at h
  obtain ⟨x, ha, h⟩ := Option.bind_eq_some_iff.1 h
  obtain ⟨y, hb, h⟩ := Option.bind_eq_some_iff.1 h
  obtain ⟨z, hc, h⟩ := Option.bind_eq_some_iff.1 h
  obtain ⟨t, hd, h⟩ := Option.bind_eq_some_iff.1 h
  obtain ⟨h1, rfl⟩ := Arr.get_some ha
  obtain ⟨h2, rfl⟩ := Arr.get_some hb
  obtain ⟨h3, rfl⟩ := Arr.get_some hc
  obtain ⟨h4, rfl⟩ := Arr.get_some hd
  simp only [Option.pure_def, Option.some.injEq] at h
  exact ⟨⟨h1, h2, h3, h4⟩, h.symm⟩

theorem loadFourP_some {pos : Arr (Pos F)} {a b c d : Nat} {s : FourP F} (h : loadFourP pos a b c d = some s) :
    (a < pos.len ∧ b < pos.len ∧ c < pos.len ∧ d < pos.len) ∧ s = ⟨pos.at' a, pos.at' b, pos.at' c, pos.at' d⟩ := by
  unfold loadFourP at h
  obtain ⟨x, ha, h⟩ := Option.bind_eq_some_iff.1 h
  obtain ⟨y, hb, h⟩ := Option.bind_eq_some_iff.1 h
  obtain ⟨z, hc, h⟩ := Option.bind_eq_some_iff.1 h
  obtain ⟨t, hd, h⟩ := Option.bind_eq_some_iff.1 h
  obtain ⟨h1, rfl⟩ := Arr.get_some ha
  obtain ⟨h2, rfl⟩ := Arr.get_some hb
  obtain ⟨h3, rfl⟩ := Arr.get_some hc
  obtain ⟨h4, rfl⟩ := Arr.get_some hd
  simp only [Option.pure_def, Option.some.injEq] at h
  exact ⟨⟨h1, h2, h3, h4⟩, h.symm⟩

theorem storeFour_some {vel vel' : Arr (Vel F)} {a b c d : Nat} {s : Four F} (h : storeFour vel a b c d s = some vel') :
    vel' = ⟨vel.len, upd (upd (upd (upd vel.at' a s.a) b s.b) c s.c) d s.d⟩ := by
  unfold storeFour at h
  obtain ⟨x, ha, h⟩ := Option.bind_eq_some_iff.1 h
  obtain ⟨y, hb, h⟩ := Option.bind_eq_some_iff.1 h
  obtain ⟨z, hc, h⟩ := Option.bind_eq_some_iff.1 h
  obtain ⟨_, rfl⟩ := Arr.set_some ha
  obtain ⟨_, rfl⟩ := Arr.set_some hb
  obtain ⟨_, rfl⟩ := Arr.set_some hc
  obtain ⟨_, rfl⟩ := Arr.set_some h
  rfl

theorem storeFourP_some {vel vel' : Arr (Pos F)} {a b c d : Nat} {s : FourP F} (h : storeFourP vel a b c d s = some vel') :
    vel' = ⟨vel.len, upd (upd (upd (upd vel.at' a s.a) b s.b) c s.c) d s.d⟩ := by
  unfold storeFourP at h
  obtain ⟨x, ha, h⟩ := Option.bind_eq_some_iff.1 h
  obtain ⟨y, hb, h⟩ := Option.bind_eq_some_iff.1 h
  obtain ⟨z, hc, h⟩ := Option.bind_eq_some_iff.1 h
  obtain ⟨_, rfl⟩ := Arr.set_some ha
  obtain ⟨_, rfl⟩ := Arr.set_some hb
  obtain ⟨_, rfl⟩ := Arr.set_some hc
  obtain ⟨_, rfl⟩ := Arr.set_some h
  rfl

theorem loadFour_of {vel : Arr (Vel F)} {a b c d : Nat} (h1 : a < vel.len) (h2 : b < vel.len) (h3 : c < vel.len)
    (h4 : d < vel.len) : loadFour vel a b c d = some ⟨vel.at' a, vel.at' b, vel.at' c, vel.at' d⟩ := by
  simp [loadFour, Arr.get_of_lt h1, Arr.get_of_lt h2, Arr.get_of_lt h3, Arr.get_of_lt h4]
theorem loadFourP_of {vel : Arr (Pos F)} {a b c d : Nat} (h1 : a < vel.len) (h2 : b < vel.len) (h3 : c < vel.len)
    (h4 : d < vel.len) : loadFourP vel a b c d = some ⟨vel.at' a, vel.at' b, vel.at' c, vel.at' d⟩ := by
  simp [loadFourP, Arr.get_of_lt h1, Arr.get_of_lt h2, Arr.get_of_lt h3, Arr.get_of_lt h4]
theorem storeFour_of {vel : Arr (Vel F)} {a b c d : Nat} (s : Four F) (h1 : a < vel.len) (h2 : b < vel.len) (h3 : c < vel.len)
    (h4 : d < vel.len) :
    storeFour vel a b c d s = some ⟨vel.len, upd (upd (upd (upd vel.at' a s.a) b s.b) c s.c) d s.d⟩ := by
  unfold storeFour
  rw [Arr.set_of_lt _ h1]; simp only [Option.bind_eq_bind, Option.bind_some]
  rw [Arr.set_of_lt _ (by exact h2)]; simp only [Option.bind_some]
  rw [Arr.set_of_lt _ (by exact h3)]; simp only [Option.bind_some]
  rw [Arr.set_of_lt _ (by exact h4)]

theorem pushed_four {fa fb fc fd : JBody F} {vel : Arr (Vel F)} {t : Four F}
    (ha : fa.invMass = 0 → t.a.v = (vel.at' fa.index).v) (ha' : fa.invI = 0 → t.a.w = (vel.at' fa.index).w)
    (hb : fb.invMass = 0 → t.b.v = (vel.at' fb.index).v) (hb' : fb.invI = 0 → t.b.w = (vel.at' fb.index).w)
    (hc : fc.invMass = 0 → t.c.v = (vel.at' fc.index).v) (hc' : fc.invI = 0 → t.c.w = (vel.at' fc.index).w)
    (hd : fd.invMass = 0 → t.d.v = (vel.at' fd.index).v) (hd' : fd.invI = 0 → t.d.w = (vel.at' fd.index).w) :
    Pushed [fa, fb, fc, fd] vel
      ⟨vel.len, upd (upd (upd (upd vel.at' fa.index t.a) fb.index t.b) fc.index t.c) fd.index t.d⟩ := by
  refine ⟨rfl, fun i hi => ?_, fun i hi => ?_, fun i hi => ?_⟩
  · show upd _ _ _ i = _
    rw [upd_other _ _ (fun h => hi fd (by simp) h.symm), upd_other _ _ (fun h => hi fc (by simp) h.symm),
      upd_other _ _ (fun h => hi fb (by simp) h.symm), upd_other _ _ (fun h => hi fa (by simp) h.symm)]
  · refine upd_eq_of (P := fun x : Vel F => x.v = (vel.at' i).v) (fun h => ?_) (fun _ => ?_)
    · subst h; exact hd (hi fd (by simp) rfl)
    refine upd_eq_of (P := fun x : Vel F => x.v = (vel.at' i).v) (fun h => ?_) (fun _ => ?_)
    · subst h; exact hc (hi fc (by simp) rfl)
    refine upd_eq_of (P := fun x : Vel F => x.v = (vel.at' i).v) (fun h => ?_) (fun _ => ?_)
    · subst h; exact hb (hi fb (by simp) rfl)
    refine upd_eq_of (P := fun x : Vel F => x.v = (vel.at' i).v) (fun h => ?_) (fun _ => rfl)
    subst h; exact ha (hi fa (by simp) rfl)
  · refine upd_eq_of (P := fun x : Vel F => x.w = (vel.at' i).w) (fun h => ?_) (fun _ => ?_)
    · subst h; exact hd' (hi fd (by simp) rfl)
    refine upd_eq_of (P := fun x : Vel F => x.w = (vel.at' i).w) (fun h => ?_) (fun _ => ?_)
    · subst h; exact hc' (hi fc (by simp) rfl)
    refine upd_eq_of (P := fun x : Vel F => x.w = (vel.at' i).w) (fun h => ?_) (fun _ => ?_)
    · subst h; exact hb' (hi fb (by simp) rfl)
    refine upd_eq_of (P := fun x : Vel F => x.w = (vel.at' i).w) (fun h => ?_) (fun _ => rfl)
    subst h; exact ha' (hi fa (by simp) rfl)

/-! ## Pulleys, mouse joints and gears -/

theorem zero_smul' (p : Vec2 F) : (0 : F) * p = ⟨0, 0⟩ := by ext <;> simp

theorem pulley_push_pushed (j : Pulley F) (x : F) (vel : Arr (Vel F)) :
    Pushed [j.frame.a, j.frame.b] vel ⟨vel.len,
      upd (upd vel.at' j.frame.a.index (j.push x ⟨vel.at' j.frame.a.index, vel.at' j.frame.b.index⟩).a) j.frame.b.index
        (j.push x ⟨vel.at' j.frame.a.index, vel.at' j.frame.b.index⟩).b⟩ := by
  refine pushed_two (fun h => ?_) (fun h => ?_) (fun h => ?_) (fun h => ?_) <;> simp only [Pulley.push, h] <;>
    first | (ext <;> simp) | simp

theorem gear_push_pushed (j : Gear F) (x : F) (vel : Arr (Vel F)) :
    Pushed [j.fA, j.fB, j.fC, j.fD] vel ⟨vel.len, upd (upd (upd (upd vel.at'
      j.fA.index (j.push x ⟨vel.at' j.fA.index, vel.at' j.fB.index, vel.at' j.fC.index, vel.at' j.fD.index⟩).a)
      j.fB.index (j.push x ⟨vel.at' j.fA.index, vel.at' j.fB.index, vel.at' j.fC.index, vel.at' j.fD.index⟩).b)
      j.fC.index (j.push x ⟨vel.at' j.fA.index, vel.at' j.fB.index, vel.at' j.fC.index, vel.at' j.fD.index⟩).c)
      j.fD.index (j.push x ⟨vel.at' j.fA.index, vel.at' j.fB.index, vel.at' j.fC.index, vel.at' j.fD.index⟩).d⟩ := by
  refine pushed_four (fun h => ?_) (fun h => ?_) (fun h => ?_) (fun h => ?_) (fun h => ?_) (fun h => ?_) (fun h => ?_)
    (fun h => ?_) <;> simp only [Gear.push, h] <;> first | (ext <;> simp) | simp

/-! ## All joints -/

theorem touched_plain (j : Joint F) (h : j.plain = true) : j.touched = [j.bodyA, j.bodyB] := by
  cases j <;> first | rfl | cases h

theorem Joint.touched_strip (j : Joint F) : j.strip.touched = j.touched := by cases j <;> rfl
theorem Joint.touched_prepared [Elem F] (st : JStep F) (bodies : Nat → JBody F) (pos : Arr (Pos F)) (j : Joint F) :
    (j.prepared st bodies pos).touched = j.touched := by
  cases j
  case weld j =>
    simp only [Joint.prepared, Weld.prepare]
    split
    · rfl
    · split <;> rfl
  case distance j =>
    simp only [Joint.prepared, DistanceJ.soften]
    split <;> rfl
  all_goals rfl

theorem Joint.solveVel_pushed [Elem F] {st : JStep F} {bodies : Nat → JBody F} {pos : Arr (Pos F)} {j j' : Joint F}
    {vel vel' : Arr (Vel F)} (ha : j.Armed bodies pos) (h : j.solveVel st vel = some (j', vel')) :
    Pushed (j.touched.map bodies) vel vel' ∧ j'.strip = j.strip := by
  by_cases hp : j.plain = true
  · obtain ⟨k, s⟩ := Joint.solveVel_plain hp h
    refine ⟨?_, s⟩
    have := k.pushed
    rw [Joint.armed_frame hp ha] at this
    rw [touched_plain j hp]; exact this
  · cases j with
    | pulley j =>
      obtain ⟨h1, h2, rfl, rfl⟩ := onTwo_some h
      refine ⟨?_, rfl⟩
      have := pulley_push_pushed j (-j.mass * (-(dot j.uA ((vel.at' j.frame.a.index).v + crossSV (vel.at' j.frame.a.index).w j.rA)) -
        j.ratio * dot j.uB ((vel.at' j.frame.b.index).v + crossSV (vel.at' j.frame.b.index).w j.rB))) vel
      have e : [j.frame.a, j.frame.b] = (Joint.pulley j).touched.map bodies := by rw [ha.1]; rfl
      rw [← e]; exact this
    | mouse j =>
      simp only [Joint.solveVel] at h
      obtain ⟨s, hs, h⟩ := Option.bind_eq_some_iff.1 h
      obtain ⟨v, hv, h⟩ := Option.bind_eq_some_iff.1 h
      simp only [Option.pure_def, Option.some.injEq, Prod.mk.injEq] at h
      obtain ⟨rfl, rfl⟩ := h
      obtain ⟨_, rfl⟩ := Arr.get_some hs
      obtain ⟨_, rfl⟩ := Arr.set_some hv
      refine ⟨?_, rfl⟩
      have e : [j.frame] = (Joint.mouse j).touched.map bodies := by rw [ha.1]; rfl
      rw [← e]
      refine pushed_one (fun h => ?_) (fun h => ?_) <;> simp only [Mouse.solveVel, Mouse.push, h] <;>
        first | (ext <;> simp) | simp
    | gear j =>
      simp only [Joint.solveVel] at h
      obtain ⟨s, hs, h⟩ := Option.bind_eq_some_iff.1 h
      obtain ⟨v, hv, h⟩ := Option.bind_eq_some_iff.1 h
      simp only [Option.pure_def, Option.some.injEq, Prod.mk.injEq] at h
      obtain ⟨rfl, rfl⟩ := h
      obtain ⟨_, rfl⟩ := loadFour_some hs
      have hv := storeFour_some hv
      subst hv
      refine ⟨?_, rfl⟩
      obtain ⟨a1, a2, a3, a4⟩ := ha
      have e : [j.fA, j.fB, j.fC, j.fD] = (Joint.gear j).touched.map bodies := by rw [a1, a2, a3, a4]; rfl
      rw [← e]
      exact gear_push_pushed j _ vel
    | _ => exact absurd rfl hp

/-- A mouse joint. -/
def Joint.isMouse : Joint F → Bool
  | .mouse _ => true
  | _ => false

theorem distance_init_dirty [Elem F] {st : JStep F} {bodies : Nat → JBody F} {j : DistanceJ F} (hw : st.warmStarting = false)
    (p : TwoP F) (s : Two F) : (j.initVel st bodies p s).2 = s ∧
      (j.initVel st bodies p s).1.strip = ((j.prepare bodies p).soften st).strip := by
  unfold DistanceJ.initVel DistanceJ.warm
  rw [if_neg (by simp [hw])]
  exact ⟨rfl, rfl⟩

theorem Joint.initVel_pushed [Elem F] {st : JStep F} {bodies : Nat → JBody F} {pos : Arr (Pos F)} {j j' : Joint F}
    {vel vel' : Arr (Vel F)} (h : j.initVel st bodies pos vel = some (j', vel')) :
    vel'.len = vel.len ∧ (∀ i, (∀ b ∈ j.touched.map bodies, b.index ≠ i) → vel'.at' i = vel.at' i) ∧
    (∀ i, (∀ b ∈ j.touched.map bodies, b.index = i → b.invMass = 0) → (vel'.at' i).v = (vel.at' i).v) ∧
    (j.isMouse = false → ∀ i, (∀ b ∈ j.touched.map bodies, b.index = i → b.invI = 0) → (vel'.at' i).w = (vel.at' i).w) ∧
    j'.strip = (j.prepared st bodies pos).strip := by
  by_cases hp : j.plain = true ∧ j.startsClean st
  · obtain ⟨k, s, _⟩ := Joint.initVel_plain hp.1 hp.2 h
    have ha : j'.Armed bodies pos := (Joint.calls_same s).2.2.2.2.2.2
    have hp' : j'.plain = true := (Joint.calls_same s).1.trans hp.1
    have := k.pushed
    simp only [View.start] at this
    rw [Joint.armed_frame hp' ha, (Joint.calls_same s).2.1, (Joint.calls_same s).2.2.1] at this
    rw [touched_plain j hp.1]
    exact ⟨this.len, this.other, this.linear, fun _ => this.angular, s⟩
  · cases j with
    | distance j =>
      obtain ⟨p, hp', h⟩ := Option.bind_eq_some_iff.1 h
      obtain ⟨i1, i2, rfl⟩ := loadTwoP_some hp'
      obtain ⟨h1, h2, rfl, rfl⟩ := onTwo_some h
      have hw : st.warmStarting = false := by
        by_contra hw
        exact hp ⟨rfl, .inl (by simpa using hw)⟩
      obtain ⟨e1, e2⟩ := distance_init_dirty (bodies := bodies) (j := j) hw
        ⟨pos.at' (bodies j.bodyA).index, pos.at' (bodies j.bodyB).index⟩
        ⟨vel.at' (bodies j.bodyA).index, vel.at' (bodies j.bodyB).index⟩
      rw [e1]
      have := pushed_two (fa := bodies j.bodyA) (fb := bodies j.bodyB) (vel := vel)
        (t := ⟨vel.at' (bodies j.bodyA).index, vel.at' (bodies j.bodyB).index⟩) (fun _ => rfl) (fun _ => rfl) (fun _ => rfl)
        (fun _ => rfl)
      exact ⟨this.len, this.other, this.linear, fun _ => this.angular, congrArg Joint.distance e2⟩
    | pulley j =>
      obtain ⟨p, hp', h⟩ := Option.bind_eq_some_iff.1 h
      obtain ⟨i1, i2, rfl⟩ := loadTwoP_some hp'
      obtain ⟨h1, h2, rfl, rfl⟩ := onTwo_some h
      by_cases hw : st.warmStarting = true
      · have := pulley_push_pushed (j.prepare bodies ⟨pos.at' (bodies j.bodyA).index, pos.at' (bodies j.bodyB).index⟩)
          (j.impulse * st.dtRatio) vel
        have e : ∀ s, (j.initVel st bodies ⟨pos.at' (bodies j.bodyA).index, pos.at' (bodies j.bodyB).index⟩ s) =
          ({ j.prepare bodies ⟨pos.at' (bodies j.bodyA).index, pos.at' (bodies j.bodyB).index⟩ with
              impulse := j.impulse * st.dtRatio },
            (j.prepare bodies ⟨pos.at' (bodies j.bodyA).index, pos.at' (bodies j.bodyB).index⟩).push (j.impulse * st.dtRatio) s) := by
          intro s; unfold Pulley.initVel Pulley.warm; rw [if_pos hw]; rfl
        rw [e]
        exact ⟨this.len, this.other, this.linear, fun _ => this.angular, rfl⟩
      · have e : ∀ s, (j.initVel st bodies ⟨pos.at' (bodies j.bodyA).index, pos.at' (bodies j.bodyB).index⟩ s) =
          ({ j.prepare bodies ⟨pos.at' (bodies j.bodyA).index, pos.at' (bodies j.bodyB).index⟩ with impulse := 0 }, s) := by
          intro s; unfold Pulley.initVel Pulley.warm; rw [if_neg hw]
        rw [e]
        have := pushed_two (fa := bodies j.bodyA) (fb := bodies j.bodyB) (vel := vel)
          (t := ⟨vel.at' (bodies j.bodyA).index, vel.at' (bodies j.bodyB).index⟩) (fun _ => rfl) (fun _ => rfl) (fun _ => rfl)
          (fun _ => rfl)
        exact ⟨this.len, this.other, this.linear, fun _ => this.angular, rfl⟩
    | mouse j =>
      simp only [Joint.initVel] at h
      obtain ⟨p, hp', h⟩ := Option.bind_eq_some_iff.1 h
      obtain ⟨s, hs, h⟩ := Option.bind_eq_some_iff.1 h
      obtain ⟨v, hv, h⟩ := Option.bind_eq_some_iff.1 h
      simp only [Option.pure_def, Option.some.injEq, Prod.mk.injEq] at h
      obtain ⟨rfl, rfl⟩ := h
      obtain ⟨_, rfl⟩ := Arr.get_some hp'
      obtain ⟨_, rfl⟩ := Arr.get_some hs
      obtain ⟨_, rfl⟩ := Arr.set_some hv
      refine ⟨rfl, fun i hi => ?_, fun i hi => ?_, fun h => (by cases h), ?_⟩
      · exact upd_other _ _ (fun h => hi _ (List.mem_map_of_mem (by simp [Joint.touched])) h.symm)
      · refine upd_eq_of (P := fun x : Vel F => x.v = (vel.at' i).v) (fun h => ?_) (fun _ => rfl)
        subst h
        have : (bodies j.bodyB).invMass = 0 := hi _ (List.mem_map_of_mem (by simp [Joint.touched])) rfl
        unfold Mouse.initVel Mouse.warm
        split
        · simp only [Mouse.push, Mouse.prepare, this]; ext <;> simp
        · rfl
      · simp only [Joint.strip, Joint.prepared, Mouse.initVel, Mouse.warm]
        split <;> rfl
    | gear j =>
      simp only [Joint.initVel] at h
      obtain ⟨p, hp', h⟩ := Option.bind_eq_some_iff.1 h
      obtain ⟨s, hs, h⟩ := Option.bind_eq_some_iff.1 h
      obtain ⟨v, hv, h⟩ := Option.bind_eq_some_iff.1 h
      simp only [Option.pure_def, Option.some.injEq, Prod.mk.injEq] at h
      obtain ⟨rfl, rfl⟩ := h
      obtain ⟨_, rfl⟩ := loadFourP_some hp'
      obtain ⟨_, rfl⟩ := loadFour_some hs
      have hv := storeFour_some hv
      subst hv
      have hs : Joint.strip (.gear (j.initVel st bodies ⟨pos.at' (bodies j.bodyA).index, pos.at' (bodies j.bodyB).index,
          pos.at' (bodies j.bodyC).index, pos.at' (bodies j.bodyD).index⟩
          ⟨vel.at' (bodies j.bodyA).index, vel.at' (bodies j.bodyB).index, vel.at' (bodies j.bodyC).index,
            vel.at' (bodies j.bodyD).index⟩).1) = ((Joint.gear j).prepared st bodies pos).strip := by
        simp only [Joint.strip, Joint.prepared, Gear.initVel, Gear.warm]
        split <;> rfl
      by_cases hw : st.warmStarting = true
      · have e : ∀ p s, (j.initVel st bodies p s).2 = (j.prepare bodies p).push j.impulse s := by
          intro p s; unfold Gear.initVel Gear.warm; rw [if_pos hw]; rfl
        have := gear_push_pushed (j.prepare bodies ⟨pos.at' (bodies j.bodyA).index, pos.at' (bodies j.bodyB).index,
          pos.at' (bodies j.bodyC).index, pos.at' (bodies j.bodyD).index⟩) j.impulse vel
        rw [e]
        exact ⟨this.len, this.other, this.linear, fun _ => this.angular, hs⟩
      · have e : ∀ p s, (j.initVel st bodies p s).2 = s := by
          intro p s; unfold Gear.initVel Gear.warm; rw [if_neg hw]
        rw [e]
        have := pushed_four (fa := bodies j.bodyA) (fb := bodies j.bodyB) (fc := bodies j.bodyC) (fd := bodies j.bodyD)
          (vel := vel) (t := ⟨vel.at' (bodies j.bodyA).index, vel.at' (bodies j.bodyB).index, vel.at' (bodies j.bodyC).index,
            vel.at' (bodies j.bodyD).index⟩) (fun _ => rfl) (fun _ => rfl) (fun _ => rfl) (fun _ => rfl) (fun _ => rfl)
            (fun _ => rfl) (fun _ => rfl) (fun _ => rfl)
        exact ⟨this.len, this.other, this.linear, fun _ => this.angular, hs⟩
    | _ => exact absurd ⟨rfl, trivial⟩ hp

end
end B2
