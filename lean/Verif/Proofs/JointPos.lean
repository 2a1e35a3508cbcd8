import Verif.Proofs.JointEach

/-! # Position correction by joints: which bodies move, and that it does not panic -/
set_option linter.unusedSectionVars false
namespace B2
section
variable {F : Type} [Field F] [LinearOrder F]

/-- From `pos` to `pos'` only the bodies `l` were moved. -/
structure Shifted (l : List (JBody F)) (pos pos' : Arr (Pos F)) : Prop where
  len : pos'.len = pos.len
  other : ∀ i, (∀ b ∈ l, b.index ≠ i) → pos'.at' i = pos.at' i
  linear : ∀ i, (∀ b ∈ l, b.index = i → b.invMass = 0) → (pos'.at' i).c = (pos.at' i).c
  angular : ∀ i, (∀ b ∈ l, b.index = i → b.invI = 0) → (pos'.at' i).a = (pos.at' i).a

theorem shifted_refl (l : List (JBody F)) (p : Arr (Pos F)) : Shifted l p p := ⟨rfl, fun _ _ => rfl, fun _ _ => rfl, fun _ _ => rfl⟩

/-- A body keeps its place if it has infinite mass, and its angle if it has infinite inertia. -/
def Hold (f : JBody F) (x y : Pos F) : Prop := (f.invMass = 0 → y.c = x.c) ∧ (f.invI = 0 → y.a = x.a)

theorem Hold.refl (f : JBody F) (x : Pos F) : Hold f x x := ⟨fun _ => rfl, fun _ => rfl⟩
theorem Hold.trans {f : JBody F} {x y z : Pos F} (h : Hold f x y) (h' : Hold f y z) : Hold f x z :=
  ⟨fun e => (h'.1 e).trans (h.1 e), fun e => (h'.2 e).trans (h.2 e)⟩

theorem shifted_two {fa fb : JBody F} {pos : Arr (Pos F)} {t : TwoP F} (ha : Hold fa (pos.at' fa.index) t.a)
    (hb : Hold fb (pos.at' fb.index) t.b) : Shifted [fa, fb] pos ⟨pos.len, upd (upd pos.at' fa.index t.a) fb.index t.b⟩ := by
  refine ⟨rfl, fun i hi => ?_, fun i hi => ?_, fun i hi => ?_⟩
  · show upd _ _ _ i = _
    rw [upd_other _ _ (fun h => hi fb (by simp) h.symm), upd_other _ _ (fun h => hi fa (by simp) h.symm)]
  · refine upd_eq_of (P := fun x : Pos F => x.c = (pos.at' i).c) (fun h => ?_) (fun _ => ?_)
    · subst h; exact hb.1 (hi fb (by simp) rfl)
    · refine upd_eq_of (P := fun x : Pos F => x.c = (pos.at' i).c) (fun h => ?_) (fun _ => rfl)
      subst h; exact ha.1 (hi fa (by simp) rfl)
  · refine upd_eq_of (P := fun x : Pos F => x.a = (pos.at' i).a) (fun h => ?_) (fun _ => ?_)
    · subst h; exact hb.2 (hi fb (by simp) rfl)
    · refine upd_eq_of (P := fun x : Pos F => x.a = (pos.at' i).a) (fun h => ?_) (fun _ => rfl)
      subst h; exact ha.2 (hi fa (by simp) rfl)

theorem shifted_four {fa fb fc fd : JBody F} {pos : Arr (Pos F)} {t : FourP F} (ha : Hold fa (pos.at' fa.index) t.a)
    (hb : Hold fb (pos.at' fb.index) t.b) (hc : Hold fc (pos.at' fc.index) t.c) (hd : Hold fd (pos.at' fd.index) t.d) :
    Shifted [fa, fb, fc, fd] pos ⟨pos.len, upd (upd (upd (upd pos.at' fa.index t.a) fb.index t.b) fc.index t.c) fd.index t.d⟩ := by
  refine ⟨rfl, fun i hi => ?_, fun i hi => ?_, fun i hi => ?_⟩
  · show upd _ _ _ i = _
    rw [upd_other _ _ (fun h => hi fd (by simp) h.symm), upd_other _ _ (fun h => hi fc (by simp) h.symm),
      upd_other _ _ (fun h => hi fb (by simp) h.symm), upd_other _ _ (fun h => hi fa (by simp) h.symm)]
  · refine upd_eq_of (P := fun x : Pos F => x.c = (pos.at' i).c) (fun h => ?_) (fun _ => ?_)
    · subst h; exact hd.1 (hi fd (by simp) rfl)
    refine upd_eq_of (P := fun x : Pos F => x.c = (pos.at' i).c) (fun h => ?_) (fun _ => ?_)
    · subst h; exact hc.1 (hi fc (by simp) rfl)
    refine upd_eq_of (P := fun x : Pos F => x.c = (pos.at' i).c) (fun h => ?_) (fun _ => ?_)
    · subst h; exact hb.1 (hi fb (by simp) rfl)
    refine upd_eq_of (P := fun x : Pos F => x.c = (pos.at' i).c) (fun h => ?_) (fun _ => rfl)
    subst h; exact ha.1 (hi fa (by simp) rfl)
  · refine upd_eq_of (P := fun x : Pos F => x.a = (pos.at' i).a) (fun h => ?_) (fun _ => ?_)
    · subst h; exact hd.2 (hi fd (by simp) rfl)
    refine upd_eq_of (P := fun x : Pos F => x.a = (pos.at' i).a) (fun h => ?_) (fun _ => ?_)
    · subst h; exact hc.2 (hi fc (by simp) rfl)
    refine upd_eq_of (P := fun x : Pos F => x.a = (pos.at' i).a) (fun h => ?_) (fun _ => ?_)
    · subst h; exact hb.2 (hi fb (by simp) rfl)
    refine upd_eq_of (P := fun x : Pos F => x.a = (pos.at' i).a) (fun h => ?_) (fun _ => rfl)
    subst h; exact ha.2 (hi fa (by simp) rfl)

/-- Both bodies of a frame are kept. -/
def HoldTwo (f : PairFrame F) (p q : TwoP F) : Prop := Hold f.a p.a q.a ∧ Hold f.b p.b q.b

theorem HoldTwo.refl (f : PairFrame F) (p : TwoP F) : HoldTwo f p p := ⟨.refl _ _, .refl _ _⟩
theorem HoldTwo.trans {f : PairFrame F} {p q r : TwoP F} (h : HoldTwo f p q) (h' : HoldTwo f q r) : HoldTwo f p r :=
  ⟨h.1.trans h'.1, h.2.trans h'.2⟩

theorem move_hold (f : PairFrame F) (x : Vec2 F) (la lb : F) (p : TwoP F) : HoldTwo f p (f.move x la lb p) := by
  refine ⟨⟨fun h => ?_, fun h => ?_⟩, ⟨fun h => ?_, fun h => ?_⟩⟩ <;> simp only [PairFrame.move, h] <;>
    first | (ext <;> simp) | simp

theorem Revolute.solvePos_hold [Elem F] (j : Revolute F) (p : TwoP F) : HoldTwo j.frame p (j.solvePos p).1 := by
  have h1 : HoldTwo j.frame p (j.posLimit p).1 := by
    unfold Revolute.posLimit
    split_ifs
    · exact ⟨⟨fun _ => rfl, fun h => by simp [h]⟩, ⟨fun _ => rfl, fun h => by simp [h]⟩⟩
    · exact .refl _ _
  exact h1.trans (move_hold _ _ _ _ _)

theorem DistanceJ.solvePos_hold [Elem F] (j : DistanceJ F) (p : TwoP F) : HoldTwo j.frame p (j.solvePos p).1 := by
  unfold DistanceJ.solvePos
  dsimp only
  split
  · exact .refl _ _
  · exact move_hold _ _ _ _ _

theorem Prismatic.solvePos_hold [Elem F] (j : Prismatic F) (p : TwoP F) : HoldTwo j.frame p (j.solvePos p).1 := move_hold _ _ _ _ _

theorem Weld.solvePos_hold [Elem F] (j : Weld F) (p : TwoP F) : HoldTwo j.frame p (j.solvePos p).1 := by
  unfold Weld.solvePos
  dsimp only
  split_ifs <;> exact move_hold _ _ _ _ _

theorem Wheel.solvePos_hold [Elem F] (j : Wheel F) (p : TwoP F) : HoldTwo j.frame p (j.solvePos p).1 := by
  have h1 : HoldTwo j.frame p (j.posLimit p).1 := by
    unfold Wheel.posLimit
    dsimp only
    split_ifs
    · exact move_hold _ _ _ _ _
    · exact move_hold _ _ _ _ _
    · exact .refl _ _
    · exact .refl _ _
  exact h1.trans (move_hold _ _ _ _ _)

theorem Pulley.solvePos_hold [Elem F] (j : Pulley F) (p : TwoP F) : HoldTwo j.frame p (j.solvePos p).1 := by
  refine ⟨⟨fun h => ?_, fun h => ?_⟩, ⟨fun h => ?_, fun h => ?_⟩⟩ <;> simp only [Pulley.solvePos, h] <;>
    first | (ext <;> simp) | simp

theorem Gear.solvePos_hold [Elem F] (j : Gear F) (p : FourP F) : Hold j.fA p.a (j.solvePos p).1.a ∧ Hold j.fB p.b (j.solvePos p).1.b ∧
    Hold j.fC p.c (j.solvePos p).1.c ∧ Hold j.fD p.d (j.solvePos p).1.d := by
  refine ⟨⟨fun h => ?_, fun h => ?_⟩, ⟨fun h => ?_, fun h => ?_⟩, ⟨fun h => ?_, fun h => ?_⟩, ⟨fun h => ?_, fun h => ?_⟩⟩ <;>
    simp only [Gear.solvePos, h] <;> first | (ext <;> simp) | simp

theorem storeTwoP_of {pos : Arr (Pos F)} {a b : Nat} (s : TwoP F) (h1 : a < pos.len) (h2 : b < pos.len) :
    storeTwoP pos a b s = some ⟨pos.len, upd (upd pos.at' a s.a) b s.b⟩ := by
  unfold storeTwoP
  rw [Arr.set_of_lt _ h1]
  simp only [Option.bind_eq_bind, Option.bind_some]
  rw [Arr.set_of_lt _ (by exact h2)]

theorem storeFourP_of {pos : Arr (Pos F)} {a b c d : Nat} (s : FourP F) (h1 : a < pos.len) (h2 : b < pos.len) (h3 : c < pos.len)
    (h4 : d < pos.len) :
    storeFourP pos a b c d s = some ⟨pos.len, upd (upd (upd (upd pos.at' a s.a) b s.b) c s.c) d s.d⟩ := by
  unfold storeFourP
  rw [Arr.set_of_lt _ h1]; simp only [Option.bind_eq_bind, Option.bind_some]
  rw [Arr.set_of_lt _ (by exact h2)]; simp only [Option.bind_some]
  rw [Arr.set_of_lt _ (by exact h3)]; simp only [Option.bind_some]
  rw [Arr.set_of_lt _ (by exact h4)]

theorem onTwoP_hold {pos : Arr (Pos F)} {fr : PairFrame F} {f : TwoP F → TwoP F × Bool} (hk : ∀ p, HoldTwo fr p (f p).1)
    (h1 : fr.a.index < pos.len) (h2 : fr.b.index < pos.len) :
    ∃ r, onTwoP pos fr.a.index fr.b.index f = some r ∧ Shifted [fr.a, fr.b] pos r.1 := by
  unfold onTwoP
  rw [loadTwoP_of h1 h2]
  simp only [Option.bind_eq_bind, Option.bind_some]
  rw [storeTwoP_of _ h1 h2]
  exact ⟨_, rfl, shifted_two (hk _).1 (hk _).2⟩

/-- Position correction by a joint of the island does not panic and moves the joint's bodies only. -/
theorem Joint.solvePos_total [Elem F] {bodies : Nat → JBody F} {pos0 pos : Arr (Pos F)} {j : Joint F} (ha : j.Armed bodies pos0)
    (hi : j.In pos.len bodies) : ∃ r, j.solvePos pos = some r ∧ Shifted (j.touched.map bodies) pos r.1 := by
  have two : ∀ (fr : PairFrame F) (f : TwoP F → TwoP F × Bool), (∀ p, HoldTwo fr p (f p).1) → fr = ⟨bodies j.bodyA, bodies j.bodyB⟩ →
      j.touched = [j.bodyA, j.bodyB] → ∃ r, onTwoP pos fr.a.index fr.b.index f = some r ∧ Shifted (j.touched.map bodies) pos r.1 := by
    intro fr f hk hf ht
    obtain ⟨r, h1, h2⟩ := onTwoP_hold (pos := pos) hk (by rw [hf]; exact hi _ (by rw [ht]; simp)) (by rw [hf]; exact hi _ (by rw [ht]; simp))
    refine ⟨r, h1, ?_⟩
    rw [hf] at h2
    rw [ht]
    exact h2
  cases j with
  | revolute j => exact two _ _ j.solvePos_hold ha.1 rfl
  | prismatic j => exact two _ _ j.solvePos_hold ha.1 rfl
  | distance j => exact two _ _ j.solvePos_hold ha.1 rfl
  | weld j => exact two _ _ j.solvePos_hold ha.1 rfl
  | wheel j => exact two _ _ j.solvePos_hold ha.1 rfl
  | pulley j => exact two _ _ j.solvePos_hold ha.1 rfl
  | friction j => exact ⟨_, rfl, shifted_refl _ _⟩
  | motor j => exact ⟨_, rfl, shifted_refl _ _⟩
  | mouse j => exact ⟨_, rfl, shifted_refl _ _⟩
  | gear j =>
    obtain ⟨a1, a2, a3, a4⟩ := ha
    have h1 : j.fA.index < pos.len := by rw [a1]; exact hi _ (by simp [Joint.touched, Joint.bodyA])
    have h2 : j.fB.index < pos.len := by rw [a2]; exact hi _ (by simp [Joint.touched, Joint.bodyB])
    have h3 : j.fC.index < pos.len := by rw [a3]; exact hi _ (by simp [Joint.touched])
    have h4 : j.fD.index < pos.len := by rw [a4]; exact hi _ (by simp [Joint.touched])
    simp only [Joint.solvePos, loadFourP_of h1 h2 h3 h4, Option.bind_eq_bind, Option.bind_some, storeFourP_of _ h1 h2 h3 h4]
    refine ⟨_, rfl, ?_⟩
    obtain ⟨k1, k2, k3, k4⟩ := j.solvePos_hold ⟨pos.at' j.fA.index, pos.at' j.fB.index, pos.at' j.fC.index, pos.at' j.fD.index⟩
    have := shifted_four (pos := pos) k1 k2 k3 k4
    have ht : (Joint.gear j).touched.map bodies = [j.fA, j.fB, j.fC, j.fD] := by rw [a1, a2, a3, a4]; rfl
    rw [ht]
    exact this

theorem onTwoP_some {pos : Arr (Pos F)} {a b : Nat} {f : TwoP F → TwoP F × Bool} {r : Arr (Pos F) × Bool} (h : onTwoP pos a b f = some r) :
    a < pos.len ∧ b < pos.len := by
  unfold onTwoP at h
  obtain ⟨s, hs, -⟩ := Option.bind_eq_some_iff.1 h
  obtain ⟨h1, h2, -⟩ := loadTwoP_some hs
  exact ⟨h1, h2⟩

/-- Position correction by a joint moves the joint's bodies only. -/
theorem Joint.solvePos_shifted [Elem F] {bodies : Nat → JBody F} {pos0 pos : Arr (Pos F)} {j : Joint F} {r : Arr (Pos F) × Bool}
    (ha : j.Armed bodies pos0) (h : j.solvePos pos = some r) : Shifted (j.touched.map bodies) pos r.1 := by
  have fin : j.In pos.len bodies → Shifted (j.touched.map bodies) pos r.1 := fun hi => by
    obtain ⟨r', h1, h2⟩ := Joint.solvePos_total ha hi
    rw [h] at h1
    rw [Option.some.inj h1]; exact h2
  have two : ∀ (fr : PairFrame F) (f : TwoP F → TwoP F × Bool), onTwoP pos fr.a.index fr.b.index f = some r → fr = ⟨bodies j.bodyA, bodies j.bodyB⟩ →
      j.touched = [j.bodyA, j.bodyB] → j.In pos.len bodies := by
    intro fr f hf e ht b hb
    rw [ht] at hb
    have := onTwoP_some hf
    rw [e] at this
    simp only [List.mem_cons, List.not_mem_nil, or_false] at hb
    rcases hb with rfl | rfl
    · exact this.1
    · exact this.2
  cases j with
  | revolute j => exact fin (two _ _ h ha.1 rfl)
  | prismatic j => exact fin (two _ _ h ha.1 rfl)
  | distance j => exact fin (two _ _ h ha.1 rfl)
  | weld j => exact fin (two _ _ h ha.1 rfl)
  | wheel j => exact fin (two _ _ h ha.1 rfl)
  | pulley j => exact fin (two _ _ h ha.1 rfl)
  | friction j => cases h; exact shifted_refl _ _
  | motor j => cases h; exact shifted_refl _ _
  | mouse j => cases h; exact shifted_refl _ _
  | gear j =>
    refine fin fun b hb => ?_
    obtain ⟨a1, a2, a3, a4⟩ := ha
    simp only [Joint.solvePos, Option.bind_eq_bind, Option.bind_eq_some_iff] at h
    obtain ⟨s, hs, -⟩ := h
    obtain ⟨⟨h1, h2, h3, h4⟩, -⟩ := loadFourP_some hs
    rw [a1] at h1; rw [a2] at h2; rw [a3] at h3; rw [a4] at h4
    simp only [Joint.touched, List.mem_cons, List.not_mem_nil, or_false] at hb
    rcases hb with rfl | rfl | rfl | rfl
    exacts [h1, h2, h3, h4]

end
end B2
