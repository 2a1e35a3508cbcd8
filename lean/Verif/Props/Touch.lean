import Verif.Proofs.WorldTouch
import Verif.Props.WorldQuery
import Verif.Props.WorldContacts
import Verif.Props.Shapes
import Verif.Props.Engine
import Verif.Props.Total

/-!
# Who touches whom

The touching flags of the contacts, and that shapes that meet have a contact.
-/
namespace B2.Props
set_option linter.unusedSectionVars false
open B2 Spec World

section
variable {F : Type} [Field F] [LinearOrder F] [IsStrictOrderedRing F] [Elem F]

/-! ## C116 -/

/-- After a step in which time-of-impact events do not move bodies afterwards, a contact that existed before the step and had an active body exists only if
the fat boxes overlapped, and says that it touches exactly if its shapes touched when the step began. -/
theorem c116_flag {E : Engine F} (hE : CallbacksTame E.env) (hL : LeavesBodies E.env) {w w' : World F} (h : WHist E.env w) {dt : F} {vi pi : Nat}
    (hc : w.continuous = false ∨ ¬ 0 < dt) (e : w.step E.env dt vi pi = some w') {c : Nat} (hm : c ∈ w.g.contactList) (ha : Active w (w.g.contacts c)) (hm' : c ∈ w'.g.contactList) :
    FatNear w (w.g.contacts c) ∧ ((w'.cst c).touching = true ↔ TouchFound w (w.g.contacts c)) :=
  (((step_touch hE hL (whist_inv h).toWInv hc e).1 c hm ha).1 hm').2

/-- Contacts of an active body whose fat boxes overlap survive, unless they are to be filtered again. -/
theorem c116_kept {E : Engine F} (hE : CallbacksTame E.env) (hL : LeavesBodies E.env) {w w' : World F} (h : WHist E.env w) {dt : F} {vi pi : Nat}
    (hc : w.continuous = false ∨ ¬ 0 < dt) (e : w.step E.env dt vi pi = some w') {c : Nat} (hm : c ∈ w.g.contactList) (ha : Active w (w.g.contacts c))
    (hf : (w.cst c).filter = false) (hn : FatNear w (w.g.contacts c)) : c ∈ w'.g.contactList :=
  ((step_touch hE hL (whist_inv h).toWInv hc e).1 c hm ha).2 (.inl hf) hn

/-- Every contact, new or old, that says after the step that it touches, and had an active body, is of shapes that touched when the step began. -/
theorem c116_true {E : Engine F} (hE : CallbacksTame E.env) (hL : LeavesBodies E.env) {w w' : World F} (h : WHist E.env w) {dt : F} {vi pi : Nat}
    (hc : w.continuous = false ∨ ¬ 0 < dt) (e : w.step E.env dt vi pi = some w') {c : Nat} (hm : c ∈ w'.g.contactList) (ht : (w'.cst c).touching = true)
    (ha : Active w (w'.g.contacts c)) : TouchFound w (w'.g.contacts c) :=
  (step_touch hE hL (whist_inv h).toWInv hc e).2 c hm ht ha

/-! ## C117 -/

/-- Children with a common point have overlapping fat boxes. -/
theorem meet_overlap {env : Env F} {w : World F} (hE : LeavesBodies env) (hP : PostSolveLinks env) (hT : ToiForward env) (hH : HeavyStay env) (h : SteadyHist env w)
    {x y : Nat × Nat} (hx : Child w x) (hy : Child w y) (sx : 0 ≤ skin (w.g.fixtures x.1).shape) (sy : 0 ≤ skin (w.g.fixtures y.1).shape) (hm : Meet w x y) : FatOverlap w x y := by
  obtain ⟨p, ⟨a, a1, a2⟩, b, b1, b2⟩ := hm
  have key : ∀ {z : Nat × Nat} {a : Nat}, Child w z → 0 ≤ skin (w.g.fixtures z.1).shape → (w.g.fixtures z.1).body = some a →
      ShapePoint (w.g.fixtures z.1).shape z.2 (w.phys a).xf p → ∃ fat, FatOf w z fat ∧ InBox fat p := by
    intro z a hz sz a1 a2
    obtain ⟨fat, box, f1, ⟨a', f2, f3⟩, f4⟩ := c105_boxes hE hP hT hH h z hz
    rw [a1] at f2
    cases f2
    obtain ⟨_, _, _, _, n, hn, hi⟩ := hz
    have := c49_contains _ z.2 n _ box sz hn hi f3 p a2
    exact ⟨fat, f1, f4.1.trans this.1, this.2.1.trans f4.2.2.1, f4.2.1.trans this.2.2.1, this.2.2.2.trans f4.2.2.2⟩
  obtain ⟨f1, ⟨p1, i1, q1, q2, q3⟩, f3⟩ := key hx sx a1 a2
  obtain ⟨f2, ⟨p2, i2, r1, r2, r3⟩, f4⟩ := key hy sy b1 b2
  refine ⟨p1, p2, i1, i2, q1, q2, r1, r2, ?_⟩
  simp only [BroadPhase.testOverlap, q3, r3, Option.bind_eq_bind, Option.bind_some]
  exact congrArg some ((overlap_iff _ _).mpr ⟨f3.1.trans f4.2.1, f4.1.trans f3.2.1, f3.2.2.1.trans f4.2.2.2, f4.2.2.1.trans f3.2.2.2⟩)

/-- After a step, any two shapes that may collide and have a common point have a contact. -/
theorem c117_contact {env : Env F} {D : Nat → Nat → Prop} (hs : FilterSteady env) (hE : LeavesBodies env) (hP : PostSolveLinks env) (hT : ToiForward env) (hH : HeavyStay env)
    {w w' : World F} (h : DHist env D w) (h' : SteadyHist env w') (hc : w.stepComplete = true) {dt : F} (hdt : 0 < dt) {vi pi : Nat} (e : w.step env dt vi pi = some w')
    {x y : Nat × Nat} (hx : Child w' x) (hy : Child w' y) (sx : 0 ≤ skin (w'.g.fixtures x.1).shape) (sy : 0 ≤ skin (w'.g.fixtures y.1).shape)
    (hxy : MayCollide env D w' x.1 y.1) (hmeet : Meet w' x y) : HasContact w' x y :=
  c90_complete hs h hc hdt e hxy (meet_overlap hE hP hT hH h' hx hy sx sy hmeet)

/-! ## C118 -/
variable [ElemLaws F]

private theorem point_zero {s : Shape F} {n i : Nat} (hn : s.childCount = some n) (hi : i < n) (h1 : s.childCount = some 1) : i = 0 := by
  rw [hn] at h1; cases h1; omega

private theorem fine_circle {c : Circle F} (h : FineShape (.circle c)) : 0 ≤ c.radius := (h 1 rfl 0 (by omega)).1

/-- A circle that has a point in common with a circle, a polygon or a two-sided edge is found touching it by the collision routine, if the two are asked about
in the right order. -/
theorem touches_of_meet {w : World F} (h : WInv w) (hrot : ∀ b ∈ w.g.bodyList, IsRot (w.phys b).xf.q) (hf : ShapesFine w) {x y : Nat × Nat} (hx : Child w x) (hy : Child w y)
    {cx : Circle F} (sx : (w.g.fixtures x.1).shape = .circle cx) (sy : PlainShape (w.g.fixtures y.1).shape)
    (nx : (w.fattr x.1).sensor = false) (ny : (w.fattr y.1).sensor = false) (hm : Meet w x y) (k : ConS)
    (hk : ((k.fA, k.iA) = x ∧ (k.fB, k.iB) = y) ∨ ((k.fA, k.iA) = y ∧ (k.fB, k.iB) = x))
    (hr : ∃ t, registers (w.g.fixtures k.fA).shape.type (w.g.fixtures k.fB).shape.type = ⟨some t, true⟩) : TouchFound w k := by
  obtain ⟨t, hr⟩ := hr
  have hpair := pair_of_registers hr
  obtain ⟨p, ⟨a, a1, a2⟩, b, b1, b2⟩ := hm
  obtain ⟨b', hb1, hb2, -, hb3⟩ := bodyOf_child h hy
  rw [b1] at hb2; cases hb2
  obtain ⟨a', ha1, ha2, -, ha3⟩ := bodyOf_child h hx
  rw [a1] at ha2; cases ha2
  have fx := hf a ha1 _ ha3
  have fy := hf b hb1 _ hb3
  rw [sx] at fx a2
  have rx := fine_circle fx
  obtain ⟨_, _, _, _, n, hn, hi⟩ := hx
  obtain ⟨_, _, _, _, m, hm, hj⟩ := hy
  have x0 : x.2 = 0 := point_zero hn hi (by rw [sx]; rfl)
  rw [x0] at a2
  have main : (k.fA, k.iA) = y → (k.fB, k.iB) = x → TouchFound w k := by
    rintro rfl rfl
    refine ⟨b, a, b1, a1, ?_⟩
    rw [if_neg (by rw [nx, ny]; simp)]
    dsimp only at sx sy fy b2 hm hj hpair ⊢
    have tch : Touching (w.g.fixtures k.fA).shape k.iA (w.phys b).xf (.circle cx) (w.phys a).xf := ⟨p, b2, a2⟩
    rw [sx]
    revert tch fy sy hm
    generalize (w.g.fixtures k.fA).shape = s
    intro sy fy hm tch
    cases s with
    | circle c =>
      obtain ⟨m, m1, m2⟩ := c76_touching c cx (fine_circle fy) rx k.iA (w.phys b).xf (w.phys a).xf
      exact ⟨m, m1, m2.mpr tch⟩
    | polygon c =>
      obtain ⟨hp, -⟩ := fy 1 rfl 0 (by omega)
      obtain ⟨m, m1, m2⟩ := c77_complete c cx hp.2 hp.1 rx k.iA (w.phys b).xf (w.phys a).xf (hrot b hb1)
      exact ⟨m, m1, m2 tch⟩
    | edge c =>
      obtain ⟨hp, -⟩ := fy 1 rfl 0 (by omega)
      obtain ⟨m, m1, m2⟩ := c78_two_sided c cx sy hp.1 rx k.iA (w.phys b).xf (w.phys a).xf (hrot b hb1)
      exact ⟨m, m1, m2.mpr tch⟩
    | chain c => exact absurd sy (by simp [PlainShape])
  rcases hk with ⟨q1, q2⟩ | ⟨q1, q2⟩
  · -- the circle comes first: the other one is a circle too
    subst q1 q2
    dsimp only at sx sy fy b2 hm hj hpair a1 a2 x0 ⊢
    rw [sx] at hpair
    refine ⟨a, b, a1, b1, ?_⟩
    rw [if_neg (by rw [nx, ny]; simp)]
    rw [sx]
    generalize (w.g.fixtures k.fB).shape = s at fy hpair b2 hm ⊢
    cases s with
    | circle c =>
      rw [show k.iB = 0 from point_zero hm hj rfl] at b2
      obtain ⟨m, m1, m2⟩ := c76_touching cx c rx (fine_circle fy) k.iA (w.phys a).xf (w.phys b).xf
      rw [x0]
      rw [x0] at m1 m2
      exact ⟨m, m1, m2.mpr ⟨p, a2, b2⟩⟩
    | polygon c => exact absurd hpair (by simp [ContactPair])
    | edge c => exact absurd hpair (by simp [ContactPair])
    | chain c => exact absurd hpair (by simp [ContactPair])
  · exact main q1 q2

/-- In a step without time-of-impact events, a circle that has a point in common with a circle, a polygon or a two-sided edge with which it may collide, one of the
bodies being awake and not static, gets a contact that says that they touch - provided that contacts are looked for at the start of the step, or were
at the end of the last one. -/
theorem c118_noticed {E : Engine F} {D : Nat → Nat → Prop} (hs : FilterSteady E.env) (hE : CallbacksTame E.env) (hL : LeavesBodies E.env) (hP : PostSolveLinks E.env) (hj : Seated E) (hmm : MouseHasMass E)
    {w w' : World F} (h : DHist E.env D w) (h' : SteadyHist E.env w) (hf : ShapesFine w) (hsr : Searched E.env D w) {dt : F} {vi pi : Nat}
    (hc : w.continuous = false ∨ ¬ 0 < dt) (e : w.step E.env dt vi pi = some w')
    {x y : Nat × Nat} (hx : Child w x) (hy : Child w y) {cx : Circle F} (sx : (w.g.fixtures x.1).shape = .circle cx) (sy : PlainShape (w.g.fixtures y.1).shape)
    (nx : (w.fattr x.1).sensor = false) (ny : (w.fattr y.1).sensor = false) (hxy : MayCollide E.env D w x.1 y.1) (hmeet : Meet w x y)
    (ha : ∃ b, (w.phys b).awake = true ∧ (w.g.bodies b).type ≠ .static ∧ ((w.g.fixtures x.1).body = some b ∨ (w.g.fixtures y.1).body = some b)) :
    HasTouching w' x y := by
  have hw := (whist_inv h.whist).toWInv
  have skin0 : ∀ {z : Nat × Nat}, Child w z → 0 ≤ skin (w.g.fixtures z.1).shape := by
    intro z hz
    obtain ⟨b, b1, -, -, b3⟩ := bodyOf_child hw hz
    have hfz := hf b b1 _ b3
    obtain ⟨_, _, _, _, n, hn, hi⟩ := hz
    have := (hfz n hn z.2 hi).1
    generalize (w.g.fixtures z.1).shape = s at this
    cases s with
    | circle c => exact this
    | polygon c => exact this.1
    | edge c => exact this.1
    | chain c => exact this.1
  have hid : w.newContacts = true ∨ Idle w := by
    rcases hsr with hsr | ⟨w0, dt0, vi0, pi0, h0, h1, h2, h3⟩
    · exact .inl hsr
    · exact .inr ((step_full hs (whist_inv h0.whist).toWInv (dhist_comp hs h0) h3).idle ⟨h1, h2⟩)
  have ho := meet_overlap hL hP (env_toiForward E) (env_heavyStay hj hmm) h' hx hy (skin0 hx) (skin0 hy) hmeet
  obtain ⟨c, c1, c2, c3, c4⟩ := step_notice hE hL hs hw (dhist_comp hs h) hid hc e ((live_iff_child hw).mpr hx) ((live_iff_child hw).mpr hy) hxy ho ha
  exact ⟨c, c1, c3.mpr (touches_of_meet hw (hist_rot h.whist) hf hx hy sx sy nx ny hmeet _ c2 c4), c2⟩

/-- A contact of a circle with a circle or a two-sided edge, neither a sensor, that says after the step that it touches, and had an active body, is of shapes that had a
common point when the step began. -/
theorem c116_meet {E : Engine F} (hE : CallbacksTame E.env) (hL : LeavesBodies E.env) {w w' : World F} (h : WHist E.env w) (hf : ShapesFine w) {dt : F} {vi pi : Nat}
    (hc : w.continuous = false ∨ ¬ 0 < dt) (e : w.step E.env dt vi pi = some w') {c : Nat} (hm : c ∈ w'.g.contactList) (ht : (w'.cst c).touching = true)
    (ha : Active w (w'.g.contacts c)) {x y : Nat × Nat} (ex : x = ((w'.g.contacts c).fA, (w'.g.contacts c).iA)) (ey : y = ((w'.g.contacts c).fB, (w'.g.contacts c).iB))
    (hx : Child w x) (hy : Child w y) {cy : Circle F} (sy : (w.g.fixtures y.1).shape = .circle cy)
    (sx : (∃ cx : Circle F, (w.g.fixtures x.1).shape = .circle cx) ∨ ∃ ed : Edge F, (w.g.fixtures x.1).shape = .edge ed ∧ ed.oneSided = false)
    (nx : (w.fattr x.1).sensor = false) (ny : (w.fattr y.1).sensor = false) : Meet w x y := by
  have hw := (whist_inv h).toWInv
  obtain ⟨a, b, a1, b1, hif⟩ := c116_true hE hL h hc e hm ht ha
  subst ex ey
  dsimp only at sx sy nx ny
  rw [if_neg (by rw [nx, ny]; simp)] at hif
  obtain ⟨m, m1, m2⟩ := hif
  obtain ⟨a', ha1, ha2, -, ha3⟩ := bodyOf_child hw hx
  rw [a1] at ha2; cases ha2
  obtain ⟨b', hb1, hb2, -, hb3⟩ := bodyOf_child hw hy
  rw [b1] at hb2; cases hb2
  have fx := hf a ha1 _ ha3
  have fy := hf b hb1 _ hb3
  obtain ⟨_, _, _, _, n, hn, hj⟩ := hy
  dsimp only at hn hj fx fy
  have y0 := point_zero hn hj (by rw [sy]; rfl)
  rw [sy] at fy m1
  have ry := fine_circle fy
  have tch : Touching (w.g.fixtures (w'.g.contacts c).fA).shape (w'.g.contacts c).iA (w.phys a).xf (.circle cy) (w.phys b).xf := by
    rcases sx with ⟨cx, sx⟩ | ⟨ed, sx, h2⟩
    · rw [sx] at m1 fx ⊢
      obtain ⟨m', k1, k2⟩ := c76_touching cx cy (fine_circle fx) ry (w'.g.contacts c).iA (w.phys a).xf (w.phys b).xf
      rw [m1] at k1; cases k1
      exact k2.mp m2
    · rw [sx] at m1 fx ⊢
      obtain ⟨hp, -⟩ := fx 1 rfl 0 (by omega)
      obtain ⟨m', k1, k2⟩ := c78_two_sided ed cy h2 hp.1 ry (w'.g.contacts c).iA (w.phys a).xf (w.phys b).xf (hist_rot h a ha1)
      rw [m1] at k1; cases k1
      exact k2.mp m2
  obtain ⟨p, p1, p2⟩ := tch
  refine ⟨p, ⟨a, a1, p1⟩, b, b1, ?_⟩
  dsimp only
  rw [sy, y0]
  exact p2

end
/-! ### Examples -/

namespace TouchEx
attribute [local instance] exElem

/-- The engine over the rationals, with sine, cosine and root of `exElem`. -/
def qEngine : Engine ℚ where
  listener := true
  destruction := true
  react := fun _ _ => []
  filter := none
  block := true
  joint := fun w j => .revolute ⟨(w.g.joints j).a, (w.g.joints j).b, ⟨0, 0⟩, ⟨0, 0⟩, 0, false, 0, 0, false, 0, 0, ⟨0, 0⟩, 0, 0, 0,
    ⟨⟨0, ⟨0, 0⟩, 0, 0⟩, ⟨0, ⟨0, 0⟩, 0, 0⟩⟩, ⟨0, 0⟩, ⟨0, 0⟩, ⟨⟨0, 0⟩, ⟨0, 0⟩⟩, 0, 0⟩

/-- A ball falls on a fixed one; a third ball lies beside the fixed one, its box overlapping that of the fixed one; contacts have been found by a step of
no time. -/
def calls : List (Call ℚ) :=
  [.setContinuousPhysics false, .createBody (Ex.body .dynamic 0 1), .createFixture 0 Ex.ball, .createBody (Ex.body .static 0 0), .createFixture 1 Ex.ball,
   .createBody (Ex.body .dynamic (17/10) (17/10)), .createFixture 2 Ex.ball, .step 0 8 3]
def w0 : World ℚ := (runAll qEngine.env calls Ex.w0).get (by decide +kernel)
def w1 : World ℚ := (w0.step qEngine.env (1/60) 8 3).get (by decide +kernel)
theorem w0_hist : WHist qEngine.env w0 := runAll_hist calls (w := Ex.w0) (.new ..) (by rw [w0, Option.some_get])

/-- C116: of the three contacts two say that they touch, one, of the fixed ball and the one beside it, that it does not; all of them have an active body and survive the step. -/
example : WHist qEngine.env w0 ∧ CallbacksTame qEngine.env ∧ LeavesBodies qEngine.env ∧ w0.continuous = false ∧ w0.step qEngine.env (1/60) 8 3 = some w1 ∧
    (w1.g.contactList.map fun c => ((w1.g.contacts c).fA, (w1.g.contacts c).fB, (w1.cst c).touching)) = [(0, 2, true), (1, 2, false), (0, 1, true)] ∧
    ∀ c ∈ w0.g.contactList, Active w0 (w0.g.contacts c) ∧ c ∈ w1.g.contactList ∧ FatNear w0 (w0.g.contacts c) ∧ ((w1.cst c).touching = true ↔ TouchFound w0 (w0.g.contacts c)) := by
  have h1 : CallbacksTame qEngine.env := fun w k op h => (by cases h)
  have h2 : LeavesBodies qEngine.env := fun w k op h => (by cases h)
  have h3 : w0.step qEngine.env (1/60) 8 3 = some w1 := by rw [w1, Option.some_get]
  have h4 : ∀ c ∈ w0.g.contactList, c ∈ w1.g.contactList ∧ ∃ b ∈ w0.g.bodyList, (w0.phys b).awake = true ∧ (w0.g.bodies b).type ≠ .static ∧
    ((w0.g.fixtures (w0.g.contacts c).fA).body = some b ∨ (w0.g.fixtures (w0.g.contacts c).fB).body = some b) := by decide +kernel
  refine ⟨w0_hist, h1, h2, by decide +kernel, h3, by decide +kernel, fun c hc => ?_⟩
  obtain ⟨k1, b, -, k2⟩ := h4 c hc
  exact ⟨⟨b, k2⟩, k1, c116_flag h1 h2 w0_hist (.inl (by decide +kernel)) h3 hc ⟨b, k2⟩ k1⟩

/-- C117: two balls one of which falls on the other, before and after a step. -/
def mCalls : List (Call ℚ) :=
  [.createBody (Ex.body .dynamic 0 1), .createFixture 0 Ex.ball, .createBody (Ex.body .static 0 0), .createFixture 1 Ex.ball]
def m0 : World ℚ := (runSteady Ex.env mCalls Ex.w0).get (by decide +kernel)
def m1 : World ℚ := (m0.step Ex.env (1/60) 8 3).get (by decide +kernel)
theorem runSteady_all {env : Env ℚ} : ∀ (cs : List (Call ℚ)) {w w' : World ℚ}, runSteady env cs w = some w' → runAll env cs w = some w' := by
  intro cs
  induction cs with
  | nil => intro w w' e; exact e
  | cons c cs ih =>
    intro w w' e
    unfold runSteady at e
    unfold runAll
    split at e
    · rename_i hok
      rw [if_pos hok.1]
      rw [Option.bind_eq_some_iff] at e ⊢
      obtain ⟨v, e1, e2⟩ := e
      exact ⟨v, e1, ih e2⟩
    · cases e
theorem m0_run : runSteady Ex.env mCalls Ex.w0 = some m0 := by rw [m0, Option.some_get]
theorem exHeavy : HeavyStay Ex.env where
  velocity _ _ _ states i _ s _ _ hs _ _ := by
    show (match states[i]? with | some s => (s.v, s.w) | none => (⟨0, 0⟩, 0)) = _
    rw [hs]
  position _ _ _ states i _ s _ _ hs _ _ := by
    show (match states[i]? with | some s => (s.c, s.a) | none => (⟨0, 0⟩, 0)) = _
    rw [hs]
  toiVelocity _ _ _ states i _ s _ _ hs _ _ := by
    show (match states[i]? with | some s => (s.v, s.w) | none => (⟨0, 0⟩, 0)) = _
    rw [hs]
  toiPosition w isl _ i b _ hb _ _ := by
    show (match isl.bodies[i]? with | some b => ((w.phys b).sweep.c, (w.phys b).sweep.a) | none => (⟨0, 0⟩, 0)) = _
    rw [hb]
end TouchEx

section
attribute [local instance] exElem
open TouchEx
example : FilterSteady Ex.env ∧ LeavesBodies Ex.env ∧ PostSolveLinks Ex.env ∧ ToiForward Ex.env ∧ HeavyStay Ex.env ∧ DHist Ex.env (fun _ _ => False) m0 ∧ SteadyHist Ex.env m1 ∧ m0.stepComplete = true ∧
    m0.step Ex.env (1/60) 8 3 = some m1 ∧ Child m1 (0, 0) ∧ Child m1 (1, 0) ∧ 0 ≤ skin (m1.g.fixtures 0).shape ∧ 0 ≤ skin (m1.g.fixtures 1).shape ∧ MayCollide Ex.env (fun _ _ => False) m1 0 1 ∧ Meet m1 (0, 0) (1, 0) ∧
    m0.g.contactList = [] ∧ HasContact m1 (0, 0) (1, 0) := by
  have h1 : FilterSteady Ex.env := c90_default_filter_steady rfl
  have h2 : LeavesBodies Ex.env := fun w k op h => (by cases h)
  have h3 : ToiForward Ex.env := fun _ _ _ h => (by cases h; exact zero_le_one)
  have h4 : DHist Ex.env (fun _ _ => False) m0 := runAll_dhist mCalls (w := Ex.w0) (.new ..) (by decide +kernel) (runSteady_all _ m0_run)
  have h5 : SteadyHist Ex.env m1 := by
    refine runSteady_hist [.step (1/60) 8 3] (w := m0) (runSteady_hist mCalls (w := Ex.w0) (.new ..) m0_run) ?_
    unfold runSteady
    rw [if_pos (by decide +kernel)]
    show (m0.step Ex.env (1/60) 8 3).bind some = some m1
    rw [m1, Option.some_get]
    cases m0.step Ex.env (1/60) 8 3 <;> rfl
  have h6 : m0.step Ex.env (1/60) 8 3 = some m1 := by rw [m1, Option.some_get]
  have h7 : MayCollide Ex.env (fun _ _ => False) m1 0 1 := ⟨0, 1, by decide +kernel, by decide +kernel, by decide +kernel, by decide +kernel,
    by decide +kernel, by decide +kernel, by decide +kernel, by decide +kernel, by decide +kernel, by simp, show filterShouldCollide _ _ = true by decide +kernel, show filterShouldCollide _ _ = true by decide +kernel⟩
  have h8 : Child m1 (0, 0) := ⟨0, by decide +kernel, by decide +kernel, by decide +kernel, 1, by decide +kernel, by decide⟩
  have h9 : Child m1 (1, 0) := ⟨1, by decide +kernel, by decide +kernel, by decide +kernel, 1, by decide +kernel, by decide⟩
  have h10 : Meet m1 (0, 0) (1, 0) := ⟨⟨0, 1/2⟩, ⟨0, by decide +kernel, ⟨0, 0⟩, .vertex (by decide +kernel), by decide +kernel⟩, 1, by decide +kernel, ⟨0, 0⟩, .vertex (by decide +kernel), by decide +kernel⟩
  have h11 : 0 ≤ skin (m1.g.fixtures 0).shape ∧ 0 ≤ skin (m1.g.fixtures 1).shape := by decide +kernel
  have h12 : PostSolveLinks Ex.env := links_quiet _ fun _ _ => rfl
  exact ⟨h1, h2, h12, h3, exHeavy, h4, h5, by decide +kernel, h6, h8, h9, h11.1, h11.2, h7, h10, by decide +kernel,
    c117_contact h1 h2 h12 h3 exHeavy h4 h5 (by decide +kernel) (by norm_num) h6 h8 h9 h11.1 h11.2 h7 h10⟩
end

/-! C118: the ball on the box over the reals. -/
namespace TouchEx
open EngineEx
noncomputable def d3 : World ℝ := withBody e2 .dynamic 1 0
noncomputable def d4 : World ℝ := (fixed d3 1 hangBall).get (by rfl)
noncomputable def d5 : World ℝ := { d4 with continuous := false }
theorem d3_run : (Call.createBody (hangDef .dynamic 1 0)).run exEngine.env e2 = some d3 :=
  show (World.createBody e2 _).map _ = some _ from by rw [withBody_eq e2 rfl]; rfl
theorem d4_run : (Call.createFixture 1 hangBall).run exEngine.env d3 = some d4 :=
  show (World.createFixture d3 1 hangBall).map _ = some _ from by rw [fixed_eq rfl 1 hangBall rfl]; rfl
theorem d5_run : (Call.setContinuousPhysics false).run exEngine.env d4 = some d5 := rfl
theorem d5_tame : TameHist exEngine.env d5 := by
  have h1 : TameHist exEngine.env e1 := .call (.createBody (hangDef .static 0 0)) (.new ..) trivial trivial e1_run
  have h2 : TameHist exEngine.env e2 := .call (.createFixture 0 hangBox) h1 (by decide) trivial e2_run
  have h3 : TameHist exEngine.env d3 := .call (.createBody (hangDef .dynamic 1 0)) h2 trivial trivial d3_run
  have h4 : TameHist exEngine.env d4 := .call (.createFixture 1 hangBall) h3 (by decide) trivial d4_run
  exact .call (.setContinuousPhysics false) h4 trivial trivial d5_run
theorem d5_steady : SteadyHist exEngine.env d5 := by
  have h1 : SteadyHist exEngine.env e1 := .call (.createBody (hangDef .static 0 0)) (.new ..) trivial (fun _ _ _ h => by cases h) (fun d hd _ => by cases hd; exact ⟨rfl, rfl⟩) (fun h => by cases h) e1_run
  have h2 : SteadyHist exEngine.env e2 := .call (.createFixture 0 hangBox) h1 (by decide) (fun _ _ _ h => by cases h) (fun d hd _ => by cases hd) trivial e2_run
  have h3 : SteadyHist exEngine.env d3 := .call (.createBody (hangDef .dynamic 1 0)) h2 trivial (fun _ _ _ h => by cases h) (fun d hd ht => by cases hd; cases ht) (fun h => by cases h) d3_run
  have h4 : SteadyHist exEngine.env d4 := .call (.createFixture 1 hangBall) h3 (by decide) (fun _ _ _ h => by cases h) (fun d hd _ => by cases hd) trivial d4_run
  exact .call (.setContinuousPhysics false) h4 trivial (fun _ _ _ h => by cases h) (fun d hd _ => by cases hd) trivial d5_run
theorem d5_dhist : DHist exEngine.env (fun _ _ => False) d5 := by
  have h1 : DHist exEngine.env (fun _ _ => False) e1 := .call (.createBody (hangDef .static 0 0)) (.new ..) trivial (fun _ h => by cases h) e1_run
  have h2 : DHist exEngine.env (fun _ _ => False) e2 := .call (.createFixture 0 hangBox) h1 (by decide) (fun _ h => by cases h) e2_run
  have h3 : DHist exEngine.env (fun _ _ => False) d3 := .call (.createBody (hangDef .dynamic 1 0)) h2 trivial (fun _ h => by cases h) d3_run
  have h4 : DHist exEngine.env (fun _ _ => False) d4 := .call (.createFixture 1 hangBall) h3 (by decide) (fun _ h => by cases h) d4_run
  exact .call (.setContinuousPhysics false) h4 trivial (fun _ h => by cases h) d5_run
theorem d5_fine : ShapesFine d5 := by
  intro b hb f hf
  rcases List.mem_cons.mp (show b ∈ [1, 0] from hb) with rfl | hb
  · cases List.mem_singleton.mp (show f ∈ [1] from hf)
    exact e6_fine 1 (by decide) 1 (by decide)
  · cases List.mem_singleton.mp hb
    cases List.mem_singleton.mp (show f ∈ [0] from hf)
    exact e6_fine 0 (by decide) 0 (by decide)
theorem d5_edges : EdgesFixed d5 := by
  intro b hb hd f hf
  rcases List.mem_cons.mp (show b ∈ [1, 0] from hb) with rfl | hb
  · cases List.mem_singleton.mp (show f ∈ [1] from hf)
    exact .inl rfl
  · cases List.mem_singleton.mp hb
    cases hd
end TouchEx
open EngineEx TouchEx
example : ∃ w', FilterSteady exEngine.env ∧ CallbacksTame exEngine.env ∧ LeavesBodies exEngine.env ∧ PostSolveLinks exEngine.env ∧ Seated exEngine ∧ MouseHasMass exEngine ∧
    DHist exEngine.env (fun _ _ => False) d5 ∧ SteadyHist exEngine.env d5 ∧ ShapesFine d5 ∧ Searched exEngine.env (fun _ _ => False) d5 ∧ d5.continuous = false ∧
    d5.step exEngine.env (1/60) 8 3 = some w' ∧ Child d5 (1, 0) ∧ Child d5 (0, 0) ∧ (d5.g.fixtures 1).shape = .circle ⟨1, ⟨0, 0⟩⟩ ∧ PlainShape (d5.g.fixtures 0).shape ∧
    (d5.fattr 1).sensor = false ∧ (d5.fattr 0).sensor = false ∧ MayCollide exEngine.env (fun _ _ => False) d5 1 0 ∧ Meet d5 (1, 0) (0, 0) ∧ d5.g.contactList = [] ∧
    HasTouching w' (1, 0) (0, 0) := by
  obtain ⟨q1, q2, q3, q4⟩ := exEngine_quiet
  obtain ⟨s1, s2⟩ := exEngine_seated
  have h1 : FilterSteady exEngine.env := c90_default_filter_steady rfl
  obtain ⟨w', e, -⟩ := c110_steps d5_tame q1 q2 q3 s1 d5_edges d5_fine (by decide) [(1/60, 8, 3)]
  have e : d5.step exEngine.env (1/60) 8 3 = some w' := by
    unfold steps at e
    rw [List.foldlM_cons, Option.bind_eq_bind, Option.bind_eq_some_iff] at e
    obtain ⟨v, e1, e2⟩ := e
    cases e2
    exact e1
  have k1 : Child d5 (1, 0) := ⟨1, by decide, rfl, by decide, 1, rfl, by decide⟩
  have k2 : Child d5 (0, 0) := ⟨0, by decide, rfl, by decide, 1, rfl, by decide⟩
  have k3 : MayCollide exEngine.env (fun _ _ => False) d5 1 0 := ⟨1, 0, rfl, rfl, by decide, by decide, by decide, rfl, rfl, .inl rfl, fun j hj => (by cases hj), ⟨id, id⟩,
    show filterShouldCollide ⟨1, 0xFFFF, 0⟩ ⟨1, 0xFFFF, 0⟩ = true by decide, show filterShouldCollide ⟨1, 0xFFFF, 0⟩ ⟨1, 0xFFFF, 0⟩ = true by decide⟩
  have k4 : Meet d5 (1, 0) (0, 0) := by
    refine ⟨⟨1, 1⟩, ⟨1, rfl, ⟨0, 0⟩, .vertex (List.mem_singleton.mpr rfl), ?_⟩, 0, rfl, ⟨1, 1⟩, .vertex ?_, ?_⟩
    · show dist2 (place ⟨⟨0, 1⟩, Rot.ofAngle 0⟩ ⟨0, 0⟩) ⟨1, 1⟩ ≤ (1 : ℝ) * 1
      norm_num [dist2, place]
    · show (⟨1, 1⟩ : Vec2 ℝ) ∈ [⟨-1, -1⟩, ⟨1, -1⟩, ⟨1, 1⟩, ⟨-1, 1⟩]
      simp
    · show dist2 (place ⟨⟨0, 0⟩, Rot.ofAngle 0⟩ ⟨1, 1⟩) ⟨1, 1⟩ ≤ polygonRadius * polygonRadius
      have : dist2 (place ⟨⟨0, 0⟩, Rot.ofAngle 0⟩ ⟨1, 1⟩) (⟨1, 1⟩ : Vec2 ℝ) = 0 := by
        simp [dist2, place, Rot.ofAngle, Elem.sin, Elem.cos]
      rw [this]
      exact mul_self_nonneg _
  exact ⟨w', h1, q2, q4, q3, s1, s2, d5_dhist, d5_steady, d5_fine, .inl rfl, rfl, e, k1, k2, rfl, trivial, rfl, rfl, k3, k4, rfl,
    c118_noticed h1 q2 q4 q3 s1 s2 d5_dhist d5_steady d5_fine (.inl rfl) (.inl rfl) e k1 k2 rfl trivial rfl rfl k3 k4 ⟨1, rfl, (by decide), .inl rfl⟩⟩
end B2.Props
