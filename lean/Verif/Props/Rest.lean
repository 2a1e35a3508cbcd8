import Verif.Proofs.WorldRest
import Verif.Props.Bounce

set_option linter.unusedSectionVars false

/-!
# C141: a body that rests stays at rest

A ball that lies on the ground lies there after any number of steps, exactly: it does not sink, creep, jitter or turn. Gravity gives it a
speed into the ground in every step; the contact takes all of it away, adds no rebound, and neither friction nor the position solver
stirs the body. Shown of a whole step of the world and, by induction, of any number of them, whatever their lengths and iteration counts.

`BornBy` says what lying on the ground is: one contact point with the arm along the normal, a static body beneath, an overlap within the
slop, a pull along the normal. The listener does nothing and continuous physics is off.
-/
namespace B2.Props
open B2 Spec World
section
variable {F : Type} [Field F] [LinearOrder F] [IsStrictOrderedRing F] [Elem F] {E : Engine F}

/-- **C141.** A body at rest that is borne by another is at rest after the step, in the same place. -/
theorem c141_rest (hr : RootBelow F) (hN : ∀ w k, E.react w k = []) (hj : Seated E) (hm : MouseHasMass E) (hb : E.block = true) {w w' : World F}
    (h : PlainHist E.env w) (ht : TameHist E.env w) (hc : w.continuous = false) {dt : F} {vi pi : Nat} (hdt : 0 < dt) (hvi : 1 ≤ vi)
    (e : w.step E.env dt vi pi = some w') {c x y z o : Nat} (hR : AtRest w c z) (hB : BornBy dt w w' c x y z o) :
    AtRest w' c z ∧ SamePlace w w' z := by
  have hE : LeavesBodies E.env := fun w k op h => by
    rw [show E.env.react w k = [] from hN w k] at h; cases h
  have hC : CallbacksTame E.env := fun w k op h => by
    rw [show E.env.react w k = [] from hN w k] at h; cases h
  have hS : ∀ w c, E.react w (.postSolve c) = [] := fun w c => hN w _
  have hP : PostSolveLinks E.env := fun x y c h => (silent_calm (env := E.env) hS x y c h).2
  exact step_rest hr hN (env_heavyStay hj hm) hb (whist_inv h.hist).toWInv h.complete hc hdt hvi (whist_stable consistent_stable h.hist)
    (h.rests hE hP (env_toiForward E) (env_heavyStay hj hm)) (tame_pts hC (env_solversRun hj).impulses ht).2.2 hR hB e

/-- **C141.** So it is through any number of steps: the body never leaves its place. -/
theorem c141_rest_forever (hr : RootBelow F) (hN : ∀ w k, E.react w k = []) (hj : Seated E) (hm : MouseHasMass E) (hb : E.block = true) {ws : Nat → World F} {N : Nat}
    (h : PlainHist E.env (ws 0)) (ht : TameHist E.env (ws 0)) (hc : ∀ n < N, (ws n).continuous = false ∧ (ws n).subStepping = false) {dt : Nat → F} {vi pi : Nat → Nat}
    (hdt : ∀ n < N, 0 < dt n) (hvi : ∀ n < N, 1 ≤ vi n) (e : ∀ n < N, (ws n).step E.env (dt n) (vi n) (pi n) = some (ws (n + 1))) {c x y z o : Nat}
    (hR : AtRest (ws 0) c z) (hB : ∀ n < N, BornBy (dt n) (ws n) (ws (n + 1)) c x y z o) :
    ∀ n ≤ N, AtRest (ws n) c z ∧ SamePlace (ws 0) (ws n) z := by
  have all : ∀ n ≤ N, PlainHist E.env (ws n) ∧ TameHist E.env (ws n) := by
    intro n
    induction n with
    | zero => intro _; exact ⟨h, ht⟩
    | succ n ih =>
      intro hn
      obtain ⟨h1, h2⟩ := ih (by omega)
      have hs := (hc n (by omega)).2
      exact ⟨.call (.step (dt n) (vi n) (pi n)) h1 trivial (fun _ _ _ _ => hs) (fun _ h => (by cases h)) (e n (by omega)),
        .call (.step (dt n) (vi n) (pi n)) h2 trivial trivial (e n (by omega))⟩
  intro n
  induction n with
  | zero => intro _; exact ⟨hR, rfl, rfl, rfl⟩
  | succ n ih =>
    intro hn
    obtain ⟨r, p⟩ := ih (by omega)
    have hlt : n < N := by omega
    obtain ⟨h1, h2⟩ := all n (by omega)
    obtain ⟨r', q⟩ := c141_rest hr hN hj hm hb h1 h2 (hc n hlt).1 (hdt n hlt) (hvi n hlt) (e n hlt) r (hB n hlt)
    exact ⟨r', q.c.trans p.c, q.a.trans p.a, q.xf.trans p.xf⟩

end

/-! ### Example -/
namespace RestEx
attribute [local instance] lowElem
open MomEx

/-- A ball lies on a fixed ball; restitution is 1/2 and gravity 10. -/
def calls : List (Call ℚ) :=
  [.setContinuousPhysics false, .createBody (body .static 0 0 0), .createFixture 0 BounceEx.ball, .createBody (body .dynamic 0 1 0), .createFixture 1 BounceEx.ball, .step 0 8 3]
def w0 : World ℚ := (runPlain eng.env calls Ex.w0).get (by decide +kernel)
def w1 : World ℚ := (w0.step eng.env (1/60) 8 3).get (by decide +kernel)
def w2 : World ℚ := (w1.step eng.env (1/30) 4 2).get (by decide +kernel)
def ws : Nat → World ℚ
  | 0 => w0
  | 1 => w1
  | _ => w2

theorem meet {w : World ℚ} (h : 0 ∈ w.g.contactList ∧ (w.cst 0).enabled = true ∧ (w.cst 0).touching = true ∧ (w.fattr (w.g.contacts 0).fA).sensor = false ∧
    (w.fattr (w.g.contacts 0).fB).sensor = false ∧ (w.g.fixtures (w.g.contacts 0).fA).body = some 0 ∧ (w.g.fixtures (w.g.contacts 0).fB).body = some 1)
    (ho : w.g.contactList = [0]) (hj : w.g.jointList = []) : OnlyMeet w 0 0 1 :=
  ⟨⟨h.1, h.2.1, h.2.2.1, h.2.2.2.1, h.2.2.2.2.1⟩, h.2.2.2.2.2.1, h.2.2.2.2.2.2, fun z _ _ c' t _ => by simpa [ho] using t.mem, fun z _ _ j hjm => by rw [hj] at hjm; cases hjm⟩

theorem born {w w' : World ℚ} {dt : ℚ} (hM : OnlyMeet w' 0 0 1) (h1 : w.typeOf 1 = .dynamic ∧ w.typeOf 0 = .static ∧ 0 < (w.phys 1).invMass ∧ 0 ≤ (w.phys 1).invI ∧
    0 ≤ (w.phys 1).linearDamping ∧ (w.phys 1).torque = 0) (h2 : (w'.cst 0).manifold.points.length = 1 ∧ (w'.cst 0).manifold.type = .circles ∧
    (∀ q ∈ (w'.cst 0).manifold.points, distanceV2 ((w.phys 0).xf.mulV (w'.cst 0).manifold.localPoint) ((w.phys 1).xf.mulV q.localPoint) > epsilon * epsilon) ∧
    (w'.cst 0).tangentSpeed = 0 ∧ 0 ≤ (w'.cst 0).friction)
    (h3 : (worldManifold (w'.cst 0).manifold (w.phys 0).xf (w'.g.fixtures (w'.g.contacts 0).fA).shape.radius (w.phys 1).xf (w'.g.fixtures (w'.g.contacts 0).fB).shape.radius).any
      (fun wm => decide (dot wm.normal wm.normal = 1 ∧ -linearSlop ≤ wm.s1 ∧ cross (wm.p1 - (w.phys 1).sweep.c) wm.normal = 0 ∧ pull w 1 = (10 : ℚ) * -wm.normal)) = true)
    (h4 : dt * 10 ≤ (w'.cst 0).restitutionThreshold) : BornBy dt w w' 0 0 1 1 0 := by
  obtain ⟨a1, a2, a3, a4, a5, a6⟩ := h1
  obtain ⟨b1, b2, b3, b4, b5⟩ := h2
  refine ⟨hM, .inr ⟨rfl, rfl⟩, a1, a2, a3, a4, a5, a6, ⟨.inl b1, fun _ => b1, fun h => absurd b2 h⟩, b1, fun _ => b3, b4, b5, ?_⟩
  rw [Option.any_eq_true] at h3
  obtain ⟨wm, k, h⟩ := h3
  obtain ⟨c1, c2, c3, c4⟩ := of_decide_eq_true h
  exact ⟨wm, k, c1, c2, c3, 10, by norm_num, by simpa using c4, .inl h4⟩

/-- The hypotheses hold of two steps of different lengths: the contact bears the ball, with an impulse that grows with the step, and the ball stays where it is. -/
example : (∀ w k, eng.react w k = []) ∧ Seated eng ∧ MouseHasMass eng ∧ eng.block = true ∧ PlainHist eng.env w0 ∧ TameHist eng.env w0 ∧ w0.step eng.env (1/60) 8 3 = some w1 ∧
    w1.step eng.env (1/30) 4 2 = some w2 ∧ AtRest w0 0 1 ∧ BornBy (1/60) w0 w1 0 0 1 1 0 ∧ BornBy (1/30) w1 w2 0 0 1 1 0 ∧
    (w1.cst 0).manifold.points.map (·.normalImpulse) = [1/8] ∧ (w2.cst 0).manifold.points.map (·.normalImpulse) = [1/4] ∧ (w1.phys 1).awake = true ∧
    (∀ n ≤ 2, AtRest (ws n) 0 1 ∧ SamePlace (ws 0) (ws n) 1) := by
  have h3 : Seated eng := fun w j b hb => by
    simp only [eng, Joint.touched, List.mem_cons, List.not_mem_nil, or_false] at hb
    exact hb
  have h4 : MouseHasMass eng := fun w j m h => (by cases h)
  have h5 : runPlain eng.env calls Ex.w0 = some w0 := by rw [w0, Option.some_get]
  have h6 : PlainHist eng.env w0 := runPlain_plain calls (w := Ex.w0) (.new ..) h5
  have h7 : TameHist eng.env w0 := runAll_tame calls (by decide) (w := Ex.w0) (.new ..) (BounceEx.runPlain_all calls h5)
  have h8 : w0.step eng.env (1/60) 8 3 = some w1 := by rw [w1, Option.some_get]
  have h9 : w1.step eng.env (1/30) 4 2 = some w2 := by rw [w2, Option.some_get]
  have hR : AtRest w0 0 1 := ⟨by decide +kernel, by decide +kernel, by decide +kernel⟩
  have b1 : BornBy (1/60) w0 w1 0 0 1 1 0 := born (meet (by decide +kernel) (by decide +kernel) (by decide +kernel)) (by decide +kernel) (by decide +kernel) (by decide +kernel) (by decide +kernel)
  have b2 : BornBy (1/30) w1 w2 0 0 1 1 0 := born (meet (by decide +kernel) (by decide +kernel) (by decide +kernel)) (by decide +kernel) (by decide +kernel) (by decide +kernel) (by decide +kernel)
  have hc : ∀ n < 2, (ws n).continuous = false ∧ (ws n).subStepping = false := by decide +kernel
  refine ⟨fun _ _ => rfl, h3, h4, rfl, h6, h7, h8, h9, hR, b1, b2, by decide +kernel, by decide +kernel, by decide +kernel, ?_⟩
  exact c141_rest_forever (E := eng) (ws := ws) (N := 2) (dt := fun n => if n = 0 then 1/60 else 1/30) (vi := fun n => if n = 0 then 8 else 4) (pi := fun n => if n = 0 then 3 else 2)
    BounceEx.low_root (fun _ _ => rfl) h3 h4 rfl h6 h7 hc (fun n _ => by split <;> norm_num) (fun n _ => by split <;> norm_num)
    (fun n hn => by
      have : n = 0 ∨ n = 1 := by omega
      rcases this with rfl | rfl
      · exact h8
      · exact h9) hR (fun n hn => by
      have : n = 0 ∨ n = 1 := by omega
      rcases this with rfl | rfl
      · exact b1
      · exact b2)

end RestEx
end B2.Props
