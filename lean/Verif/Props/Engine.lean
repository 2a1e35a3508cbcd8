import Verif.Spec.Engine
import Verif.Proofs.Engine
import Verif.Proofs.EngineNarrow
import Verif.Props.Total
import Verif.Props.WorldMotion
import Verif.Props.WorldQuery

set_option linter.unusedSectionVars false

/-!
# Whole worlds with the actual routines

The theorems about whole steps (C63, C101-C108) ask something of the collision routines and the constraint solvers. Here these are the
models of the actual routines (`Engine.env`), and nothing is asked of them any more.
-/
namespace B2.Props
open B2 Spec World
section
variable {F : Type} [Field F] [LinearOrder F] [IsStrictOrderedRing F] [Elem F] [ElemLaws F]

/-- The contents of the world stay during a step. -/
theorem step_contents {env : Env F} {w w' : World F} {dt : F} {vi pi : Nat} (h : WHist env w) (e : w.step env dt vi pi = some w') :
    w'.g.bodyList = w.g.bodyList ∧ w'.g.fixtures = w.g.fixtures ∧ (∀ b, w'.typeOf b = w.typeOf b) ∧ (∀ b, (w'.g.bodies b).fixtures = (w.g.bodies b).fixtures) ∧
      w'.subStepping = w.subStepping := by
  have hs := step_good (whist_inv h).toWInv e
  refine ⟨by rw [hs.eq], by rw [hs.eq], fun b => ?_, fun b => ?_, hs.rest.subStepping⟩
  · unfold World.typeOf; rw [hs.body b]
  · rw [hs.body b]

/-! ## C110 -/

/-- No number of steps makes the engine panic. -/
theorem c110_steps {E : Engine F} {w : World F} (h : TameHist E.env w) (hs : CallbacksSafe E.env) (ht : CallbacksTame E.env)
    (hl : PostSolveLinks E.env) (hj : Seated E) (he : EdgesFixed w) (hf : ShapesFine w) (hn : w.g.bodyList.length ≤ 64) (l : List (F × Nat × Nat)) :
    ∃ w', steps E w l = some w' ∧ TameHist E.env w' := by
  induction l generalizing w with
  | nil => exact ⟨w, rfl, h⟩
  | cons s l ih =>
    obtain ⟨w1, e1⟩ := c63_step h hs ht hl (env_narrowRuns E) (env_solversRun hj) he hf hn s.1 s.2.1 s.2.2
    obtain ⟨k1, k2, k3, k4, -⟩ := step_contents (tame_whist h) e1
    obtain ⟨w2, e2, h2⟩ := ih (w := w1) (h.call (.step s.1 s.2.1 s.2.2) trivial trivial e1)
      (by intro b hb hd f hm
          rw [k1] at hb; rw [k4 b] at hm; rw [k2]
          exact he b hb ((k3 b).symm.trans hd) f hm)
      (by intro b hb f hm
          rw [k1] at hb; rw [k4 b] at hm; rw [k2]
          exact hf b hb f hm)
      (by rw [k1]; exact hn)
    refine ⟨w2, ?_, h2⟩
    unfold steps
    rw [List.foldlM_cons, e1]
    exact e2

/-! ## C111 -/

/-- No number of steps moves a static body, or gives it a velocity. -/
theorem c111_static {E : Engine F} {w w' : World F} (hE : LeavesBodies E.env) (hP : PostSolveLinks E.env) (hj : Seated E) (hm : MouseHasMass E)
    (hw : PlainHist E.env w) (hsub : w.subStepping = false) {l : List (F × Nat × Nat)} (e : steps E w l = some w') :
    ∀ b ∈ w.g.bodyList, w.typeOf b = .static → w'.typeOf b = .static ∧ (w'.phys b).xf = (w.phys b).xf ∧
      (w'.phys b).sweep.c = (w.phys b).sweep.c ∧ (w'.phys b).sweep.a = (w.phys b).sweep.a ∧ (w'.phys b).v = ⟨0, 0⟩ ∧ (w'.phys b).w = 0 := by
  intro b hb ht
  induction l generalizing w with
  | nil =>
    cases e
    have hr := hw.rests hE hP (env_toiForward E) (env_heavyStay hj hm) b hb ht
    exact ⟨ht, rfl, rfl, rfl, hr.1, hr.2.1⟩
  | cons s l ih =>
    unfold steps at e
    rw [List.foldlM_cons] at e
    simp only [Option.bind_eq_bind, Option.bind_eq_some_iff] at e
    obtain ⟨w1, e1, e2⟩ := e
    obtain ⟨k1, k2, k3, k4, k5⟩ := step_contents hw.hist e1
    obtain ⟨m1, m2, m3, m4, -, -⟩ := c101_static hE hP (env_toiForward E) (env_heavyStay hj hm) hw hsub e1 b hb ht
    obtain ⟨n1, n2, n3, n4, n5, n6⟩ := ih (w := w1) (hw.call (.step s.1 s.2.1 s.2.2) trivial (fun _ _ _ _ => hsub) (fun d hd => by cases hd) e1)
      (k5.trans hsub) e2 (by rw [k1]; exact hb) m1
    exact ⟨n1, n2.trans m2, n3.trans m3, n4.trans m4, n5, n6⟩

/-- No number of steps moves a disabled body, or changes its velocity. -/
theorem c111_disabled {E : Engine F} {w w' : World F} (hE : LeavesBodies E.env) (hP : PostSolveLinks E.env)
    (hw : PlainHist E.env w) (hsub : w.subStepping = false) {l : List (F × Nat × Nat)} (e : steps E w l = some w') :
    ∀ b ∈ w.g.bodyList, (w.g.bodies b).enabled = false →
      (w'.phys b).xf = (w.phys b).xf ∧ (w'.phys b).sweep.c = (w.phys b).sweep.c ∧ (w'.phys b).sweep.a = (w.phys b).sweep.a ∧
      (w'.phys b).v = (w.phys b).v ∧ (w'.phys b).w = (w.phys b).w := by
  intro b hb hd
  induction l generalizing w with
  | nil => cases e; exact ⟨rfl, rfl, rfl, rfl, rfl⟩
  | cons s l ih =>
    unfold steps at e
    rw [List.foldlM_cons] at e
    simp only [Option.bind_eq_bind, Option.bind_eq_some_iff] at e
    obtain ⟨w1, e1, e2⟩ := e
    obtain ⟨k1, k2, k3, k4, k5⟩ := step_contents hw.hist e1
    have hen : (w1.g.bodies b).enabled = (w.g.bodies b).enabled := by rw [(step_good (whist_inv hw.hist).toWInv e1).body b]
    obtain ⟨-, m2, m3, m4, m5, m6, -⟩ := c104_disabled hE hP (env_toiForward E) hw e1 b hb hd
    obtain ⟨n2, n3, n4, n5, n6⟩ := ih (w := w1) (hw.call (.step s.1 s.2.1 s.2.2) trivial (fun _ _ _ _ => hsub) (fun d hd => by cases hd) e1)
      (k5.trans hsub) e2 (by rw [k1]; exact hb) (hen.trans hd)
    exact ⟨n2.trans m2, n3.trans m3, n4.trans m4, n5.trans m5, n6.trans m6⟩

/-! ## C112 -/

/-- A kinematic body that is awake and too fast to fall asleep moves exactly with its velocity, whatever it hits. -/
theorem c112_kinematic {E : Engine F} {w w' : World F} (hE : LeavesBodies E.env) (hP : PostSolveLinks E.env) (hj : Seated E) (hm : MouseHasMass E)
    (hw : PlainHist E.env w) {dt : F} {vi pi : Nat} (hpos : 0 < dt) (e : w.step E.env dt vi pi = some w') :
    ∀ b ∈ w.g.bodyList, w.typeOf b = .kinematic → (w.phys b).awake = true → (w.g.bodies b).enabled = true →
      (w.allowSleep = true → ¬ Sleepy (w.phys b) (w.phys b).v (w.phys b).w) → Slow dt (w.phys b).v (w.phys b).w →
      (w'.phys b).sweep.c = (w.phys b).sweep.c + dt * (w.phys b).v ∧ (w'.phys b).sweep.a = (w.phys b).sweep.a + dt * (w.phys b).w ∧
      (w'.phys b).v = (w.phys b).v ∧ (w'.phys b).w = (w.phys b).w ∧ w'.typeOf b = .kinematic ∧ Consistent .kinematic (w'.phys b) :=
  c102_kinematic hE hP (env_toiForward E) (env_heavyStay hj hm) hw hpos e

/-- A body that nothing touches or holds falls as the law of motion says. -/
theorem c112_free {E : Engine F} {w w' : World F} (hE : LeavesBodies E.env) (hP : PostSolveLinks E.env) (hj : Seated E)
    (hw : PlainHist E.env w) {dt : F} {vi pi : Nat} (hpos : 0 < dt) (e : w.step E.env dt vi pi = some w') :
    ∀ b ∈ w.g.bodyList, w.typeOf b = .dynamic → (w.phys b).awake = true → (w.g.bodies b).enabled = true →
      (∀ j ∈ w.g.jointList, (w.g.joints j).a ≠ b ∧ (w.g.joints j).b ≠ b) → (∀ c ∈ w'.g.contactList, ¬ OfBody w' c b) →
      Slow dt (freeV dt w.gravity (w.phys b)) (freeW dt (w.phys b)) →
      (w'.phys b).sweep.c = (w.phys b).sweep.c + dt * freeV dt w.gravity (w.phys b) ∧
      (w'.phys b).sweep.a = (w.phys b).sweep.a + dt * freeW dt (w.phys b) ∧
      (((w'.phys b).v = freeV dt w.gravity (w.phys b) ∧ (w'.phys b).w = freeW dt (w.phys b) ∧ (w'.phys b).awake = true) ∨
        (w.allowSleep = true ∧ Sleepy (w.phys b) (freeV dt w.gravity (w.phys b)) (freeW dt (w.phys b)) ∧ (w'.phys b).v = ⟨0, 0⟩ ∧ (w'.phys b).w = 0)) :=
  fun b h1 h2 h3 h4 h5 h6 h7 =>
    have h := c103_free hE hP (env_toiForward E) (env_freeStay hj) hw hpos e b h1 h2 h3 h4 h5 h6 h7
    ⟨h.1, h.2.1, h.2.2.1⟩

/-! ## C113 -/

/-- A query reports each child at most once and among them every child whose box meets the given box. -/
theorem c113_query {E : Engine F} {w : World F} (hE : LeavesBodies E.env) (hP : PostSolveLinks E.env) (hj : Seated E) (hm : MouseHasMass E)
    (h : SteadyHist E.env w) (box : AABB F) :
    ∃ cs : List (Nat × Nat), cs.Nodup ∧ (∀ c, c ∈ cs ↔ Child w c ∧ ∃ fat, FatOf w c fat ∧ Meets fat box) ∧
      (∀ c b, Child w c → BoxOf w c b → Meets b box → c ∈ cs) ∧
      ∀ (S : Type) (cb : S → Nat → S × Bool) (s : S), w.queryAabb cb box s = some (callUntil cb s (cs.map (·.1))) :=
  c106_query hE hP (env_toiForward E) (env_heavyStay hj hm) h box

/-- A ray cast tells of every child that is hit, once. -/
theorem c113_all {E : Engine F} {w : World F} (hE : LeavesBodies E.env) (hP : PostSolveLinks E.env) (hj : Seated E) (hm : MouseHasMass E)
    (h : SteadyHist E.env w) (hgood : ∀ c, Child w c → GoodShape (w.g.fixtures c.1).shape) {p1 p2 : Vec2 F} (hp : p1 ≠ p2) :
    ∃ hits : List ((Nat × Nat) × RayOut F), (hits.map (·.1)).Nodup ∧ (∀ x, x ∈ hits ↔ Child w x.1 ∧ Struck w p1 p2 1 x.1 x.2) ∧
      ∀ (S : Type) (cb : S → Nat → Vec2 F → Vec2 F → F → S × F) (s : S), (∀ s f p n r, (cb s f p n r).2 = 1 ∨ (cb s f p n r).2 < 0) →
        w.rayCast cb p1 p2 s = some (hits.foldl (fun s x => (cb s x.1.1 (onLine p1 p2 x.2.fraction) x.2.normal x.2.fraction).1) s) :=
  c107_all hE hP (env_toiForward E) (env_heavyStay hj hm) h hgood hp

/-- A ray cast that cuts the ray at each hit ends with a nearest hit, or with none if there is none. -/
theorem c113_closest {E : Engine F} {w : World F} (hE : LeavesBodies E.env) (hP : PostSolveLinks E.env) (hj : Seated E) (hm : MouseHasMass E)
    (h : SteadyHist E.env w) (hgood : ∀ c, Child w c → GoodShape (w.g.fixtures c.1).shape) {p1 p2 : Vec2 F} (hp : p1 ≠ p2) :
    ∃ r : Option (Nat × Vec2 F × Vec2 F × F), w.rayCast (fun _ f p n r => (some (f, p, n, r), r)) p1 p2 none = some r ∧
      ((r = none ∧ ∀ c out, Child w c → ¬ Struck w p1 p2 1 c out) ∨
        ∃ c out, Child w c ∧ Struck w p1 p2 1 c out ∧ r = some (c.1, onLine p1 p2 out.fraction, out.normal, out.fraction) ∧
          ∀ c' out', Child w c' → Struck w p1 p2 1 c' out' → out.fraction ≤ out'.fraction) :=
  c107_closest hE hP (env_toiForward E) (env_heavyStay hj hm) h hgood hp

end

/-! ## A world over the reals: a ball hung from a box -/
noncomputable section

/-- An engine without callbacks, whose joints are all revolute joints at the bodies' origins. -/
def exEngine : Engine ℝ where
  listener := true
  destruction := true
  react := fun _ _ => []
  filter := none
  block := true
  joint := fun w j => .revolute ⟨(w.g.joints j).a, (w.g.joints j).b, ⟨0, -3⟩, ⟨0, 3⟩, 0, false, 0, 0, false, 0, 0, ⟨0, 0⟩, 0, 0, 0,
    ⟨⟨0, ⟨0, 0⟩, 0, 0⟩, ⟨0, ⟨0, 0⟩, 0, 0⟩⟩, ⟨0, 0⟩, ⟨0, 0⟩, ⟨⟨0, 0⟩, ⟨0, 0⟩⟩, 0, 0⟩

theorem exEngine_quiet : CallbacksSafe exEngine.env ∧ CallbacksTame exEngine.env ∧ PostSolveLinks exEngine.env ∧ LeavesBodies exEngine.env := by
  refine ⟨fun w k => ⟨w, rfl⟩, fun w k op h => (by cases h), fun w w' c e => ?_, fun w k op h => (by cases h)⟩
  unfold listen emit at e
  dsimp only at e
  split at e <;> (cases e; exact ⟨fun _ => rfl, fun _ => rfl⟩)

theorem exEngine_seated : Seated exEngine ∧ MouseHasMass exEngine := by
  refine ⟨fun w j b hb => ?_, fun w j m h => (by cases h)⟩
  simp only [exEngine, Joint.touched, List.mem_cons, List.not_mem_nil, or_false] at hb
  exact hb

namespace EngineEx
def hangDef (t : BodyType) (y vx : ℝ) : BodyDef ℝ := ⟨t, ⟨0, y⟩, 0, ⟨vx, 0⟩, 0, 0, 0, true, true, false, false, true, 1⟩
def hangBall : FixDef ℝ := ⟨.circle ⟨1, ⟨0, 0⟩⟩, ⟨0, 1, 0, 1, false, ⟨1, 0xFFFF, 0⟩⟩⟩
def hangBox : FixDef ℝ := ⟨.polygon (Polygon.default.setAsBox 1 1), ⟨0, 1, 0, 1, false, ⟨1, 0xFFFF, 0⟩⟩⟩
def e0 : World ℝ := World.new ⟨0, -10⟩ ⟨false, false, false, false, false, 0, ⟨⟨0, 0⟩, ⟨0, 0⟩⟩, ⟨⟨0, 0⟩, ⟨0, 0⟩, ⟨0, 0⟩, 0, 0, 0⟩, ⟨0, 0⟩, 0, ⟨0, 0⟩, 0, 0, 0, 0, 0, 0, 0, 0, 0⟩
  (.circle ⟨0, ⟨0, 0⟩⟩) ⟨0, 0, 0, 0, false, ⟨0, 0, 0⟩⟩ ⟨false, false, false, false, false, ⟨[], ⟨0, 0⟩, ⟨0, 0⟩, .circles⟩, 0, 0, 0, 0, 0, 0⟩ ⟨⟨0, 0⟩, ⟨0, 0⟩⟩

/-- What `createBody` makes of `hangDef`. -/
def withBody (w : World ℝ) (t : BodyType) (y vx : ℝ) : World ℝ := { w with
      g := { w.g with bodies := upd w.g.bodies w.g.nextBody ⟨t, true, [], 0, [], []⟩, nextBody := w.g.nextBody + 1
                      bodyList := w.g.nextBody :: w.g.bodyList, bodyCount := w.g.bodyCount + 1 }
      phys := upd w.phys w.g.nextBody
       { awake := true && decide (t ≠ .static), island := false, autoSleep := true, bullet := false, fixedRotation := false, islandIndex := -1
         xf := ⟨⟨0, y⟩, Rot.ofAngle 0⟩, sweep := ⟨⟨0, 0⟩, ⟨0, y⟩, ⟨0, y⟩, 0, 0, 0⟩, v := ⟨vx, 0⟩, w := 0
         force := ⟨0, 0⟩, torque := 0, mass := 0, invMass := 0, i := 0, invI := 0, linearDamping := 0, angularDamping := 0, gravityScale := 1, sleepTime := 0 } }
theorem withBody_eq (w : World ℝ) (hl : w.locked = false) (t : BodyType) (y vx : ℝ) : w.createBody (hangDef t y vx) = some (withBody w t y vx, w.g.nextBody) := by
  unfold createBody
  rw [if_neg (by rw [hl]; decide), show Phys.new (hangDef t y vx) = some _ from if_pos ⟨le_refl _, le_refl _⟩]
  rfl
/-- `createFixture` without the update of the mass. -/
def fixed (w : World ℝ) (b : Nat) (d : FixDef ℝ) : Option (World ℝ) := do
    let n ← d.shape.childCount
    let f := w.g.nextFixture
    let w := { w with
      g := { w.g with fixtures := upd w.g.fixtures f ⟨some b, d.shape, List.replicate n ⟨none, 0, none⟩, 0⟩
                      nextFixture := f + 1 }
      fattr := upd w.fattr f d.attr }
    let w ← (if (w.g.bodies b).enabled then w.createProxies f (w.phys b).xf else some w)
    let w := w.setBody b { w.g.bodies b with
      fixtures := f :: (w.g.bodies b).fixtures, fixtureCount := (w.g.bodies b).fixtureCount + 1 }
    return { w with newContacts := true }
theorem fixed_eq {w : World ℝ} (hl : w.locked = false) (b : Nat) (d : FixDef ℝ) (hd : d.attr.density = 0) : w.createFixture b d = (fixed w b d).map fun v => (v, w.g.nextFixture) := by
  unfold createFixture fixed
  rw [if_neg (by rw [hl]; decide)]
  simp only [hd, gt_iff_lt, lt_irrefl, if_false, Option.bind_eq_bind, Option.bind_some, Option.map_bind]
  congr 1
  funext n
  simp only [Function.comp, Option.map_bind]
  congr 1
def e1 : World ℝ := withBody e0 .static 0 0
def e2 : World ℝ := (fixed e1 0 hangBox).get (by rfl)
def e3 : World ℝ := withBody e2 .dynamic (-6) 0
def e4 : World ℝ := (fixed e3 1 hangBall).get (by rfl)
def e5 : World ℝ := e4.setPhys 1 (Phys.moveCenter { e4.phys 1 with mass := 1, invMass := 1 / 1, i := 1 - 1 * dot ⟨0, 0⟩ ⟨0, 0⟩, invI := 1 / (1 - 1 * dot ⟨0, 0⟩ ⟨0, 0⟩) } ⟨0, 0⟩)
def e6 : World ℝ := ((e5.createJoint ⟨0, 1, true⟩).get (by rfl)).1
theorem e5_eq : e4.setMassData 1 ⟨1, ⟨0, 0⟩, 1⟩ = some e5 := by
  unfold World.setMassData
  rw [if_neg (by decide)]
  have h : Phys.setMassData .dynamic ⟨1, ⟨0, 0⟩, 1⟩ (e4.phys 1) =
      some (Phys.moveCenter { e4.phys 1 with mass := 1, invMass := 1 / 1, i := 1 - 1 * dot ⟨0, 0⟩ ⟨0, 0⟩, invI := 1 / (1 - 1 * dot ⟨0, 0⟩ ⟨0, 0⟩) } ⟨0, 0⟩) := by
    unfold Phys.setMassData
    rw [if_neg (by decide)]
    dsimp only
    rw [if_pos ⟨one_pos, rfl⟩, if_pos (by norm_num [dot]), if_neg (not_le.mpr one_pos)]
  rw [show e4.typeOf 1 = .dynamic from rfl, h]
  rfl

theorem e1_run : (Call.createBody (hangDef .static 0 0)).run exEngine.env e0 = some e1 :=
  show (World.createBody e0 _).map _ = some _ from by rw [withBody_eq e0 rfl]; rfl
theorem e2_run : (Call.createFixture 0 hangBox).run exEngine.env e1 = some e2 :=
  show (World.createFixture e1 0 hangBox).map _ = some _ from by rw [fixed_eq rfl 0 hangBox rfl]; rfl
theorem e3_run : (Call.createBody (hangDef .dynamic (-6) 0)).run exEngine.env e2 = some e3 :=
  show (World.createBody e2 _).map _ = some _ from by rw [withBody_eq e2 rfl]; rfl
theorem e4_run : (Call.createFixture 1 hangBall).run exEngine.env e3 = some e4 :=
  show (World.createFixture e3 1 hangBall).map _ = some _ from by rw [fixed_eq rfl 1 hangBall rfl]; rfl
theorem e6_run : (Call.createJoint ⟨0, 1, true⟩).run exEngine.env e5 = some e6 :=
  show (World.createJoint e5 ⟨0, 1, true⟩).map _ = some _ from rfl

theorem e6_tame : TameHist exEngine.env e6 := by
  have h1 : TameHist exEngine.env e1 := .call (.createBody (hangDef .static 0 0)) (.new ..) trivial trivial e1_run
  have h2 : TameHist exEngine.env e2 := .call (.createFixture 0 hangBox) h1 (by decide) trivial e2_run
  have h3 : TameHist exEngine.env e3 := .call (.createBody (hangDef .dynamic (-6) 0)) h2 trivial trivial e3_run
  have h4 : TameHist exEngine.env e4 := .call (.createFixture 1 hangBall) h3 (by decide) trivial e4_run
  have h5 : TameHist exEngine.env e5 := .call (.setMassData 1 ⟨1, ⟨0, 0⟩, 1⟩) h4 (by decide) trivial e5_eq
  exact .call (.createJoint ⟨0, 1, true⟩) h5 ⟨by decide, by decide⟩ trivial e6_run

theorem e6_steady : SteadyHist exEngine.env e6 := by
  have h1 : SteadyHist exEngine.env e1 := .call (.createBody (hangDef .static 0 0)) (.new ..) trivial (fun _ _ _ h => by cases h) (fun d hd _ => by cases hd; exact ⟨rfl, rfl⟩) (fun h => by cases h) e1_run
  have h2 : SteadyHist exEngine.env e2 := .call (.createFixture 0 hangBox) h1 (by decide) (fun _ _ _ h => by cases h) (fun d hd _ => by cases hd) trivial e2_run
  have h3 : SteadyHist exEngine.env e3 := .call (.createBody (hangDef .dynamic (-6) 0)) h2 trivial (fun _ _ _ h => by cases h) (fun d hd ht => by cases hd; cases ht) (fun h => by cases h) e3_run
  have h4 : SteadyHist exEngine.env e4 := .call (.createFixture 1 hangBall) h3 (by decide) (fun _ _ _ h => by cases h) (fun d hd _ => by cases hd) trivial e4_run
  have h5 : SteadyHist exEngine.env e5 := .call (.setMassData 1 ⟨1, ⟨0, 0⟩, 1⟩) h4 (by decide) (fun _ _ _ h => by cases h) (fun d hd _ => by cases hd) trivial e5_eq
  exact .call (.createJoint ⟨0, 1, true⟩) h5 ⟨by decide, by decide⟩ (fun _ _ _ h => by cases h) (fun d hd _ => by cases hd) trivial e6_run

theorem e6_fine : ShapesFine e6 := by
  intro b hb f hf n hn i hi
  rcases List.mem_cons.mp (show b ∈ [1, 0] from hb) with rfl | hb
  · cases List.mem_singleton.mp (show f ∈ [1] from hf)
    rw [show (e6.g.fixtures 1).shape = hangBall.shape from rfl] at *
    refine ⟨zero_le_one, fun x hx y hy => ?_⟩
    cases List.mem_singleton.mp hx
    cases List.mem_singleton.mp hy
    norm_num [dist2, maxFlt]
  · cases List.mem_singleton.mp hb
    cases List.mem_singleton.mp (show f ∈ [0] from hf)
    rw [show (e6.g.fixtures 0).shape = hangBox.shape from rfl] at *
    refine ⟨⟨by norm_num [Polygon.setAsBox, Polygon.default, polygonRadius, linearSlop], proper_box _ 1 1 (by norm_num [epsilon]) (by norm_num [epsilon])⟩, fun x hx y hy => ?_⟩
    have : ∀ z ∈ childPoints hangBox.shape i, (z.x = 1 ∨ z.x = -1) ∧ (z.y = 1 ∨ z.y = -1) := by
      intro z hz
      simp only [hangBox, childPoints, Polygon.setAsBox, boxVerts, List.mem_cons, List.not_mem_nil, or_false] at hz
      rcases hz with rfl | rfl | rfl | rfl <;> simp
    obtain ⟨h1 | h1, h2 | h2⟩ := this x hx <;> obtain ⟨h3 | h3, h4 | h4⟩ := this y hy <;> norm_num [dist2, h1, h2, h3, h4, maxFlt]

theorem e6_edges : EdgesFixed e6 := by
  intro b hb hd f hf
  rcases List.mem_cons.mp (show b ∈ [1, 0] from hb) with rfl | hb
  · cases List.mem_singleton.mp (show f ∈ [1] from hf)
    exact .inl rfl
  · cases List.mem_singleton.mp hb
    cases hd

/-- C110, C111, C113: the hypotheses hold of the ball hung from the box, which has mass and is awake. -/
example : TameHist exEngine.env e6 ∧ SteadyHist exEngine.env e6 ∧ PlainHist exEngine.env e6 ∧ CallbacksSafe exEngine.env ∧ CallbacksTame exEngine.env ∧ PostSolveLinks exEngine.env ∧
    LeavesBodies exEngine.env ∧ Seated exEngine ∧ MouseHasMass exEngine ∧ EdgesFixed e6 ∧ ShapesFine e6 ∧ e6.g.bodyList.length ≤ 64 ∧ e6.subStepping = false ∧
    e6.g.jointList = [0] ∧ e6.typeOf 0 = .static ∧ e6.typeOf 1 = .dynamic ∧ (e6.phys 1).awake = true ∧ (e6.phys 1).invMass = 1 / 1 :=
  ⟨e6_tame, e6_steady, e6_steady.plain, exEngine_quiet.1, exEngine_quiet.2.1, exEngine_quiet.2.2.1, exEngine_quiet.2.2.2, exEngine_seated.1, exEngine_seated.2, e6_edges, e6_fine, by decide,
    rfl, rfl, rfl, rfl, rfl, rfl⟩

/-- A thousand steps of it run, and after them the box is where it was. -/
example : ∃ w', steps exEngine e6 (List.replicate 1000 (1/60, 8, 3)) = some w' ∧ (w'.phys 0).xf = (e6.phys 0).xf := by
  obtain ⟨w', e, -⟩ := c110_steps e6_tame exEngine_quiet.1 exEngine_quiet.2.1 exEngine_quiet.2.2.1 exEngine_seated.1 e6_edges e6_fine (by decide) (List.replicate 1000 (1/60, 8, 3))
  exact ⟨w', e, (c111_static exEngine_quiet.2.2.2 exEngine_quiet.2.2.1 exEngine_seated.1 exEngine_seated.2 e6_steady.plain rfl e 0 (by decide) rfl).2.1⟩

/-- C112: beside the box a platform moves with velocity (1, 0). -/
def k3 : World ℝ := withBody e2 .kinematic (-6) 1
theorem k3_tame : TameHist exEngine.env k3 ∧ PlainHist exEngine.env k3 := by
  have h1 : TameHist exEngine.env e1 := .call (.createBody (hangDef .static 0 0)) (.new ..) trivial trivial e1_run
  have h2 : TameHist exEngine.env e2 := .call (.createFixture 0 hangBox) h1 (by decide) trivial e2_run
  have p1 : PlainHist exEngine.env e1 := .call (.createBody (hangDef .static 0 0)) (.new ..) trivial (fun _ _ _ h => by cases h) (fun d hd _ => by cases hd; exact ⟨rfl, rfl⟩) e1_run
  have p2 : PlainHist exEngine.env e2 := .call (.createFixture 0 hangBox) p1 (by decide) (fun _ _ _ h => by cases h) (fun d hd _ => by cases hd) e2_run
  have r : (Call.createBody (hangDef .kinematic (-6) 1)).run exEngine.env e2 = some k3 := show (World.createBody e2 _).map _ = some _ from by rw [withBody_eq e2 rfl]; rfl
  exact ⟨.call (.createBody (hangDef .kinematic (-6) 1)) h2 trivial trivial r, .call (.createBody (hangDef .kinematic (-6) 1)) p2 trivial (fun _ _ _ h => by cases h) (fun d hd ht => by cases hd; cases ht) r⟩

theorem boxFine {w : World ℝ} (h1 : w.g.bodyList = [1, 0]) (h2 : (w.g.bodies 1).fixtures = []) (h3 : (w.g.bodies 0).fixtures = [0]) (h4 : w.g.fixtures 0 = e6.g.fixtures 0) : ShapesFine w := by
  intro b hb f hf
  rw [h1] at hb
  rcases List.mem_cons.mp hb with rfl | hb
  · rw [h2] at hf; cases hf
  · cases List.mem_singleton.mp hb
    rw [h3] at hf
    cases List.mem_singleton.mp hf
    rw [h4]
    exact e6_fine 0 (by decide) 0 (by decide)

example : ∃ w', k3.step exEngine.env (1/60) 8 3 = some w' ∧ PlainHist exEngine.env k3 ∧ 1 ∈ k3.g.bodyList ∧ k3.typeOf 1 = .kinematic ∧ (k3.phys 1).awake = true ∧ (k3.g.bodies 1).enabled = true ∧
    ¬ Sleepy (k3.phys 1) (k3.phys 1).v (k3.phys 1).w ∧ Slow (1/60) (k3.phys 1).v (k3.phys 1).w := by
  obtain ⟨w', e, -⟩ := c110_steps k3_tame.1 exEngine_quiet.1 exEngine_quiet.2.1 exEngine_quiet.2.2.1 exEngine_seated.1
    (fun b hb hd => by
      rcases List.mem_cons.mp (show b ∈ [1, 0] from hb) with rfl | hb
      · cases hd
      · cases List.mem_singleton.mp hb; cases hd)
    (boxFine rfl rfl rfl rfl) (by decide) [(1/60, 8, 3)]
  refine ⟨w', ?_, k3_tame.2, by decide, rfl, rfl, rfl, fun h => ?_, ?_⟩
  · unfold steps at e
    rw [List.foldlM_cons] at e
    simp only [Option.bind_eq_bind, Option.bind_eq_some_iff, List.foldlM_nil] at e
    obtain ⟨v, e1, e2⟩ := e
    cases e2
    exact e1
  · have := h.2.2
    rw [show (k3.phys 1).v = ⟨1, 0⟩ from rfl] at this
    norm_num [dot, linearSleepTolerance] at this
  · rw [show (k3.phys 1).v = ⟨1, 0⟩ from rfl, show (k3.phys 1).w = 0 from rfl]
    refine ⟨?_, ?_⟩
    · show (1/60 * 1 : ℝ) * (1/60 * 1) + (1/60 * 0) * (1/60 * 0) ≤ _
      norm_num [maxTranslation]
    · rw [mul_zero, mul_zero]
      exact mul_self_nonneg _

/-- C112: beside the box a body without fixtures falls. -/
def f4 : World ℝ := e3.setPhys 1 (Phys.moveCenter { e3.phys 1 with mass := 1, invMass := 1 / 1, i := 1 - 1 * dot ⟨0, 0⟩ ⟨0, 0⟩, invI := 1 / (1 - 1 * dot ⟨0, 0⟩ ⟨0, 0⟩) } ⟨0, 0⟩)
theorem f4_run : (Call.setMassData 1 ⟨1, ⟨0, 0⟩, 1⟩).run exEngine.env e3 = some f4 := by
  show World.setMassData e3 1 _ = _
  unfold World.setMassData
  rw [if_neg (by decide)]
  have h : Phys.setMassData .dynamic ⟨1, ⟨0, 0⟩, 1⟩ (e3.phys 1) =
      some (Phys.moveCenter { e3.phys 1 with mass := 1, invMass := 1 / 1, i := 1 - 1 * dot ⟨0, 0⟩ ⟨0, 0⟩, invI := 1 / (1 - 1 * dot ⟨0, 0⟩ ⟨0, 0⟩) } ⟨0, 0⟩) := by
    unfold Phys.setMassData
    rw [if_neg (by decide)]
    dsimp only
    rw [if_pos ⟨one_pos, rfl⟩, if_pos (by norm_num [dot]), if_neg (not_le.mpr one_pos)]
  rw [show e3.typeOf 1 = .dynamic from rfl, h]
  rfl
theorem f4_tame : TameHist exEngine.env f4 ∧ PlainHist exEngine.env f4 := by
  have h1 : TameHist exEngine.env e1 := .call (.createBody (hangDef .static 0 0)) (.new ..) trivial trivial e1_run
  have h2 : TameHist exEngine.env e2 := .call (.createFixture 0 hangBox) h1 (by decide) trivial e2_run
  have h3 : TameHist exEngine.env e3 := .call (.createBody (hangDef .dynamic (-6) 0)) h2 trivial trivial e3_run
  have p1 : PlainHist exEngine.env e1 := .call (.createBody (hangDef .static 0 0)) (.new ..) trivial (fun _ _ _ h => by cases h) (fun d hd _ => by cases hd; exact ⟨rfl, rfl⟩) e1_run
  have p2 : PlainHist exEngine.env e2 := .call (.createFixture 0 hangBox) p1 (by decide) (fun _ _ _ h => by cases h) (fun d hd _ => by cases hd) e2_run
  have p3 : PlainHist exEngine.env e3 := .call (.createBody (hangDef .dynamic (-6) 0)) p2 trivial (fun _ _ _ h => by cases h) (fun d hd ht => by cases hd; cases ht) e3_run
  exact ⟨.call (.setMassData 1 ⟨1, ⟨0, 0⟩, 1⟩) h3 (by decide) trivial f4_run,
    .call (.setMassData 1 ⟨1, ⟨0, 0⟩, 1⟩) p3 (by decide) (fun _ _ _ h => by cases h) (fun d hd _ => by cases hd) f4_run⟩

example : ∃ w', f4.step exEngine.env (1/60) 8 3 = some w' ∧ PlainHist exEngine.env f4 ∧ 1 ∈ f4.g.bodyList ∧ f4.typeOf 1 = .dynamic ∧ (f4.phys 1).awake = true ∧ (f4.g.bodies 1).enabled = true ∧
    (∀ j ∈ f4.g.jointList, (f4.g.joints j).a ≠ 1 ∧ (f4.g.joints j).b ≠ 1) ∧ (∀ c ∈ w'.g.contactList, ¬ OfBody w' c 1) ∧
    Slow (1/60) (freeV (1/60) f4.gravity (f4.phys 1)) (freeW (1/60) (f4.phys 1)) ∧ freeV (1/60) f4.gravity (f4.phys 1) = ⟨0, -1/6⟩ := by
  have hv : freeV (1/60) f4.gravity (f4.phys 1) = ⟨0, -1/6⟩ := by
    have h1 : (f4.phys 1).v = ⟨0 + -0 * ((f4.phys 1).sweep.c - ⟨0, -6⟩).y, 0 + 0 * ((f4.phys 1).sweep.c - ⟨0, -6⟩).x⟩ := rfl
    have h2 : (f4.phys 1).v = ⟨0, 0⟩ := by rw [h1]; ext <;> simp
    unfold freeV
    rw [h2]
    show (⟨(1 / (1 + 1/60 * 0)) * (0 + 1/60 * (1 / 1 * (1 * 1 * 0 + 0))), (1 / (1 + 1/60 * 0)) * (0 + 1/60 * (1 / 1 * (1 * 1 * -10 + 0)))⟩ : Vec2 ℝ) = _
    norm_num
  have hw : freeW (1/60) (f4.phys 1) = 0 := by
    have h1 : (f4.phys 1).torque = 0 := rfl
    have h2 : (f4.phys 1).w = 0 := rfl
    unfold freeW
    rw [h1, h2]; ring
  obtain ⟨w', e, -⟩ := c110_steps f4_tame.1 exEngine_quiet.1 exEngine_quiet.2.1 exEngine_quiet.2.2.1 exEngine_seated.1
    (fun b hb hd f hf => by
      rcases List.mem_cons.mp (show b ∈ [1, 0] from hb) with rfl | hb
      · exact absurd (show f ∈ [] from hf) (by simp)
      · cases List.mem_singleton.mp hb; cases hd)
    (boxFine rfl rfl rfl rfl) (by decide) [(1/60, 8, 3)]
  have e : f4.step exEngine.env (1/60) 8 3 = some w' := by
    unfold steps at e
    rw [List.foldlM_cons] at e
    simp only [Option.bind_eq_bind, Option.bind_eq_some_iff, List.foldlM_nil] at e
    obtain ⟨v, e1, e2⟩ := e
    cases e2
    exact e1
  refine ⟨w', e, f4_tame.2, by decide, rfl, rfl, rfl, fun j hj => (by cases hj), fun c hc ho => ?_, ?_, hv⟩
  · have hs := step_good (whist_inv f4_tame.2.hist).toWInv e
    have hf : (w'.g.bodies 1).fixtures = [] := by rw [hs.body 1]; rfl
    rcases ho with ho | ho
    · have := ((hs.winv.body.fixtures 1 _).mpr ⟨by rw [hs.eq]; exact (by decide : 1 ∈ [1, 0]), ho⟩)
      rw [hf] at this; cases this
    · have := ((hs.winv.body.fixtures 1 _).mpr ⟨by rw [hs.eq]; exact (by decide : 1 ∈ [1, 0]), ho⟩)
      rw [hf] at this; cases this
  · rw [hv, hw]
    refine ⟨?_, ?_⟩
    · show (1/60 * 0 : ℝ) * (1/60 * 0) + (1/60 * (-1/6)) * (1/60 * (-1/6)) ≤ _
      norm_num [maxTranslation]
    · rw [mul_zero, mul_zero]
      exact mul_self_nonneg _

end EngineEx
end
end B2.Props
