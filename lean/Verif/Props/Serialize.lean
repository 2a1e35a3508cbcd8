import Verif.Proofs.SerializeTotal
import Verif.Proofs.WorldBody
import Verif.Proofs.WorldExample

/-!
# Saving and loading a world

`s` is any reachable world, `s'` what is there after what was written of it is read into an empty world `e`. The body list of `s'`
is in the reverse order: the copy of body `s.world.g.bodyList[i]` is `s'.world.g.bodyList.reverse[i]`.
-/
namespace B2.Props
set_option linter.unusedSectionVars false
open B2 Spec World

section
variable {F P : Type} [Field F] [LinearOrder F] [IsStrictOrderedRing F] [Elem F]

/-- The copy of a body. -/
theorem copy_is {env env' : Env F} {e s s' : Scene F P} (he : Empty e) (hl : Scene.load e s.save.2 = some s') {i b b' : Nat}
    (hb : s.world.g.bodyList[i]? = some b) (hb' : s'.world.g.bodyList.reverse[i]? = some b') : IsBody s'.world b' (s.world.saveBody b) := by
  have h := load_spec env' he hl
  have hlen : s.save.2.bodies.length = s.world.g.bodyList.length := by simp [Scene.save]
  rw [h.bodies, List.reverse_reverse, hlen] at hb'
  have hi : i < s.world.g.bodyList.length := (List.getElem?_eq_some_iff.mp hb).1
  rw [List.getElem?_range hi] at hb'
  cases hb'
  exact h.body i _ (by simp [Scene.save, hb])

/-! ## C96 -/

/-- Loading gives every body back, with its fixtures. -/
theorem c96_bodies {env env' : Env F} {e s s' : Scene F P} (h : WHist env s.world) (he : Empty e) (hl : Scene.load e s.save.2 = some s') :
    WHist env' s'.world ∧ s'.world.gravity = s.world.gravity ∧ s'.world.g.bodyList.length = s.world.g.bodyList.length ∧
    ∀ i b : Nat, s.world.g.bodyList[i]? = some b → ∃ b', s'.world.g.bodyList.reverse[i]? = some b' ∧ BodyCopy s.world b s'.world b' := by
  have hh := load_spec env' he hl
  have hlen : s'.world.g.bodyList.length = s.world.g.bodyList.length := by rw [hh.bodies]; simp [Scene.save]
  refine ⟨hh.hist, hh.gravity, hlen, fun i b hb => ?_⟩
  have hi : i < s.world.g.bodyList.length := (List.getElem?_eq_some_iff.mp hb).1
  have hi' : i < s'.world.g.bodyList.reverse.length := by simpa [hlen] using hi
  refine ⟨_, List.getElem?_eq_getElem hi', ?_⟩
  have hs := copy_is (env := env) (env' := env') he hl hb (List.getElem?_eq_getElem hi')
  generalize s'.world.g.bodyList.reverse[i] = b' at hs
  have d := hs.derived
  have hrot := (whist_stable consistent_stable h b (List.mem_of_getElem? hb)).rotation
  refine ⟨hs.type, hs.enabled, by rw [d.xf]; rfl, d.a, by rw [d.xf, hrot]; rfl, d.w, d.linearDamping, d.angularDamping, d.gravityScale, d.autoSleep, d.bullet,
    d.fixedRotation, fun ht => ?_, ?_⟩
  · rw [d.awake]
    have : (s.world.saveBody b).defn.type = s.world.typeOf b := rfl
    rw [this]
    simp only [ht, ne_eq, not_false_eq_true, decide_true, Bool.and_true]
    rfl
  · have e1 : fixturesOf s'.world b' = ((s'.world.g.bodies b').fixtures.map s'.world.fixDef).map fun x => (x.shape, x.attr) := by
      rw [List.map_map]; rfl
    have e2 : fixturesOf s.world b = (s.world.saveBody b).fixtures.map fun x => (x.shape, x.attr) := by
      unfold saveBody; rw [List.map_map]; rfl
    rw [e1, e2, hs.fixtures, List.map_reverse]

/-- Saving changes nothing but the numbers of bodies and joints that it writes with. -/
theorem c96_save (s : Scene F P) : s.save.1 = { s with world := { s.world with phys := s.save.1.world.phys }, index := s.save.1.index } ∧
    ∀ b, s.save.1.world.phys b = { s.world.phys b with islandIndex := (s.save.1.world.phys b).islandIndex } := by
  refine ⟨rfl, fun b => ?_⟩
  have key : ∀ (l : List (Nat × Nat)) (ph : Nat → Phys F),
      (l.foldl (fun ph x => upd ph x.1 { ph x.1 with islandIndex := (x.2 : Int) }) ph) b =
        { ph b with islandIndex := ((l.foldl (fun ph x => upd ph x.1 { ph x.1 with islandIndex := (x.2 : Int) }) ph) b).islandIndex } := by
    intro l
    induction l with
    | nil => intro ph; rfl
    | cons x l ih =>
      intro ph
      rw [List.foldl_cons, ih]
      by_cases hx : b = x.1
      · subst hx; rw [upd_same]
      · rw [upd_other _ _ hx]
  exact key _ _

/-! ## C97 -/

/-- The copy of a body has the mass, center and inertia that its fixtures give the body. -/
theorem c97_mass {env : Env F} {e s s' : Scene F P} (h : WHist env s.world) (he : Empty e) (hl : Scene.load e s.save.2 = some s')
    {i b b' : Nat} (hb : s.world.g.bodyList[i]? = some b) (hb' : s'.world.g.bodyList.reverse[i]? = some b')
    (hd : ∀ f ∈ (s.world.g.bodies b).fixtures, 0 ≤ (s.world.fattr f).density) :
    ∃ q, Phys.resetMassData (s.world.typeOf b) (s.world.massList b) (s.world.phys b) = some q ∧
      (s'.world.phys b').mass = q.mass ∧ (s'.world.phys b').invMass = q.invMass ∧ (s'.world.phys b').i = q.i ∧ (s'.world.phys b').invI = q.invI ∧
      (s'.world.phys b').sweep.localCenter = q.sweep.localCenter ∧ (s'.world.phys b').sweep.c = q.sweep.c := by
  have hs := copy_is (env := env) (env' := env) he hl hb hb'
  obtain ⟨p, hp, hr⟩ := hs.mass (by
    intro d hd'
    obtain ⟨f, hf, rfl⟩ := List.mem_map.mp hd'
    exact hd f hf)
  have hml : s.world.massList b = (s.world.saveBody b).fixtures.map fun d => (d.attr.density, d.shape) := by
    unfold saveBody; rw [List.map_map]; rfl
  have hr' : Phys.resetMassData (s.world.typeOf b) (s.world.massList b) p = some (s'.world.phys b') := by
    rw [← hr, hs.massList, hml]
    exact reset_perm (List.reverse_perm _).symm _ _
  have hrot := (whist_stable consistent_stable h b (List.mem_of_getElem? hb)).rotation
  have hx : p.xf = (s.world.phys b).xf := by
    rw [(new_derived hp).xf]
    show (⟨(s.world.phys b).xf.p, Rot.ofAngle (s.world.phys b).sweep.a⟩ : Xf F) = _
    rw [← hrot]
  have hf : p.fixedRotation = (s.world.phys b).fixedRotation := (new_derived hp).fixedRotation
  have : ∃ q, Phys.resetMassData (s.world.typeOf b) (s.world.massList b) (s.world.phys b) = some q := by
    rcases reset_cases hr' with ⟨ht, -⟩ | ⟨-, m, im, i, ii, c, -, k⟩
    · unfold Phys.resetMassData
      dsimp only
      rw [if_pos (by cases hty : s.world.typeOf b <;> simp [hty] at ht ⊢)]
      exact ⟨_, rfl⟩
    · exact ⟨_, k _ hf.symm⟩
  obtain ⟨q, hq⟩ := this
  exact ⟨q, hq, reset_same hr' hq hx hf⟩

/-! ## C98 -/

/-- The velocity is not the one saved, but that of the point of the copy where the center of mass is, if the saved velocity were that of
the origin of the body. It is the saved one if the body does not turn, is not dynamic, or has its center of mass in its origin. What is
missing: the velocity of a turning body with its center of mass elsewhere. -/
theorem c98_partial {env : Env F} {e s s' : Scene F P} (h : WHist env s.world) (he : Empty e) (hl : Scene.load e s.save.2 = some s')
    {i b b' : Nat} (hb : s.world.g.bodyList[i]? = some b) (hb' : s'.world.g.bodyList.reverse[i]? = some b') :
    (s'.world.phys b').v = (s.world.phys b).v + crossSV (s.world.phys b).w ((s'.world.phys b').sweep.c - (s.world.phys b).xf.p) ∧
    ((s.world.phys b).w = 0 ∨ s.world.typeOf b ≠ .dynamic ∨ (s'.world.phys b').sweep.localCenter = ⟨0, 0⟩ → (s'.world.phys b').v = (s.world.phys b).v) := by
  have hs := copy_is (env := env) (env' := env) he hl hb hb'
  have hv : (s'.world.phys b').v = (s.world.phys b).v + crossSV (s.world.phys b).w ((s'.world.phys b').sweep.c - (s.world.phys b).xf.p) := hs.derived.v
  refine ⟨hv, fun hc => ?_⟩
  rw [hv]
  rcases hc with hc | hc | hc
  · rw [hc]; unfold crossSV; ext <;> simp
  · have : (s'.world.phys b').sweep.c = (s.world.phys b).xf.p := hs.derived.still hc
    rw [this]; exact cross_zero _ _ _
  · have hh := load_spec env he hl
    have hm : b' ∈ s'.world.g.bodyList := List.mem_reverse.mp (List.mem_of_getElem? hb')
    have hc2 := (whist_stable consistent_stable hh.hist b' hm).center
    have hp : (s'.world.phys b').xf.p = (s.world.phys b).xf.p := by rw [hs.derived.xf]; rfl
    have : (s'.world.phys b').sweep.c = (s.world.phys b).xf.p := by
      rw [hc2, hc, ← hp]; unfold Xf.mulV; ext <;> simp
    rw [this]; exact cross_zero _ _ _

/-! ## C99 -/

/-- The joints come back in the reverse order, with their parameters, but the bodies of a restored joint stand where the bodies of the
joint stood in the list, which is now in the reverse order. Likewise the joints of a gear joint. What is missing: that they are the copies of
the bodies of the joint. -/
theorem c99_partial {env : Env F} {e s s' : Scene F P} (h : WHist env s.world) (he : Empty e) (hl : Scene.load e s.save.2 = some s') :
    (plainJoints s').map (jointView s') = ((plainJoints s).map (jointView s)).reverse ∧
    (NoMouse s → GearsLive s → (gearJoints s').map (gearView s') = ((gearJoints s).map (gearView s)).reverse) := by
  have hh := load_spec env he hl
  refine ⟨by rw [loaded_views hh, saved_joints h], fun hm hg => ?_⟩
  obtain ⟨k1, k2⟩ := saved_gears h hm hg
  have hlen : s.save.2.joints.length = (plainJoints s).length := by
    have := congrArg List.length (saved_joints (s := s) h)
    simpa using this
  rw [loaded_gearViews hh (by rw [hlen]; exact k2), k1]

theorem idxOf_reverse {l : List Nat} (hn : l.Nodup) {x : Nat} (hx : x ∈ l) : l.reverse.idxOf x + l.idxOf x + 1 = l.length := by
  have hi := List.idxOf_lt_length_of_mem hx
  have h1 : l.reverse[l.length - 1 - l.idxOf x]? = some x := by
    rw [List.getElem?_reverse (by omega)]
    rw [show l.length - 1 - (l.length - 1 - l.idxOf x) = l.idxOf x by omega, List.getElem?_eq_getElem hi, List.getElem_idxOf]
  obtain ⟨hlt, he⟩ := List.getElem?_eq_some_iff.mp h1
  have h2 : l.reverse.idxOf x = l.length - 1 - l.idxOf x := by
    have := (List.nodup_reverse.mpr hn).idxOf_getElem (l.length - 1 - l.idxOf x) hlt
    rw [he] at this; exact this
  omega

/-- A world with a joint is never restored. -/
theorem c99_never {env : Env F} {e s s' : Scene F P} (h : WHist env s.world) (he : Empty e) (hl : Scene.load e s.save.2 = some s')
    (hj : plainJoints s ≠ []) : ¬ JointsRestored s s' := by
  intro hr
  obtain ⟨j, l, hjl⟩ := List.exists_cons_of_ne_nil hj
  obtain ⟨j', hj', ha, hb⟩ := hr 0 j (by rw [hjl]; rfl)
  have hh := load_spec env he hl
  have hi := (whist_inv h).toWInv
  have hi' := (whist_inv hh.hist).toWInv
  have hv := (c99_partial h he hl).1
  have hv' : (plainJoints s').reverse.map (jointView s') = (plainJoints s).map (jointView s) := by
    rw [List.map_reverse, hv, List.reverse_reverse]
  have h0 := congrArg (fun l => l[0]?) hv'
  simp only [List.getElem?_map, hj', hjl, Option.map_some, List.getElem?_cons_zero, Option.some.injEq] at h0
  have p1 : s'.world.g.bodyList.idxOf (s'.world.g.joints j').a = s.world.g.bodyList.idxOf (s.world.g.joints j).a := congrArg JointView.placeA h0
  have p2 : s'.world.g.bodyList.idxOf (s'.world.g.joints j').b = s.world.g.bodyList.idxOf (s.world.g.joints j).b := congrArg JointView.placeB h0
  have m' : j' ∈ s'.world.g.jointList := List.mem_of_mem_filter (List.mem_reverse.mp (List.mem_of_getElem? hj'))
  have m : j ∈ s.world.g.jointList := List.mem_of_mem_filter (show j ∈ plainJoints s by rw [hjl]; exact List.mem_cons_self)
  obtain ⟨-, ma', mb'⟩ := hi'.joint.ends j' m'
  obtain ⟨hne, ma, mb⟩ := hi.joint.ends j m
  have q1 := idxOf_reverse hi'.body.nodup ma'
  have q2 := idxOf_reverse hi'.body.nodup mb'
  refine hne ((List.idxOf_inj ma).mp ?_)
  omega

/-- Saving and loading twice restores bodies and joints: both lists are in their first order again. -/
theorem c99_twice {env env' : Env F} {e e' s s' s'' : Scene F P} (h : WHist env s.world) (he : Empty e) (he' : Empty e')
    (hl : Scene.load e s.save.2 = some s') (hl' : Scene.load e' s'.save.2 = some s'') :
    (plainJoints s'').map (jointView s'') = (plainJoints s).map (jointView s) ∧
    ∀ i b : Nat, s.world.g.bodyList[i]? = some b → ∃ b'', s''.world.g.bodyList[i]? = some b'' ∧ s''.world.typeOf b'' = s.world.typeOf b ∧
      (s''.world.phys b'').xf = (s.world.phys b).xf ∧ fixturesOf s''.world b'' = fixturesOf s.world b := by
  have hh := load_spec env' he hl
  refine ⟨by rw [(c99_partial hh.hist he' hl').1, (c99_partial h he hl).1, List.reverse_reverse], fun i b hb => ?_⟩
  obtain ⟨-, -, n1, k1⟩ := c96_bodies (env' := env') h he hl
  obtain ⟨-, -, n2, k2⟩ := c96_bodies (env' := env') hh.hist he' hl'
  obtain ⟨b', hb', c1⟩ := k1 i b hb
  have hi : i < s.world.g.bodyList.length := (List.getElem?_eq_some_iff.mp hb).1
  rw [List.getElem?_reverse (by omega)] at hb'
  obtain ⟨b'', hb'', c2⟩ := k2 _ b' hb'
  rw [List.getElem?_reverse (by omega)] at hb''
  rw [show s''.world.g.bodyList.length - 1 - (s'.world.g.bodyList.length - 1 - i) = i by omega] at hb''
  refine ⟨b'', hb'', c2.type.trans c1.type, ?_, by rw [c2.fixtures, c1.fixtures, List.reverse_reverse]⟩
  have e1 : (s''.world.phys b'').xf.p = (s.world.phys b).xf.p := c2.position.trans c1.position
  have e2 : (s''.world.phys b'').xf.q = (s.world.phys b).xf.q := c2.rotation.trans c1.rotation
  cases hx : (s''.world.phys b'').xf
  cases hy : (s.world.phys b).xf
  rw [hx] at e1 e2
  rw [hy] at e1 e2
  cases e1; cases e2; rfl

/-! ## C100 -/

/-- A world without gear joints, whose dampings are not negative and whose fixtures are solid, can be read back. What is missing: negative
dampings and densities, which can be set, shapes without a mass and gear joints. -/
theorem c100_partial {env : Env F} {e s : Scene F P} (h : WHist env s.world) (he : Empty e)
    (hd : ∀ b ∈ s.world.g.bodyList, 0 ≤ (s.world.phys b).linearDamping ∧ 0 ≤ (s.world.phys b).angularDamping)
    (hf : ∀ b ∈ s.world.g.bodyList, ∀ x ∈ s.world.massList b, Solid x) (hg : gearJoints s = []) :
    ∃ s', Scene.load e s.save.2 = some s' := by
  obtain ⟨h1, h2⟩ := save_fine h hd hf
  refine load_total env he h1 h2 ?_
  have : s.gears = [] := hg
  simp [Scene.save, this]

end

/-! ## Examples and counterexamples -/

attribute [local instance] exElem

namespace Saved

/-- Three bodies, the first with two fixtures off its origin; two joints, one of them between the first two bodies. -/
def calls : List (Call ℚ) :=
  [.createBody (Ex.body .dynamic 0 1), .createFixture 0 { Ex.ball with shape := .circle ⟨1, ⟨1/2, 0⟩⟩ }, .createFixture 0 Ex.ball,
   .createBody (Ex.body .static 0 0), .createFixture 1 Ex.ball, .createBody (Ex.body .dynamic 1 0), .createFixture 2 Ex.ball,
   .createJoint ⟨0, 1, true⟩, .createJoint ⟨1, 2, false⟩, .user (.body 0 (.setAngularVelocity 1)), .user (.body 0 (.setLinearVelocity ⟨1, 2⟩))]

def world : World ℚ := (runAll Ex.env calls Ex.w0).get (by decide +kernel)
theorem world_hist : WHist Ex.env world := runAll_hist calls Ex.w0_hist (Option.some_get _).symm

/-- Both joints are of the classes that a gear may couple. -/
def scene : Scene ℚ Nat := ⟨world, fun j => .coord j, fun _ => 0⟩
def fresh : Scene ℚ Nat := ⟨Ex.w0, fun _ => .other 0, fun _ => 0⟩
theorem fresh_empty : Empty fresh := ⟨_, _, _, _, _, _, rfl⟩
def back : Scene ℚ Nat := (Scene.load fresh scene.save.2).get (by decide +kernel)
theorem back_eq : Scene.load fresh scene.save.2 = some back := (Option.some_get _).symm
def back2 : Scene ℚ Nat := (Scene.load fresh back.save.2).get (by decide +kernel)
theorem back2_eq : Scene.load fresh back.save.2 = some back2 := (Option.some_get _).symm

end Saved

open Saved

/-- The scene is reachable, has three bodies with fixtures and two joints, and is loaded. -/
example : WHist Ex.env scene.world ∧ Empty fresh ∧ Scene.load fresh scene.save.2 = some back ∧ Scene.load fresh back.save.2 = some back2 ∧
    scene.world.g.bodyList = [2, 1, 0] ∧ (fixturesOf scene.world 0).length = 2 ∧ plainJoints scene = [1, 0] ∧ plainJoints scene ≠ [] :=
  ⟨world_hist, fresh_empty, back_eq, back2_eq, by decide +kernel, by decide +kernel, by decide +kernel, by decide +kernel⟩

/-- The densities are not negative, the mass of body 0 is there and its center off its origin. -/
example : scene.world.g.bodyList[2]? = some 0 ∧ back.world.g.bodyList.reverse[2]? = some 2 ∧
    (∀ f ∈ (scene.world.g.bodies 0).fixtures, 0 ≤ (scene.world.fattr f).density) ∧ (back.world.phys 2).mass > 0 ∧
    (back.world.phys 2).sweep.localCenter = ⟨1/4, 0⟩ :=
  ⟨by decide +kernel, by decide +kernel, by decide +kernel, by decide +kernel, by decide +kernel⟩

/-- A body that turns about a center of mass off its origin comes back with another velocity. -/
theorem c98_false : ∃ (env : Env ℚ) (e s s' : Scene ℚ Nat) (i b b' : Nat), WHist env s.world ∧ Empty e ∧ Scene.load e s.save.2 = some s' ∧
    s.world.g.bodyList[i]? = some b ∧ s'.world.g.bodyList.reverse[i]? = some b' ∧ (s'.world.phys b').v ≠ (s.world.phys b).v :=
  ⟨Ex.env, fresh, scene, back, 2, 0, 2, world_hist, fresh_empty, back_eq, by decide +kernel, by decide +kernel, by decide +kernel⟩

/-- Two bodies of three and their joint: the joint comes back on others. -/
theorem c99_false : ∃ (env : Env ℚ) (e s s' : Scene ℚ Nat), WHist env s.world ∧ Empty e ∧ Scene.load e s.save.2 = some s' ∧ ¬ JointsRestored s s' :=
  ⟨Ex.env, fresh, scene, back, world_hist, fresh_empty, back_eq, c99_never world_hist fresh_empty back_eq (by decide +kernel)⟩

/-- The joint between bodies 0 and 1 joins the copies of bodies 1 and 2 after loading: the copy of body `i` is body `2 - i`. -/
example : ((scene.world.g.joints 0).a, (scene.world.g.joints 0).b) = (0, 1) ∧ jointView scene 0 = ⟨2, 1, true, .coord 0⟩ ∧ plainJoints back = [1, 0] ∧
    jointView back 1 = ⟨2, 1, true, .coord 0⟩ ∧ ((back.world.g.joints 1).a, (back.world.g.joints 1).b) = (0, 1) ∧ back.world.g.bodyList = [2, 1, 0] :=
  ⟨by decide +kernel, by decide +kernel, by decide +kernel, by decide +kernel, by decide +kernel, by decide +kernel⟩

/-- A gear joint that couples the two joints, between two dynamic bodies. -/
private def exGear : Scene ℚ Nat :=
  ⟨(runAll Ex.env [.createBody (Ex.body .dynamic 0 1), .createFixture 0 Ex.ball, .createBody (Ex.body .dynamic 0 5), .createBody (Ex.body .dynamic 1 0),
      .createJoint ⟨0, 1, true⟩, .createJoint ⟨0, 2, true⟩, .createJoint ⟨1, 2, true⟩] Ex.w0).get (by decide +kernel),
    fun j => if j = 2 then .gear 0 1 7 else .coord j, fun _ => 0⟩
private def exGearBack : Scene ℚ Nat := (Scene.load fresh exGear.save.2).get (by decide +kernel)

/-- There is a gear joint; its joints are alive. After loading it couples the joints in the other order. -/
example : WHist Ex.env exGear.world ∧ Scene.load fresh exGear.save.2 = some exGearBack ∧ NoMouse exGear ∧ GearsLive exGear ∧ gearJoints exGear = [2] ∧
    gearView exGear 2 = some ⟨1, 0, true, 1, 0, 7⟩ ∧ gearJoints exGearBack = [2] ∧ gearView exGearBack 2 = some ⟨1, 0, true, 1, 0, 7⟩ := by
  have hl : exGear.world.g.jointList = [2, 1, 0] := by decide +kernel
  refine ⟨runAll_hist _ Ex.w0_hist (Option.some_get _).symm, (Option.some_get _).symm, ?_, ?_, by decide +kernel, by decide +kernel, by decide +kernel,
    by decide +kernel⟩
  · intro j _ p hp
    have : exGear.kind j = if j = 2 then .gear 0 1 7 else .coord j := rfl
    rw [this] at hp
    split at hp <;> cases hp
  · intro j _ j1 j2 r hk
    have : exGear.kind j = if j = 2 then .gear 0 1 7 else .coord j := rfl
    rw [this] at hk
    split at hk
    · cases hk
      exact ⟨by decide +kernel, by decide +kernel⟩
    · cases hk

private def isBall : ℚ × Shape ℚ → Bool
  | (d, .circle c) => decide (d = 1 ∧ c.radius = 1 ∧ (c.p.x = 1/2 ∨ c.p.x = 0) ∧ c.p.y = 0)
  | _ => false

private theorem isBall_solid {x : ℚ × Shape ℚ} (h : isBall x = true) : Solid x := by
  obtain ⟨d, s⟩ := x
  cases s with
  | circle c =>
    obtain ⟨r, px, py⟩ := c
    simp only [isBall, decide_eq_true_eq] at h
    obtain ⟨rfl, rfl, h, rfl⟩ := h
    refine ⟨zero_le_one, fun _ => ⟨_, rfl, Or.inr ?_⟩⟩
    rcases h with rfl | rfl <;> decide +kernel
  | _ => simp [isBall] at h

/-- Dampings and fixtures of the scene are as asked for. -/
example : (∀ b ∈ scene.world.g.bodyList, 0 ≤ (scene.world.phys b).linearDamping ∧ 0 ≤ (scene.world.phys b).angularDamping) ∧
    (∀ b ∈ scene.world.g.bodyList, ∀ x ∈ scene.world.massList b, Solid x) ∧ gearJoints scene = [] := by
  refine ⟨by decide +kernel, ?_, by decide +kernel⟩
  have key : ∀ b ∈ scene.world.g.bodyList, ∀ x ∈ scene.world.massList b, isBall x = true := by decide +kernel
  exact fun b hb x hx => isBall_solid (key b hb x hx)

/-- A world that cannot be read back: the damping of its only body was set to a negative number. -/
theorem c100_false_damping : ∃ (env : Env ℚ) (e s : Scene ℚ Nat), WHist env s.world ∧ Empty e ∧ Scene.load e s.save.2 = none :=
  ⟨Ex.env, fresh, ⟨(runAll Ex.env [.createBody (Ex.body .dynamic 0 1), .user (.body 0 (.setLinearDamping (-1)))] Ex.w0).get (by decide +kernel), fun _ => .other 0, fun _ => 0⟩,
    runAll_hist _ Ex.w0_hist (Option.some_get _).symm, fresh_empty, by decide +kernel⟩

private def mouseKind (j : Nat) : JKind Nat := if j = 2 then .gear 0 1 7 else if j = 3 then .mouse 0 else .coord j
private def exMouseCalls : List (Call ℚ) :=
  [.createBody (Ex.body .dynamic 0 1), .createBody (Ex.body .dynamic 0 5), .createBody (Ex.body .dynamic 1 0),
      .createJoint ⟨0, 1, true⟩, .createJoint ⟨0, 2, true⟩, .createJoint ⟨1, 2, true⟩, .createJoint ⟨0, 1, true⟩]
private def exMouseWorld : World ℚ := (runAll Ex.env exMouseCalls Ex.w0).get (by decide +kernel)
private theorem exMouse_hist : WHist Ex.env exMouseWorld := runAll_hist exMouseCalls Ex.w0_hist (Option.some_get _).symm
private def exMouse : Scene ℚ Nat := ⟨exMouseWorld, mouseKind, fun _ => 0⟩

/-- A world that cannot be read back: it has a gear joint and a mouse joint. Mouse joints are counted and not written, so that the
numbers of the joints of the gear are wrong. -/
theorem c100_false_mouse : ∃ (env : Env ℚ) (e s : Scene ℚ Nat), WHist env s.world ∧ Empty e ∧ GearsLive s ∧
    (∀ b ∈ s.world.g.bodyList, 0 ≤ (s.world.phys b).linearDamping ∧ 0 ≤ (s.world.phys b).angularDamping) ∧
    (∀ b ∈ s.world.g.bodyList, ∀ x ∈ s.world.massList b, Solid x) ∧ Scene.load e s.save.2 = none := by
  have key : ∀ b ∈ exMouse.world.g.bodyList, ∀ x ∈ exMouse.world.massList b, isBall x = true := by decide +kernel
  refine ⟨Ex.env, fresh, exMouse, exMouse_hist, fresh_empty, ?_, by decide +kernel,
    fun b hb x hx => isBall_solid (key b hb x hx), by decide +kernel⟩
  intro j _ j1 j2 r hk
  have hk : mouseKind j = .gear j1 j2 r := hk
  unfold mouseKind at hk
  split at hk
  · cases hk
    exact ⟨by decide +kernel, by decide +kernel⟩
  · split at hk <;> cases hk

private def flipKind (j : Nat) : JKind Nat := if j = 2 then .gear 0 1 7 else .coord j
private def exFlipCalls : List (Call ℚ) :=
  [.createBody (Ex.body .static 0 1), .createBody (Ex.body .dynamic 0 5), .createBody (Ex.body .dynamic 1 0),
      .createJoint ⟨0, 1, true⟩, .createJoint ⟨0, 2, true⟩, .createJoint ⟨1, 2, true⟩]
private def exFlipWorld : World ℚ := (runAll Ex.env exFlipCalls Ex.w0).get (by decide +kernel)
private theorem exFlip_hist : WHist Ex.env exFlipWorld := runAll_hist exFlipCalls Ex.w0_hist (Option.some_get _).symm
private def exFlip : Scene ℚ Nat := ⟨exFlipWorld, flipKind, fun _ => 0⟩

/-- A world that cannot be read back: the joints of the gear joint end on dynamic bodies, but not on the bodies they are given. -/
theorem c100_false_gear : ∃ (env : Env ℚ) (e s : Scene ℚ Nat), WHist env s.world ∧ Empty e ∧ GearsLive s ∧ NoMouse s ∧
    (∀ j ∈ plainJoints s, s.world.typeOf (s.world.g.joints j).b = .dynamic) ∧
    (∀ b ∈ s.world.g.bodyList, 0 ≤ (s.world.phys b).linearDamping ∧ 0 ≤ (s.world.phys b).angularDamping) ∧
    (∀ b ∈ s.world.g.bodyList, ∀ x ∈ s.world.massList b, Solid x) ∧ Scene.load e s.save.2 = none := by
  have key : ∀ b ∈ exFlip.world.g.bodyList, ∀ x ∈ exFlip.world.massList b, isBall x = true := by decide +kernel
  refine ⟨Ex.env, fresh, exFlip, exFlip_hist, fresh_empty, ?_, ?_, by decide +kernel, by decide +kernel,
    fun b hb x hx => isBall_solid (key b hb x hx), by decide +kernel⟩
  · intro j _ j1 j2 r hk
    have hk : flipKind j = .gear j1 j2 r := hk
    unfold flipKind at hk
    split at hk
    · cases hk
      exact ⟨by decide +kernel, by decide +kernel⟩
    · cases hk
  · intro j _ p hk
    have hk : flipKind j = .mouse p := hk
    unfold flipKind at hk
    split at hk <;> cases hk

end B2.Props
