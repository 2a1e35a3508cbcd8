import Verif.Proofs.Serialize

/-! Loading joints. -/
namespace B2
set_option linter.unusedSectionVars false
open World Spec

section
variable {F P : Type} [Field F] [LinearOrder F] [IsStrictOrderedRing F] [Elem F]

/-- The worlds have the same bodies and fixtures. -/
structure SameBodies (w w' : World F) : Prop where
  phys : w'.phys = w.phys
  fixtures : w'.g.fixtures = w.g.fixtures
  fattr : w'.fattr = w.fattr
  list : w'.g.bodyList = w.g.bodyList
  gravity : w'.gravity = w.gravity
  type : ∀ b, w'.typeOf b = w.typeOf b
  enabled : ∀ b, (w'.g.bodies b).enabled = (w.g.bodies b).enabled
  fixs : ∀ b, (w'.g.bodies b).fixtures = (w.g.bodies b).fixtures

namespace SameBodies
variable {w w' w'' : World F}
theorem refl (w : World F) : SameBodies w w := ⟨rfl, rfl, rfl, rfl, rfl, fun _ => rfl, fun _ => rfl, fun _ => rfl⟩
theorem trans (h : SameBodies w w') (h' : SameBodies w' w'') : SameBodies w w'' :=
  ⟨h'.phys.trans h.phys, h'.fixtures.trans h.fixtures, h'.fattr.trans h.fattr, h'.list.trans h.list, h'.gravity.trans h.gravity,
    fun b => (h'.type b).trans (h.type b), fun b => (h'.enabled b).trans (h.enabled b), fun b => (h'.fixs b).trans (h.fixs b)⟩
theorem setJoints (w : World F) (b : Nat) (l : List (Nat × Nat)) : SameBodies w (w.setBody b { w.g.bodies b with joints := l }) :=
  ⟨rfl, rfl, rfl, rfl, rfl, proj_upd (fun x : BodyS => x.type) rfl, proj_upd (fun x : BodyS => x.enabled) rfl, proj_upd (fun x : BodyS => x.fixtures) rfl⟩

theorem isBody (h : SameBodies w w') {b : Nat} {s : SavedBody F} (hs : IsBody w b s) : IsBody w' b s := by
  have h1 : w'.fixDef = w.fixDef := by funext f; unfold World.fixDef; rw [h.fixtures, h.fattr]
  have h2 : w'.massList b = w.massList b := by unfold World.massList; rw [h.fixtures, h.fattr, h.fixs]
  exact ⟨(h.type b).trans hs.type, (h.enabled b).trans hs.enabled, by rw [h1, h.fixs]; exact hs.fixtures, by rw [h.phys]; exact hs.derived,
    by rw [h2, h.phys]; exact hs.mass⟩
end SameBodies

theorem flagContacts_eq (w : World F) (a b : Nat) : w.flagContacts a b = { w with cst := (w.flagContacts a b).cst } := by
  unfold flagContacts
  refine foldl_inv (fun v : World F => v = { w with cst := v.cst }) rfl ?_
  intro e _ v hv
  split
  · show v.setCst e.1 _ = _
    rw [hv]; rfl
  · exact hv

/-- What `create_joint` does. -/
theorem createJoint_cases {w w' : World F} {d : JointS} {j : Nat} (e : w.createJoint d = some (w', j)) :
    j = w.g.nextJoint ∧ SameBodies w w' ∧ w'.g.jointList = j :: w.g.jointList ∧ w'.g.joints = upd w.g.joints j d ∧ w'.g.nextJoint = j + 1 := by
  unfold createJoint at e
  split at e
  · cases e
  split at e
  · cases e
  dsimp only at e
  obtain ⟨h1, rfl⟩ := Prod.mk.inj (Option.some.inj e)
  refine ⟨rfl, ?_⟩
  set w1 : World F := { w with
      g := { w.g with joints := upd w.g.joints w.g.nextJoint d, nextJoint := w.g.nextJoint + 1
                      jointList := w.g.nextJoint :: w.g.jointList, jointCount := w.g.jointCount + 1 }
      jIsland := upd w.jIsland w.g.nextJoint false } with hw1
  have s1 : SameBodies w w1 := ⟨rfl, rfl, rfl, rfl, rfl, fun _ => rfl, fun _ => rfl, fun _ => rfl⟩
  have s2 := SameBodies.setJoints w1 d.a ((w.g.nextJoint, d.b) :: (w1.g.bodies d.a).joints)
  set w2 := w1.setBody d.a { w1.g.bodies d.a with joints := (w.g.nextJoint, d.b) :: (w1.g.bodies d.a).joints } with hw2
  have s3 := SameBodies.setJoints w2 d.b ((w.g.nextJoint, d.a) :: (w2.g.bodies d.b).joints)
  set w3 := w2.setBody d.b { w2.g.bodies d.b with joints := (w.g.nextJoint, d.a) :: (w2.g.bodies d.b).joints } with hw3
  have h3 : w3.g.jointList = w.g.nextJoint :: w.g.jointList ∧ w3.g.joints = upd w.g.joints w.g.nextJoint d ∧ w3.g.nextJoint = w.g.nextJoint + 1 := ⟨rfl, rfl, rfl⟩
  have s4 : SameBodies w w3 := (s1.trans s2).trans s3
  rw [← h1]
  split
  · rw [flagContacts_eq]
    exact ⟨s4.trans ⟨rfl, rfl, rfl, rfl, rfl, fun _ => rfl, fun _ => rfl, fun _ => rfl⟩, h3⟩
  · exact ⟨s4, h3⟩

theorem pick_mem {l : List Nat} {i : Int} {x : Nat} (e : Scene.pick l i = some x) : x ∈ l := by
  unfold Scene.pick at e
  split at e
  · cases e
  · exact List.mem_of_getElem? e

theorem pick_idx {l : List Nat} (hn : l.Nodup) {i : Int} {x : Nat} (e : Scene.pick l i = some x) : l.idxOf x = i.toNat := by
  unfold Scene.pick at e
  split at e
  · cases e
  · obtain ⟨h, rfl⟩ := List.getElem?_eq_some_iff.mp e
    exact hn.idxOf_getElem _ h

/-- What has been loaded when the joints `l` have been read. -/
structure JLoaded (env : Env F) (w0 : World F) (l : List (SavedJoint P)) (s : Scene F P) : Prop where
  hist : WHist env s.world
  same : SameBodies w0 s.world
  list : s.world.g.jointList = (List.range l.length).reverse
  next : s.world.g.nextJoint = l.length
  joint : ∀ i d, l[i]? = some d → Scene.pick w0.g.bodyList d.bodyA = some (s.world.g.joints i).a ∧
    Scene.pick w0.g.bodyList d.bodyB = some (s.world.g.joints i).b ∧ (s.world.g.joints i).collideConnected = d.collideConnected ∧
    s.kind i = if d.coord then .coord d.params else .other d.params

theorem getElem?_snoc {α : Type} {l : List α} {x y : α} {i : Nat} (h : (l ++ [x])[i]? = some y) :
    (i < l.length ∧ l[i]? = some y) ∨ (i = l.length ∧ y = x) := by
  rcases Nat.lt_or_ge i l.length with hlt | hge
  · rw [List.getElem?_append_left hlt] at h
    exact Or.inl ⟨hlt, h⟩
  · rw [List.getElem?_append_right hge] at h
    have h0 : i - l.length = 0 := by
      rcases Nat.eq_zero_or_pos (i - l.length) with h' | h'
      · exact h'
      · rw [List.getElem?_eq_none (by rw [List.length_singleton]; omega)] at h; cases h
    rw [h0] at h
    cases h
    exact Or.inr ⟨by omega, rfl⟩

theorem loadJoint_loaded {env : Env F} {w0 : World F} {l : List (SavedJoint P)} {s s' : Scene F P} {d : SavedJoint P} (h : JLoaded env w0 l s)
    (e : Scene.loadJoint w0.g.bodyList s d = some s') : JLoaded env w0 (l ++ [d]) s' := by
  unfold Scene.loadJoint at e
  simp only [Option.bind_eq_bind, Option.bind_eq_some_iff, Prod.exists] at e
  obtain ⟨a, ha, b, hb, w, j, e1, e2⟩ := e
  cases e2
  obtain ⟨h1, h2, h3, h4, h5⟩ := createJoint_cases e1
  have hj : j = l.length := h1.trans h.next
  refine ⟨.call (.createJoint ⟨a, b, d.collideConnected⟩) h.hist ⟨?_, ?_⟩ (by simp only [Call.run, e1, Option.map_some]), h.same.trans h2, ?_, ?_, ?_⟩
  · rw [h.same.list]; exact pick_mem ha
  · rw [h.same.list]; exact pick_mem hb
  · dsimp only
    rw [h3, h.list, hj, List.length_append, List.length_singleton, List.range_succ, List.reverse_append]; rfl
  · dsimp only; rw [h5, hj]; simp
  · intro i x hi
    dsimp only
    rw [h4]
    rcases getElem?_snoc hi with ⟨hlt, hi⟩ | ⟨rfl, rfl⟩
    · have hne : i ≠ j := by omega
      rw [upd_other _ _ hne, upd_other _ _ hne]
      exact h.joint i x hi
    · rw [← hj, upd_same, upd_same]
      exact ⟨ha, hb, rfl, rfl⟩

theorem loadJoints {env : Env F} {w0 : World F} : ∀ (l done : List (SavedJoint P)) {s s' : Scene F P}, JLoaded env w0 done s →
    l.foldlM (Scene.loadJoint w0.g.bodyList) s = some s' → JLoaded env w0 (done ++ l) s' := by
  intro l
  induction l with
  | nil => intro done s s' h e; cases e; rw [List.append_nil]; exact h
  | cons d l ih =>
    intro done s s' h e
    rw [List.foldlM_cons] at e
    simp only [Option.bind_eq_bind, Option.bind_eq_some_iff] at e
    obtain ⟨s1, e1, e2⟩ := e
    have := ih (done ++ [d]) (loadJoint_loaded h e1) e2
    simpa using this

/-- What has been loaded when the gear joints `l` have been read after `k` other joints. -/
structure GLoaded (env : Env F) (w0 : World F) (mid : Scene F P) (l : List (SavedGear P)) (r : Scene F P × List Nat) : Prop where
  hist : WHist env r.1.world
  same : SameBodies w0 r.1.world
  list : r.1.world.g.jointList = (List.range (mid.world.g.nextJoint + l.length)).reverse
  next : r.1.world.g.nextJoint = mid.world.g.nextJoint + l.length
  all : ∃ extra, r.2 = mid.world.g.jointList ++ extra
  before : ∀ i, i < mid.world.g.nextJoint → r.1.world.g.joints i = mid.world.g.joints i ∧ r.1.kind i = mid.kind i
  gear : ∀ i d, l[i]? = some d → Scene.pick w0.g.bodyList d.bodyA = some (r.1.world.g.joints (mid.world.g.nextJoint + i)).a ∧
    Scene.pick w0.g.bodyList d.bodyB = some (r.1.world.g.joints (mid.world.g.nextJoint + i)).b ∧
    (r.1.world.g.joints (mid.world.g.nextJoint + i)).collideConnected = d.collideConnected ∧
    ∃ j1 j2, r.1.kind (mid.world.g.nextJoint + i) = .gear j1 j2 d.ratio ∧
      (∃ extra, Scene.pick (mid.world.g.jointList ++ extra) d.joint1 = some j1) ∧ (∃ extra, Scene.pick (mid.world.g.jointList ++ extra) d.joint2 = some j2)

theorem loadGear_loaded {env : Env F} {w0 : World F} {mid : Scene F P} {l : List (SavedGear P)} {r r' : Scene F P × List Nat} {d : SavedGear P}
    (h : GLoaded env w0 mid l r) (e : Scene.loadGear w0.g.bodyList r d = some r') : GLoaded env w0 mid (l ++ [d]) r' := by
  obtain ⟨s, joints⟩ := r
  unfold Scene.loadGear at e
  simp only [Option.bind_eq_bind, Option.bind_eq_some_iff] at e
  obtain ⟨a, ha, b, hb, j1, h1, j2, h2, e⟩ := e
  split at e
  swap
  · cases e
  simp only [Option.bind_eq_some_iff, Prod.exists] at e
  obtain ⟨w, j, e1, e2⟩ := e
  cases e2
  obtain ⟨k1, k2, k3, k4, k5⟩ := createJoint_cases e1
  have hj : j = mid.world.g.nextJoint + l.length := k1.trans h.next
  obtain ⟨extra, hex⟩ := h.all
  dsimp only at hex
  have hl := h.list
  dsimp only at hl
  refine ⟨.call (.createJoint ⟨a, b, d.collideConnected⟩) h.hist ⟨?_, ?_⟩ (by simp only [Call.run, e1, Option.map_some]), h.same.trans k2, ?_, ?_, ?_, ?_, ?_⟩
  · rw [h.same.list]; exact pick_mem ha
  · rw [h.same.list]; exact pick_mem hb
  · dsimp only
    rw [k3, hl, hj, List.length_append, List.length_singleton, ← Nat.add_assoc, List.range_succ, List.reverse_append]; rfl
  · dsimp only; rw [k5, hj]; simp; omega
  · exact ⟨extra ++ [j], by dsimp only; rw [hex, List.append_assoc]⟩
  · intro i hi
    have hne : i ≠ j := by omega
    dsimp only
    rw [k4, upd_other _ _ hne, upd_other _ _ hne]
    exact h.before i hi
  · intro i x hi
    dsimp only
    rw [k4]
    rcases getElem?_snoc hi with ⟨hlt, hi⟩ | ⟨rfl, rfl⟩
    · have hne : mid.world.g.nextJoint + i ≠ j := by omega
      rw [upd_other _ _ hne, upd_other _ _ hne]
      exact h.gear i x hi
    · rw [← hj, upd_same, upd_same]
      exact ⟨ha, hb, rfl, j1, j2, rfl, ⟨extra, by rw [← hex]; exact h1⟩, extra, by rw [← hex]; exact h2⟩

theorem loadGears {env : Env F} {w0 : World F} {mid : Scene F P} : ∀ (l done : List (SavedGear P)) {r r' : Scene F P × List Nat}, GLoaded env w0 mid done r →
    l.foldlM (Scene.loadGear w0.g.bodyList) r = some r' → GLoaded env w0 mid (done ++ l) r' := by
  intro l
  induction l with
  | nil => intro done s s' h e; cases e; rw [List.append_nil]; exact h
  | cons d l ih =>
    intro done s s' h e
    rw [List.foldlM_cons] at e
    simp only [Option.bind_eq_bind, Option.bind_eq_some_iff] at e
    obtain ⟨s1, e1, e2⟩ := e
    have := ih (done ++ [d]) (loadGear_loaded h e1) e2
    simpa using this

/-- What is there after loading. -/
structure AllLoaded (env : Env F) (d : SavedWorld F P) (s : Scene F P) : Prop where
  hist : WHist env s.world
  gravity : s.world.gravity = d.gravity
  bodies : s.world.g.bodyList = (List.range d.bodies.length).reverse
  body : ∀ i x, d.bodies[i]? = some x → IsBody s.world i x
  list : s.world.g.jointList = (List.range (d.joints.length + d.gears.length)).reverse
  joint : ∀ i x, d.joints[i]? = some x → Scene.pick s.world.g.bodyList x.bodyA = some (s.world.g.joints i).a ∧
    Scene.pick s.world.g.bodyList x.bodyB = some (s.world.g.joints i).b ∧ (s.world.g.joints i).collideConnected = x.collideConnected ∧
    s.kind i = if x.coord then .coord x.params else .other x.params
  gear : ∀ i x, d.gears[i]? = some x → Scene.pick s.world.g.bodyList x.bodyA = some (s.world.g.joints (d.joints.length + i)).a ∧
    Scene.pick s.world.g.bodyList x.bodyB = some (s.world.g.joints (d.joints.length + i)).b ∧
    (s.world.g.joints (d.joints.length + i)).collideConnected = x.collideConnected ∧
    ∃ j1 j2, s.kind (d.joints.length + i) = .gear j1 j2 x.ratio ∧
      (∃ extra, Scene.pick ((List.range d.joints.length).reverse ++ extra) x.joint1 = some j1) ∧
      (∃ extra, Scene.pick ((List.range d.joints.length).reverse ++ extra) x.joint2 = some j2)

theorem load_spec (env : Env F) {e s : Scene F P} {d : SavedWorld F P} (he : Empty e) (h : Scene.load e d = some s) : AllLoaded env d s := by
  unfold Scene.load at h
  simp only [Option.bind_eq_bind, Option.bind_eq_some_iff] at h
  obtain ⟨w, h1, m, h2, r, h3, h4⟩ := h
  cases h4
  have hw := loadBodies d.bodies [] (loaded_empty env he d.gravity) h1
  rw [List.nil_append] at hw
  have hj0 : JLoaded (P := P) env w [] { e with world := w } :=
    ⟨hw.hist, .refl _, hw.joints, hw.nextJoint, fun i x hi => by simp at hi⟩
  have hm := loadJoints d.joints [] hj0 h2
  rw [List.nil_append] at hm
  have hg0 : GLoaded (P := P) env w m [] (m, m.world.g.jointList) :=
    ⟨hm.hist, hm.same, by dsimp only; rw [hm.list, hm.next]; rfl, rfl, ⟨[], by simp⟩, fun _ _ => ⟨rfl, rfl⟩, fun i x hi => by simp at hi⟩
  have hr := loadGears d.gears [] hg0 h3
  rw [List.nil_append] at hr
  have hb := hr.same.list
  have hn := hm.next
  refine ⟨hr.hist, hr.same.gravity.trans hw.gravity, hb.trans hw.list, fun i x hi => hr.same.isBody (hw.body i x hi), by rw [hr.list, hn], fun i x hi => ?_, fun i x hi => ?_⟩
  · have hlt : i < m.world.g.nextJoint := by rw [hn]; exact (List.getElem?_eq_some_iff.mp hi).1
    rw [hb, (hr.before i hlt).1, (hr.before i hlt).2]
    exact hm.joint i x hi
  · have := hr.gear i x hi
    rw [hb]
    rw [hn, hm.list] at this
    exact this

end
end B2
