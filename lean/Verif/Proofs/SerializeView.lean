import Verif.Proofs.SerializeJoint

/-! What is written, and what is there after loading, seen without pointers. -/
namespace B2
set_option linter.unusedSectionVars false
open World Spec

section
variable {F P : Type} [Field F] [LinearOrder F] [IsStrictOrderedRing F] [Elem F]

/-- A written joint, seen as a joint. -/
def SavedJoint.view (d : SavedJoint P) : JointView P :=
  ⟨d.bodyA.toNat, d.bodyB.toNat, d.collideConnected, if d.coord then .coord d.params else .other d.params⟩

/-- A written gear joint, seen as a gear joint. -/
def SavedGear.view (d : SavedGear P) : GearView P :=
  ⟨d.bodyA.toNat, d.bodyB.toNat, d.collideConnected, d.joint1.toNat, d.joint2.toNat, d.ratio⟩

theorem number_index {s : Scene F P} (hn : s.world.g.jointList.Nodup) {j : Nat} (hj : j ∈ s.notGear) : s.number.index j = (s.notGear.idxOf j : Int) := by
  have h := foldl_number (β := Unit) (fun (_ : Int) i => (i : Int)) s.notGear 0 (s.world.g.jointList.foldl (fun ix j => upd ix j (-1)) s.index)
    (hn.filter _) j
  rw [if_pos hj] at h
  unfold Scene.number
  dsimp only
  rw [h]
  simp

theorem number_graph (s : Scene F P) : s.number.world.g = s.world.g ∧ s.number.kind = s.kind := ⟨rfl, rfl⟩

theorem saved_joints {env : Env F} {s : Scene F P} (h : WHist env s.world) :
    s.save.2.joints.map SavedJoint.view = (plainJoints s).map (jointView s) := by
  have hi := (whist_inv h).toWInv
  have hend := hi.joint.ends
  have key : ∀ l : List Nat, (∀ j ∈ l, j ∈ s.world.g.jointList) →
      ((l.filter fun j => !(s.kind j).isGear).filterMap s.number.saveJoint).map SavedJoint.view = (l.filter fun j => Plain (s.kind j)).map (jointView s) := by
    intro l
    induction l with
    | nil => intro _; rfl
    | cons j l ih =>
      intro hl
      have ih := ih fun x hx => hl x (List.mem_cons_of_mem _ hx)
      obtain ⟨-, ha, hb⟩ := hend j (hl j List.mem_cons_self)
      have ea : (s.number.world.phys (s.number.world.g.joints j).a).islandIndex = (s.world.g.bodyList.idxOf (s.world.g.joints j).a : Int) := number_island hi.body.nodup ha
      have eb : (s.number.world.phys (s.number.world.g.joints j).b).islandIndex = (s.world.g.bodyList.idxOf (s.world.g.joints j).b : Int) := number_island hi.body.nodup hb
      cases hk : s.kind j with
      | mouse p =>
        have hs : s.number.saveJoint j = none := by unfold Scene.saveJoint; dsimp only; rw [(number_graph s).2, hk]
        rw [List.filter_cons_of_pos (by simp [hk, JKind.isGear]), List.filterMap_cons_none hs, List.filter_cons_of_neg (by simp [hk, Plain])]
        exact ih
      | gear j1 j2 r =>
        rw [List.filter_cons_of_neg (by simp [hk, JKind.isGear]), List.filter_cons_of_neg (by simp [hk, Plain])]
        exact ih
      | coord p =>
        have hs : s.number.saveJoint j = some ⟨(s.world.g.bodyList.idxOf (s.world.g.joints j).a : Int), (s.world.g.bodyList.idxOf (s.world.g.joints j).b : Int),
            (s.world.g.joints j).collideConnected, true, p⟩ := by
          unfold Scene.saveJoint; dsimp only; rw [ea, eb, (number_graph s).2, hk]; rfl
        rw [List.filter_cons_of_pos (by simp [hk, JKind.isGear]), List.filterMap_cons_some hs, List.filter_cons_of_pos (by simp [hk, Plain]),
          List.map_cons, List.map_cons, ih]
        congr 1
        unfold SavedJoint.view jointView
        simp [hk]
      | other p =>
        have hs : s.number.saveJoint j = some ⟨(s.world.g.bodyList.idxOf (s.world.g.joints j).a : Int), (s.world.g.bodyList.idxOf (s.world.g.joints j).b : Int),
            (s.world.g.joints j).collideConnected, false, p⟩ := by
          unfold Scene.saveJoint; dsimp only; rw [ea, eb, (number_graph s).2, hk]; rfl
        rw [List.filter_cons_of_pos (by simp [hk, JKind.isGear]), List.filterMap_cons_some hs, List.filter_cons_of_pos (by simp [hk, Plain]),
          List.map_cons, List.map_cons, ih]
        congr 1
        unfold SavedJoint.view jointView
        simp [hk]
  exact key s.world.g.jointList fun _ => id

theorem saved_gears {env : Env F} {s : Scene F P} (h : WHist env s.world) (hm : NoMouse s) (hg : GearsLive s) :
    s.save.2.gears.map (fun d => some d.view) = (gearJoints s).map (gearView s) ∧
    ∀ d ∈ s.save.2.gears, d.joint1.toNat < (plainJoints s).length ∧ d.joint2.toNat < (plainJoints s).length := by
  have hi := (whist_inv h).toWInv
  have hend := hi.joint.ends
  have hpl : s.notGear = plainJoints s := by
    unfold Scene.notGear plainJoints
    refine List.filter_congr fun j hj => ?_
    cases hk : s.kind j with
    | mouse p => exact absurd hk (hm j hj p)
    | gear => rfl
    | coord => rfl
    | other => rfl
  have key : ∀ l : List Nat, (∀ j ∈ l, j ∈ s.world.g.jointList) →
      (((l.filter fun j => (s.kind j).isGear).filterMap s.number.saveGear).map (fun d => some d.view) = (l.filter fun j => (s.kind j).isGear).map (gearView s)) ∧
      ∀ d ∈ (l.filter fun j => (s.kind j).isGear).filterMap s.number.saveGear, d.joint1.toNat < (plainJoints s).length ∧ d.joint2.toNat < (plainJoints s).length := by
    intro l
    induction l with
    | nil => intro _; exact ⟨rfl, fun d hd => by cases hd⟩
    | cons j l ih =>
      intro hl
      have ih := ih fun x hx => hl x (List.mem_cons_of_mem _ hx)
      have hjm := hl j List.mem_cons_self
      obtain ⟨-, ha, hb⟩ := hend j hjm
      have ea : (s.number.world.phys (s.number.world.g.joints j).a).islandIndex = (s.world.g.bodyList.idxOf (s.world.g.joints j).a : Int) := number_island hi.body.nodup ha
      have eb : (s.number.world.phys (s.number.world.g.joints j).b).islandIndex = (s.world.g.bodyList.idxOf (s.world.g.joints j).b : Int) := number_island hi.body.nodup hb
      cases hk : s.kind j with
      | gear j1 j2 r =>
        obtain ⟨m1, m2⟩ := hg j hjm j1 j2 r hk
        have hs : s.number.saveGear j = some ⟨(s.world.g.bodyList.idxOf (s.world.g.joints j).a : Int), (s.world.g.bodyList.idxOf (s.world.g.joints j).b : Int),
            (s.world.g.joints j).collideConnected, ((plainJoints s).idxOf j1 : Int), ((plainJoints s).idxOf j2 : Int), r⟩ := by
          unfold Scene.saveGear; dsimp only; rw [ea, eb, (number_graph s).2, hk]; dsimp only
          rw [number_index hi.joint.nodup (by rw [hpl]; exact m1), number_index hi.joint.nodup (by rw [hpl]; exact m2), hpl]; rfl
        rw [List.filter_cons_of_pos (by simp [hk, JKind.isGear]), List.filterMap_cons_some hs, List.map_cons, List.map_cons, ih.1]
        refine ⟨?_, fun d hd => ?_⟩
        · congr 1
          unfold SavedGear.view gearView
          simp [hk]
        · rcases List.mem_cons.mp hd with rfl | hd
          · simp only [Int.toNat_natCast]
            exact ⟨List.idxOf_lt_length_of_mem m1, List.idxOf_lt_length_of_mem m2⟩
          · exact ih.2 d hd
      | mouse p => rw [List.filter_cons_of_neg (by simp [hk, JKind.isGear])]; exact ih
      | coord p => rw [List.filter_cons_of_neg (by simp [hk, JKind.isGear])]; exact ih
      | other p => rw [List.filter_cons_of_neg (by simp [hk, JKind.isGear])]; exact ih
  exact key s.world.g.jointList fun _ => id

theorem range_filter_split (k m : Nat) (p : Nat → Bool) (h1 : ∀ i, i < k → p i = true) (h2 : ∀ i, i < m → p (k + i) = false) :
    (List.range (k + m)).reverse.filter p = (List.range k).reverse := by
  rw [List.filter_reverse, List.range_add, List.filter_append, List.filter_map]
  rw [List.filter_eq_self.mpr fun x hx => h1 x (List.mem_range.mp hx)]
  rw [List.filter_eq_nil_iff.mpr fun x hx => by simpa using h2 x (List.mem_range.mp hx)]
  simp

theorem range_filter_split' (k m : Nat) (p : Nat → Bool) (h1 : ∀ i, i < k → p i = false) (h2 : ∀ i, i < m → p (k + i) = true) :
    (List.range (k + m)).reverse.filter p = ((List.range m).map (k + ·)).reverse := by
  rw [List.filter_reverse, List.range_add, List.filter_append, List.filter_map]
  rw [List.filter_eq_nil_iff.mpr fun x hx => by simpa using h1 x (List.mem_range.mp hx)]
  rw [List.filter_eq_self.mpr fun x hx => by simpa using h2 x (List.mem_range.mp hx)]
  simp

theorem range_map_get {α β : Type} (l : List α) (f : Nat → β) (g : α → β) (h : ∀ i x, l[i]? = some x → f i = g x) : (List.range l.length).map f = l.map g := by
  refine List.ext_getElem (by simp) fun i h1 h2 => ?_
  rw [List.getElem_map, List.getElem_map, List.getElem_range]
  exact h i _ (List.getElem?_eq_getElem _)

theorem loaded_plain {env : Env F} {d : SavedWorld F P} {s : Scene F P} (h : AllLoaded env d s) : plainJoints s = (List.range d.joints.length).reverse := by
  unfold plainJoints
  rw [h.list]
  refine range_filter_split _ _ _ (fun i hi => ?_) fun i hi => ?_
  · obtain ⟨-, -, -, hk⟩ := h.joint i _ (List.getElem?_eq_getElem hi)
    rw [hk]
    split <;> rfl
  · obtain ⟨-, -, -, j1, j2, hk, -⟩ := h.gear i _ (List.getElem?_eq_getElem hi)
    rw [hk]; rfl

theorem loaded_gears {env : Env F} {d : SavedWorld F P} {s : Scene F P} (h : AllLoaded env d s) :
    gearJoints s = ((List.range d.gears.length).map (d.joints.length + ·)).reverse := by
  unfold gearJoints
  rw [h.list]
  refine range_filter_split' _ _ _ (fun i hi => ?_) fun i hi => ?_
  · obtain ⟨-, -, -, hk⟩ := h.joint i _ (List.getElem?_eq_getElem hi)
    rw [hk]
    split <;> rfl
  · obtain ⟨-, -, -, j1, j2, hk, -⟩ := h.gear i _ (List.getElem?_eq_getElem hi)
    rw [hk]; rfl

theorem loaded_nodup {env : Env F} {d : SavedWorld F P} {s : Scene F P} (h : AllLoaded env d s) : s.world.g.bodyList.Nodup :=
  (whist_inv h.hist).toWInv.body.nodup

theorem loaded_views {env : Env F} {d : SavedWorld F P} {s : Scene F P} (h : AllLoaded env d s) :
    (plainJoints s).map (jointView s) = (d.joints.map SavedJoint.view).reverse := by
  rw [loaded_plain h, List.map_reverse]
  congr 1
  refine range_map_get _ _ _ fun i x hi => ?_
  obtain ⟨h1, h2, h3, h4⟩ := h.joint i x hi
  unfold jointView SavedJoint.view
  dsimp only
  rw [pick_idx (loaded_nodup h) h1, pick_idx (loaded_nodup h) h2, h3, h4]

theorem pick_append {l extra : List Nat} {i : Int} {x : Nat} (hi : i.toNat < l.length) (e : Scene.pick (l ++ extra) i = some x) : Scene.pick l i = some x := by
  unfold Scene.pick at e ⊢
  split
  · rename_i h; rw [if_pos h] at e; cases e
  · rename_i h
    rw [if_neg h, List.getElem?_append_left hi] at e
    exact e

theorem loaded_gearViews {env : Env F} {d : SavedWorld F P} {s : Scene F P} (h : AllLoaded env d s)
    (hd : ∀ x ∈ d.gears, x.joint1.toNat < d.joints.length ∧ x.joint2.toNat < d.joints.length) :
    (gearJoints s).map (gearView s) = (d.gears.map fun x => some x.view).reverse := by
  rw [loaded_gears h, List.map_reverse, List.map_map]
  congr 1
  refine range_map_get _ _ _ fun i x hi => ?_
  obtain ⟨h1, h2, h3, j1, j2, h4, ⟨ex1, h5⟩, ex2, h6⟩ := h.gear i x hi
  obtain ⟨l1, l2⟩ := hd x (List.mem_of_getElem? hi)
  have hn : ((List.range d.joints.length).reverse).Nodup := List.nodup_reverse.mpr List.nodup_range
  have k1 := pick_idx hn (pick_append (by simpa using l1) h5)
  have k2 := pick_idx hn (pick_append (by simpa using l2) h6)
  unfold gearView SavedGear.view
  simp only [Function.comp_apply, h4]
  rw [pick_idx (loaded_nodup h) h1, pick_idx (loaded_nodup h) h2, h3, loaded_plain h, k1, k2]

end
end B2
