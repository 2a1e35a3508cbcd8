import Verif.Proofs.WorldCarry

/-! Joints. -/
namespace B2
set_option linter.unusedSectionVars false
open Spec

section
variable {F : Type} [Field F] [LinearOrder F] [IsStrictOrderedRing F] [Elem F]

/-- Only joints and joint edges differ. -/
structure JFrame (g g' : Graph F) : Prop where
  eq : g' = { g with bodies := g'.bodies, joints := g'.joints, jointList := g'.jointList, jointCount := g'.jointCount, nextJoint := g'.nextJoint }
  body : ∀ b, g'.bodies b = { g.bodies b with joints := (g'.bodies b).joints }

theorem JFrame.refl (g : Graph F) : JFrame g g := ⟨rfl, fun _ => rfl⟩
theorem JFrame.trans {g g' g'' : Graph F} (h : JFrame g g') (h' : JFrame g' g'') : JFrame g g'' :=
  ⟨by rw [h'.eq, h.eq], fun b => by
    have e := h'.body b
    rw [h.body b] at e
    exact e⟩
theorem JFrame.contactList {g g' : Graph F} (h : JFrame g g') : g'.contactList = g.contactList := by rw [h.eq]
theorem JFrame.contacts {g g' : Graph F} (h : JFrame g g') : g'.contacts = g.contacts := by rw [h.eq]
theorem JFrame.fixtures {g g' : Graph F} (h : JFrame g g') : g'.fixtures = g.fixtures := by rw [h.eq]
theorem JFrame.bodyList {g g' : Graph F} (h : JFrame g g') : g'.bodyList = g.bodyList := by rw [h.eq]
theorem JFrame.nextBody {g g' : Graph F} (h : JFrame g g') : g'.nextBody = g.nextBody := by rw [h.eq]
theorem JFrame.type {g g' : Graph F} (h : JFrame g g') (b : Nat) : (g'.bodies b).type = (g.bodies b).type := by rw [h.body b]
theorem JFrame.enabled {g g' : Graph F} (h : JFrame g g') (b : Nat) : (g'.bodies b).enabled = (g.bodies b).enabled := by rw [h.body b]
theorem JFrame.live {g g' : Graph F} (h : JFrame g g') (f i : Nat) : Live g' f i ↔ Live g f i := by
  unfold Live; simp only [h.bodyList, h.fixtures, h.enabled]

theorem JFrame.ginv {g g' : Graph F} (h : JFrame g g') (hg : GInv g) (hj : JointInv g') : GInv g' := by
  refine ⟨hg.link.congr h.contactList (by rw [h.eq]) (by rw [h.eq]) h.contacts (fun f => by rw [h.fixtures]) (fun b => by rw [h.body b]), hj,
    hg.body.congr h.bodyList (by rw [h.eq]) h.nextBody (by rw [h.eq]) h.fixtures (fun b => by rw [h.body b]) (fun b => by rw [h.body b]) h.enabled, ?_, ?_⟩
  · intro c hc
    rw [h.contactList] at hc
    exact (hg.ok c hc).congr (by rw [h.contacts]) (fun f => by rw [h.fixtures]) (fun f => by rw [h.fixtures]) h.type (fun f i => (h.live f i).mpr)
  · rw [h.contactList, h.contacts]; exact hg.uniq

theorem JFrame.winv {w w' : World F} (h : JFrame w.g w'.g) (hb : w'.bp = w.bp) (hw : WInv w) (hj : JointInv w'.g) : WInv w' := by
  obtain ⟨gh, buf, rep, hp⟩ := hw.prox
  refine ⟨h.ginv hw.toGInv hj, gh, buf, rep, ?_⟩
  rw [hb]
  exact hp.congr (fun f => by rw [h.fixtures]) h.live

namespace World

theorem flagContacts_fold (l : List (Nat × Nat)) (a : Nat) (w : World F) :
    l.foldl (fun w e => if e.2 = a then w.setCst e.1 { w.cst e.1 with filter := true } else w) w =
      { w with cst := fun c => if ∃ e ∈ l, e.2 = a ∧ e.1 = c then { w.cst c with filter := true } else w.cst c } := by
  classical
  induction l generalizing w with
  | nil => simp
  | cons e l ih =>
    rw [List.foldl_cons, ih]
    by_cases he : e.2 = a
    · simp only [if_pos he, setCst]
      congr 1
      funext c
      by_cases hc : c = e.1
      · subst hc
        rw [upd_same]
        simp [he]
      · rw [upd_other _ _ hc]
        have : (∃ e' ∈ e :: l, e'.2 = a ∧ e'.1 = c) ↔ ∃ e' ∈ l, e'.2 = a ∧ e'.1 = c := by
          simp [he, Ne.symm hc]
        simp only [this]
    · simp only [if_neg he]
      congr 1
      funext c
      have : (∃ e' ∈ e :: l, e'.2 = a ∧ e'.1 = c) ↔ ∃ e' ∈ l, e'.2 = a ∧ e'.1 = c := by
        simp [he]
      simp only [this]

/-- `flag_contacts` raises the filter flag of the contacts between the two bodies and changes nothing else. -/
theorem flagContacts_spec {w : World F} (h : LinkInv w.g) (a b : Nat) :
    (w.flagContacts a b) = { w with cst := (w.flagContacts a b).cst } ∧
    (∀ c, (w.flagContacts a b).cst c = { w.cst c with filter := ((w.flagContacts a b).cst c).filter }) ∧
    (∀ c, ((w.flagContacts a b).cst c).filter = true ↔ (w.cst c).filter = true ∨ (c ∈ w.g.contactList ∧ w.g.joins c a b)) := by
  classical
  unfold flagContacts
  rw [flagContacts_fold]
  refine ⟨rfl, fun c => ?_, fun c => ?_⟩
  · dsimp only
    split <;> rfl
  · dsimp only
    have hiff : (∃ e ∈ (w.g.bodies b).contacts, e.2 = a ∧ e.1 = c) ↔ c ∈ w.g.contactList ∧ w.g.joins c a b := by
      have hs : w.g.joins c a b ↔ w.g.joins c b a := by unfold Graph.joins; tauto
      rw [hs, ← h.edges]
      constructor
      · rintro ⟨⟨x, y⟩, h1, rfl, rfl⟩; exact h1
      · intro h1; exact ⟨_, h1, rfl, rfl⟩
    rw [← hiff]
    split
    · rename_i hx; simp [hx]
    · rename_i hx; simp [hx]

/-- Insertion of a joint. -/
theorem createJoint_spec {w w' : World F} {d : JointS} {j : Nat} (hw : GInv w.g) (hA : d.a ∈ w.g.bodyList) (hB : d.b ∈ w.g.bodyList)
    (e : w.createJoint d = some (w', j)) :
    j = w.g.nextJoint ∧ w.locked = false ∧ d.a ≠ d.b ∧ JFrame w.g w'.g ∧ JointInv w'.g ∧ Rest w w' ∧ w'.bp = w.bp ∧ w'.paabb = w.paabb ∧
    w'.phys = w.phys ∧ w'.fattr = w.fattr ∧ w'.log = w.log ∧ w'.tick = w.tick ∧ w'.g.jointList = j :: w.g.jointList ∧ w'.g.joints = upd w.g.joints j d ∧
    (∀ c, w'.cst c = { w.cst c with filter := (w'.cst c).filter }) ∧
    (∀ c, (w'.cst c).filter = true ↔ (w.cst c).filter = true ∨ (d.collideConnected = false ∧ c ∈ w.g.contactList ∧ w.g.joins c d.a d.b)) := by
  unfold createJoint at e
  split at e
  · cases e
  rename_i hl
  split at e
  · cases e
  rename_i hne
  dsimp only at e
  set w1 : World F := { w with
      g := { w.g with joints := upd w.g.joints w.g.nextJoint d, nextJoint := w.g.nextJoint + 1
                      jointList := w.g.nextJoint :: w.g.jointList, jointCount := w.g.jointCount + 1 }
      jIsland := upd w.jIsland w.g.nextJoint false } with hw1
  set w2 := w1.setBody d.a { w1.g.bodies d.a with joints := (w.g.nextJoint, d.b) :: (w1.g.bodies d.a).joints } with hw2
  set w3 := w2.setBody d.b { w2.g.bodies d.b with joints := (w.g.nextJoint, d.a) :: (w2.g.bodies d.b).joints } with hw3
  have hb2 : ∀ b, b ≠ d.a → w2.g.bodies b = w.g.bodies b := fun b hb => upd_other _ _ hb
  have hb2a : w2.g.bodies d.a = { w.g.bodies d.a with joints := (w.g.nextJoint, d.b) :: (w.g.bodies d.a).joints } := upd_same _ _ _
  have hb3 : ∀ b, b ≠ d.a → b ≠ d.b → w3.g.bodies b = w.g.bodies b := fun b h1 h2 => (upd_other _ _ h2).trans (hb2 b h1)
  have hb3a : w3.g.bodies d.a = { w.g.bodies d.a with joints := (w.g.nextJoint, d.b) :: (w.g.bodies d.a).joints } := (upd_other _ _ hne).trans hb2a
  have hb3b : w3.g.bodies d.b = { w.g.bodies d.b with joints := (w.g.nextJoint, d.a) :: (w.g.bodies d.b).joints } := by
    have e1 : w3.g.bodies d.b = { w2.g.bodies d.b with joints := (w.g.nextJoint, d.a) :: (w2.g.bodies d.b).joints } := upd_same _ _ _
    rw [e1, hb2 d.b (Ne.symm hne)]
  have jf : JFrame w.g w3.g := by
    refine ⟨rfl, fun b => ?_⟩
    by_cases h1 : b = d.a
    · subst h1; rw [hb3a]
    · by_cases h2 : b = d.b
      · subst h2; rw [hb3b]
      · rw [hb3 b h1 h2]
  have hjn : w.g.nextJoint ∉ w.g.jointList := fun hm => absurd (hw.joint.lt _ hm) (lt_irrefl _)
  have hjnew : w3.g.joints = upd w.g.joints w.g.nextJoint d := rfl
  have hjoldj : ∀ j ∈ w.g.jointList, w3.g.joints j = w.g.joints j := fun j hj => upd_other _ _ (by rintro rfl; exact hjn hj)
  have hjl : w3.g.jointList = w.g.nextJoint :: w.g.jointList := rfl
  have hjinv : JointInv w3.g := by
    refine ⟨List.nodup_cons.mpr ⟨hjn, hw.joint.nodup⟩, ?_, ?_, ?_, ?_, ?_⟩
    · show w.g.jointCount + 1 = (w.g.nextJoint :: w.g.jointList).length
      rw [hw.joint.count]; rfl
    · intro j hj
      rw [hjl] at hj
      show j < w.g.nextJoint + 1
      rcases List.mem_cons.mp hj with rfl | hj
      · omega
      · have := hw.joint.lt j hj; omega
    · intro j hj
      rw [hjl] at hj
      rcases List.mem_cons.mp hj with rfl | hj
      · rw [hjnew, upd_same]; exact ⟨hne, hA, hB⟩
      · rw [hjoldj j hj]; exact hw.joint.ends j hj
    · intro b j o
      have hold : (j, o) ∈ (w.g.bodies b).joints → j ≠ w.g.nextJoint := by
        rintro hm rfl
        exact hjn ((hw.joint.edges _ _ _).mp hm).1
      rw [hjl, List.mem_cons]
      unfold Graph.jjoins
      by_cases hj : j = w.g.nextJoint
      · rw [hjnew, hj, upd_same]
        simp only [true_or, true_and]
        have hno : ∀ b, (w.g.nextJoint, o) ∉ (w.g.bodies b).joints := fun b hm => hjn ((hw.joint.edges _ _ _).mp hm).1
        by_cases h1 : b = d.a
        · subst h1
          rw [hb3a]
          simp only [List.mem_cons, Prod.mk.injEq, true_and, hno, or_false]
          constructor
          · rintro rfl; exact Or.inl rfl
          · rintro (h | ⟨h, -⟩)
            · exact h.symm
            · exact absurd h.symm hne
        · by_cases h2 : b = d.b
          · subst h2
            rw [hb3b]
            simp only [List.mem_cons, Prod.mk.injEq, true_and, hno, or_false]
            constructor
            · rintro rfl; exact Or.inr rfl
            · rintro (⟨h, -⟩ | h)
              · exact absurd h hne
              · exact h.symm
          · rw [hb3 b h1 h2]
            simp only [hno, false_iff]
            rintro (⟨h, -⟩ | ⟨h, -⟩)
            · exact h1 h.symm
            · exact h2 h.symm
      · rw [hjnew, upd_other _ _ hj]
        have e0 : (j, o) ∈ (w3.g.bodies b).joints ↔ (j, o) ∈ (w.g.bodies b).joints := by
          by_cases h1 : b = d.a
          · subst h1; rw [hb3a]; simp [hj]
          · by_cases h2 : b = d.b
            · subst h2; rw [hb3b]; simp [hj]
            · rw [hb3 b h1 h2]
        rw [e0, hw.joint.edges]
        simp [hj, Graph.jjoins]
    · intro b
      have h0 : ∀ b, w.g.nextJoint ∉ (w.g.bodies b).joints.map Prod.fst := by
        intro b hm
        obtain ⟨⟨x, o⟩, h1, rfl⟩ := List.mem_map.mp hm
        exact hjn ((hw.joint.edges _ _ _).mp h1).1
      by_cases h1 : b = d.a
      · subst h1; rw [hb3a]; exact List.nodup_cons.mpr ⟨h0 _, hw.joint.edgeNodup _⟩
      · by_cases h2 : b = d.b
        · subst h2; rw [hb3b]; exact List.nodup_cons.mpr ⟨h0 _, hw.joint.edgeNodup _⟩
        · rw [hb3 b h1 h2]; exact hw.joint.edgeNodup _
  have hl3 : LinkInv w3.g := (jf.ginv hw hjinv).link
  have hjoins : ∀ c a b, w3.g.joins c a b ↔ w.g.joins c a b := fun c a b => Graph.joins_congr rfl (fun _ => rfl)
  obtain ⟨e1, e2⟩ := Prod.mk.inj (Option.some.inj e)
  by_cases hcc : d.collideConnected = false
  · rw [if_pos hcc] at e1
    obtain ⟨k1, k2, k3⟩ := flagContacts_spec hl3 d.a d.b
    rw [e1] at k1 k2 k3
    rw [k1]
    refine ⟨e2.symm, by simpa using hl, hne, jf, hjinv, ⟨rfl⟩, rfl, rfl, rfl, rfl, rfl, rfl, by rw [← e2]; rfl, by rw [← e2]; rfl, k2, fun c => ?_⟩
    show (w'.cst c).filter = true ↔ _
    rw [k3, hjoins]
    have : c ∈ w3.g.contactList ↔ c ∈ w.g.contactList := Iff.rfl
    rw [this]
    simp [hcc]
    rfl
  · rw [if_neg hcc] at e1
    rw [← e1]
    exact ⟨e2.symm, by simpa using hl, hne, jf, hjinv, ⟨rfl⟩, rfl, rfl, rfl, rfl, rfl, rfl, by rw [← e2]; rfl, by rw [← e2]; rfl, fun _ => rfl, fun c =>
      ⟨Or.inl, fun h => h.resolve_right fun h => hcc h.1⟩⟩

/-- Removal of a joint. -/
theorem destroyJoint_spec {w : World F} {j : Nat} (hw : GInv w.g) (hl : w.locked = false) (hj : j ∈ w.g.jointList) :
    ∃ w', w.destroyJoint j = some w' ∧ JFrame w.g w'.g ∧ JointInv w'.g ∧ Rest w w' ∧ w'.bp = w.bp ∧ w'.paabb = w.paabb ∧
    w'.phys = ((w.setAwake (w.g.joints j).a true).setAwake (w.g.joints j).b true).phys ∧ w'.fattr = w.fattr ∧ w'.log = w.log ∧ w'.tick = w.tick ∧
    w'.jIsland = w.jIsland ∧ w'.g.jointList = w.g.jointList.erase j ∧ w'.g.joints = w.g.joints ∧ w'.g.nextJoint = w.g.nextJoint ∧
    (∀ c, w'.cst c = { w.cst c with filter := (w'.cst c).filter }) ∧
    (∀ c, (w'.cst c).filter = true ↔ (w.cst c).filter = true ∨
      ((w.g.joints j).collideConnected = false ∧ c ∈ w.g.contactList ∧ w.g.joins c (w.g.joints j).a (w.g.joints j).b)) := by
  set d := w.g.joints j with hd
  obtain ⟨hne, hA, hB⟩ := hw.joint.ends j hj
  rw [← hd] at hne hA hB
  have ea : (j, d.b) ∈ (w.g.bodies d.a).joints := (hw.joint.edges _ _ _).mpr ⟨hj, Or.inl ⟨rfl, rfl⟩⟩
  have eb : (j, d.a) ∈ (w.g.bodies d.b).joints := (hw.joint.edges _ _ _).mpr ⟨hj, Or.inr ⟨rfl, rfl⟩⟩
  have ea' : j ∈ (w.g.bodies d.a).joints.map Prod.fst := List.mem_map.mpr ⟨_, ea, rfl⟩
  have eb' : j ∈ (w.g.bodies d.b).joints.map Prod.fst := List.mem_map.mpr ⟨_, eb, rfl⟩
  have hpos : w.g.jointCount ≠ 0 := by
    rw [hw.joint.count]
    exact Nat.ne_of_gt (List.length_pos_of_mem hj)
  set w0 : World F := { w with g := { w.g with jointList := w.g.jointList.erase j } } with hw0
  set w1 := (w0.setAwake d.a true).setAwake d.b true with hw1
  set w2 := w1.setBody d.a { w1.g.bodies d.a with joints := (w.g.bodies d.a).joints.eraseP fun e => e.1 == j } with hw2
  set w3 := w2.setBody d.b { w2.g.bodies d.b with joints := (w.g.bodies d.b).joints.eraseP fun e => e.1 == j } with hw3
  set w4 : World F := { w3 with g := { w3.g with jointCount := w3.g.jointCount - 1 } } with hw4
  have hb2 : ∀ b, b ≠ d.a → w2.g.bodies b = w.g.bodies b := fun b hb => upd_other _ _ hb
  have hb2a : w2.g.bodies d.a = { w.g.bodies d.a with joints := (w.g.bodies d.a).joints.eraseP fun e => e.1 == j } := upd_same _ _ _
  have hb4 : ∀ b, b ≠ d.a → b ≠ d.b → w4.g.bodies b = w.g.bodies b := fun b h1 h2 => (upd_other _ _ h2).trans (hb2 b h1)
  have hb4a : w4.g.bodies d.a = { w.g.bodies d.a with joints := (w.g.bodies d.a).joints.eraseP fun e => e.1 == j } := (upd_other _ _ hne).trans hb2a
  have hb4b : w4.g.bodies d.b = { w.g.bodies d.b with joints := (w.g.bodies d.b).joints.eraseP fun e => e.1 == j } := by
    have e1 : w4.g.bodies d.b = { w2.g.bodies d.b with joints := (w.g.bodies d.b).joints.eraseP fun e => e.1 == j } := upd_same _ _ _
    rw [e1, hb2 d.b (Ne.symm hne)]
  have hrun : w.destroyJoint j = some (if d.collideConnected = false then w4.flagContacts d.a d.b else w4) := by
    unfold destroyJoint
    rw [if_neg (by simp [hl])]
    have r1 : removeOne w.g.jointList j = some (w.g.jointList.erase j) := by unfold removeOne; rw [if_pos hj]
    have r2 : removeEdge (w1.g.bodies d.a).joints j = some ((w.g.bodies d.a).joints.eraseP fun e => e.1 == j) := by
      unfold removeEdge
      exact if_pos ea'
    have r3 : removeEdge (w2.g.bodies d.b).joints j = some ((w.g.bodies d.b).joints.eraseP fun e => e.1 == j) := by
      unfold removeEdge
      rw [hb2 d.b (Ne.symm hne)]
      exact if_pos eb'
    simp only [Option.bind_eq_bind]
    rw [r1, Option.bind_some]
    simp only [← hd, ← hw0, ← hw1]
    rw [r2, Option.bind_some]
    simp only [← hw2]
    rw [r3, Option.bind_some]
    simp only [← hw3, ← hw4]
    exact if_neg hpos
  have jf : JFrame w.g w4.g := by
    refine ⟨rfl, fun b => ?_⟩
    by_cases h1 : b = d.a
    · rw [h1, hb4a]
    · by_cases h2 : b = d.b
      · rw [h2, hb4b]
      · rw [hb4 b h1 h2]
  have hjinv : JointInv w4.g := by
    have hmem : ∀ x, x ∈ w.g.jointList.erase j ↔ x ∈ w.g.jointList ∧ x ≠ j := fun x => by
      rw [hw.joint.nodup.mem_erase_iff]; tauto
    refine ⟨hw.joint.nodup.erase j, ?_, fun x hx => hw.joint.lt x ((hmem x).mp hx).1, fun x hx => hw.joint.ends x ((hmem x).mp hx).1, ?_, ?_⟩
    · show w.g.jointCount - 1 = (w.g.jointList.erase j).length
      rw [hw.joint.count, List.length_erase_of_mem hj]
    · intro b x o
      show _ ↔ x ∈ w.g.jointList.erase j ∧ w.g.jjoins x b o
      rw [hmem]
      by_cases h1 : b = d.a
      · rw [h1, hb4a]
        show (x, o) ∈ (w.g.bodies d.a).joints.eraseP (fun e => e.1 == j) ↔ _
        rw [mem_eraseP_fst (hw.joint.edgeNodup _), hw.joint.edges]
        tauto
      · by_cases h2 : b = d.b
        · rw [h2, hb4b]
          show (x, o) ∈ (w.g.bodies d.b).joints.eraseP (fun e => e.1 == j) ↔ _
          rw [mem_eraseP_fst (hw.joint.edgeNodup _), hw.joint.edges]
          tauto
        · rw [hb4 b h1 h2, hw.joint.edges]
          constructor
          · rintro ⟨a1, a2⟩
            refine ⟨⟨a1, ?_⟩, a2⟩
            rintro rfl
            rcases a2 with ⟨a2, -⟩ | ⟨a2, -⟩
            · exact h1 a2.symm
            · exact h2 a2.symm
          · rintro ⟨⟨a1, -⟩, a2⟩; exact ⟨a1, a2⟩
    · intro b
      by_cases h1 : b = d.a
      · rw [h1, hb4a]; exact nodup_eraseP_fst (hw.joint.edgeNodup _)
      · by_cases h2 : b = d.b
        · rw [h2, hb4b]; exact nodup_eraseP_fst (hw.joint.edgeNodup _)
        · rw [hb4 b h1 h2]; exact hw.joint.edgeNodup _
  have hl4 : LinkInv w4.g := (jf.ginv hw hjinv).link
  have hjoins : ∀ c a b, w4.g.joins c a b ↔ w.g.joins c a b := fun c a b => Graph.joins_congr rfl (fun _ => rfl)
  refine ⟨_, hrun, ?_⟩
  by_cases hcc : d.collideConnected = false
  · rw [if_pos hcc]
    obtain ⟨k1, k2, k3⟩ := flagContacts_spec hl4 d.a d.b
    generalize w4.flagContacts d.a d.b = w' at k1 k2 k3
    rw [k1]
    refine ⟨jf, hjinv, ⟨rfl⟩, rfl, rfl, rfl, rfl, rfl, rfl, rfl, rfl, rfl, rfl, k2, fun c => ?_⟩
    show (w'.cst c).filter = true ↔ _
    rw [k3, hjoins]
    have : c ∈ w4.g.contactList ↔ c ∈ w.g.contactList := Iff.rfl
    rw [this]
    simp only [hcc, true_and]
    rfl
  · rw [if_neg hcc]
    exact ⟨jf, hjinv, ⟨rfl⟩, rfl, rfl, rfl, rfl, rfl, rfl, rfl, rfl, rfl, rfl, fun _ => rfl, fun c =>
      ⟨Or.inl, fun h => h.resolve_right fun h => hcc h.1⟩⟩

theorem createJoint_tr {env : Env F} {w w' : World F} {d : JointS} {j : Nat} (hw : GInv w.g) (hA : d.a ∈ w.g.bodyList) (hB : d.b ∈ w.g.bodyList)
    (e : w.createJoint d = some (w', j)) : Tr env w w' := by
  obtain ⟨rfl, h2, h3, h4, h5, h6, h7, h8, h9, h10, h11, h12, h13, h14, h15, h16⟩ := createJoint_spec hw hA hB e
  refine ⟨fun hs b hb ht => ?_, fun hf c hc j hj hcc hjo => ?_, fun he => he.congr (ev := []) h4.contactList (fun c _ => by rw [h15 c]) h11 (by simp)⟩
  · rw [h9]
    rw [h4.nextBody] at hb
    refine hs b hb ?_
    rw [typeOf, h4.type] at ht
    exact ht
  · rw [h4.contactList] at hc
    rw [h13] at hj
    rw [Graph.joins_congr (g := w.g) (by rw [h4.contacts]) (fun f => by rw [h4.fixtures])] at hjo
    rw [h16]
    by_cases hjn : j = w.g.nextJoint
    · subst hjn
      rw [h14, upd_same] at hcc hjo
      exact Or.inr ⟨hcc, hc, hjo⟩
    · rw [h14, upd_other _ _ hjn] at hcc hjo
      exact Or.inl (hf c hc j (by simpa [hjn] using hj) hcc hjo)

theorem destroyJoint_tr {env : Env F} {w w' : World F} {j : Nat} (hw : GInv w.g) (hl : w.locked = false) (hj : j ∈ w.g.jointList)
    (e : w.destroyJoint j = some w') : Tr env w w' := by
  obtain ⟨w'', e', h4, h5, h6, h7, h8, h9, h10, h11, h12, h12', h13, h14, h14', h15, h16⟩ := destroyJoint_spec hw hl hj
  rw [e] at e'
  cases e'
  have q := (setAwake_quiet w (w.g.joints j).a true).trans (setAwake_quiet _ (w.g.joints j).b true)
  refine ⟨fun hs b hb ht => ?_, fun hf => hf.congr (by rw [h4.contactList]; exact fun _ h => h) (by rw [h13]; exact fun _ h => List.mem_of_mem_erase h)
    h14 h4.contacts (fun f => by rw [h4.fixtures]) (fun c hc => (h16 c).mpr (Or.inl hc)),
    fun he => he.congr (ev := []) h4.contactList (fun c _ => by rw [h15 c]) h11 (by simp)⟩
  rw [h4.nextBody] at hb
  rw [typeOf, h4.type] at ht
  rw [h9, q.awake b ht]
  exact hs b hb ht

end World
end
end B2
