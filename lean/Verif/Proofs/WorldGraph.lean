import Verif.Proofs.WorldFrame

/-! The contact and joint graph: consistency of lists and counters. -/
namespace B2
set_option linter.unusedSectionVars false

theorem mem_eraseP_fst {l : List (Nat × Nat)} {x : Nat} (h : (l.map Prod.fst).Nodup) (e : Nat × Nat) :
    e ∈ l.eraseP (fun e => e.1 == x) ↔ e ∈ l ∧ e.1 ≠ x := by
  induction l with
  | nil => simp
  | cons a l ih =>
    simp only [List.map_cons, List.nodup_cons] at h
    by_cases ha : a.1 = x
    · rw [List.eraseP_cons_of_pos (by simpa using ha)]
      constructor
      · intro he
        refine ⟨by simp [he], ?_⟩
        rintro rfl
        exact h.1 (by rw [ha]; exact List.mem_map_of_mem he)
      · rintro ⟨h1, h2⟩
        rcases List.mem_cons.mp h1 with rfl | h1
        · exact absurd ha h2
        · exact h1
    · rw [List.eraseP_cons_of_neg (by simpa using ha)]
      simp only [List.mem_cons, ih h.2]
      constructor
      · rintro (rfl | ⟨h1, h2⟩)
        · exact ⟨Or.inl rfl, ha⟩
        · exact ⟨Or.inr h1, h2⟩
      · rintro ⟨rfl | h1, h2⟩
        · exact Or.inl rfl
        · exact Or.inr ⟨h1, h2⟩

theorem nodup_eraseP_fst {l : List (Nat × Nat)} {x : Nat} (h : (l.map Prod.fst).Nodup) :
    ((l.eraseP (fun e => e.1 == x)).map Prod.fst).Nodup :=
  h.sublist (List.eraseP_sublist.map _)

section
variable {F : Type} [Field F] [LinearOrder F] [IsStrictOrderedRing F] [Elem F]

/-- Contact `c` joins bodies `b` and `o`. -/
def Graph.joins (g : Graph F) (c b o : Nat) : Prop :=
  ((g.fixtures (g.contacts c).fA).body = some b ∧ (g.fixtures (g.contacts c).fB).body = some o) ∨
  ((g.fixtures (g.contacts c).fB).body = some b ∧ (g.fixtures (g.contacts c).fA).body = some o)

/-- Joint `j` joins bodies `b` and `o`. -/
def Graph.jjoins (g : Graph F) (j b o : Nat) : Prop :=
  ((g.joints j).a = b ∧ (g.joints j).b = o) ∨ ((g.joints j).b = b ∧ (g.joints j).a = o)

/-- Contact list, contact edges and counter agree. -/
structure LinkInv (g : Graph F) : Prop where
  nodup : g.contactList.Nodup
  count : g.contactCount = g.contactList.length
  lt : ∀ c ∈ g.contactList, c < g.nextContact
  bodies : ∀ c ∈ g.contactList, ∃ bA bB, (g.fixtures (g.contacts c).fA).body = some bA ∧
    (g.fixtures (g.contacts c).fB).body = some bB ∧ bA ≠ bB
  edges : ∀ b c o, (c, o) ∈ (g.bodies b).contacts ↔ c ∈ g.contactList ∧ g.joins c b o
  edgeNodup : ∀ b, ((g.bodies b).contacts.map Prod.fst).Nodup

theorem Graph.joins_congr {g g' : Graph F} {c b o : Nat} (h1 : g'.contacts c = g.contacts c)
    (h2 : ∀ f, (g'.fixtures f).body = (g.fixtures f).body) : g'.joins c b o ↔ g.joins c b o := by
  unfold Graph.joins; rw [h1, h2, h2]

theorem LinkInv.congr {g g' : Graph F} (h : LinkInv g) (h1 : g'.contactList = g.contactList) (h2 : g'.contactCount = g.contactCount)
    (h3 : g'.nextContact = g.nextContact) (h4 : g'.contacts = g.contacts) (h5 : ∀ f, (g'.fixtures f).body = (g.fixtures f).body)
    (h6 : ∀ b, (g'.bodies b).contacts = (g.bodies b).contacts) : LinkInv g' := by
  refine ⟨by rw [h1]; exact h.nodup, by rw [h1, h2]; exact h.count, by rw [h1, h3]; exact h.lt, ?_, ?_, ?_⟩
  · intro c hc
    rw [h1] at hc
    simp only [h4, h5]
    exact h.bodies c hc
  · intro b c o
    rw [h6, h1, Graph.joins_congr (by rw [h4]) h5]
    exact h.edges b c o
  · intro b; rw [h6]; exact h.edgeNodup b

/-- Contacts in `S` have been removed, everything else is the same. -/
structure Shrunk (g g' : Graph F) (S : Nat → Prop) : Prop where
  eq : g' = { g with bodies := g'.bodies, contactList := g'.contactList, contactCount := g'.contactCount }
  body : ∀ b, g'.bodies b = { g.bodies b with contacts := (g'.bodies b).contacts }
  mem : ∀ c, c ∈ g'.contactList ↔ c ∈ g.contactList ∧ ¬ S c
  sub : g'.contactList.Sublist g.contactList
  link : LinkInv g'

namespace Shrunk
variable {g g' g'' : Graph F} {S S' : Nat → Prop}
theorem refl (h : LinkInv g) : Shrunk g g (fun _ => False) := ⟨rfl, fun _ => rfl, by simp, List.Sublist.refl _, h⟩
theorem trans (h : Shrunk g g' S) (h' : Shrunk g' g'' S') : Shrunk g g'' (fun c => S c ∨ S' c) := by
  refine ⟨by rw [h'.eq, h.eq], fun b => ?_, fun c => ?_, h'.sub.trans h.sub, h'.link⟩
  · have e := h'.body b
    rw [h.body b] at e
    exact e
  · rw [h'.mem, h.mem]; tauto
theorem fixtures (h : Shrunk g g' S) : g'.fixtures = g.fixtures := by rw [h.eq]
theorem contacts (h : Shrunk g g' S) : g'.contacts = g.contacts := by rw [h.eq]
theorem joints (h : Shrunk g g' S) : g'.joints = g.joints := by rw [h.eq]
theorem bodyList (h : Shrunk g g' S) : g'.bodyList = g.bodyList := by rw [h.eq]
theorem jointList (h : Shrunk g g' S) : g'.jointList = g.jointList := by rw [h.eq]
theorem bodyCount (h : Shrunk g g' S) : g'.bodyCount = g.bodyCount := by rw [h.eq]
theorem jointCount (h : Shrunk g g' S) : g'.jointCount = g.jointCount := by rw [h.eq]
theorem nextBody (h : Shrunk g g' S) : g'.nextBody = g.nextBody := by rw [h.eq]
theorem nextFixture (h : Shrunk g g' S) : g'.nextFixture = g.nextFixture := by rw [h.eq]
theorem nextContact (h : Shrunk g g' S) : g'.nextContact = g.nextContact := by rw [h.eq]
theorem nextJoint (h : Shrunk g g' S) : g'.nextJoint = g.nextJoint := by rw [h.eq]
theorem btype (h : Shrunk g g' S) (b : Nat) : (g'.bodies b).type = (g.bodies b).type := by rw [h.body b]
theorem benabled (h : Shrunk g g' S) (b : Nat) : (g'.bodies b).enabled = (g.bodies b).enabled := by rw [h.body b]
theorem bfixtures (h : Shrunk g g' S) (b : Nat) : (g'.bodies b).fixtures = (g.bodies b).fixtures := by rw [h.body b]
theorem bfixtureCount (h : Shrunk g g' S) (b : Nat) : (g'.bodies b).fixtureCount = (g.bodies b).fixtureCount := by rw [h.body b]
theorem bjoints (h : Shrunk g g' S) (b : Nat) : (g'.bodies b).joints = (g.bodies b).joints := by rw [h.body b]
theorem joins (h : Shrunk g g' S) {c b o : Nat} : g'.joins c b o ↔ g.joins c b o :=
  Graph.joins_congr (by rw [h.contacts]) (fun f => by rw [h.fixtures])
theorem congrS (h : Shrunk g g' S) (hs : ∀ c ∈ g.contactList, S c ↔ S' c) : Shrunk g g' S' :=
  ⟨h.eq, h.body, fun c => by rw [h.mem]; exact and_congr_right fun hc => not_congr (hs c hc), h.sub, h.link⟩
end Shrunk

theorem unlink_spec {w : World F} {c bA bB : Nat} (h : LinkInv w.g) (hc : c ∈ w.g.contactList)
    (hA : w.bodyOf (w.g.contacts c).fA = some bA) (hB : w.bodyOf (w.g.contacts c).fB = some bB) :
    ∃ g', w.unlink c bA bB = some { w with g := g' } ∧ Shrunk w.g g' (fun x => x = c) := by
  have hA' : (w.g.fixtures (w.g.contacts c).fA).body = some bA := hA
  have hB' : (w.g.fixtures (w.g.contacts c).fB).body = some bB := hB
  have hne : bA ≠ bB := by
    obtain ⟨x, y, h1, h2, h3⟩ := h.bodies c hc
    rw [hA'] at h1; rw [hB'] at h2
    cases h1; cases h2; exact h3
  have eA : (c, bB) ∈ (w.g.bodies bA).contacts := (h.edges _ _ _).mpr ⟨hc, Or.inl ⟨hA', hB'⟩⟩
  have eB : (c, bA) ∈ (w.g.bodies bB).contacts := (h.edges _ _ _).mpr ⟨hc, Or.inr ⟨hB', hA'⟩⟩
  have mA : c ∈ (w.g.bodies bA).contacts.map Prod.fst := List.mem_map.mpr ⟨_, eA, rfl⟩
  have mB : c ∈ (w.g.bodies bB).contacts.map Prod.fst := List.mem_map.mpr ⟨_, eB, rfl⟩
  have hpos : 0 < w.g.contactList.length := List.length_pos_of_mem hc
  have hcnt := h.count
  let bods : Nat → BodyS := upd (upd w.g.bodies bA { w.g.bodies bA with contacts := (w.g.bodies bA).contacts.eraseP fun e => e.1 == c })
    bB { w.g.bodies bB with contacts := (w.g.bodies bB).contacts.eraseP fun e => e.1 == c }
  let g' : Graph F := { w.g with bodies := bods, contactList := w.g.contactList.erase c, contactCount := w.g.contactCount - 1 }
  have hbods : ∀ b, bods b = { w.g.bodies b with contacts := if b = bA ∨ b = bB then (w.g.bodies b).contacts.eraseP (fun e => e.1 == c)
      else (w.g.bodies b).contacts } := by
    intro b
    by_cases h1 : b = bB
    · subst h1; simp [bods]
    · by_cases h2 : b = bA
      · subst h2; simp [bods, upd_other _ _ h1]
      · simp [bods, upd_other _ _ h1, upd_other _ _ h2, h1, h2]
  refine ⟨g', ?_, ?_⟩
  · unfold World.unlink
    have x1 : removeOne w.g.contactList c = some (w.g.contactList.erase c) := if_pos hc
    have x2 : removeEdge (w.g.bodies bA).contacts c = some ((w.g.bodies bA).contacts.eraseP fun e => e.1 == c) := if_pos mA
    have x3 : removeEdge (w.g.bodies bB).contacts c = some ((w.g.bodies bB).contacts.eraseP fun e => e.1 == c) := if_pos mB
    simp only [x1, x2, x3, World.setBody, Option.bind_eq_bind, Option.bind_some, upd_other _ _ (Ne.symm hne)]
    rw [if_neg (by omega)]
  · have hmem : ∀ x, x ∈ g'.contactList ↔ x ∈ w.g.contactList ∧ ¬ x = c := by
      intro x
      show x ∈ w.g.contactList.erase c ↔ _
      rw [h.nodup.mem_erase_iff]; tauto
    refine ⟨rfl, fun b => by show bods b = { w.g.bodies b with contacts := (bods b).contacts }; rw [hbods], hmem, List.erase_sublist, ?_⟩
    refine ⟨h.nodup.erase _, ?_, fun x hx => h.lt x ((hmem x).mp hx).1, fun x hx => h.bodies x ((hmem x).mp hx).1, ?_, ?_⟩
    · show w.g.contactCount - 1 = (w.g.contactList.erase c).length
      rw [List.length_erase_of_mem hc, hcnt]
    · intro b x o
      show (x, o) ∈ (bods b).contacts ↔ x ∈ g'.contactList ∧ w.g.joins x b o
      rw [hmem, hbods]
      dsimp only
      split
      · rw [mem_eraseP_fst (h.edgeNodup b), h.edges]; tauto
      · rename_i hb
        rw [h.edges]
        constructor
        · rintro ⟨h1, h2⟩
          refine ⟨⟨h1, ?_⟩, h2⟩
          rintro rfl
          rcases h2 with ⟨h2, -⟩ | ⟨h2, -⟩
          · rw [hA'] at h2; cases h2; exact hb (Or.inl rfl)
          · rw [hB'] at h2; cases h2; exact hb (Or.inr rfl)
        · rintro ⟨⟨h1, -⟩, h2⟩; exact ⟨h1, h2⟩
    · intro b
      show ((bods b).contacts.map Prod.fst).Nodup
      rw [hbods]
      dsimp only
      split
      · exact nodup_eraseP_fst (h.edgeNodup b)
      · exact h.edgeNodup b

/-- A contact has been added, everything else is the same. -/
structure Grown (g g' : Graph F) (k : ConS) : Prop where
  eq : g' = { g with bodies := g'.bodies, contacts := upd g.contacts g.nextContact k, nextContact := g.nextContact + 1,
                     contactList := g.nextContact :: g.contactList, contactCount := g'.contactCount }
  body : ∀ b, g'.bodies b = { g.bodies b with contacts := (g'.bodies b).contacts }
  link : LinkInv g'

theorem insertContact_spec {w : World F} {k : ConS} {bA bB : Nat} (h : LinkInv w.g)
    (hA : w.bodyOf k.fA = some bA) (hB : w.bodyOf k.fB = some bB) (hne : bA ≠ bB) :
    ∃ g', w.insertContact k = some { w with g := g', cst := upd w.cst w.g.nextContact (w.newCst k) } ∧ Grown w.g g' k := by
  have hA' : (w.g.fixtures k.fA).body = some bA := hA
  have hB' : (w.g.fixtures k.fB).body = some bB := hB
  let c := w.g.nextContact
  let bods : Nat → BodyS := upd (upd w.g.bodies bA { w.g.bodies bA with contacts := (c, bB) :: (w.g.bodies bA).contacts })
    bB { w.g.bodies bB with contacts := (c, bA) :: (w.g.bodies bB).contacts }
  let g' : Graph F := { w.g with bodies := bods, contacts := upd w.g.contacts c k, nextContact := c + 1,
                                 contactList := c :: w.g.contactList, contactCount := w.g.contactCount + 1 }
  have hbods : ∀ b, bods b = { w.g.bodies b with contacts :=
      if b = bA then (c, bB) :: (w.g.bodies b).contacts else if b = bB then (c, bA) :: (w.g.bodies b).contacts else (w.g.bodies b).contacts } := by
    intro b
    by_cases h1 : b = bB
    · subst h1; simp [bods, hne.symm]
    · by_cases h2 : b = bA
      · subst h2; simp [bods, upd_other _ _ h1]
      · simp [bods, upd_other _ _ h1, upd_other _ _ h2, h1, h2]
  have hnew : c ∉ w.g.contactList := fun hc => absurd (h.lt c hc) (lt_irrefl _)
  have hold : ∀ x ∈ w.g.contactList, upd w.g.contacts c k x = w.g.contacts x := by
    intro x hx
    exact upd_other _ _ (by rintro rfl; exact hnew hx)
  have hcnt := h.count
  refine ⟨g', ?_, rfl, fun b => by show bods b = { w.g.bodies b with contacts := (bods b).contacts }; rw [hbods], ?_⟩
  · unfold World.insertContact
    simp only [hA, hB, Option.bind_eq_bind, Option.bind_some, World.setBody, upd_other _ _ (Ne.symm hne)]
    rfl
  · have hjoin : ∀ x ∈ w.g.contactList, ∀ b o, g'.joins x b o ↔ w.g.joins x b o := by
      intro x hx b o
      exact Graph.joins_congr (hold x hx) (fun _ => rfl)
    have hjoinc : ∀ b o, g'.joins c b o ↔ (b = bA ∧ o = bB) ∨ (b = bB ∧ o = bA) := by
      intro b o
      show ((w.g.fixtures (upd w.g.contacts c k c).fA).body = some b ∧ _) ∨ _ ↔ _
      simp only [upd_same, hA', hB', g', Option.some.injEq]
      tauto
    refine ⟨List.nodup_cons.mpr ⟨hnew, h.nodup⟩, ?_, ?_, ?_, ?_, ?_⟩
    · show w.g.contactCount + 1 = _
      simp [g', hcnt]
    · intro x hx
      show x < c + 1
      rcases List.mem_cons.mp hx with rfl | hx
      · omega
      · have := h.lt x hx; show x < w.g.nextContact + 1; omega
    · intro x hx
      rcases List.mem_cons.mp hx with rfl | hx
      · refine ⟨bA, bB, ?_, ?_, hne⟩
        · show (w.g.fixtures (upd w.g.contacts c k c).fA).body = _
          rw [upd_same]; exact hA'
        · show (w.g.fixtures (upd w.g.contacts c k c).fB).body = _
          rw [upd_same]; exact hB'
      · show ∃ bA bB, (w.g.fixtures (upd w.g.contacts c k x).fA).body = some bA ∧ (w.g.fixtures (upd w.g.contacts c k x).fB).body = some bB ∧ bA ≠ bB
        rw [hold x hx]; exact h.bodies x hx
    · intro b x o
      show (x, o) ∈ (bods b).contacts ↔ x ∈ c :: w.g.contactList ∧ _
      have hxo : (x, o) ∈ (w.g.bodies b).contacts → x ≠ c := fun hm => by
        rintro rfl; exact hnew ((h.edges _ _ _).mp hm).1
      rw [hbods, List.mem_cons]
      dsimp only
      by_cases hx : x = c
      · subst hx
        rw [hjoinc]
        have h0 : (c, o) ∉ (w.g.bodies b).contacts := fun hm => hxo hm rfl
        by_cases h1 : b = bA
        · simp [h1, hne] at h0 ⊢; tauto
        · by_cases h2 : b = bB
          · simp [h2, hne.symm] at h0 ⊢; tauto
          · simp [h1, h2, h0]
      · by_cases hm : x ∈ w.g.contactList
        · rw [hjoin x hm]
          have := h.edges b x o
          split
          · simp [hx, this]
          · split <;> simp [hx, this]
        · have h0 : (x, o) ∉ (w.g.bodies b).contacts := fun hc => hm ((h.edges _ _ _).mp hc).1
          simp only [hx, hm, or_self, false_and, iff_false]
          split
          · simp [hx, h0]
          · split <;> simp [hx, h0]
    · intro b
      show ((bods b).contacts.map Prod.fst).Nodup
      have h0 : c ∉ (w.g.bodies b).contacts.map Prod.fst := by
        intro hm
        obtain ⟨e, he, hec⟩ := List.mem_map.mp hm
        exact hnew (hec ▸ ((h.edges b e.1 e.2).mp he).1)
      rw [hbods]
      dsimp only
      split
      · exact List.nodup_cons.mpr ⟨h0, h.edgeNodup b⟩
      · split
        · exact List.nodup_cons.mpr ⟨h0, h.edgeNodup b⟩
        · exact h.edgeNodup b

/-! ### Joints -/

/-- Joint list, joint edges and counter agree. -/
structure JointInv (g : Graph F) : Prop where
  nodup : g.jointList.Nodup
  count : g.jointCount = g.jointList.length
  lt : ∀ j ∈ g.jointList, j < g.nextJoint
  ends : ∀ j ∈ g.jointList, (g.joints j).a ≠ (g.joints j).b ∧ (g.joints j).a ∈ g.bodyList ∧ (g.joints j).b ∈ g.bodyList
  edges : ∀ b j o, (j, o) ∈ (g.bodies b).joints ↔ j ∈ g.jointList ∧ g.jjoins j b o
  edgeNodup : ∀ b, ((g.bodies b).joints.map Prod.fst).Nodup

theorem JointInv.congr {g g' : Graph F} (h : JointInv g) (h1 : g'.jointList = g.jointList) (h2 : g'.jointCount = g.jointCount)
    (h3 : g'.nextJoint = g.nextJoint) (h4 : g'.joints = g.joints) (h5 : ∀ b ∈ g.bodyList, b ∈ g'.bodyList)
    (h6 : ∀ b, (g'.bodies b).joints = (g.bodies b).joints) : JointInv g' := by
  refine ⟨by rw [h1]; exact h.nodup, by rw [h1, h2]; exact h.count, by rw [h1, h3]; exact h.lt, ?_, ?_, ?_⟩
  · rw [h1, h4]
    intro j hj
    obtain ⟨a, b, c⟩ := h.ends j hj
    exact ⟨a, h5 _ b, h5 _ c⟩
  · intro b c o
    rw [h6, h1]
    unfold Graph.jjoins
    rw [h4]
    exact h.edges b c o
  · intro b; rw [h6]; exact h.edgeNodup b

end
end B2
