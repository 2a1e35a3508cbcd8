import Verif.Proofs.WorldHist

/-! The search for islands. -/
namespace B2
set_option linter.unusedSectionVars false
open World Spec

section
variable {F : Type} [Field F] [LinearOrder F] [IsStrictOrderedRing F] [Elem F]

/-- The two worlds agree on what links bodies. -/
structure Kept (w0 w : World F) : Prop where
  g : w.g = w0.g
  sensor : ∀ f, (w.fattr f).sensor = (w0.fattr f).sensor
  enabled : ∀ c, (w.cst c).enabled = (w0.cst c).enabled
  touching : ∀ c, (w.cst c).touching = (w0.cst c).touching

namespace Kept
variable {w0 w w' : World F}
theorem refl (w : World F) : Kept w w := ⟨rfl, fun _ => rfl, fun _ => rfl, fun _ => rfl⟩
theorem trans (h : Kept w0 w) (h' : Kept w w') : Kept w0 w' :=
  ⟨h'.g.trans h.g, fun f => (h'.sensor f).trans (h.sensor f), fun c => (h'.enabled c).trans (h.enabled c), fun c => (h'.touching c).trans (h.touching c)⟩
theorem symm (h : Kept w0 w) : Kept w w0 := ⟨h.g.symm, fun f => (h.sensor f).symm, fun c => (h.enabled c).symm, fun c => (h.touching c).symm⟩
theorem transmits (h : Kept w0 w) {c : Nat} (t : Transmits w0 c) : Transmits w c := by
  refine ⟨by rw [h.g]; exact t.mem, by rw [h.enabled]; exact t.enabled, by rw [h.touching]; exact t.touching, ?_, ?_⟩
  · rw [h.g, h.sensor]; exact t.solidA
  · rw [h.g, h.sensor]; exact t.solidB
theorem ties (h : Kept w0 w) {j x y : Nat} (t : Ties w0 j x y) : Ties w j x y :=
  ⟨by rw [h.g]; exact t.mem, by rw [h.g]; exact t.ends, by rw [h.g]; exact t.enabledX, by rw [h.g]; exact t.enabledY⟩
theorem connects (h : Kept w0 w) {c x y : Nat} (t : Connects w0 c x y) : Connects w c x y := by
  unfold Connects at *; rw [h.g]; exact t
theorem linked (h : Kept w0 w) {x y : Nat} (t : Linked w0 x y) : Linked w x y := by
  rcases t with ⟨c, t, e⟩ | ⟨j, t⟩
  · exact .inl ⟨c, h.transmits t, h.connects e⟩
  · exact .inr ⟨j, h.ties t⟩
theorem reach (h : Kept w0 w) {s b : Nat} (t : Reach w0 s b) : Reach w s b := by
  induction t with
  | seed => exact .seed
  | step _ hn hl ih => exact .step ih (by rw [h.g]; exact hn) (h.linked hl)
end Kept

theorem Ties.jjoins {w : World F} {j x y : Nat} (t : Ties w j x y) : w.g.jjoins j x y := by
  rcases t.ends with h | h
  · exact .inl h
  · exact .inr ⟨h.2, h.1⟩

namespace World

/-- The non-static bodies of flagged contacts and joints are flagged. -/
structure Ends (w : World F) : Prop where
  contact : ∀ c ∈ w.g.contactList, (w.cst c).island = true → ∀ x y, Connects w c x y → (w.g.bodies x).type ≠ .static → (w.phys x).island = true
  joint : ∀ j ∈ w.g.jointList, w.jIsland j = true → ∀ x y, w.g.jjoins j x y → (w.g.bodies x).type ≠ .static → (w.phys x).island = true

/-- The search from `seed` started in `w0` has come to `s`; the bodies in `skip` are not finished. -/
structure SI (w0 : World F) (seed : Nat) (skip : Nat → Prop) (s : Search F) : Prop where
  kept : Kept w0 s.w
  awake : ∀ b, b ∉ s.island.bodies → (s.w.phys b).awake = (w0.phys b).awake
  flag : ∀ b, (s.w.phys b).island = true ↔ (w0.phys b).island = true ∨ b ∈ s.island.bodies ++ s.stack
  nodup : (s.island.bodies ++ s.stack).Nodup
  fresh : ∀ b ∈ s.island.bodies ++ s.stack, (w0.phys b).island = false ∧ b ∈ w0.g.bodyList ∧ (w0.g.bodies b).enabled = true ∧ Reach w0 seed b
  index : ∀ (i b : Nat), s.island.bodies[i]? = some b → (s.w.phys b).islandIndex = i
  cflag : ∀ c, (s.w.cst c).island = true ↔ (w0.cst c).island = true ∨ c ∈ s.island.contacts
  cnodup : s.island.contacts.Nodup
  cfresh : ∀ c ∈ s.island.contacts, (w0.cst c).island = false ∧ Transmits w0 c ∧
    ∃ x ∈ s.island.bodies, (w0.g.bodies x).type ≠ .static ∧ ∃ y, Connects w0 c x y
  cboth : ∀ c ∈ s.island.contacts, ∀ x y, Connects w0 c x y → (s.w.phys x).island = true
  jboth : ∀ j ∈ s.island.joints, ∀ x y, w0.g.jjoins j x y → (s.w.phys x).island = true
  jflag : ∀ j, s.w.jIsland j = true ↔ w0.jIsland j = true ∨ j ∈ s.island.joints
  jnodup : s.island.joints.Nodup
  jfresh : ∀ j ∈ s.island.joints, w0.jIsland j = false ∧ ∃ x ∈ s.island.bodies, (w0.g.bodies x).type ≠ .static ∧ ∃ y, Ties w0 j x y
  doneC : ∀ x ∈ s.island.bodies, ¬ skip x → (w0.g.bodies x).type ≠ .static → ∀ c y, Transmits w0 c → Connects w0 c x y →
    (s.w.cst c).island = true ∧ (s.w.phys y).island = true
  doneJ : ∀ x ∈ s.island.bodies, ¬ skip x → (w0.g.bodies x).type ≠ .static → ∀ j y, Ties w0 j x y →
    s.w.jIsland j = true ∧ (s.w.phys y).island = true

/-- Flags are only set. -/
structure Grow (s s' : Search F) : Prop where
  flag : ∀ b, (s.w.phys b).island = true → (s'.w.phys b).island = true
  cflag : ∀ c, (s.w.cst c).island = true → (s'.w.cst c).island = true
  jflag : ∀ j, s.w.jIsland j = true → s'.w.jIsland j = true
  bodies : s'.island.bodies = s.island.bodies

theorem Grow.refl (s : Search F) : Grow s s := ⟨fun _ h => h, fun _ h => h, fun _ h => h, rfl⟩
theorem Grow.trans {s s' s'' : Search F} (h : Grow s s') (h' : Grow s' s'') : Grow s s'' :=
  ⟨fun b x => h'.flag b (h.flag b x), fun b x => h'.cflag b (h.cflag b x), fun b x => h'.jflag b (h.jflag b x), h'.bodies.trans h.bodies⟩

theorem SI.start {w0 : World F} {seed : Nat} (skip : Nat → Prop) (h1 : (w0.phys seed).island = false) (h2 : seed ∈ w0.g.bodyList)
    (h3 : (w0.g.bodies seed).enabled = true) :
    SI w0 seed skip { w := w0.setPhys seed { w0.phys seed with island := true }, island := ⟨[], [], []⟩, stack := [seed] } := by
  have key : ∀ b, ((w0.setPhys seed { w0.phys seed with island := true }).phys b).island = true ↔ (w0.phys b).island = true ∨ b = seed := by
    intro b
    unfold setPhys
    by_cases hb : b = seed
    · subst hb; simp [upd_same]
    · simp [upd_other _ _ hb, hb]
  refine ⟨⟨rfl, fun _ => rfl, fun _ => rfl, fun _ => rfl⟩, ?_, ?_, ?_, ?_, ?_, ?_, ?_, ?_, ?_, ?_, ?_, ?_, ?_, ?_, ?_⟩
  · intro b _; exact proj_upd (fun q : Phys F => q.awake) (by rfl) b
  · intro b; rw [key]; simp
  · simp
  · intro b hb
    simp only [List.nil_append, List.mem_singleton] at hb
    subst hb
    exact ⟨h1, h2, h3, .seed⟩
  · intro i b h; simp at h
  · intro c; simp [setPhys]
  · simp
  · intro c h; cases h
  · intro c h; cases h
  · intro c h; cases h
  · intro j; simp [setPhys]
  · simp
  · intro j h; cases h
  · intro x h; cases h
  · intro x h; cases h

/-- Pushing a body. -/
theorem SI.push {w0 : World F} {seed : Nat} {skip : Nat → Prop} {s : Search F} (h : SI w0 seed skip s) {b o : Nat} (hb : (s.w.phys b).island = true)
    (ho : o ∈ w0.g.bodyList) (he : (w0.g.bodies o).enabled = true) (hr : Reach w0 seed o) :
    ∃ s', pushBody b s o = some s' ∧ SI w0 seed skip s' ∧ Grow s s' ∧ (s'.w.phys o).island = true := by
  unfold pushBody
  by_cases hf : (s.w.phys o).island = true
  · exact ⟨s, by rw [if_pos hf], h, .refl _, hf⟩
  · have hne : o ≠ b := by rintro rfl; exact hf hb
    rw [if_neg hf, if_neg hne]
    have key : ∀ x, ((s.w.setPhys o { s.w.phys o with island := true }).phys x).island = true ↔ (s.w.phys x).island = true ∨ x = o := by
      intro x
      unfold setPhys
      by_cases hx : x = o
      · subst hx; simp [upd_same]
      · simp [upd_other _ _ hx, hx]
    have hno : o ∉ s.island.bodies ++ s.stack := fun hm => hf ((h.flag o).mpr (.inr hm))
    have hfo : (w0.phys o).island = false := by
      cases hh : (w0.phys o).island with
      | false => rfl
      | true => exact absurd ((h.flag o).mpr (.inl hh)) hf
    refine ⟨_, rfl, ⟨⟨h.kept.g, h.kept.sensor, h.kept.enabled, h.kept.touching⟩, ?_, ?_, ?_, ?_, ?_, h.cflag, h.cnodup, h.cfresh, ?_, ?_, h.jflag, h.jnodup, h.jfresh, ?_, ?_⟩,
      ⟨fun x hx => (key x).mpr (.inl hx), fun _ h => h, fun _ h => h, rfl⟩, (key o).mpr (.inr rfl)⟩
    · intro x hx; rw [← h.awake x hx]; exact proj_upd (fun q : Phys F => q.awake) (by rfl) x
    · intro x
      rw [key, h.flag]
      simp only [List.mem_append, List.mem_cons]
      tauto
    · simp only [List.mem_append, not_or] at hno
      have := h.nodup
      rw [List.nodup_append] at this ⊢
      refine ⟨this.1, List.nodup_cons.mpr ⟨hno.2, this.2.1⟩, ?_⟩
      intro x hx y hy
      rcases List.mem_cons.mp hy with rfl | hy
      · rintro rfl; exact hno.1 hx
      · exact this.2.2 x hx y hy
    · intro x hx
      simp only [List.mem_append, List.mem_cons] at hx
      by_cases hxo : x = o
      · subst hxo; exact ⟨hfo, ho, he, hr⟩
      · exact h.fresh x (by simp only [List.mem_append]; tauto)
    · intro i x hx; rw [← h.index i x hx]; exact proj_upd (fun q : Phys F => q.islandIndex) (by rfl) x
    · intro c h1 x y h3; exact (key x).mpr (.inl (h.cboth c h1 x y h3))
    · intro c h1 x y h3; exact (key x).mpr (.inl (h.jboth c h1 x y h3))
    · intro x h1 h2 h3 c y h4 h5
      obtain ⟨a, b⟩ := h.doneC x h1 h2 h3 c y h4 h5
      exact ⟨a, (key y).mpr (.inl b)⟩
    · intro x h1 h2 h3 c y h4
      obtain ⟨a, b⟩ := h.doneJ x h1 h2 h3 c y h4
      exact ⟨a, (key y).mpr (.inl b)⟩

theorem sensorContact_iff {w : World F} {c : Nat} : w.sensorContact c = false ↔
    (w.fattr (w.g.contacts c).fA).sensor = false ∧ (w.fattr (w.g.contacts c).fB).sensor = false := by
  unfold sensorContact; simp

/-- Flagging a contact and adding it to the island. -/
def markC (c : Nat) (s : Search F) : Search F :=
  { s with w := s.w.setCst c { s.w.cst c with island := true }, island := { s.island with contacts := s.island.contacts ++ [c] } }
/-- Flagging a joint and adding it to the island. -/
def markJ (j : Nat) (s : Search F) : Search F :=
  { s with w := { s.w with jIsland := upd s.w.jIsland j true }, island := { s.island with joints := s.island.joints ++ [j] } }

theorem pushBody_markC (b c o : Nat) (s : Search F) : pushBody b (markC c s) o = (pushBody b s o).map (markC c) := by
  unfold pushBody
  have : ((markC c s).w.phys o).island = (s.w.phys o).island := rfl
  rw [this]
  by_cases h1 : (s.w.phys o).island = true
  · rw [if_pos h1, if_pos h1]; rfl
  · rw [if_neg h1, if_neg h1]
    split <;> rfl

theorem pushBody_markJ (b j o : Nat) (s : Search F) : pushBody b (markJ j s) o = (pushBody b s o).map (markJ j) := by
  unfold pushBody
  have : ((markJ j s).w.phys o).island = (s.w.phys o).island := rfl
  rw [this]
  by_cases h1 : (s.w.phys o).island = true
  · rw [if_pos h1, if_pos h1]; rfl
  · rw [if_neg h1, if_neg h1]
    split <;> rfl

theorem pushBody_cst {b o : Nat} {s s' : Search F} (h : pushBody b s o = some s') : s'.w.cst = s.w.cst ∧ s'.w.jIsland = s.w.jIsland ∧ s'.island = s.island := by
  unfold pushBody at h
  split at h
  · cases h; exact ⟨rfl, rfl, rfl⟩
  · split at h
    · cases h
    · cases h; exact ⟨rfl, rfl, rfl⟩

theorem nodup_snoc {l : List Nat} {a : Nat} (h : l.Nodup) (ha : a ∉ l) : (l ++ [a]).Nodup := by
  rw [List.nodup_append]
  refine ⟨h, by simp, ?_⟩
  intro x hx y hy
  rw [List.mem_singleton] at hy
  subst hy
  rintro rfl
  exact ha hx

theorem SI.markC {w0 : World F} {seed : Nat} {skip : Nat → Prop} {s : Search F} (h : SI w0 seed skip s) {b c o : Nat}
    (hf : (s.w.cst c).island = false) (ht : Transmits w0 c) (hb : b ∈ s.island.bodies) (hn : (w0.g.bodies b).type ≠ .static)
    (hc : Connects w0 c b o) (ho : (s.w.phys o).island = true) : SI w0 seed skip (markC c s) ∧ Grow s (World.markC c s) ∧ ((World.markC c s).w.cst c).island = true := by
  have key : ∀ x, ((World.markC c s).w.cst x).island = true ↔ (s.w.cst x).island = true ∨ x = c := by
    intro x
    show (upd s.w.cst c _ x).island = true ↔ _
    by_cases hx : x = c
    · subst hx; simp [upd_same]
    · simp [upd_other _ _ hx, hx]
  have hnc : c ∉ s.island.contacts := fun hm => by
    have := (h.cflag c).mpr (.inr hm); rw [hf] at this; cases this
  have h0 : (w0.cst c).island = false := by
    cases hh : (w0.cst c).island with
    | false => rfl
    | true => have := (h.cflag c).mpr (.inl hh); rw [hf] at this; cases this
  have hbf : (s.w.phys b).island = true := (h.flag b).mpr (.inr (List.mem_append.mpr (.inl hb)))
  refine ⟨⟨⟨h.kept.g, h.kept.sensor, ?_, ?_⟩, h.awake, h.flag, h.nodup, h.fresh, h.index, ?_, ?_, ?_, ?_, h.jboth, h.jflag, h.jnodup, h.jfresh, ?_, h.doneJ⟩,
    ⟨fun _ h => h, fun x hx => (key x).mpr (.inl hx), fun _ h => h, rfl⟩, (key c).mpr (.inr rfl)⟩
  · intro x; rw [← h.kept.enabled x]; exact proj_upd (fun q : CState F => q.enabled) (by rfl) x
  · intro x; rw [← h.kept.touching x]; exact proj_upd (fun q : CState F => q.touching) (by rfl) x
  · intro x
    rw [key, h.cflag]
    show _ ↔ _ ∨ x ∈ s.island.contacts ++ [c]
    simp only [List.mem_append, List.mem_singleton]
    tauto
  · exact nodup_snoc h.cnodup hnc
  · intro x hx
    rcases List.mem_append.mp hx with hx | hx
    · exact h.cfresh x hx
    · rw [List.mem_singleton] at hx; subst hx; exact ⟨h0, ht, b, hb, hn, o, hc⟩
  · intro x hx y z hy
    rcases List.mem_append.mp hx with hx | hx
    · exact h.cboth x hx y z hy
    · rw [List.mem_singleton] at hx; subst hx
      unfold Connects at hc hy
      rcases hc with ⟨c1, c2⟩ | ⟨c1, c2⟩ <;> rcases hy with ⟨y1, y2⟩ | ⟨y1, y2⟩ <;>
        first
        | (have : y = b := by simp_all
           subst this; exact hbf)
        | (have : y = o := by simp_all
           subst this; exact ho)
  · intro x h1 h2 h3 k y h4 h5
    obtain ⟨p, q⟩ := h.doneC x h1 h2 h3 k y h4 h5
    exact ⟨(key k).mpr (.inl p), q⟩

theorem SI.markJ {w0 : World F} {seed : Nat} {skip : Nat → Prop} {s : Search F} (h : SI w0 seed skip s) {b j o : Nat}
    (hf : s.w.jIsland j = false) (ht : Ties w0 j b o) (hb : b ∈ s.island.bodies) (hn : (w0.g.bodies b).type ≠ .static)
    (ho : (s.w.phys o).island = true) : SI w0 seed skip (markJ j s) ∧ Grow s (World.markJ j s) ∧ (World.markJ j s).w.jIsland j = true := by
  have key : ∀ x, (World.markJ j s).w.jIsland x = true ↔ s.w.jIsland x = true ∨ x = j := by
    intro x
    show (upd s.w.jIsland j _ x) = true ↔ _
    by_cases hx : x = j
    · subst hx; simp [upd_same]
    · simp [upd_other _ _ hx, hx]
  have hnc : j ∉ s.island.joints := fun hm => by
    have := (h.jflag j).mpr (.inr hm); rw [hf] at this; cases this
  have h0 : w0.jIsland j = false := by
    cases hh : w0.jIsland j with
    | false => rfl
    | true => have := (h.jflag j).mpr (.inl hh); rw [hf] at this; cases this
  have hbf : (s.w.phys b).island = true := (h.flag b).mpr (.inr (List.mem_append.mpr (.inl hb)))
  refine ⟨⟨⟨h.kept.g, h.kept.sensor, h.kept.enabled, h.kept.touching⟩, h.awake, h.flag, h.nodup, h.fresh, h.index, h.cflag, h.cnodup, h.cfresh, h.cboth, ?_, ?_, ?_, ?_, h.doneC, ?_⟩,
    ⟨fun _ h => h, fun _ h => h, fun x hx => (key x).mpr (.inl hx), rfl⟩, (key j).mpr (.inr rfl)⟩
  · intro x hx y z hy
    rcases List.mem_append.mp hx with hx | hx
    · exact h.jboth x hx y z hy
    · rw [List.mem_singleton] at hx; subst hx
      have hc := Ties.jjoins ht
      unfold Graph.jjoins at hc hy
      rcases hc with ⟨c1, c2⟩ | ⟨c1, c2⟩ <;> rcases hy with ⟨y1, y2⟩ | ⟨y1, y2⟩ <;>
        first
        | (have : y = b := by simp_all
           subst this; exact hbf)
        | (have : y = o := by simp_all
           subst this; exact ho)
  · intro x
    rw [key, h.jflag]
    show _ ↔ _ ∨ x ∈ s.island.joints ++ [j]
    simp only [List.mem_append, List.mem_singleton]
    tauto
  · exact nodup_snoc h.jnodup hnc
  · intro x hx
    rcases List.mem_append.mp hx with hx | hx
    · exact h.jfresh x hx
    · rw [List.mem_singleton] at hx; subst hx; exact ⟨h0, b, hb, hn, o, ht⟩
  · intro x h1 h2 h3 k y h4
    obtain ⟨p, q⟩ := h.doneJ x h1 h2 h3 k y h4
    exact ⟨(key k).mpr (.inl p), q⟩

/-- One contact edge. -/
theorem SI.contact {w0 : World F} (hi : GInv w0.g) (hends : Ends w0) {seed : Nat} {skip : Nat → Prop} {s : Search F} (h : SI w0 seed skip s) {b c o : Nat}
    (hb : b ∈ s.island.bodies) (hn : (w0.g.bodies b).type ≠ .static) (he : (c, o) ∈ (w0.g.bodies b).contacts) :
    ∃ s', visitContact b s (c, o) = some s' ∧ SI w0 seed skip s' ∧ Grow s s' ∧
      (Transmits w0 c → (s'.w.cst c).island = true ∧ (s'.w.phys o).island = true) := by
  obtain ⟨hc, hj⟩ := (hi.link.edges b c o).mp he
  have hcon : Connects w0 c b o := (connects_iff w0 c b o).mpr hj
  have hcon' : Connects w0 c o b := by unfold Connects at *; tauto
  obtain ⟨bf, bm, ben, brch⟩ := h.fresh b (List.mem_append.mpr (.inl hb))
  have hbf : (s.w.phys b).island = true := (h.flag b).mpr (.inr (List.mem_append.mpr (.inl hb)))
  have hend : o ∈ w0.g.bodyList ∧ (w0.g.bodies o).enabled = true := by
    obtain ⟨bA, bB, e1, e2, -, ⟨x, x1, x2, x3, -⟩, ⟨y, y1, y2, y3, -⟩, -⟩ := hi.ok c hc
    rcases hj with ⟨j1, j2⟩ | ⟨j1, j2⟩
    · have : y = o := Option.some.inj (y3.symm.trans j2)
      subst this; exact ⟨y1, y2⟩
    · have : x = o := Option.some.inj (x3.symm.trans j2)
      subst this; exact ⟨x1, x2⟩
  unfold visitContact
  dsimp only
  by_cases hf : (s.w.cst c).island = true
  · refine ⟨s, by rw [if_pos hf], h, .refl _, fun _ => ⟨hf, ?_⟩⟩
    rcases (h.cflag c).mp hf with h0 | h0
    · rw [hends.contact c hc h0 b o hcon hn] at bf; cases bf
    · exact h.cboth c h0 o b hcon'
  rw [if_neg hf]
  by_cases h1 : (s.w.cst c).enabled = false ∨ (s.w.cst c).touching = false
  · refine ⟨s, by rw [if_pos h1], h, .refl _, fun t => ?_⟩
    rw [h.kept.enabled, h.kept.touching, t.enabled, t.touching] at h1
    simp at h1
  rw [if_neg h1]
  have h3 : s.w.sensorContact c = w0.sensorContact c := by unfold sensorContact; rw [h.kept.g, h.kept.sensor, h.kept.sensor]
  by_cases h2 : s.w.sensorContact c = true
  · refine ⟨s, by rw [if_pos h2], h, .refl _, fun t => ?_⟩
    have := sensorContact_iff.mpr ⟨t.solidA, t.solidB⟩
    rw [h3, this] at h2; cases h2
  rw [if_neg h2]
  have ht : Transmits w0 c := by
    rw [h3, Bool.not_eq_true, sensorContact_iff] at h2
    simp only [not_or, Bool.not_eq_false] at h1
    exact ⟨hc, by rw [← h.kept.enabled]; exact h1.1, by rw [← h.kept.touching]; exact h1.2, h2.1, h2.2⟩
  obtain ⟨s', p1, p2, p3, p4⟩ := h.push (b := b) (o := o) hbf hend.1 hend.2 (.step brch hn (.inl ⟨c, ht, hcon⟩))
  obtain ⟨q1, q2, q3⟩ := pushBody_cst p1
  obtain ⟨r1, r2, r3⟩ := p2.markC (b := b) (c := c) (o := o) (by rw [q1]; exact Bool.not_eq_true _ ▸ hf) ht (by rw [p3.bodies]; exact hb) hn hcon p4
  refine ⟨World.markC c s', ?_, r1, p3.trans r2, fun _ => ⟨r3, r2.flag o p4⟩⟩
  have := pushBody_markC b c o s
  rw [p1] at this
  exact this

/-- One joint edge. -/
theorem SI.joint {w0 : World F} (hi : GInv w0.g) (hends : Ends w0) {seed : Nat} {skip : Nat → Prop} {s : Search F} (h : SI w0 seed skip s) {b j o : Nat}
    (hb : b ∈ s.island.bodies) (hn : (w0.g.bodies b).type ≠ .static) (he : (j, o) ∈ (w0.g.bodies b).joints) :
    ∃ s', visitJoint b s (j, o) = some s' ∧ SI w0 seed skip s' ∧ Grow s s' ∧
      (Ties w0 j b o → s'.w.jIsland j = true ∧ (s'.w.phys o).island = true) := by
  obtain ⟨hc, hj⟩ := (hi.joint.edges b j o).mp he
  have hj' : w0.g.jjoins j o b := by unfold Graph.jjoins at *; tauto
  obtain ⟨bf, bm, ben, brch⟩ := h.fresh b (List.mem_append.mpr (.inl hb))
  have hbf : (s.w.phys b).island = true := (h.flag b).mpr (.inr (List.mem_append.mpr (.inl hb)))
  have hend : o ∈ w0.g.bodyList := by
    obtain ⟨-, e1, e2⟩ := hi.joint.ends j hc
    rcases hj with ⟨j1, j2⟩ | ⟨j1, j2⟩
    · rw [← j2]; exact e2
    · rw [← j2]; exact e1
  unfold visitJoint
  dsimp only
  by_cases hf : s.w.jIsland j = true
  · refine ⟨s, by rw [if_pos hf], h, .refl _, fun _ => ⟨hf, ?_⟩⟩
    rcases (h.jflag j).mp hf with h0 | h0
    · rw [hends.joint j hc h0 b o hj hn] at bf; cases bf
    · exact h.jboth j h0 o b hj'
  rw [if_neg hf]
  by_cases h1 : (s.w.g.bodies o).enabled = false
  · refine ⟨s, by rw [if_pos h1], h, .refl _, fun t => ?_⟩
    rw [h.kept.g, t.enabledY] at h1
    cases h1
  rw [if_neg h1]
  have hen : (w0.g.bodies o).enabled = true := by rw [h.kept.g] at h1; simpa using h1
  have ht : Ties w0 j b o := ⟨hc, by unfold Graph.jjoins at hj; tauto, ben, hen⟩
  obtain ⟨s', p1, p2, p3, p4⟩ := h.push (b := b) (o := o) hbf hend hen (.step brch hn (.inr ⟨j, ht⟩))
  obtain ⟨q1, q2, q3⟩ := pushBody_cst p1
  obtain ⟨r1, r2, r3⟩ := p2.markJ (b := b) (j := j) (o := o) (by rw [q2]; exact Bool.not_eq_true _ ▸ hf) ht (by rw [p3.bodies]; exact hb) hn p4
  refine ⟨World.markJ j s', ?_, r1, p3.trans r2, fun _ => ⟨r3, r2.flag o p4⟩⟩
  have := pushBody_markJ b j o s
  rw [p1] at this
  exact this

theorem SI.contacts {w0 : World F} (hi : GInv w0.g) (hends : Ends w0) {seed : Nat} {skip : Nat → Prop} {b : Nat} (hn : (w0.g.bodies b).type ≠ .static)
    (l : List (Nat × Nat)) (hl : ∀ e ∈ l, e ∈ (w0.g.bodies b).contacts) {s : Search F} (h : SI w0 seed skip s) (hb : b ∈ s.island.bodies) :
    ∃ s', l.foldlM (visitContact b) s = some s' ∧ SI w0 seed skip s' ∧ Grow s s' ∧
      ∀ e ∈ l, Transmits w0 e.1 → (s'.w.cst e.1).island = true ∧ (s'.w.phys e.2).island = true := by
  induction l generalizing s with
  | nil => exact ⟨s, rfl, h, .refl _, by simp⟩
  | cons e l ih =>
    obtain ⟨c, o⟩ := e
    obtain ⟨s1, a1, a2, a3, a4⟩ := h.contact hi hends hb hn (hl (c, o) (by simp))
    obtain ⟨s2, b1, b2, b3, b4⟩ := ih (fun e he => hl e (by simp [he])) a2 (by rw [a3.bodies]; exact hb)
    refine ⟨s2, by rw [List.foldlM_cons, a1]; exact b1, b2, a3.trans b3, ?_⟩
    intro e he t
    rcases List.mem_cons.mp he with rfl | he
    · exact ⟨b3.cflag _ (a4 t).1, b3.flag _ (a4 t).2⟩
    · exact b4 e he t

theorem SI.joints {w0 : World F} (hi : GInv w0.g) (hends : Ends w0) {seed : Nat} {skip : Nat → Prop} {b : Nat} (hn : (w0.g.bodies b).type ≠ .static)
    (l : List (Nat × Nat)) (hl : ∀ e ∈ l, e ∈ (w0.g.bodies b).joints) {s : Search F} (h : SI w0 seed skip s) (hb : b ∈ s.island.bodies) :
    ∃ s', l.foldlM (visitJoint b) s = some s' ∧ SI w0 seed skip s' ∧ Grow s s' ∧
      ∀ e ∈ l, Ties w0 e.1 b e.2 → s'.w.jIsland e.1 = true ∧ (s'.w.phys e.2).island = true := by
  induction l generalizing s with
  | nil => exact ⟨s, rfl, h, .refl _, by simp⟩
  | cons e l ih =>
    obtain ⟨c, o⟩ := e
    obtain ⟨s1, a1, a2, a3, a4⟩ := h.joint hi hends hb hn (hl (c, o) (by simp))
    obtain ⟨s2, b1, b2, b3, b4⟩ := ih (fun e he => hl e (by simp [he])) a2 (by rw [a3.bodies]; exact hb)
    refine ⟨s2, by rw [List.foldlM_cons, a1]; exact b1, b2, a3.trans b3, ?_⟩
    intro e he t
    rcases List.mem_cons.mp he with rfl | he
    · exact ⟨b3.jflag _ (a4 t).1, b3.flag _ (a4 t).2⟩
    · exact b4 e he t

/-- Taking a body from the stack into the island. -/
theorem SI.pop {w0 : World F} {seed : Nat} {s : Search F} (h : SI w0 seed (fun _ => False) s) {b : Nat} {st : List Nat} (hs : s.stack = b :: st) :
    SI w0 seed (fun x => x = b)
      { s with w := s.w.setPhys b { s.w.phys b with islandIndex := s.island.bodies.length }
               island := { s.island with bodies := s.island.bodies ++ [b] }, stack := st } := by
  have happ : s.island.bodies ++ [b] ++ st = s.island.bodies ++ s.stack := by rw [hs]; simp
  have hnb : b ∉ s.island.bodies := by
    have := h.nodup
    rw [hs, List.nodup_append] at this
    intro hm
    exact this.2.2 b hm b (by simp) rfl
  have keyf : ∀ x, ((s.w.setPhys b { s.w.phys b with islandIndex := s.island.bodies.length }).phys x).island = (s.w.phys x).island :=
    fun x => proj_upd (fun q : Phys F => q.island) (by rfl) x
  have sub : ∀ x, x ∈ s.island.bodies → x ∈ s.island.bodies ++ [b] := fun x hx => by simp [hx]
  refine ⟨⟨h.kept.g, h.kept.sensor, h.kept.enabled, h.kept.touching⟩, ?_, ?_, ?_, ?_, ?_, h.cflag, h.cnodup, ?_, ?_, ?_, h.jflag, h.jnodup, ?_, ?_, ?_⟩
  · intro x hx
    rw [← h.awake x (fun hm => hx (sub x hm))]
    exact proj_upd (fun q : Phys F => q.awake) (by rfl) x
  · intro x
    show ((s.w.setPhys b _).phys x).island = true ↔ _ ∨ x ∈ s.island.bodies ++ [b] ++ st
    rw [keyf, happ]; exact h.flag x
  · show (s.island.bodies ++ [b] ++ st).Nodup
    rw [happ]; exact h.nodup
  · intro x hx
    replace hx : x ∈ s.island.bodies ++ [b] ++ st := hx
    rw [happ] at hx
    exact h.fresh x hx
  · intro i x hx
    replace hx : (s.island.bodies ++ [b])[i]? = some x := hx
    show (upd s.w.phys b _ x).islandIndex = i
    by_cases hxb : x = b
    · subst hxb
      rw [upd_same]
      rw [List.getElem?_append] at hx
      split at hx
      · exact absurd (List.mem_of_getElem? hx) hnb
      · rename_i hlt
        have : i - s.island.bodies.length = 0 := by
          by_contra hne
          rw [List.getElem?_eq_none (by simp; omega)] at hx
          cases hx
        show (s.island.bodies.length : Int) = i
        omega
    · rw [upd_other _ _ hxb]
      rw [List.getElem?_append] at hx
      split at hx
      · exact h.index i x hx
      · have := List.mem_of_getElem? hx
        rw [List.mem_singleton] at this
        exact absurd this hxb
  · intro c hc
    obtain ⟨p, q, x, r1, r2⟩ := h.cfresh c hc
    exact ⟨p, q, x, sub x r1, r2⟩
  · intro c hc x y hx; exact (keyf x).trans (h.cboth c hc x y hx)
  · intro c hc x y hx; exact (keyf x).trans (h.jboth c hc x y hx)
  · intro c hc
    obtain ⟨p, x, r1, r2⟩ := h.jfresh c hc
    exact ⟨p, x, sub x r1, r2⟩
  · intro x hx hne hn c y ht hc
    replace hx : x ∈ s.island.bodies ++ [b] := hx
    have hx' : x ∈ s.island.bodies := by
      rcases List.mem_append.mp hx with hx | hx
      · exact hx
      · exact absurd (List.mem_singleton.mp hx) hne
    obtain ⟨p, q⟩ := h.doneC x hx' (fun f => f) hn c y ht hc
    exact ⟨p, (keyf y).trans q⟩
  · intro x hx hne hn c y ht
    replace hx : x ∈ s.island.bodies ++ [b] := hx
    have hx' : x ∈ s.island.bodies := by
      rcases List.mem_append.mp hx with hx | hx
      · exact hx
      · exact absurd (List.mem_singleton.mp hx) hne
    obtain ⟨p, q⟩ := h.doneJ x hx' (fun f => f) hn c y ht
    exact ⟨p, (keyf y).trans q⟩

/-- Waking a body of the island. -/
theorem SI.wake {w0 : World F} {seed : Nat} {skip : Nat → Prop} {s : Search F} (h : SI w0 seed skip s) {b : Nat} (hb : b ∈ s.island.bodies) :
    SI w0 seed skip { s with w := s.w.setPhys b { s.w.phys b with awake := true } } := by
  have keyf : ∀ x, ((s.w.setPhys b { s.w.phys b with awake := true }).phys x).island = (s.w.phys x).island :=
    fun x => proj_upd (fun q : Phys F => q.island) (by rfl) x
  refine ⟨⟨h.kept.g, h.kept.sensor, h.kept.enabled, h.kept.touching⟩, ?_, ?_, h.nodup, h.fresh, ?_, h.cflag, h.cnodup, h.cfresh, ?_, ?_, h.jflag, h.jnodup, h.jfresh, ?_, ?_⟩
  · intro x hx
    rw [← h.awake x hx]
    have hxb : x ≠ b := by rintro rfl; exact hx hb
    exact congrArg Phys.awake (upd_other _ _ hxb)
  · intro x; rw [← h.flag x, ← keyf x]
  · intro i x hx; rw [← h.index i x hx]; exact proj_upd (fun q : Phys F => q.islandIndex) (by rfl) x
  · intro c hc x y hx; exact (keyf x).trans (h.cboth c hc x y hx)
  · intro c hc x y hx; exact (keyf x).trans (h.jboth c hc x y hx)
  · intro x hx hne hn c y ht hc
    obtain ⟨p, q⟩ := h.doneC x hx hne hn c y ht hc
    exact ⟨p, (keyf y).trans q⟩
  · intro x hx hne hn c y ht
    obtain ⟨p, q⟩ := h.doneJ x hx hne hn c y ht
    exact ⟨p, (keyf y).trans q⟩

theorem SI.finish {w0 : World F} {seed b : Nat} {s : Search F} (h : SI w0 seed (fun x => x = b) s)
    (hc : (w0.g.bodies b).type ≠ .static → ∀ c y, Transmits w0 c → Connects w0 c b y → (s.w.cst c).island = true ∧ (s.w.phys y).island = true)
    (hj : (w0.g.bodies b).type ≠ .static → ∀ j y, Ties w0 j b y → s.w.jIsland j = true ∧ (s.w.phys y).island = true) :
    SI w0 seed (fun _ => False) s := by
  refine ⟨h.kept, h.awake, h.flag, h.nodup, h.fresh, h.index, h.cflag, h.cnodup, h.cfresh, h.cboth, h.jboth, h.jflag, h.jnodup, h.jfresh, ?_, ?_⟩
  · intro x hx _ hn c y h1 h2
    by_cases hxb : x = b
    · subst hxb; exact hc hn c y h1 h2
    · exact h.doneC x hx hxb hn c y h1 h2
  · intro x hx _ hn c y h1
    by_cases hxb : x = b
    · subst hxb; exact hj hn c y h1
    · exact h.doneJ x hx hxb hn c y h1

theorem SI.visit {w0 : World F} (hi : GInv w0.g) (hends : Ends w0) {seed : Nat} {s : Search F} (h : SI w0 seed (fun _ => False) s) {b : Nat} {st : List Nat}
    (hs : s.stack = b :: st) : ∃ s', visitBody { s with stack := st } b = some s' ∧ SI w0 seed (fun _ => False) s' ∧ s'.island.bodies = s.island.bodies ++ [b] := by
  obtain ⟨-, -, hen, -⟩ := h.fresh b (by rw [hs]; simp)
  have hp := h.pop hs
  unfold visitBody
  have h1 : ¬ (({ s with stack := st } : Search F).w.g.bodies b).enabled = false := by
    show ¬ (s.w.g.bodies b).enabled = false
    rw [h.kept.g, hen]; simp
  simp only [if_neg h1]
  have ht : (s.w.setPhys b { s.w.phys b with islandIndex := s.island.bodies.length }).typeOf b = (w0.g.bodies b).type := by
    show (s.w.g.bodies b).type = _
    rw [h.kept.g]
  by_cases hst : (w0.g.bodies b).type = .static
  · rw [if_pos (by rw [ht]; exact hst)]
    exact ⟨_, rfl, hp.finish (fun hn => absurd hst hn) (fun hn => absurd hst hn), rfl⟩
  · rw [if_neg (by rw [ht]; exact hst)]
    have hw := hp.wake (b := b) (by simp)
    obtain ⟨s1, a1, a2, a3, a4⟩ := hw.contacts hi hends (b := b) hst _ (fun e he => he) (by simp)
    have hb1 : b ∈ s1.island.bodies := by rw [a3.bodies]; simp
    obtain ⟨s2, b1, b2, b3, b4⟩ := a2.joints hi hends (b := b) hst _ (fun e he => he) hb1
    refine ⟨s2, ?_, b2.finish ?_ ?_, ?_⟩
    · show Option.bind (((s.w.g.bodies b).contacts).foldlM _ _) _ = _
      rw [h.kept.g, a1, Option.bind_some, a2.kept.g, b1]
    · intro _ c y t hc
      have := (hi.link.edges b c y).mpr ⟨t.mem, (connects_iff w0 c b y).mp hc⟩
      obtain ⟨p, q⟩ := a4 (c, y) this t
      exact ⟨b3.cflag _ p, b3.flag _ q⟩
    · intro _ j y t
      exact b4 (j, y) ((hi.joint.edges b j y).mpr ⟨t.mem, Ties.jjoins t⟩) t
    · rw [b3.bodies, a3.bodies]

theorem SI.search {w0 : World F} (hi : GInv w0.g) (hends : Ends w0) {seed : Nat} (n : Nat) {s : Search F} (h : SI w0 seed (fun _ => False) s)
    (hn : w0.g.bodyCount + 1 ≤ n + s.island.bodies.length) : ∃ s', search n s = some s' ∧ SI w0 seed (fun _ => False) s' ∧ s'.stack = [] ∧
      s.island.bodies <+: s'.island.bodies := by
  have hlen : (s.island.bodies ++ s.stack).length ≤ w0.g.bodyCount := by
    rw [hi.body.count]
    exact (h.nodup.subperm (fun b hb => (h.fresh b hb).2.1)).length_le
  rw [List.length_append] at hlen
  induction n generalizing s with
  | zero => omega
  | succ n ih =>
    unfold World.search
    cases hs : s.stack with
    | nil => exact ⟨s, rfl, h, hs, List.prefix_rfl⟩
    | cons b st =>
      obtain ⟨s1, a1, a2, a3⟩ := h.visit hi hends hs
      have hlen1 : (s1.island.bodies ++ s1.stack).length ≤ w0.g.bodyCount := by
        rw [hi.body.count]
        exact (a2.nodup.subperm (fun b hb => (a2.fresh b hb).2.1)).length_le
      rw [List.length_append] at hlen1
      obtain ⟨s2, b1, b2, b3, b4⟩ := ih a2 (by rw [a3, List.length_append, List.length_singleton]; omega) hlen1
      refine ⟨s2, ?_, b2, b3, ?_⟩
      · dsimp only
        rw [a1]; exact b1
      · exact (List.prefix_append _ _).trans (by rw [← a3]; exact b4)

/-! ### Solving an island leaves the flags alone -/

theorem setPhys_calm0 {w : World F} {b : Nat} {p : Phys F} (h1 : p.island = (w.phys b).island) (h2 : p.islandIndex = (w.phys b).islandIndex)
    (h3 : p.sweep.alpha0 = (w.phys b).sweep.alpha0) (h4 : w.typeOf b = .static → p.awake = (w.phys b).awake) : Calm0 w (w.setPhys b p) :=
  (setPhys_quiet ⟨h1, h2, h3, h4⟩).toCalm0

theorem foldl_calm0 {α : Type} {f : World F → α → World F} {l : List α} (hf : ∀ w, ∀ x ∈ l, Calm0 w (f w x)) (w : World F) : Calm0 w (l.foldl f w) :=
  foldl_inv (fun x => Calm0 w x) (.refl w) (fun x hx v h => h.trans (hf v x hx))

theorem sleepTimers_calm0 (h : F) (l : List Nat) (w : World F) (m : F) : Calm0 w (sleepTimers h l w m).1 := by
  induction l generalizing w m with
  | nil => exact .refl _
  | cons b l ih =>
    unfold sleepTimers
    split
    · exact ih _ _
    · dsimp only
      split
      · exact Calm0.trans (setPhys_calm0 (by rfl) (by rfl) (by rfl) (by intro _; rfl)) (ih _ _)
      · exact Calm0.trans (setPhys_calm0 (by rfl) (by rfl) (by rfl) (by intro _; rfl)) (ih _ _)

theorem islandMove_calm0 {env : Env F} {w w' : World F} {cap : Nat} {isl : Island} {step : TimeStep F} {r : Bool}
    (h : w.islandMove env cap isl step = some (w', r)) : Calm0 w w' := by
  unfold islandMove at h
  split at h
  · cases h
  simp only [Option.bind_eq_bind, Option.bind_eq_some_iff] at h
  obtain ⟨w1, h1, h2⟩ := h
  have m0 : Calm0 w w1 := by
    refine Calm0.trans ?_ (foldlM_inv (fun x => Calm0 _ x) h1 (.refl _) (fun c _ v v' hv e => hv.trans (listen_quiet e).1.toCalm0))
    refine Calm0.trans ?_ (foldl_calm0 (fun _ _ _ => setPhys_calm0 (by rfl) (by rfl) (by rfl) (by intro _; rfl)) _)
    refine Calm0.trans ?_ (foldl_calm0 (fun _ _ _ => setCst_calm0 (by rfl)) _)
    exact foldl_calm0 (fun _ _ _ => setPhys_calm0 (by rfl) (by rfl) (by rfl) (by intro _; rfl)) _
  cases h2
  exact m0

theorem islandSolve_calm0 {env : Env F} {w w' : World F} {cap : Nat} {isl : Island} {step : TimeStep F}
    (h : w.islandSolve env cap isl step = some w') : Calm0 w w' := by
  obtain ⟨v, r, h1, rfl⟩ := islandSolve_inv h
  have m0 := islandMove_calm0 h1
  split
  · refine m0.trans ?_
    unfold sleepIsland
    dsimp only
    split
    · exact (sleepTimers_calm0 _ _ _ _).trans (foldl_calm0 (fun v b _ => (setAwake_quiet v b false).toCalm0) _)
    · exact sleepTimers_calm0 _ _ _ _
  · exact m0

/-- The links are the same, and outside of `bs` who is awake. -/
structure Keeps (bs : List Nat) (w w' : World F) : Prop extends Kept w w' where
  awake : ∀ b, b ∉ bs → (w'.phys b).awake = (w.phys b).awake

namespace Keeps
variable {bs : List Nat} {w w' w'' : World F}
theorem refl (w : World F) : Keeps bs w w := ⟨.refl w, fun _ _ => rfl⟩
theorem trans (h : Keeps bs w w') (h' : Keeps bs w' w'') : Keeps bs w w'' :=
  ⟨h.toKept.trans h'.toKept, fun b hb => (h'.awake b hb).trans (h.awake b hb)⟩
theorem setPhys {b : Nat} {p : Phys F} (h : b ∈ bs ∨ p.awake = (w.phys b).awake) : Keeps bs w (w.setPhys b p) := by
  refine ⟨⟨rfl, fun _ => rfl, fun _ => rfl, fun _ => rfl⟩, fun x hx => ?_⟩
  rcases h with h | h
  · exact congrArg Phys.awake (upd_other _ _ (by rintro rfl; exact hx h))
  · exact proj_upd (fun q : Phys F => q.awake) h x
theorem setCst {c : Nat} {k : CState F} (h1 : k.enabled = (w.cst c).enabled) (h2 : k.touching = (w.cst c).touching) : Keeps bs w (w.setCst c k) :=
  ⟨⟨rfl, fun _ => rfl, proj_upd (fun q : CState F => q.enabled) h1, proj_upd (fun q : CState F => q.touching) h2⟩, fun _ _ => rfl⟩
theorem foldl {α : Type} {f : World F → α → World F} {l : List α} (hf : ∀ w, ∀ x ∈ l, Keeps bs w (f w x)) (w : World F) : Keeps bs w (l.foldl f w) :=
  foldl_inv (fun x => Keeps bs w x) (.refl w) (fun x hx v h => h.trans (hf v x hx))
end Keeps

theorem sleepTimers_keeps {bs : List Nat} (h : F) (l : List Nat) (hl : ∀ b ∈ l, b ∈ bs) (w : World F) (m : F) : Keeps bs w (sleepTimers h l w m).1 := by
  induction l generalizing w m with
  | nil => exact .refl _
  | cons b l ih =>
    have ih := ih (fun b hb => hl b (by simp [hb]))
    unfold sleepTimers
    split
    · exact ih _ _
    · dsimp only
      split
      · exact (Keeps.setPhys (.inl (hl b (by simp)))).trans (ih _ _)
      · exact (Keeps.setPhys (.inl (hl b (by simp)))).trans (ih _ _)

theorem listen_keeps {bs : List Nat} {env : Env F} (hE : PostSolveCalm env) {w w' : World F} {c : Nat} (h : w.listen env (.postSolve c) = some w') : Keeps bs w w' := by
  obtain ⟨h1, h2, h3⟩ := hE w w' c h
  have q := (listen_quiet h).1
  exact ⟨⟨q.g, h3, h2, q.touching⟩, fun b _ => h1 b⟩

theorem islandMove_keeps {env : Env F} (hE : PostSolveCalm env) {w w' : World F} {cap : Nat} {isl : Island} {step : TimeStep F} {r : Bool}
    (h : w.islandMove env cap isl step = some (w', r)) : Keeps isl.bodies w w' := by
  unfold islandMove at h
  split at h
  · cases h
  simp only [Option.bind_eq_bind, Option.bind_eq_some_iff] at h
  obtain ⟨w1, h1, h2⟩ := h
  have m0 : Keeps isl.bodies w w1 := by
    refine Keeps.trans ?_ (foldlM_inv (fun x => Keeps isl.bodies _ x) h1 (.refl _) (fun c _ v v' hv e => hv.trans (listen_keeps hE e)))
    refine Keeps.trans ?_ (Keeps.foldl (fun _ _ _ => Keeps.setPhys (.inr (by rfl))) _)
    refine Keeps.trans ?_ (Keeps.foldl (fun _ _ _ => Keeps.setCst (by rfl) (by rfl)) _)
    exact Keeps.foldl (fun _ _ _ => Keeps.setPhys (.inr (by rfl))) _
  cases h2
  exact m0

theorem islandSolve_keeps {env : Env F} (hE : PostSolveCalm env) {w w' : World F} {cap : Nat} {isl : Island} {step : TimeStep F}
    (h : w.islandSolve env cap isl step = some w') : Keeps isl.bodies w w' := by
  obtain ⟨v, r, h1, rfl⟩ := islandSolve_inv h
  have m0 := islandMove_keeps hE h1
  split
  · refine m0.trans ?_
    unfold sleepIsland
    dsimp only
    split
    · exact (sleepTimers_keeps _ _ (fun b hb => hb) _ _).trans (Keeps.foldl (fun v b hb => Keeps.setPhys (.inl hb)) _)
    · exact sleepTimers_keeps _ _ (fun b hb => hb) _ _
  · exact m0

theorem islandSolve_kept {env : Env F} (hP : PostSolveLinks env) {w w' : World F} {cap : Nat} {isl : Island} {step : TimeStep F}
    (h : w.islandSolve env cap isl step = some w') : Kept w w' := by
  obtain ⟨v, r, h1, rfl⟩ := islandSolve_inv h
  have m0 : Kept w v := by
    unfold islandMove at h1
    split at h1
    · cases h1
    simp only [Option.bind_eq_bind, Option.bind_eq_some_iff] at h1
    obtain ⟨w1, h1, h2⟩ := h1
    cases h2
    refine Kept.trans ?_ (foldlM_inv (fun x => Kept _ x) h1 (.refl _) (fun c _ v v' hv e => hv.trans ?_))
    on_goal 2 =>
      obtain ⟨p1, p2⟩ := hP v v' c e
      exact ⟨(listen_quiet e).1.g, p2, p1, (listen_quiet e).1.touching⟩
    refine Keeps.toKept (bs := isl.bodies) ?_
    refine Keeps.trans ?_ (Keeps.foldl (fun _ _ _ => Keeps.setPhys (.inr (by rfl))) _)
    refine Keeps.trans ?_ (Keeps.foldl (fun _ _ _ => Keeps.setCst (by rfl) (by rfl)) _)
    exact Keeps.foldl (fun _ _ _ => Keeps.setPhys (.inr (by rfl))) _
  split
  · refine m0.trans (Keeps.toKept (bs := isl.bodies) ?_)
    unfold sleepIsland
    dsimp only
    split
    · exact (sleepTimers_keeps _ _ (fun b hb => hb) _ _).trans (Keeps.foldl (fun v b hb => Keeps.setPhys (.inl hb)) _)
    · exact sleepTimers_keeps _ _ (fun b hb => hb) _ _
  · exact m0

theorem releaseStatics_keeps {bs : List Nat} (w : World F) (l : List Nat) : Keeps bs w (w.releaseStatics l) := by
  refine Keeps.foldl (fun v b _ => ?_) _
  split
  · exact Keeps.setPhys (.inr (by rfl))
  · exact .refl _

theorem releaseStatics_spec (l : List Nat) (w : World F) : (w.releaseStatics l).g = w.g ∧ (w.releaseStatics l).cst = w.cst ∧ (w.releaseStatics l).jIsland = w.jIsland ∧
    ∀ b, ((w.releaseStatics l).phys b).island = true ↔ (w.phys b).island = true ∧ ¬ (b ∈ l ∧ (w.g.bodies b).type = .static) := by
  unfold releaseStatics
  induction l generalizing w with
  | nil => simp
  | cons a l ih =>
    rw [List.foldl_cons]
    obtain ⟨h1, h2, h3, h4⟩ := ih (if w.typeOf a = .static then w.setPhys a { w.phys a with island := false } else w)
    by_cases ha : w.typeOf a = .static
    · rw [if_pos ha] at h1 h2 h3 h4 ⊢
      refine ⟨h1, h2, h3, fun b => ?_⟩
      rw [h4]
      show (upd w.phys a _ b).island = true ∧ ¬ (b ∈ l ∧ (w.g.bodies b).type = .static) ↔ _
      by_cases hb : b = a
      · subst hb
        rw [upd_same]
        have : (w.g.bodies b).type = .static := ha
        simp [this]
      · rw [upd_other _ _ hb]; simp [hb]
    · rw [if_neg ha] at h1 h2 h3 h4 ⊢
      refine ⟨h1, h2, h3, fun b => ?_⟩
      rw [h4]
      have ha' : (w.g.bodies a).type ≠ .static := ha
      by_cases hb : b = a
      · subst hb; simp [ha']
      · simp [hb]

end World
end
end B2
