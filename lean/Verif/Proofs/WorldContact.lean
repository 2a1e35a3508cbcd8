import Verif.Proofs.WorldInv

/-! Creating and destroying contacts. -/
namespace B2
set_option linter.unusedSectionVars false
open Spec

section
variable {F : Type} [Field F] [LinearOrder F] [IsStrictOrderedRing F] [Elem F]

/-- User code does not itself panic in a callback. -/
def Env.Safe (env : Env F) : Prop := ∀ w k, ∃ w', (env.react w k).foldlM World.userOp w = some w'

theorem Shrunk.live {g g' : Graph F} {S : Nat → Prop} (h : Shrunk g g' S) (f i : Nat) : Live g' f i ↔ Live g f i := by
  unfold Live; simp only [h.bodyList, h.benabled, h.fixtures]

theorem BodyInv.congr {g g' : Graph F} (h : BodyInv g) (h1 : g'.bodyList = g.bodyList) (h2 : g'.bodyCount = g.bodyCount)
    (h3 : g'.nextBody = g.nextBody) (h4 : g'.nextFixture = g.nextFixture) (h5 : g'.fixtures = g.fixtures)
    (h6 : ∀ b, (g'.bodies b).fixtures = (g.bodies b).fixtures) (h7 : ∀ b, (g'.bodies b).fixtureCount = (g.bodies b).fixtureCount)
    (h8 : ∀ b, (g'.bodies b).enabled = (g.bodies b).enabled) : BodyInv g' := by
  refine ⟨?_, ?_, ?_, ?_, ?_, ?_, ?_, ?_, ?_⟩
  · rw [h1]; exact h.nodup
  · rw [h1, h2]; exact h.count
  · rw [h1, h3]; exact h.lt
  · rw [h3, h4, h5]; exact h.owner
  · intro b f; rw [h6, h1, h5]; exact h.fixtures b f
  · intro b; rw [h6]; exact h.fixNodup b
  · intro b; rw [h6, h7]; exact h.fixCount b
  · rw [h1, h5]; exact h.children
  · intro f b; rw [h1, h5, h8]; exact h.proxyCount f b

theorem ContactOk.congr {g g' : Graph F} {c : Nat} (h : ContactOk g c) (h1 : g'.contacts c = g.contacts c)
    (h2 : ∀ f, (g'.fixtures f).body = (g.fixtures f).body) (h3 : ∀ f, (g'.fixtures f).shape = (g.fixtures f).shape)
    (h4 : ∀ b, (g'.bodies b).type = (g.bodies b).type) (h5 : ∀ f i, Live g f i → Live g' f i) : ContactOk g' c := by
  obtain ⟨bA, bB, k1, k2, k3, k4, k5, k6, k7⟩ := h
  refine ⟨bA, bB, ?_, ?_, k3, ?_, ?_, ?_, ?_⟩
  · rw [h1, h2]; exact k1
  · rw [h1, h2]; exact k2
  · rw [h1]; exact h5 _ _ k4
  · rw [h1]; exact h5 _ _ k5
  · rw [h4, h4]; exact k6
  · rw [h1, h3, h3]; exact k7

theorem GInv.shrunk {g g' : Graph F} {S : Nat → Prop} (h : GInv g) (hs : Shrunk g g' S) : GInv g' := by
  refine ⟨hs.link, h.joint.congr hs.jointList hs.jointCount hs.nextJoint hs.joints (by rw [hs.bodyList]; exact fun _ h => h) hs.bjoints,
    h.body.congr hs.bodyList hs.bodyCount hs.nextBody hs.nextFixture hs.fixtures hs.bfixtures hs.bfixtureCount hs.benabled, ?_, ?_⟩
  · intro c hc
    exact (h.ok c ((hs.mem c).mp hc).1).congr (by rw [hs.contacts]) (fun f => by rw [hs.fixtures]) (fun f => by rw [hs.fixtures])
      hs.btype (fun f i hl => (hs.live f i).mpr hl)
  · intro c hc c' hc'
    rw [hs.contacts]
    exact h.uniq c ((hs.mem c).mp hc).1 c' ((hs.mem c').mp hc').1

namespace World

theorem emit_safe {env : Env F} (he : env.Safe) (w : World F) (k : EventKind) : ∃ w', w.emit env k = some w' := he _ _

theorem listen_safe {env : Env F} (he : env.Safe) (w : World F) (k : EventKind) : ∃ w', w.listen env k = some w' := by
  unfold listen
  split
  · exact emit_safe he _ _
  · exact ⟨_, rfl⟩

theorem goodbye_safe {env : Env F} (he : env.Safe) (w : World F) (k : EventKind) : ∃ w', w.goodbye env k = some w' := by
  unfold goodbye
  split
  · exact emit_safe he _ _
  · exact ⟨_, rfl⟩

/-- Contacts in `S` have been destroyed, with callbacks `ev` (newest first). -/
structure Cut (w w' : World F) (S : Nat → Prop) (ev : List Event) : Prop where
  shrunk : Shrunk w.g w'.g S
  calm : Calm w w'
  rest : Rest w w'
  bp : w'.bp = w.bp
  paabb : w'.paabb = w.paabb
  log : w'.log = ev ++ w.log
  filter : ∀ f, (w'.fattr f).filter = (w.fattr f).filter

theorem Cut.refl {w : World F} (h : LinkInv w.g) : Cut w w (fun _ => False) [] := ⟨.refl h, .refl w, .refl w, rfl, rfl, rfl, fun _ => rfl⟩
theorem Cut.trans {w w' w'' : World F} {S S' : Nat → Prop} {e e' : List Event} (h : Cut w w' S e) (h' : Cut w' w'' S' e') :
    Cut w w'' (fun c => S c ∨ S' c) (e' ++ e) :=
  ⟨h.shrunk.trans h'.shrunk, h.calm.trans h'.calm, h.rest.trans h'.rest, h'.bp.trans h.bp, h'.paabb.trans h.paabb, by
    rw [h'.log, h.log, List.append_assoc], fun f => (h'.filter f).trans (h.filter f)⟩
theorem Cut.congr {w w' : World F} {S S' : Nat → Prop} {e : List Event} (h : Cut w w' S e) (hs : ∀ c ∈ w.g.contactList, S c ↔ S' c) :
    Cut w w' S' e := ⟨h.shrunk.congrS hs, h.calm, h.rest, h.bp, h.paabb, h.log, h.filter⟩

theorem Cut.winv {w w' : World F} {S : Nat → Prop} {e : List Event} (h : Cut w w' S e) (hw : WInv w) : WInv w' := by
  obtain ⟨gh, buf, rep, hp⟩ := hw.prox
  refine ⟨hw.toGInv.shrunk h.shrunk, gh, buf, rep, ?_⟩
  rw [h.bp]
  exact hp.congr (fun f => by rw [h.shrunk.fixtures]) h.shrunk.live

/-- The callback made when contact `c` is destroyed. -/
def endEvent (env : Env F) (w : World F) (c : Nat) : List Event :=
  if env.listener = true ∧ (w.cst c).touching = true then [⟨.endContact c, w.locked⟩] else []

theorem contactDestroy_cut {env : Env F} {w w' : World F} {c : Nat} (h : LinkInv w.g) (hc : c ∈ w.g.contactList)
    (e : w.contactDestroy env c = some w') : Cut w w' (fun x => x = c) (endEvent env w c) := by
  unfold contactDestroy at e
  simp only [Option.bind_eq_bind, Option.bind_eq_some_iff] at e
  obtain ⟨bA, hA, bB, hB, w1, h1, w2, h2, e⟩ := e
  obtain ⟨q1, l1⟩ := listen_if h1
  obtain ⟨g', k1, k2⟩ := unlink_spec (w := w1) (c := c) (bA := bA) (bB := bB) (by rw [q1.g]; exact h) (by rw [q1.g]; exact hc)
    (by rw [q1.g, q1.bodyOf]; exact hA) (by rw [q1.g, q1.bodyOf]; exact hB)
  rw [k1] at h2
  cases h2
  cases e
  have q3 := wakeOnDestroy_quiet { w1 with g := g' } (w.g.contacts c) c bA bB
  refine ⟨?_, ?_, ?_, ?_, ?_, ?_, fun f => (q3.toWFrame.filter f).trans (q1.toWFrame.filter f)⟩
  · rw [q3.g]; rw [q1.g] at k2; exact k2
  · refine Calm.trans (Calm.trans q1.toCalm ?_) q3.toCalm
    exact ⟨⟨fun _ => rfl, rfl, fun _ => rfl, fun _ => rfl, fun _ => rfl, fun b => k2.btype b, fun _ _ => rfl⟩, fun _ => rfl⟩
  · exact (q1.toWFrame.rest.trans ⟨rfl⟩).trans q3.toWFrame.rest
  · rw [q3.bp]; exact q1.bp
  · rw [q3.paabb]; exact q1.paabb
  · rw [wakeOnDestroy_log]
    show w1.log = _
    rw [l1]
    unfold endEvent
    split <;> simp [*]

theorem contactDestroy_total {env : Env F} (he : env.Safe) {w : World F} {c : Nat} (h : LinkInv w.g) (hc : c ∈ w.g.contactList) :
    ∃ w', w.contactDestroy env c = some w' := by
  obtain ⟨bA, bB, hA, hB, -⟩ := h.bodies c hc
  have hA' : w.bodyOf (w.g.contacts c).fA = some bA := hA
  have hB' : w.bodyOf (w.g.contacts c).fB = some bB := hB
  obtain ⟨w1, h1⟩ : ∃ w1, (if (w.cst c).touching then w.listen env (.endContact c) else some w) = some w1 := by
    split
    · exact listen_safe he _ _
    · exact ⟨_, rfl⟩
  obtain ⟨q1, l1⟩ := listen_if h1
  obtain ⟨g', k1, k2⟩ := unlink_spec (w := w1) (c := c) (bA := bA) (bB := bB) (by rw [q1.g]; exact h) (by rw [q1.g]; exact hc)
    (by rw [q1.g, q1.bodyOf]; exact hA) (by rw [q1.g, q1.bodyOf]; exact hB)
  refine ⟨({ w1 with g := g' } : World F).wakeOnDestroy (w.g.contacts c) c bA bB, ?_⟩
  unfold contactDestroy
  simp only [hA', hB', h1, k1, Option.bind_eq_bind, Option.bind_some]
  rfl

/-- The callbacks made when the contacts of a list are destroyed. -/
def endEvents (env : Env F) (w : World F) : List Nat → List Event
  | [] => []
  | c :: l => endEvents env w l ++ endEvent env w c

theorem endEvents_calm {env : Env F} {w w' : World F} (h : Calm w w') (hr : Rest w w') (l : List Nat) : endEvents env w' l = endEvents env w l := by
  induction l with
  | nil => rfl
  | cons c l ih => simp only [endEvents, ih, endEvent, h.touching, hr.locked]

theorem destroyList_cut {env : Env F} : ∀ (l : List Nat) {w w' : World F}, LinkInv w.g → l.Nodup → (∀ c ∈ l, c ∈ w.g.contactList) →
    l.foldlM (contactDestroy env) w = some w' → Cut w w' (fun x => x ∈ l) (endEvents env w l) := by
  intro l
  induction l with
  | nil =>
    intro w w' h _ _ e
    cases e
    exact (Cut.refl h).congr (by simp)
  | cons c l ih =>
    intro w w' h hn hm e
    rw [List.foldlM_cons] at e
    simp only [Option.bind_eq_bind, Option.bind_eq_some_iff] at e
    obtain ⟨w1, e1, e2⟩ := e
    have c1 := contactDestroy_cut h (hm c (by simp)) e1
    rw [List.nodup_cons] at hn
    have c2 := ih (w := w1) c1.shrunk.link hn.2 (fun x hx => (c1.shrunk.mem x).mpr ⟨hm x (by simp [hx]), by rintro rfl; exact hn.1 hx⟩) e2
    have c3 := c1.trans c2
    rw [endEvents_calm c1.calm c1.rest] at c3
    exact c3.congr (by simp)

theorem destroyList_total {env : Env F} (he : env.Safe) : ∀ (l : List Nat) {w : World F}, LinkInv w.g → l.Nodup → (∀ c ∈ l, c ∈ w.g.contactList) →
    ∃ w', l.foldlM (contactDestroy env) w = some w' := by
  intro l
  induction l with
  | nil => intro w _ _ _; exact ⟨w, rfl⟩
  | cons c l ih =>
    intro w h hn hm
    obtain ⟨w1, e1⟩ := contactDestroy_total he h (hm c (by simp))
    have c1 := contactDestroy_cut h (hm c (by simp)) e1
    rw [List.nodup_cons] at hn
    obtain ⟨w2, e2⟩ := ih (w := w1) c1.shrunk.link hn.2 (fun x hx => (c1.shrunk.mem x).mpr ⟨hm x (by simp [hx]), by rintro rfl; exact hn.1 hx⟩)
    exact ⟨w2, by rw [List.foldlM_cons, e1]; exact e2⟩

theorem destroyContacts_eq (env : Env F) (l : List (Nat × Nat)) (w : World F) :
    destroyContacts env l w = (l.map Prod.fst).foldlM (contactDestroy env) w := by
  unfold destroyContacts
  induction l generalizing w with
  | nil => rfl
  | cons a l ih =>
    rw [List.foldlM_cons, List.map_cons, List.foldlM_cons]
    congr 1
    funext w'
    exact ih w'

theorem joins_exists {g : Graph F} {c b : Nat} : (∃ o, g.joins c b o) ↔
    (∃ bA bB, (g.fixtures (g.contacts c).fA).body = some bA ∧ (g.fixtures (g.contacts c).fB).body = some bB ∧ (bA = b ∨ bB = b)) := by
  unfold Graph.joins
  constructor
  · rintro ⟨o, ⟨h1, h2⟩ | ⟨h1, h2⟩⟩
    · exact ⟨b, o, h1, h2, Or.inl rfl⟩
    · exact ⟨o, b, h2, h1, Or.inr rfl⟩
  · rintro ⟨bA, bB, h1, h2, rfl | rfl⟩
    · exact ⟨bB, Or.inl ⟨h1, h2⟩⟩
    · exact ⟨bA, Or.inr ⟨h2, h1⟩⟩

/-- Destroying all contacts of a body. -/
theorem destroyContacts_cut {env : Env F} {w w' : World F} {b : Nat} (h : LinkInv w.g)
    (e : destroyContacts env (w.g.bodies b).contacts w = some w') :
    Cut w w' (fun c => ∃ o, w.g.joins c b o) (endEvents env w ((w.g.bodies b).contacts.map Prod.fst)) ∧ (w'.g.bodies b).contacts = [] := by
  rw [destroyContacts_eq] at e
  have hm : ∀ c, c ∈ (w.g.bodies b).contacts.map Prod.fst ↔ c ∈ w.g.contactList ∧ ∃ o, w.g.joins c b o := by
    intro c
    simp only [List.mem_map, Prod.exists, exists_and_right, exists_eq_right, h.edges]
    constructor
    · rintro ⟨o, h1, h2⟩; exact ⟨h1, o, h2⟩
    · rintro ⟨h1, o, h2⟩; exact ⟨o, h1, h2⟩
  have c1 := destroyList_cut _ h (h.edgeNodup b) (fun c hc => ((hm c).mp hc).1) e
  have c2 := c1.congr (S' := fun c => ∃ o, w.g.joins c b o) (fun c hc => by rw [hm]; simp [hc])
  refine ⟨c2, ?_⟩
  rw [List.eq_nil_iff_forall_not_mem]
  rintro ⟨c, o⟩ hco
  obtain ⟨h1, h2⟩ := (c2.shrunk.link.edges b c o).mp hco
  exact ((c2.shrunk.mem c).mp h1).2 ⟨o, c2.shrunk.joins.mp h2⟩

theorem destroyContacts_total {env : Env F} (he : env.Safe) {w : World F} {b : Nat} (h : LinkInv w.g) :
    ∃ w', destroyContacts env (w.g.bodies b).contacts w = some w' := by
  rw [destroyContacts_eq]
  refine destroyList_total he _ h (h.edgeNodup b) (fun c hc => ?_)
  obtain ⟨⟨x, o⟩, h1, rfl⟩ := List.mem_map.mp hc
  exact ((h.edges b _ o).mp h1).1

theorem clearContacts_id {w : World F} {b : Nat} (h : (w.g.bodies b).contacts = []) : w.clearContacts b = w := by
  unfold clearContacts setBody
  have : upd w.g.bodies b { w.g.bodies b with contacts := [] } = w.g.bodies := by
    funext x
    by_cases hx : x = b
    · subst hx
      rw [upd_same, ← h]
    · rw [upd_other _ _ hx]
  rw [this]

/-! ### Creation -/

theorem registers_primary {tA tB : ShapeType} {fA iA fB iB : Nat} {k : ConS} (h : contactCreate tA tB fA iA fB iB = some k) :
    (k = ⟨k.kind, fA, iA, fB, iB⟩ ∧ registers tA tB = ⟨some k.kind, true⟩) ∨ (k = ⟨k.kind, fB, iB, fA, iA⟩ ∧ registers tB tA = ⟨some k.kind, true⟩) := by
  cases tA <;> cases tB <;> simp [contactCreate, registers, addType] at h <;> subst h <;> simp [registers, addType]

theorem hasContact_iff {w : World F} {bA bB fA iA fB iB : Nat} (h : LinkInv w.g) (hA : (w.g.fixtures fA).body = some bA) (hB : (w.g.fixtures fB).body = some bB) :
    w.hasContact bA bB fA iA fB iB = true ↔ ∃ c ∈ w.g.contactList, SameEnds (w.g.contacts c) ⟨(w.g.contacts c).kind, fA, iA, fB, iB⟩ := by
  unfold hasContact SameEnds
  simp only [List.any_eq_true, Bool.and_eq_true, Bool.or_eq_true, beq_iff_eq, Prod.exists]
  constructor
  · rintro ⟨c, o, h1, -, h2⟩
    exact ⟨c, ((h.edges _ _ _).mp h1).1, by tauto⟩
  · rintro ⟨c, hc, h2⟩
    refine ⟨c, bA, (h.edges _ _ _).mpr ⟨hc, ?_⟩, rfl, by tauto⟩
    unfold Graph.joins
    rcases h2 with ⟨h2, -, h3, -⟩ | ⟨h2, -, h3, -⟩
    · right; rw [h2, h3]; exact ⟨hB, hA⟩
    · left; rw [h2, h3]; exact ⟨hB, hA⟩

theorem shouldCollide_joints {w : World F} {a b : Nat} (h : JointInv w.g) (hs : w.shouldCollide a b ≠ false) :
    ∀ j ∈ w.g.jointList, w.g.jjoins j a b → (w.g.joints j).collideConnected = true := by
  intro j hj hjj
  unfold shouldCollide at hs
  split at hs
  · exact absurd rfl hs
  · by_contra hc
    refine hs ?_
    have : (w.g.bodies a).joints.any (fun e => e.2 == b && !(w.g.joints e.1).collideConnected) = true := by
      rw [List.any_eq_true]
      exact ⟨(j, b), (h.edges a j b).mpr ⟨hj, hjj⟩, by simpa using hc⟩
    rw [this]; rfl

theorem shouldCollide_dynamic {w : World F} {a b : Nat} (h : w.shouldCollide a b ≠ false) : w.typeOf a = .dynamic ∨ w.typeOf b = .dynamic := by
  unfold shouldCollide at h
  by_contra hc
  push Not at hc
  rw [if_pos hc] at h
  exact h rfl

/-- The world after some contacts may have been created. -/
structure Extend (w w' : World F) : Prop where
  ginv : GInv w'.g
  body : ∀ b, w'.g.bodies b = { w.g.bodies b with contacts := (w'.g.bodies b).contacts }
  eq : w'.g = { w.g with bodies := w'.g.bodies, contacts := w'.g.contacts, contactList := w'.g.contactList,
                         contactCount := w'.g.contactCount, nextContact := w'.g.nextContact }
  rest : Rest w w'
  bp : w'.bp = w.bp
  paabb : w'.paabb = w.paabb
  phys : w'.phys = w.phys
  fattr : w'.fattr = w.fattr
  jIsland : w'.jIsland = w.jIsland
  next : w.g.nextContact ≤ w'.g.nextContact
  old : ∀ c < w.g.nextContact, w'.g.contacts c = w.g.contacts c ∧ w'.cst c = w.cst c ∧ (c ∈ w'.g.contactList ↔ c ∈ w.g.contactList)
  new : ∀ c ∈ w'.g.contactList, w.g.nextContact ≤ c → (w'.cst c).touching = false ∧ (w'.cst c).filter = false ∧
    (w'.cst c).island = false ∧ (w'.cst c).toiFlag = false ∧ (w'.cst c).toiCount = 0
  unjoined : ∀ c ∈ w'.g.contactList, w.g.nextContact ≤ c → ∀ a b, w'.g.joins c a b → ∀ j ∈ w.g.jointList, w.g.jjoins j a b →
    (w.g.joints j).collideConnected = true
  suffix : ∃ l, w'.g.contactList = l ++ w.g.contactList
  log : ∃ ev, w'.log = ev ++ w.log ∧ ∀ e ∈ ev, ∃ fA fB, e = ⟨.filter fA fB, w.locked⟩

theorem Extend.refl {w : World F} (h : GInv w.g) : Extend w w :=
  ⟨h, fun _ => rfl, rfl, .refl w, rfl, rfl, rfl, rfl, rfl, le_refl _, fun _ _ => ⟨rfl, rfl, Iff.rfl⟩,
    fun c hc hn => absurd (h.link.lt c hc) (by omega), fun c hc hn => absurd (h.link.lt c hc) (by omega), ⟨[], rfl⟩, ⟨[], rfl, by simp⟩⟩

theorem Extend.trans {w w' w'' : World F} (h : Extend w w') (h' : Extend w' w'') : Extend w w'' := by
  refine ⟨h'.ginv, fun b => ?_, by rw [h'.eq, h.eq], h.rest.trans h'.rest, h'.bp.trans h.bp, h'.paabb.trans h.paabb, h'.phys.trans h.phys,
    h'.fattr.trans h.fattr, h'.jIsland.trans h.jIsland, h.next.trans h'.next, fun c hc => ?_, fun c hc hn => ?_, fun c hc hn a b hj => ?_, ?_, ?_⟩
  · have e := h'.body b
    rw [h.body b] at e
    exact e
  · obtain ⟨a1, a2, a3⟩ := h.old c hc
    obtain ⟨b1, b2, b3⟩ := h'.old c (lt_of_lt_of_le hc h.next)
    exact ⟨b1.trans a1, b2.trans a2, b3.trans a3⟩
  · rcases lt_or_ge c w'.g.nextContact with hlt | hge
    · obtain ⟨b1, b2, b3⟩ := h'.old c hlt
      rw [b2]
      exact h.new c (b3.mp hc) hn
    · exact h'.new c hc hge
  · rcases lt_or_ge c w'.g.nextContact with hlt | hge
    · obtain ⟨b1, b2, b3⟩ := h'.old c hlt
      exact h.unjoined c (b3.mp hc) hn a b ((Graph.joins_congr b1 (fun f => by rw [h'.eq])).mp hj)
    · have e := h'.unjoined c hc hge a b hj
      have e1 : w'.g.jointList = w.g.jointList := by rw [h.eq]
      have e2 : w'.g.joints = w.g.joints := by rw [h.eq]
      unfold Graph.jjoins at e ⊢
      rw [e1, e2] at e
      exact e
  · obtain ⟨l, hl⟩ := h.suffix
    obtain ⟨l', hl'⟩ := h'.suffix
    exact ⟨l' ++ l, by rw [hl', hl, List.append_assoc]⟩
  · obtain ⟨e, h1, h2⟩ := h.log
    obtain ⟨e', h1', h2'⟩ := h'.log
    refine ⟨e' ++ e, by rw [h1', h1, List.append_assoc], ?_⟩
    intro x hx
    rcases List.mem_append.mp hx with hx | hx
    · obtain ⟨a, b, rfl⟩ := h2' x hx
      exact ⟨a, b, by rw [h.rest.locked]⟩
    · exact h2 x hx

theorem Extend.fixtures {w w' : World F} (h : Extend w w') : w'.g.fixtures = w.g.fixtures := by rw [h.eq]
theorem Extend.bodyList {w w' : World F} (h : Extend w w') : w'.g.bodyList = w.g.bodyList := by rw [h.eq]
theorem Extend.live {w w' : World F} (h : Extend w w') (f i : Nat) : Live w'.g f i ↔ Live w.g f i := by
  unfold Live; rw [h.fixtures, h.bodyList]
  refine exists_congr fun b => and_congr_right fun _ => ?_
  rw [h.body b]

theorem Extend.winv {w w' : World F} (h : Extend w w') (hw : WInv w) : WInv w' := by
  obtain ⟨gh, buf, rep, hp⟩ := hw.prox
  refine ⟨h.ginv, gh, buf, rep, ?_⟩
  rw [h.bp]
  exact hp.congr (fun f => by rw [h.fixtures]) h.live

theorem filterCollide_extend {env : Env F} {w : World F} (h : GInv w.g) (fA fB : Nat) : Extend w (w.filterCollide env fA fB).2 := by
  unfold filterCollide
  split
  · exact .refl h
  · exact ⟨h, fun _ => rfl, rfl, ⟨rfl⟩, rfl, rfl, rfl, rfl, rfl, le_refl _, fun _ _ => ⟨rfl, rfl, Iff.rfl⟩,
      fun c hc hn => absurd (h.link.lt c hc) (by omega), fun c hc hn => absurd (h.link.lt c hc) (by omega), ⟨[], rfl⟩, ⟨[⟨.filter fA fB, w.locked⟩], rfl, by simp⟩⟩

/-- A new contact keeps the invariant. -/
theorem insertContact_extend {w : World F} {k : ConS} {bA bB : Nat} (h : GInv w.g)
    (hA : w.bodyOf k.fA = some bA) (hB : w.bodyOf k.fB = some bB) (hne : bA ≠ bB)
    (hlA : Live w.g k.fA k.iA) (hlB : Live w.g k.fB k.iB) (hdyn : w.typeOf bA = .dynamic ∨ w.typeOf bB = .dynamic)
    (hreg : registers (w.g.fixtures k.fA).shape.type (w.g.fixtures k.fB).shape.type = ⟨some k.kind, true⟩)
    (hnew : ∀ c ∈ w.g.contactList, ¬ SameEnds (w.g.contacts c) k)
    (hj : ∀ j ∈ w.g.jointList, w.g.jjoins j bA bB → (w.g.joints j).collideConnected = true) :
    ∃ w', w.insertContact k = some w' ∧ Extend w w' ∧ w'.g.contactList = w.g.nextContact :: w.g.contactList ∧ w'.g.contacts w.g.nextContact = k := by
  obtain ⟨g', e1, e2⟩ := insertContact_spec h.link hA hB hne
  have hfix : g'.fixtures = w.g.fixtures := by rw [e2.eq]
  have hbl : g'.bodyList = w.g.bodyList := by rw [e2.eq]
  have hcl : g'.contactList = w.g.nextContact :: w.g.contactList := by rw [e2.eq]
  have hcon : g'.contacts = upd w.g.contacts w.g.nextContact k := by rw [e2.eq]
  have hnc : g'.nextContact = w.g.nextContact + 1 := by rw [e2.eq]
  have hlive : ∀ f i, Live g' f i ↔ Live w.g f i := by
    intro f i
    unfold Live; rw [hfix, hbl]
    refine exists_congr fun b => and_congr_right fun _ => ?_
    rw [e2.body b]
  have hnotin : w.g.nextContact ∉ w.g.contactList := fun hc => absurd (h.link.lt _ hc) (lt_irrefl _)
  have hold : ∀ c ∈ w.g.contactList, g'.contacts c = w.g.contacts c := by
    intro c hc
    rw [hcon]
    exact upd_other _ _ (by rintro rfl; exact hnotin hc)
  have hsymm : ∀ a b : ConS, SameEnds a b → SameEnds b a := by
    intro a b hab
    rcases hab with ⟨h1, h2, h3, h4⟩ | ⟨h1, h2, h3, h4⟩
    · exact Or.inl ⟨h1.symm, h2.symm, h3.symm, h4.symm⟩
    · exact Or.inr ⟨h3.symm, h4.symm, h1.symm, h2.symm⟩
  have hk : g'.contacts w.g.nextContact = k := by rw [hcon, upd_same]
  have hA' : (w.g.fixtures k.fA).body = some bA := hA
  have hB' : (w.g.fixtures k.fB).body = some bB := hB
  have ginv : GInv g' := by
    refine ⟨e2.link, h.joint.congr (by rw [e2.eq]) (by rw [e2.eq]) (by rw [e2.eq]) (by rw [e2.eq]) (by rw [hbl]; exact fun _ h => h) (fun b => by rw [e2.body b]),
      h.body.congr (by rw [e2.eq]) (by rw [e2.eq]) (by rw [e2.eq]) (by rw [e2.eq]) hfix (fun b => by rw [e2.body b]) (fun b => by rw [e2.body b])
        (fun b => by rw [e2.body b]), ?_, ?_⟩
    · intro c hc
      rw [hcl] at hc
      rcases List.mem_cons.mp hc with rfl | hc
      · refine ⟨bA, bB, ?_, ?_, hne, ?_, ?_, ?_, ?_⟩
        · rw [hk, hfix]; exact hA'
        · rw [hk, hfix]; exact hB'
        · rw [hk, hlive]; exact hlA
        · rw [hk, hlive]; exact hlB
        · rw [e2.body bA, e2.body bB]; exact hdyn
        · rw [hk, hfix]; exact hreg
      · exact (h.ok c hc).congr (hold c hc) (fun f => by rw [hfix]) (fun f => by rw [hfix]) (fun b => by rw [e2.body b]) (fun f i hl => (hlive f i).mpr hl)
    · intro c hc c' hc' hs
      rw [hcl] at hc hc'
      rcases List.mem_cons.mp hc with rfl | hc <;> rcases List.mem_cons.mp hc' with rfl | hc'
      · rfl
      · rw [hk, hold c' hc'] at hs
        exact absurd (hsymm _ _ hs) (hnew c' hc')
      · rw [hk, hold c hc] at hs
        exact absurd hs (hnew c hc)
      · rw [hold c hc, hold c' hc'] at hs
        exact h.uniq c hc c' hc' hs
  refine ⟨_, e1, ?_, hcl, hk⟩
  refine ⟨ginv, fun b => e2.body b, ?_, ⟨rfl⟩, rfl, rfl, rfl, rfl, rfl, ?_, ?_, ?_, ?_, ⟨[w.g.nextContact], hcl⟩, ⟨[], rfl, by simp⟩⟩
  · show g' = _
    conv_lhs => rw [e2.eq]
    rw [hcl, hcon, hnc]
  · show _ ≤ g'.nextContact
    rw [hnc]; omega
  · intro c hc
    have hne' : c ≠ w.g.nextContact := by omega
    refine ⟨?_, upd_other _ _ hne', ?_⟩
    · show g'.contacts c = _
      rw [hcon]; exact upd_other _ _ hne'
    · show c ∈ g'.contactList ↔ _
      rw [hcl]; simp [hne']
  · intro c hc hn
    have hc' : c ∈ g'.contactList := hc
    rw [hcl] at hc'
    rcases List.mem_cons.mp hc' with rfl | hc'
    · show (upd w.cst w.g.nextContact (w.newCst k) w.g.nextContact).touching = _ ∧ (upd w.cst w.g.nextContact (w.newCst k) w.g.nextContact).filter = _ ∧
        (upd w.cst w.g.nextContact (w.newCst k) w.g.nextContact).island = _ ∧ (upd w.cst w.g.nextContact (w.newCst k) w.g.nextContact).toiFlag = _ ∧
        (upd w.cst w.g.nextContact (w.newCst k) w.g.nextContact).toiCount = _
      rw [upd_same]
      exact ⟨rfl, rfl, rfl, rfl, rfl⟩
    · exact absurd (h.link.lt c hc') (by omega)
  · intro c hc hn a b hab j hjl hjj
    have hc' : c ∈ g'.contactList := hc
    rw [hcl] at hc'
    rcases List.mem_cons.mp hc' with rfl | hc'
    · have hab' : g'.joins w.g.nextContact a b := hab
      unfold Graph.joins at hab'
      rw [hk, hfix, hA', hB'] at hab'
      refine hj j hjl ?_
      unfold Graph.jjoins at hjj ⊢
      simp only [Option.some.injEq] at hab'
      rcases hab' with ⟨rfl, rfl⟩ | ⟨rfl, rfl⟩
      · exact hjj
      · tauto
    · exact absurd (h.link.lt c hc') (by omega)

variable {gh : Nat → Option (Proxy F (Nat × Nat))} {buf : List Nat} {rep : Set (Nat × Nat)}

theorem addPair_extend {env : Env F} {w w' : World F} {id1 id2 : Nat} {p1 p2 : Proxy F (Nat × Nat)} (h : GInv w.g)
    (hp : PI w.g.fixtures w.bp (Live w.g) gh buf rep) (h1 : gh id1 = some p1) (h2 : gh id2 = some p2)
    (e : w.addPair env (some p1.data) (some p2.data) = some w') : Extend w w' := by
  obtain ⟨k1, k2⟩ := hp.only id1 p1 h1
  obtain ⟨m1, m2⟩ := hp.only id2 p2 h2
  obtain ⟨bA, -, -, hA, -⟩ := k1
  obtain ⟨bB, -, -, hB, -⟩ := m1
  have hA' : w.bodyOf p1.data.1 = some bA := hA
  have hB' : w.bodyOf p2.data.1 = some bB := hB
  unfold addPair at e
  simp only [k2, m2, hA', hB', Option.bind_eq_bind, Option.bind_some] at e
  by_cases hbb : bA = bB
  · rw [if_pos hbb] at e; cases e; exact .refl h
  rw [if_neg hbb] at e
  by_cases hhas : w.hasContact bA bB p1.data.1 p1.data.2 p2.data.1 p2.data.2
  · rw [if_pos hhas] at e; cases e; exact .refl h
  rw [if_neg hhas] at e
  by_cases hsc : w.shouldCollide bB bA = false
  · rw [if_pos hsc] at e; cases e; exact .refl h
  rw [if_neg hsc] at e
  have ef := filterCollide_extend (env := env) h p1.data.1 p2.data.1
  have qf := filterCollide_quiet env w p1.data.1 p2.data.1
  generalize w.filterCollide env p1.data.1 p2.data.1 = r at e ef qf
  by_cases hr : r.1 = false
  · rw [if_pos hr] at e; cases e; exact ef
  rw [if_neg hr] at e
  rw [hasContact_iff h.link hA hB] at hhas
  simp only [Option.bind_eq_some_iff] at e
  obtain ⟨k, c1, c2⟩ := e
  refine ef.trans ?_
  rw [qf.g] at c1
  have hdyn := shouldCollide_dynamic hsc
  have l1 := (hp.only id1 p1 h1).1
  have l2 := (hp.only id2 p2 h2).1
  have hno : ∀ c ∈ w.g.contactList, ¬ SameEnds (w.g.contacts c) k := by
    intro c hc hs
    refine hhas ⟨c, hc, ?_⟩
    rcases registers_primary c1 with ⟨hk, -⟩ | ⟨hk, -⟩
    · rw [hk] at hs
      exact hs
    · rw [hk] at hs
      rcases hs with hs | hs
      · exact Or.inr hs
      · exact Or.inl hs
  have fin : ∀ bx by', r.2.bodyOf k.fA = some bx → r.2.bodyOf k.fB = some by' → bx ≠ by' → Live w.g k.fA k.iA → Live w.g k.fB k.iB →
      (w.typeOf bx = .dynamic ∨ w.typeOf by' = .dynamic) →
      registers (w.g.fixtures k.fA).shape.type (w.g.fixtures k.fB).shape.type = ⟨some k.kind, true⟩ →
      (∀ j ∈ w.g.jointList, w.g.jjoins j bx by' → (w.g.joints j).collideConnected = true) → Extend r.2 w' := by
    intro bx by' a1 a2 a3 a4 a5 a6 a7 a8
    obtain ⟨w2, b1, b2, -⟩ := insertContact_extend (w := r.2) (k := k) (by rw [qf.g]; exact h) a1 a2 a3 (by rw [qf.g]; exact a4) (by rw [qf.g]; exact a5)
      (by rw [qf.typeOf, qf.typeOf]; exact a6) (by rw [qf.g]; exact a7) (by rw [qf.g]; exact hno) (by rw [qf.g]; exact a8)
    rw [b1] at c2
    cases c2
    exact b2
  rcases registers_primary c1 with ⟨hk, hreg⟩ | ⟨hk, hreg⟩
  · refine fin bA bB ?_ ?_ hbb ?_ ?_ hdyn.symm ?_ (fun j hj hjj => shouldCollide_joints h.joint hsc j hj (by unfold Graph.jjoins at hjj ⊢; tauto))
    · rw [qf.bodyOf, hk]; exact hA'
    · rw [qf.bodyOf, hk]; exact hB'
    · rw [hk]; exact l1
    · rw [hk]; exact l2
    · rw [hk]; exact hreg
  · refine fin bB bA ?_ ?_ (Ne.symm hbb) ?_ ?_ hdyn ?_ (shouldCollide_joints h.joint hsc)
    · rw [qf.bodyOf, hk]; exact hB'
    · rw [qf.bodyOf, hk]; exact hA'
    · rw [hk]; exact l2
    · rw [hk]; exact l1
    · rw [hk]; exact hreg

theorem addPairs_extend {env : Env F} : ∀ (pairs : List (Nat × Nat)) {w w' : World F}, GInv w.g →
    PI w.g.fixtures w.bp (Live w.g) gh buf rep → (∀ q ∈ pairs, ∃ p1 p2, gh q.1 = some p1 ∧ gh q.2 = some p2) →
    pairs.foldl (fun (r : Option (World F)) q => r.bind fun w => w.addPair env ((gh q.1).map (·.data)) ((gh q.2).map (·.data))) (some w) = some w' →
    Extend w w' := by
  intro pairs
  induction pairs with
  | nil => intro w w' h _ _ e; cases e; exact .refl h
  | cons q pairs ih =>
    intro w w' h hp hq e
    rw [List.foldl_cons, Option.bind_some] at e
    obtain ⟨p1, p2, h1, h2⟩ := hq q (by simp)
    rw [h1, h2] at e
    simp only [Option.map_some] at e
    cases h3 : w.addPair env (some p1.data) (some p2.data) with
    | none =>
      rw [h3] at e
      have : ∀ l : List (Nat × Nat), l.foldl (fun (r : Option (World F)) q => r.bind fun w => w.addPair env ((gh q.1).map (·.data)) ((gh q.2).map (·.data))) none = none := by
        intro l
        induction l with
        | nil => rfl
        | cons a l ih => rw [List.foldl_cons]; exact ih
      rw [this] at e
      cases e
    | some w1 =>
      rw [h3] at e
      have e1 := addPair_extend h hp h1 h2 h3
      refine e1.trans (ih e1.ginv ?_ (fun q hq' => hq q (by simp [hq'])) e)
      rw [e1.bp]
      exact hp.congr (fun f => by rw [e1.fixtures]) e1.live

/-- `find_new_contacts`: contacts are added and the broad-phase buffer is emptied. -/
theorem findNewContacts_spec {env : Env F} {w w' : World F} (h : WInv w) (e : w.findNewContacts env = some w') :
    ∃ w1, Extend w w1 ∧ w' = { w1 with bp := w'.bp } ∧ WInv w' := by
  obtain ⟨gh, buf, rep, hp⟩ := h.prox
  obtain ⟨pairs, bp', rep', u1, -, u3, u4⟩ := bupdate hp.hist
  unfold findNewContacts at e
  rw [u1] at e
  simp only [Option.bind_eq_bind, Option.bind_some, Option.bind_eq_some_iff] at e
  obtain ⟨w1, e1, e2⟩ := e
  have x1 := addPairs_extend pairs h.toGInv hp (fun q hq => (u3 q hq).2) e1
  cases e2
  refine ⟨w1, x1, rfl, x1.ginv, _, [], rep', ⟨u4, ?_, ?_⟩⟩
  · intro f i hl
    have hl' := (x1.live f i).mp hl
    obtain ⟨id, p, a1, a2, a3⟩ := hp.has f i hl'
    refine ⟨id, { p with moved := false }, ?_, by rw [a2]; rfl, a3⟩
    show (w1.g.fixtures f).proxies[i]? = _
    rw [x1.fixtures]; exact a1
  · intro id p hid
    simp only [Option.map_eq_some_iff] at hid
    obtain ⟨q, hq, rfl⟩ := hid
    obtain ⟨a1, a2⟩ := hp.only id q hq
    refine ⟨(x1.live _ _).mpr a1, ?_⟩
    show (w1.g.fixtures q.data.1).proxies[q.data.2]? = _
    rw [x1.fixtures]; exact a2

end World
end
end B2
