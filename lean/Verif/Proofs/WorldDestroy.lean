import Verif.Proofs.WorldOps3

/-! `destroy_body`. -/
namespace B2
set_option linter.unusedSectionVars false
open Spec

section
variable {F : Type} [Field F] [LinearOrder F] [IsStrictOrderedRing F] [Elem F]

namespace World

/-- The goodbye callbacks for a list of objects, newest first. -/
def goodbyes (env : Env F) (locked : Bool) (k : Nat → EventKind) (l : List Nat) : List Event :=
  if env.destruction then (l.map fun x => ⟨k x, locked⟩).reverse else []

theorem goodbyes_snoc (env : Env F) (locked : Bool) (k : Nat → EventKind) (l : List Nat) (x : Nat) :
    goodbyes env locked k (l ++ [x]) = (if env.destruction then [⟨k x, locked⟩] else []) ++ goodbyes env locked k l := by
  unfold goodbyes
  split <;> simp

/-! ### Joints -/

structure DJ (env : Env F) (w0 : World F) (pre : List (Nat × Nat)) (w : World F) : Prop where
  winv : WInv w
  tr : Tr env w0 w
  rest : Rest w0 w
  frame : JFrame w0.g w.g
  bp : w.bp = w0.bp
  joints : w.g.joints = w0.g.joints
  mem : ∀ j, j ∈ w.g.jointList ↔ j ∈ w0.g.jointList ∧ j ∉ pre.map Prod.fst
  sub : w.g.jointList.Sublist w0.g.jointList
  next : w.g.nextJoint = w0.g.nextJoint
  log : w.log = goodbyes env w0.locked .goodbyeJoint (pre.map Prod.fst) ++ w0.log
  filter : ∀ f, (w.fattr f).filter = (w0.fattr f).filter

theorem DJ.step {env : Env F} {w0 w w1 : World F} {pre : List (Nat × Nat)} {x : Nat × Nat} (hl : w0.locked = false) (h : DJ env w0 pre w)
    (hx : x.1 ∈ w0.g.jointList) (hn : x.1 ∉ pre.map Prod.fst) (e : w.goodbye env (.goodbyeJoint x.1) = some w1) :
    ∃ w', w1.destroyJoint x.1 = some w' ∧ DJ env w0 (pre ++ [x]) w' := by
  obtain ⟨q, l⟩ := goodbye_quiet e
  have winv1 : WInv w1 := h.winv.frame q.g q.bp
  have hl1 : w1.locked = false := by rw [q.locked, h.rest.locked]; exact hl
  have hj1 : x.1 ∈ w1.g.jointList := by rw [q.g]; exact (h.mem _).mpr ⟨hx, hn⟩
  obtain ⟨w', e', k1, k2, k3, k4, k5, k6, k7, k8, k9, k10, k11, k12, k13, k14, k15⟩ := destroyJoint_spec winv1.toGInv hl1 hj1
  refine ⟨w', e', ?_⟩
  have tr1 : Tr env w w1 := by
    refine .quiet q (ev := if env.destruction then [⟨.goodbyeJoint x.1, w.locked⟩] else []) ?_ ?_
    · rw [l]; split <;> rfl
    · intro ev hev
      split at hev
      · simp only [List.mem_singleton] at hev; subst hev; exact trivial
      · simp at hev
  refine ⟨k1.winv k4 winv1 k2, (h.tr.trans tr1).trans (destroyJoint_tr winv1.toGInv hl1 hj1 e'), (h.rest.trans q.toWFrame.rest).trans k3, ?_, ?_, ?_, ?_, ?_, ?_, ?_, fun f => by rw [k7, q.toWFrame.filter, h.filter]⟩
  · refine h.frame.trans ?_
    rw [← q.g]; exact k1
  · rw [k4, q.bp, h.bp]
  · rw [k12, q.g, h.joints]
  · intro j
    rw [k11, winv1.joint.nodup.mem_erase_iff, q.g, h.mem]
    simp only [List.map_append, List.map_cons, List.map_nil, List.mem_append, List.mem_singleton]
    tauto
  · rw [k11, q.g]; exact List.erase_sublist.trans h.sub
  · rw [k13, q.g, h.next]
  · rw [k8, l, List.map_append, List.map_cons, List.map_nil, goodbyes_snoc, h.log, h.rest.locked]
    split <;> simp

theorem DJ.start {env : Env F} {w : World F} (hw : WInv w) : DJ env w [] w :=
  ⟨hw, .refl _ _, .refl _, .refl _, rfl, rfl, by simp, List.Sublist.refl _, rfl, by unfold goodbyes; split <;> rfl, fun _ => rfl⟩

theorem edge_pre {g : Graph F} (h : JointInv g) {b : Nat} {pre post : List (Nat × Nat)} {x : Nat × Nat} (hl : (g.bodies b).joints = pre ++ x :: post) :
    x.1 ∈ g.jointList ∧ x.1 ∉ pre.map Prod.fst := by
  refine ⟨((h.edges b x.1 x.2).mp (by rw [hl]; simp)).1, fun hm => ?_⟩
  have := h.edgeNodup b
  rw [hl, List.map_append, List.map_cons] at this
  exact (List.nodup_append.mp this).2.2 _ hm _ (by simp) rfl

theorem destroyJoints_spec {env : Env F} {w w' : World F} {b : Nat} (hw : WInv w) (hl : w.locked = false)
    (e : destroyJoints env (w.g.bodies b).joints w = some w') : DJ env w (w.g.bodies b).joints w' := by
  refine list_inv (DJ env w) e (.start hw) ?_
  intro pre x post hlist v v' hv hx
  simp only [Option.bind_eq_bind, Option.bind_eq_some_iff] at hx
  obtain ⟨v1, e1, e2⟩ := hx
  obtain ⟨h1, h2⟩ := edge_pre hw.joint hlist
  obtain ⟨v2, e3, e4⟩ := hv.step hl h1 h2 e1
  rw [e3] at e2
  cases e2
  exact e4

theorem destroyJoints_total {env : Env F} (he : env.Safe) {w : World F} {b : Nat} (hw : WInv w) (hl : w.locked = false) :
    ∃ w', destroyJoints env (w.g.bodies b).joints w = some w' := by
  obtain ⟨w', h, -⟩ := list_spec (f := fun (w : World F) (e : Nat × Nat) => do
      let w ← w.goodbye env (.goodbyeJoint e.1)
      w.destroyJoint e.1) (DJ env w) (l := (w.g.bodies b).joints) (b := w) (.start hw) (by
    intro pre x post hlist v hv
    obtain ⟨h1, h2⟩ := edge_pre hw.joint hlist
    obtain ⟨v1, e1⟩ := goodbye_safe he v (.goodbyeJoint x.1)
    obtain ⟨v2, e3, e4⟩ := hv.step hl h1 h2 e1
    exact ⟨v2, by simp only [e1, Option.bind_eq_bind, Option.bind_some]; exact e3, e4⟩)
  exact ⟨w', h⟩

/-! ### Fixtures -/

structure DF (env : Env F) (b : Nat) (w0 : World F) (pre : List Nat) (w : World F) : Prop where
  tr : Tr env w0 w
  rest : Rest w0 w
  g : w.g = { w0.g with bodies := w.g.bodies, fixtures := w.g.fixtures }
  body : ∀ x, w.g.bodies x = { w0.g.bodies x with fixtureCount := (w.g.bodies x).fixtureCount }
  count : ∀ x, x ≠ b → (w.g.bodies x).fixtureCount = (w0.g.bodies x).fixtureCount
  fbody : ∀ f, (w.g.fixtures f).body = (w0.g.fixtures f).body
  fshape : ∀ f, (w.g.fixtures f).shape = (w0.g.fixtures f).shape
  flen : ∀ f, (w.g.fixtures f).proxies.length = (w0.g.fixtures f).proxies.length
  other : ∀ f, f ∉ pre → w.g.fixtures f = w0.g.fixtures f
  prox : ∃ gh buf rep, PI w.g.fixtures w.bp (fun f i => Live w0.g f i ∧ f ∉ pre) gh buf rep
  log : w.log = goodbyes env w0.locked .goodbyeFixture pre ++ w0.log
  filter : ∀ f, (w.fattr f).filter = (w0.fattr f).filter
  bt : BT (fun _ _ => False) w0.bp w.bp

theorem DF.start {env : Env F} {b : Nat} {w : World F} (hw : WInv w) : DF env b w [] w := by
  obtain ⟨gh, buf, rep, hp⟩ := hw.prox
  exact ⟨.refl _ _, .refl _, rfl, fun _ => rfl, fun _ _ => rfl, fun _ => rfl, fun _ => rfl, fun _ => rfl, fun _ _ => rfl,
    ⟨gh, buf, rep, hp.congr (fun _ => rfl) (by simp)⟩, by unfold goodbyes; split <;> rfl, fun _ => rfl, .refl _⟩

theorem DF.step {env : Env F} {b : Nat} {w0 w w1 : World F} {pre : List Nat} {f : Nat} (hw : WInv w0) (h : DF env b w0 pre w)
    (hf : f ∈ (w0.g.bodies b).fixtures) (hn : f ∉ pre) (e : w.goodbye env (.goodbyeFixture f) = some w1) :
    ∃ w2, w1.destroyProxies f = some w2 ∧
      DF env b w0 (pre ++ [f]) (w2.setBody b { w2.g.bodies b with fixtureCount := (w2.g.bodies b).fixtureCount - 1 }) := by
  obtain ⟨q, l⟩ := goodbye_quiet e
  obtain ⟨gh, buf, rep, hp⟩ := h.prox
  obtain ⟨-, -, -, h4, h5⟩ := hw.body.fix hf
  obtain ⟨w2, gh2, buf2, rep2, k1, k2, k3, k4, k5⟩ := destroyProxies_spec (w := w1) (f := f) (n := (w0.g.fixtures f).proxyCount)
    (L := fun f i => Live w0.g f i ∧ f ∉ pre) (by rw [q.g, q.bp]; exact hp) (by rw [q.g, h.other f hn]) (by
      intro i
      simp only [hn, not_false_eq_true, and_true]
      cases he : (w0.g.bodies b).enabled with
      | true => rw [(h4 he).2, (h4 he).1]
      | false => rw [(h5 he).1]; simp [(h5 he).2 i]) (N := fun _ _ => False)
  refine ⟨w2, k1, ?_⟩
  have tr1 : Tr env w w1 := by
    refine .quiet q (ev := if env.destruction then [⟨.goodbyeFixture f, w.locked⟩] else []) ?_ ?_
    · rw [l]; split <;> rfl
    · intro ev hev
      split at hev
      · simp only [List.mem_singleton] at hev; subst hev; exact trivial
      · simp at hev
  set w3 := w2.setBody b { w2.g.bodies b with fixtureCount := (w2.g.bodies b).fixtureCount - 1 } with hw3
  have hb3 : ∀ x, w3.g.bodies x = { w2.g.bodies x with fixtureCount := (w3.g.bodies x).fixtureCount } := by
    intro x
    by_cases hx : x = b
    · have : w3.g.bodies b = { w2.g.bodies b with fixtureCount := (w2.g.bodies b).fixtureCount - 1 } := upd_same _ _ _
      rw [hx, this]
    · have : w3.g.bodies x = w2.g.bodies x := upd_other _ _ hx
      rw [this]
  have hb2 : w2.g.bodies = w.g.bodies := by rw [k2.bodies, q.g]
  have tr3 : Tr env w2 w3 := .calm ⟨⟨fun _ => rfl, rfl, fun _ => rfl, fun _ => rfl, fun _ => rfl, fun x => by rw [typeOf, hb3]; rfl, fun _ _ => rfl⟩, fun _ => rfl⟩
    rfl rfl rfl rfl rfl (fun _ => rfl) (ev := []) rfl (by simp)
  refine ⟨((h.tr.trans tr1).trans k2.tr).trans tr3, ((h.rest.trans q.toWFrame.rest).trans k2.rest).trans ⟨rfl⟩, ?_, ?_, ?_, ?_, ?_, ?_, ?_, ?_, ?_, ?_, ?_⟩
  · have e3 : w3.g = { w2.g with bodies := w3.g.bodies } := rfl
    rw [e3, k2.g, q.g, h.g]
  · intro x
    rw [hb3, hb2, h.body x]
  · intro x hx
    have : w3.g.bodies x = w2.g.bodies x := upd_other _ _ hx
    rw [this, hb2, h.count x hx]
  · intro x
    show (w2.g.fixtures x).body = _
    rw [k2.body, q.g, h.fbody]
  · intro x
    show (w2.g.fixtures x).shape = _
    rw [k2.shape, q.g, h.fshape]
  · intro x
    show (w2.g.fixtures x).proxies.length = _
    rw [k2.len, q.g, h.flen]
  · intro x hx
    simp only [List.mem_append, List.mem_singleton, not_or] at hx
    show w2.g.fixtures x = _
    rw [k4 x hx.2, q.g, h.other x hx.1]
  · exact ⟨gh2, buf2, rep2, k5.congr (fun _ => rfl) (fun x i => by simp; tauto)⟩
  · show w2.log = _
    rw [k2.log, l, goodbyes_snoc, h.log, h.rest.locked]
    split <;> simp
  · intro x
    show (w2.fattr x).filter = _
    rw [k2.eq]
    exact (q.toWFrame.filter x).trans (h.filter x)
  · show BT (fun _ _ => False) w0.bp w2.bp
    refine h.bt.trans ?_
    rw [← q.bp]; exact k2.bt

theorem fix_pre {g : Graph F} (h : BodyInv g) {b : Nat} {pre post : List Nat} {x : Nat} (hl : (g.bodies b).fixtures = pre ++ x :: post) :
    x ∈ (g.bodies b).fixtures ∧ x ∉ pre := by
  refine ⟨by rw [hl]; simp, fun hm => ?_⟩
  have := h.fixNodup b
  rw [hl] at this
  exact (List.nodup_append.mp this).2.2 _ hm _ (by simp) rfl

theorem destroyFixtures_spec {env : Env F} {w w' : World F} {b : Nat} (hw : WInv w)
    (e : destroyFixtures env b (w.g.bodies b).fixtures w = some w') : DF env b w (w.g.bodies b).fixtures w' := by
  refine list_inv (DF env b w) e (.start hw) ?_
  intro pre x post hlist v v' hv hx
  simp only [Option.bind_eq_bind, Option.bind_eq_some_iff] at hx
  obtain ⟨v1, e1, v2, e2, e3⟩ := hx
  obtain ⟨h1, h2⟩ := fix_pre hw.body hlist
  obtain ⟨v2', e4, e5⟩ := hv.step hw h1 h2 e1
  rw [e4] at e2
  cases e2
  cases e3
  exact e5

theorem destroyFixtures_total {env : Env F} (he : env.Safe) {w : World F} {b : Nat} (hw : WInv w) :
    ∃ w', destroyFixtures env b (w.g.bodies b).fixtures w = some w' := by
  obtain ⟨w', h, -⟩ := list_spec (f := fun (w : World F) f => do
      let w ← w.goodbye env (.goodbyeFixture f)
      let w ← w.destroyProxies f
      return w.setBody b { w.g.bodies b with fixtureCount := (w.g.bodies b).fixtureCount - 1 }) (DF env b w) (l := (w.g.bodies b).fixtures) (b := w) (.start hw) (by
    intro pre x post hlist v hv
    obtain ⟨h1, h2⟩ := fix_pre hw.body hlist
    obtain ⟨v1, e1⟩ := goodbye_safe he v (.goodbyeFixture x)
    obtain ⟨v2, e3, e4⟩ := hv.step hw h1 h2 e1
    exact ⟨_, by simp only [e1, e3, Option.bind_eq_bind, Option.bind_some]; rfl, e4⟩)
  exact ⟨w', h⟩

/-! ### destroy_body -/

theorem setBody_id {w : World F} {b : Nat} {s : BodyS} (h : s = w.g.bodies b) : w.setBody b s = w := by
  unfold setBody
  have : upd w.g.bodies b s = w.g.bodies := by
    funext x
    by_cases hx : x = b
    · rw [hx, upd_same, h]
    · rw [upd_other _ _ hx]
  rw [this]

theorem DJ.joints_nil {env : Env F} {w0 w : World F} {b : Nat} (hw : WInv w0) (h : DJ env w0 (w0.g.bodies b).joints w) : (w.g.bodies b).joints = [] := by
  rw [List.eq_nil_iff_forall_not_mem]
  rintro ⟨j, o⟩ hm
  obtain ⟨h1, h2⟩ := (h.winv.joint.edges b j o).mp hm
  obtain ⟨h3, h4⟩ := (h.mem j).mp h1
  refine h4 (List.mem_map.mpr ⟨(j, o), (hw.joint.edges b j o).mpr ⟨h3, ?_⟩, rfl⟩)
  unfold Graph.jjoins at h2 ⊢
  rw [h.joints] at h2
  exact h2

/-- What `destroy_body` does: joints, contacts, fixtures and the body itself are gone. -/
structure Destroyed (env : Env F) (b : Nat) (w w' : World F) : Prop where
  winv : WInv w'
  tr : Tr env w w'
  rest : Rest w w'
  bodyList : w'.g.bodyList = w.g.bodyList.erase b
  joint : ∀ j, j ∈ w'.g.jointList ↔ j ∈ w.g.jointList ∧ ¬ ∃ o, w.g.jjoins j b o
  contact : ∀ c, c ∈ w'.g.contactList ↔ c ∈ w.g.contactList ∧ ¬ ∃ o, w.g.joins c b o
  joints : w'.g.joints = w.g.joints
  contacts : w'.g.contacts = w.g.contacts
  fbody : ∀ f, (w'.g.fixtures f).body = (w.g.fixtures f).body
  self : (w'.g.bodies b).fixtures = [] ∧ (w'.g.bodies b).joints = [] ∧ (w'.g.bodies b).contacts = []
  other : ∀ x, x ≠ b → (w'.g.bodies x).fixtures = (w.g.bodies x).fixtures ∧ (w'.g.bodies x).type = (w.g.bodies x).type ∧ (w'.g.bodies x).enabled = (w.g.bodies x).enabled
  log : w'.log = goodbyes env w.locked .goodbyeFixture (w.g.bodies b).fixtures ++ endEvents env w ((w.g.bodies b).contacts.map Prod.fst) ++
    goodbyes env w.locked .goodbyeJoint ((w.g.bodies b).joints.map Prod.fst) ++ w.log
  carry : ∀ D, Carry (fun _ _ => False) D (fun _ => False) w w'

theorem destroyBody_parts {env : Env F} {w w1 w2 w3 : World F} {b : Nat} (hw : WInv w) (hb : b ∈ w.g.bodyList) (hc : 0 < w.g.bodyCount)
    (hj : DJ env w (w.g.bodies b).joints w1) (hct : (∀ c, (w1.cst c).touching = (w.cst c).touching))
    (e2 : destroyContacts env (w1.g.bodies b).contacts w1 = some w2) (hd : DF env b w2 (w2.g.bodies b).fixtures w3) :
    Destroyed env b w { w3.setBody b { w3.g.bodies b with fixtures := [], fixtureCount := 0 } with
      g := { (w3.setBody b { w3.g.bodies b with fixtures := [], fixtureCount := 0 }).g with bodyList := w.g.bodyList.erase b, bodyCount := w.g.bodyCount - 1 } } := by
  have winv1 := hj.winv
  obtain ⟨cut, hnil⟩ := destroyContacts_cut winv1.link e2
  have hs := cut.shrunk
  have winv2 : WInv w2 := cut.winv winv1
  set w4 := w3.setBody b { w3.g.bodies b with fixtures := [], fixtureCount := 0 } with hw4
  set w5 : World F := { w4 with g := { w4.g with bodyList := w.g.bodyList.erase b, bodyCount := w.g.bodyCount - 1 } } with hw5
  have hfx1 : w1.g.fixtures = w.g.fixtures := hj.frame.fixtures
  have hfx2 : w2.g.fixtures = w.g.fixtures := by rw [hs.fixtures, hfx1]
  have hbf2 : (w2.g.bodies b).fixtures = (w.g.bodies b).fixtures := by rw [hs.bfixtures, hj.frame.body b]
  have hb5o : ∀ x, x ≠ b → w5.g.bodies x = w2.g.bodies x := by
    intro x hx
    have : w5.g.bodies x = w3.g.bodies x := upd_other _ _ hx
    rw [this, hd.body x, hd.count x hx]
  have hb5b : w5.g.bodies b = { w2.g.bodies b with fixtures := [], fixtureCount := 0 } := by
    have : w5.g.bodies b = { w3.g.bodies b with fixtures := [], fixtureCount := 0 } := upd_same _ _ _
    rw [this, hd.body b]
  have hjb : (w2.g.bodies b).joints = [] := by rw [hs.bjoints]; exact hj.joints_nil hw
  have hg5 : w5.g = { w2.g with bodies := w5.g.bodies, fixtures := w3.g.fixtures, bodyList := w.g.bodyList.erase b, bodyCount := w.g.bodyCount - 1 } := by
    have e : w5.g = { w3.g with bodies := w5.g.bodies, bodyList := w.g.bodyList.erase b, bodyCount := w.g.bodyCount - 1 } := rfl
    rw [e, hd.g]
  have hbl : w5.g.bodyList = w.g.bodyList.erase b := rfl
  have hblm : ∀ x, x ∈ w5.g.bodyList ↔ x ∈ w.g.bodyList ∧ x ≠ b := by
    intro x; rw [hbl, hw.body.nodup.mem_erase_iff]; tauto
  have hfb : ∀ f, (w5.g.fixtures f).body = (w.g.fixtures f).body := by
    intro f
    show (w3.g.fixtures f).body = _
    rw [hd.fbody, hfx2]
  have hfx5 : w5.g.fixtures = w3.g.fixtures := rfl
  have hen : ∀ x, (w5.g.bodies x).enabled = (w.g.bodies x).enabled ∧ (w5.g.bodies x).type = (w.g.bodies x).type := by
    intro x
    have e : (w2.g.bodies x).enabled = (w.g.bodies x).enabled ∧ (w2.g.bodies x).type = (w.g.bodies x).type := by
      rw [hs.benabled, hs.btype, hj.frame.body x]; exact ⟨rfl, rfl⟩
    by_cases hx : x = b
    · rw [hx] at e ⊢; rw [hb5b]; exact e
    · rw [hb5o x hx]; exact e
  have hlive2 : ∀ x i, Live w2.g x i ↔ Live w.g x i := fun x i => (hs.live x i).trans (hj.frame.live x i)
  have hlive : ∀ x i, Live w5.g x i ↔ Live w2.g x i ∧ x ∉ (w2.g.bodies b).fixtures := by
    intro x i
    rw [hlive2, hbf2, hw.body.fixtures]
    unfold Live
    simp only [hblm, hfx5, hd.fbody, hd.flen, hfx2, (hen _).1]
    constructor
    · rintro ⟨y, ⟨h1, h1'⟩, h2, h3, h4⟩
      refine ⟨⟨y, h1, h2, h3, h4⟩, fun h => ?_⟩
      rw [h3] at h
      exact h1' (Option.some.inj h.2)
    · rintro ⟨⟨y, h1, h2, h3, h4⟩, h5⟩
      refine ⟨y, ⟨h1, ?_⟩, h2, h3, h4⟩
      rintro rfl
      exact h5 ⟨hb, h3⟩
  have hcs5 : w5.g.contacts = w.g.contacts := by rw [hg5, hs.contacts, hj.frame.contacts]
  have hcl5 : w5.g.contactList = w2.g.contactList := by rw [hg5]
  have hjn : ∀ c o, w1.g.joins c b o ↔ w.g.joins c b o := fun c o => Graph.joins_congr (by rw [hj.frame.contacts]) (fun f => by rw [hfx1])
  have hcm : ∀ c, c ∈ w5.g.contactList ↔ c ∈ w.g.contactList ∧ ¬ ∃ o, w.g.joins c b o := by
    intro c
    rw [hcl5, hs.mem, hj.frame.contactList]
    simp only [hjn]
  have hjl : w5.g.jointList = w1.g.jointList := by rw [hg5, hs.jointList]
  have hjs : w5.g.joints = w.g.joints := by rw [hg5, hs.joints, hj.joints]
  have hjm : ∀ j, j ∈ w5.g.jointList ↔ j ∈ w.g.jointList ∧ ¬ ∃ o, w.g.jjoins j b o := by
    intro j
    rw [hjl, hj.mem]
    refine and_congr_right fun hjj => not_congr ?_
    rw [List.mem_map]
    constructor
    · rintro ⟨⟨j', o⟩, h1, rfl⟩
      exact ⟨o, ((hw.joint.edges b _ o).mp h1).2⟩
    · rintro ⟨o, ho⟩
      exact ⟨(j, o), (hw.joint.edges b j o).mpr ⟨hjj, ho⟩, rfl⟩
  have hfixes : ∀ x, x ≠ b → (w5.g.bodies x).fixtures = (w.g.bodies x).fixtures ∧ (w5.g.bodies x).fixtureCount = (w.g.bodies x).fixtureCount := by
    intro x hx
    rw [hb5o x hx, hs.bfixtures, hs.bfixtureCount, hj.frame.body x]; exact ⟨rfl, rfl⟩
  obtain ⟨gh, buf, rep, hpi⟩ := hd.prox
  have winv5 : WInv w5 := by
    refine ⟨⟨?_, ?_, ?_, ?_, ?_⟩, gh, buf, rep, hpi.congr (fun _ => rfl) hlive⟩
    · refine winv2.link.congr hcl5 (by rw [hg5]) (by rw [hg5]) (by rw [hg5]) (fun f => by rw [hfb, hfx2]) (fun x => ?_)
      by_cases hx : x = b
      · rw [hx, hb5b]
      · rw [hb5o x hx]
    · refine ⟨by rw [hjl]; exact winv1.joint.nodup, by rw [hjl, hg5, hs.jointCount]; exact winv1.joint.count, by rw [hjl, hg5, hs.nextJoint]; exact winv1.joint.lt, ?_, ?_, ?_⟩
      · intro j hjj
        obtain ⟨h1, h2⟩ := (hjm j).mp hjj
        obtain ⟨k1, k2, k3⟩ := hw.joint.ends j h1
        rw [hjs]
        refine ⟨k1, (hblm _).mpr ⟨k2, ?_⟩, (hblm _).mpr ⟨k3, ?_⟩⟩
        · intro h; exact h2 ⟨_, Or.inl ⟨h, rfl⟩⟩
        · intro h; exact h2 ⟨_, Or.inr ⟨h, rfl⟩⟩
      · intro x j o
        have hbj : (w5.g.bodies x).joints = (w1.g.bodies x).joints := by
          by_cases hx : x = b
          · rw [hx, hb5b, ← hs.bjoints]
          · rw [hb5o x hx, hs.bjoints]
        have hjj : w5.g.jjoins j x o ↔ w1.g.jjoins j x o := by
          unfold Graph.jjoins; rw [hjs, hj.joints]
        rw [hbj, winv1.joint.edges, hjl, hjj]
      · intro x
        have hbj : (w5.g.bodies x).joints = (w1.g.bodies x).joints := by
          by_cases hx : x = b
          · rw [hx, hb5b, ← hs.bjoints]
          · rw [hb5o x hx, hs.bjoints]
        rw [hbj]; exact winv1.joint.edgeNodup x
    · refine ⟨hw.body.nodup.erase b, ?_, ?_, ?_, ?_, ?_, ?_, ?_, ?_⟩
      · show w.g.bodyCount - 1 = (w.g.bodyList.erase b).length
        rw [List.length_erase_of_mem hb, hw.body.count]
      · intro x hx
        have := hw.body.lt x ((hblm x).mp hx).1
        rw [hg5, hs.nextBody, hj.frame.nextBody]; exact this
      · intro f x hx
        rw [hfb] at hx
        obtain ⟨k1, k2⟩ := hw.body.owner f x hx
        have hnf : w5.g.nextFixture = w.g.nextFixture := by rw [hg5, hs.nextFixture, hj.frame.eq]
        have hnb : w5.g.nextBody = w.g.nextBody := by rw [hg5, hs.nextBody, hj.frame.nextBody]
        rw [hnf, hnb]; exact ⟨k1, k2⟩
      · intro x f
        rw [hblm, hfb]
        by_cases hx : x = b
        · rw [hx, hb5b]; simp
        · rw [(hfixes x hx).1, hw.body.fixtures]; simp [hx]
      · intro x
        by_cases hx : x = b
        · rw [hx, hb5b]; exact List.nodup_nil
        · rw [(hfixes x hx).1]; exact hw.body.fixNodup x
      · intro x
        by_cases hx : x = b
        · rw [hx, hb5b]; rfl
        · rw [(hfixes x hx).1, (hfixes x hx).2]; exact hw.body.fixCount x
      · intro f x hx hf
        rw [hfb] at hf
        rw [hfx5, hd.fshape, hd.flen, hfx2]
        exact hw.body.children f x ((hblm x).mp hx).1 hf
      · intro f x hx hf
        obtain ⟨h1, h2⟩ := (hblm x).mp hx
        rw [hfb] at hf
        have hno : f ∉ (w2.g.bodies b).fixtures := by
          rw [hbf2, hw.body.fixtures, hf]
          rintro ⟨-, h⟩
          exact h2 (Option.some.inj h)
        rw [hfx5, hd.other f hno, hfx2, (hen x).1]
        exact hw.body.proxyCount f x h1 hf
    · intro c hc
      obtain ⟨hc', hno⟩ := (hcm c).mp hc
      refine (hw.ok c hc').congr' (by rw [hcs5]) (fun x y hx hxx => ⟨by rw [hfb]; exact hx, by rw [hfx5, hd.fshape, hfx2], (hen y).2, fun i hi => (hlive x i).mpr ⟨(hlive2 x i).mpr hi, fun hm => hno ?_⟩⟩)
      rw [hbf2] at hm
      have hxb := ((hw.body.fixtures b x).mp hm).2
      obtain ⟨bA, bB, m1, m2, -⟩ := hw.link.bodies c hc'
      rw [joins_exists]
      refine ⟨bA, bB, m1, m2, ?_⟩
      rcases hxx with rfl | rfl
      · rw [hxb] at m1; exact Or.inl (Option.some.inj m1).symm
      · rw [hxb] at m2; exact Or.inr (Option.some.inj m2).symm
    · intro c hc c' hc'
      rw [hcs5]
      exact hw.uniq c ((hcm c).mp hc).1 c' ((hcm c').mp hc').1
  have tr35 : Tr env w3 w5 := by
    have ht : ∀ x, w5.typeOf x = w3.typeOf x := by
      intro x
      rw [typeOf, (hen x).2, typeOf, hd.body x]
      show _ = (w2.g.bodies x).type
      rw [hs.btype, hj.frame.type]
    exact .calm ⟨⟨fun _ => rfl, rfl, fun _ => rfl, fun _ => rfl, fun _ => rfl, ht, fun _ _ => rfl⟩, fun _ => rfl⟩
      rfl rfl rfl rfl rfl (fun _ => rfl) (ev := []) rfl (by simp)
  refine ⟨winv5, ((hj.tr.trans (destroyContacts_tr winv1.link e2)).trans hd.tr).trans tr35, ((hj.rest.trans cut.rest).trans hd.rest).trans ⟨rfl⟩, rfl, hjm, hcm, hjs, hcs5, hfb, ?_, ?_, ?_, fun D => ?_⟩
  · rw [hb5b]; exact ⟨rfl, hjb, hnil⟩
  · intro x hx
    exact ⟨(hfixes x hx).1, (hen x).2, (hen x).1⟩
  · show w3.log = _
    rw [hd.log, cut.log, hj.log, hbf2, cut.rest.locked, hj.rest.locked]
    have hcon : (w1.g.bodies b).contacts = (w.g.bodies b).contacts := by rw [hj.frame.body b]
    have hev : ∀ l, endEvents env w1 l = endEvents env w l := by
      intro l
      induction l with
      | nil => rfl
      | cons c l ih => simp only [endEvents, ih, endEvent, hct, hj.rest.locked]
    rw [hcon, hev]
    simp only [List.append_assoc]
  · have hbt : BT (fun _ _ => False) w.bp w5.bp := by
      show BT (fun _ _ => False) w.bp w3.bp
      have h := hd.bt
      rw [cut.bp, hj.bp] at h
      exact h
    refine ⟨hbt, fun _ _ _ _ _ _ _ h => h.elim, fun x y z hy hz => ?_, fun x y _ _ _ _ => (hen y).2,
      fun j h1 _ ha hb' => Or.inl ⟨(hjm j).mpr ⟨h1, ?_⟩, by rw [hjs]⟩, fun x y _ _ => ?_, fun c hc _ _ y z hy hz hyl hzl _ _ => ⟨(hcm c).mpr ⟨hc, ?_⟩, by rw [hcs5]⟩, fun x _ _ _ _ => by rw [hfx5, hd.fshape, hfx2]⟩
    · rw [hfb, hy] at hz
      exact (Option.some.inj hz).symm
    · have h1 := ((hblm _).mp ha).2
      have h2 := ((hblm _).mp hb').2
      rintro ⟨o, h | h⟩
      · exact h1 h.1
      · exact h2 h.1
    · show (w3.fattr x).filter = _
      rw [hd.filter, cut.filter, hj.filter]
    · rw [hfb] at hy hz
      have h1 := ((hblm _).mp hyl).2
      have h2 := ((hblm _).mp hzl).2
      rintro ⟨o, h | h⟩
      · rw [hy] at h; exact h1 (Option.some.inj h.1)
      · rw [hz] at h; exact h2 (Option.some.inj h.1)

theorem DJ.touching {env : Env F} {w0 w : World F} {b : Nat} (hw : WInv w0) (hl : w0.locked = false)
    (e : destroyJoints env (w0.g.bodies b).joints w0 = some w) : ∀ c, (w.cst c).touching = (w0.cst c).touching := by
  have := list_inv (fun pre v => DJ env w0 pre v ∧ ∀ c, (v.cst c).touching = (w0.cst c).touching) e ⟨.start hw, fun _ => rfl⟩ (by
    rintro pre x post hlist v v' ⟨hv, ht⟩ hx
    simp only [Option.bind_eq_bind, Option.bind_eq_some_iff] at hx
    obtain ⟨v1, e1, e2⟩ := hx
    obtain ⟨h1, h2⟩ := edge_pre hw.joint hlist
    obtain ⟨v2, e3, e4⟩ := hv.step hl h1 h2 e1
    rw [e3] at e2
    cases e2
    refine ⟨e4, fun c => ?_⟩
    obtain ⟨q, -⟩ := goodbye_quiet e1
    have winv1 : WInv v1 := hv.winv.frame q.g q.bp
    obtain ⟨v'', e', -, -, -, -, -, -, -, -, -, -, -, -, -, k, -⟩ := destroyJoint_spec winv1.toGInv (j := x.1) (by rw [q.locked, hv.rest.locked]; exact hl) (by rw [q.g]; exact (hv.mem _).mpr ⟨h1, h2⟩)
    rw [e3] at e'
    cases e'
    rw [k c]
    exact (q.touching c).trans (ht c))
  exact this.2

theorem destroyBody_spec {env : Env F} {w w' : World F} {b : Nat} (hw : WInv w) (hb : b ∈ w.g.bodyList)
    (e : w.destroyBody env b = some w') : w.locked = false ∧ Destroyed env b w w' := by
  unfold destroyBody at e
  split at e
  · cases e
  rename_i hc
  split at e
  · cases e
  rename_i hl
  have hl' : w.locked = false := by simpa using hl
  simp only [Option.bind_eq_bind, Option.bind_eq_some_iff] at e
  obtain ⟨w1, e1, w2, e2, w3, e3, bl, e4, e5⟩ := e
  have hj := destroyJoints_spec hw hl' e1
  have hid : w1.setBody b { w1.g.bodies b with joints := [] } = w1 := setBody_id (by rw [← hj.joints_nil hw])
  rw [hid] at e2
  have hnil := (destroyContacts_cut hj.winv.link e2).2
  rw [clearContacts_id hnil] at e3
  have winv2 : WInv w2 := (destroyContacts_cut hj.winv.link e2).1.winv hj.winv
  have hd := destroyFixtures_spec winv2 e3
  have hres := destroyBody_parts hw hb (by omega) hj (DJ.touching hw hl' e1) e2 hd
  refine ⟨hl', ?_⟩
  have hs := (destroyContacts_cut hj.winv.link e2).1.shrunk
  have hbl : (w3.setBody b { w3.g.bodies b with fixtures := [], fixtureCount := 0 }).g.bodyList = w.g.bodyList := by
    show w3.g.bodyList = _
    rw [hd.g]
    show w2.g.bodyList = _
    rw [hs.bodyList, hj.frame.bodyList]
  have hbc : (w3.setBody b { w3.g.bodies b with fixtures := [], fixtureCount := 0 }).g.bodyCount = w.g.bodyCount := by
    show w3.g.bodyCount = _
    rw [hd.g]
    show w2.g.bodyCount = _
    rw [hs.bodyCount, hj.frame.eq]
  rw [hbl, removeOne, if_pos hb] at e4
  cases e4
  rw [hbc] at e5
  cases e5
  exact hres

theorem destroyBody_total {env : Env F} (he : env.Safe) {w : World F} {b : Nat} (hw : WInv w) (hb : b ∈ w.g.bodyList) (hl : w.locked = false) :
    ∃ w', w.destroyBody env b = some w' := by
  unfold destroyBody
  have hc : w.g.bodyCount > 0 := by
    rw [hw.body.count]
    exact_mod_cast List.length_pos_of_mem hb
  rw [if_neg (by omega), if_neg (by simp [hl])]
  obtain ⟨w1, e1⟩ := destroyJoints_total he (b := b) hw hl
  have hj := destroyJoints_spec hw hl e1
  have hid : w1.setBody b { w1.g.bodies b with joints := [] } = w1 := setBody_id (by rw [← hj.joints_nil hw])
  obtain ⟨w2, e2⟩ := destroyContacts_total he (b := b) hj.winv.link
  have hnil := (destroyContacts_cut hj.winv.link e2).2
  have winv2 : WInv w2 := (destroyContacts_cut hj.winv.link e2).1.winv hj.winv
  obtain ⟨w3, e3⟩ := destroyFixtures_total he (b := b) winv2
  have hd := destroyFixtures_spec winv2 e3
  have hs := (destroyContacts_cut hj.winv.link e2).1.shrunk
  have hbl : (w3.setBody b { w3.g.bodies b with fixtures := [], fixtureCount := 0 }).g.bodyList = w.g.bodyList := by
    show w3.g.bodyList = _
    rw [hd.g]
    show w2.g.bodyList = _
    rw [hs.bodyList, hj.frame.bodyList]
  simp only [Option.bind_eq_bind, e1, Option.bind_some, hid, e2, clearContacts_id hnil, e3, hbl, removeOne, if_pos hb]
  exact ⟨_, rfl⟩

end World
end
end B2
