import Verif.Proofs.WorldIslands
import Verif.Proofs.WorldToiIsland
import Verif.Proofs.WorldPhys
import Verif.Spec.WorldMotion

/-! Following one body through a step. -/
namespace B2
set_option linter.unusedSectionVars false
open World Spec

section
variable {F : Type} [Field F] [LinearOrder F] [IsStrictOrderedRing F] [Elem F]

/-- The numbers of a body without the flags and the sleep timer. -/
def Phys.core (p : Phys F) : Phys F := { p with awake := false, sleepTime := 0, island := false, islandIndex := 0 }

/-- Only flags and the sleep timer have changed, and the body has not been put to sleep. -/
def SameCore (_ : BodyType) (p q : Phys F) : Prop := q.core = p.core ∧ (p.awake = true → q.awake = true)

theorem core_wake (t : BodyType) (p : Phys F) : (p.setAwake t true).core = p.core := by
  unfold Phys.setAwake
  split
  · rfl
  · rfl

theorem awake_wake (t : BodyType) (p : Phys F) (h : p.awake = true) : (p.setAwake t true).awake = true := by
  unfold Phys.setAwake
  split
  · exact h
  · rfl

theorem sameCore_wakes : Wakes (SameCore (F := F)) :=
  ⟨fun _ _ => ⟨rfl, id⟩, fun h h' => ⟨h'.1.trans h.1, fun a => h'.2 (h.2 a)⟩, fun t p => ⟨core_wake t p, awake_wake t p⟩⟩

theorem core_eq {p q : Phys F} (h : q.core = p.core) :
    q = { p with awake := q.awake, sleepTime := q.sleepTime, island := q.island, islandIndex := q.islandIndex } := by
  have : ({ q.core with awake := q.awake, sleepTime := q.sleepTime, island := q.island, islandIndex := q.islandIndex } : Phys F) =
    { p.core with awake := q.awake, sleepTime := q.sleepTime, island := q.island, islandIndex := q.islandIndex } := by rw [h]
  exact this

/-- The body has a contact. -/
def Met (g : Graph F) (b : Nat) : Prop := (g.bodies b).contacts ≠ []

/-- The fat boxes of the body's fixtures are the same. -/
structure SameBoxes (b : Nat) (w w' : World F) : Prop where
  type : w'.typeOf b = w.typeOf b
  enabled : (w'.g.bodies b).enabled = (w.g.bodies b).enabled
  list : (w'.g.bodies b).fixtures = (w.g.bodies b).fixtures
  fixtures : w'.g.fixtures = w.g.fixtures
  live : ∀ f i, Live w'.g f i ↔ Live w.g f i
  fat : ∀ f ∈ (w.g.bodies b).fixtures, ∀ (i id : Nat), Live w.g f i → (w.g.fixtures f).proxies[i]? = some ⟨some f, i, some id⟩ →
    w'.bp.tree.getFatAabb id = w.bp.tree.getFatAabb id

namespace SameBoxes
variable {b : Nat} {w w' w'' : World F}
theorem refl (w : World F) : SameBoxes b w w := ⟨rfl, rfl, rfl, rfl, fun _ _ => Iff.rfl, fun _ _ _ _ _ _ => rfl⟩
theorem trans (h : SameBoxes b w w') (h' : SameBoxes b w' w'') : SameBoxes b w w'' :=
  ⟨h'.type.trans h.type, h'.enabled.trans h.enabled, h'.list.trans h.list, h'.fixtures.trans h.fixtures, fun f i => (h'.live f i).trans (h.live f i), fun f hf i id hl hi =>
    (h'.fat f (by rw [h.list]; exact hf) i id ((h.live f i).mpr hl) (by rw [h.fixtures]; exact hi)).trans (h.fat f hf i id hl hi)⟩
theorem same (hg : w'.g = w.g) (hb : w'.bp = w.bp) : SameBoxes b w w' :=
  ⟨by unfold World.typeOf; rw [hg], by rw [hg], by rw [hg], by rw [hg], by rw [hg]; exact fun _ _ => Iff.rfl, fun f _ i id _ _ => by rw [hb]⟩
end SameBoxes

/-- Nothing has happened to body `b`: only flags and the sleep timer have changed, and it has not been put to sleep. -/
structure Spares (b : Nat) (w w' : World F) : Prop extends SameBoxes b w w' where
  core : (w'.phys b).core = (w.phys b).core
  awake : (w.phys b).awake = true → (w'.phys b).awake = true
  met : Met w.g b → Met w'.g b

namespace Spares
variable {b : Nat} {w w' w'' : World F}
theorem refl (w : World F) : Spares b w w := ⟨.refl w, rfl, id, id⟩
theorem trans (h : Spares b w w') (h' : Spares b w' w'') : Spares b w w'' :=
  ⟨h.toSameBoxes.trans h'.toSameBoxes, h'.core.trans h.core, h'.awake ∘ h.awake, h'.met ∘ h.met⟩
theorem same (hg : w'.g = w.g) (hb : w'.bp = w.bp) (hp : SameCore (w.typeOf b) (w.phys b) (w'.phys b)) : Spares b w w' :=
  ⟨.same hg hb, hp.1, hp.2, by rw [hg]; exact id⟩
theorem unmoved (hg : w'.g = w.g) (hb : w'.bp = w.bp) (hp : w'.phys b = w.phys b) : Spares b w w' := .same hg hb (by rw [hp]; exact sameCore_wakes.refl _ _)
theorem frame (h : WFrame w w') (hp : SameCore (w.typeOf b) (w.phys b) (w'.phys b)) : Spares b w w' := .same h.g h.bp hp
theorem setPhys {x : Nat} {p : Phys F} (h : x = b → SameCore (w.typeOf b) (w.phys b) p) : Spares b w (w.setPhys x p) := by
  refine .same rfl rfl ?_
  show SameCore _ _ (upd w.phys x p b)
  by_cases hx : b = x
  · subst hx; rw [upd_same]; exact h rfl
  · rw [upd_other _ _ hx]; exact sameCore_wakes.refl _ _
theorem awaken (x : Nat) : Spares b w (w.setAwake x true) := .setPhys (by rintro rfl; exact sameCore_wakes.wake _ _)
theorem foldl {α : Type} {f : World F → α → World F} {l : List α} (hf : ∀ v, ∀ x ∈ l, Spares b v (f v x)) (w : World F) : Spares b w (l.foldl f w) :=
  foldl_inv (fun x => Spares b w x) (.refl w) (fun x hx v h => h.trans (hf v x hx))
theorem foldlM {α : Type} {f : World F → α → Option (World F)} {l : List α} (e : l.foldlM f w = some w')
    (hf : ∀ v v', ∀ x ∈ l, f v x = some v' → Spares b v v') : Spares b w w' :=
  foldlM_inv (fun x => Spares b w x) e (.refl w) (fun x hx v v' h h' => h.trans (hf v v' x hx h'))
end Spares

variable {env : Env F}

theorem listen_spares (hE : LeavesBodies env) {b : Nat} {w w' : World F} {k : EventKind} (e : w.listen env k = some w') : Spares b w w' :=
  .frame (listen_quiet e).1.toWFrame ((hE.polite sameCore_wakes) _ _ _ e b).2

theorem report_spares (hE : LeavesBodies env) {b : Nat} {w w' : World F} {l : List Nat} (e : w.report env l = some w') : Spares b w w' :=
  .foldlM e (fun _ _ _ _ h => listen_spares hE h)

theorem contactUpdate_spares (hE : LeavesBodies env) {b c : Nat} {w w' : World F} (e : w.contactUpdate env c = some w') : Spares b w w' :=
  .frame (contactUpdate_spec e).1 ((contactUpdate_each sameCore_wakes (hE.polite sameCore_wakes) e) b).2

theorem getFat_of {bp : BroadPhase F (Nat × Nat)} {gh : Nat → Option (Proxy F (Nat × Nat))} {buf : List Nat} {rep : Set (Nat × Nat)}
    (h : BHist bp gh buf rep) {id : Nat} {p : Proxy F (Nat × Nat)} (hp : gh id = some p) : bp.tree.getFatAabb id = some p.fat := by
  obtain ⟨peak, hh⟩ := (bhistInv h).hist
  exact getFatAabb_of (histInv hh).inv hp

/-- Looking for new contacts does nothing to a body. -/
theorem findNewContacts_spares {b : Nat} {w w' : World F} (h : WInv w) (e : w.findNewContacts env = some w') : Spares b w w' := by
  have hph := findNewContacts_phys e
  have hty := findNewContacts_types e
  obtain ⟨w1, x1, hw', hi⟩ := findNewContacts_spec h e
  obtain ⟨gh, buf, rep, hp⟩ := h.prox
  obtain ⟨pairs, bp', rep', u1, -, u3, u4⟩ := bupdate hp.hist
  have hbp : w'.bp = bp' := by
    unfold findNewContacts at e
    rw [u1] at e
    simp only [Option.bind_eq_bind, Option.bind_some, Option.bind_eq_some_iff] at e
    obtain ⟨w2, e1, e2⟩ := e
    cases e2
    rfl
  have hg : w'.g = w1.g := by rw [hw']
  refine ⟨⟨hty b, by rw [hg, x1.body], by rw [hg, x1.body], by rw [hg]; exact x1.fixtures, fun f i => by rw [hg]; exact x1.live f i, fun f hf i id hl hpr => ?_⟩,
    by rw [hph], by rw [hph]; exact id, fun hm => ?_⟩
  · obtain ⟨id', p, a1, a2, -⟩ := hp.has f i hl
    rw [hpr] at a1
    simp only [Option.some.injEq, ProxyS.mk.injEq, true_and] at a1
    subst a1
    rw [hbp, getFat_of u4 (p := { p with moved := false }) (by rw [a2]; rfl), getFat_of hp.hist a2]
  · unfold Met at *
    obtain ⟨⟨c, o⟩, l, hl⟩ := List.exists_cons_of_ne_nil hm
    have hm' : (c, o) ∈ (w.g.bodies b).contacts := by rw [hl]; simp
    obtain ⟨k1, k2⟩ := (h.link.edges b c o).mp hm'
    have hlt := h.link.lt c k1
    obtain ⟨o1, -, o3⟩ := x1.old c hlt
    have : (c, o) ∈ (w1.g.bodies b).contacts := (x1.ginv.link.edges b c o).mpr ⟨o3.mpr k1, by
      rw [Graph.joins_congr o1 (fun f => by rw [x1.fixtures])]; exact k2⟩
    rw [hg]
    exact List.ne_nil_of_mem this

/-! ### Synchronizing -/

theorem bmove' {bp : BroadPhase F (Nat × Nat)} {gh : Nat → Option (Proxy F (Nat × Nat))} {buf : List Nat} {rep : Set (Nat × Nat)}
    (h : BHist bp gh buf rep) {id : Nat} {p : Proxy F (Nat × Nat)} (hid : gh id = some p) {box : AABB F} {disp : Vec2 F} {bp' : BroadPhase F (Nat × Nat)}
    (e : bp.moveProxy id box disp = some bp') :
    ∃ p' buf', p'.data = p.data ∧ p'.box = box ∧ BHist bp' (upd gh id (some p')) buf' rep := by
  have hb := bhistInv h
  obtain ⟨peak, hh⟩ := hb.hist
  have hi := histInv hh
  obtain ⟨t', b, a1, a2, a3, a4⟩ := moveProxy_spec hi.inv hid box disp (by have := hi.cap_lo; omega)
  obtain ⟨m, m1, -⟩ := bufferMove_spec (bp := { bp with tree := t' }) hb.moves hb.movesCap id
  cases b with
  | false =>
    have e' : bp.moveProxy id box disp = some { bp with tree := t' } := by
      simp only [BroadPhase.moveProxy, a1, Option.bind_eq_bind, Option.bind_some]; rfl
    obtain ⟨rfl, -⟩ := a3 rfl
    have hf := getFatAabb_of hi.inv hid
    rw [e] at e'
    cases e'
    exact ⟨{ p with box := box, fat := p.fat, moved := p.moved || false }, buf, rfl, rfl, .move h hid e a1 hf⟩
  | true =>
    have e' : bp.moveProxy id box disp = some { bp with tree := t', moves := m } := by
      simp only [BroadPhase.moveProxy, a1, Option.bind_eq_bind, Option.bind_some, if_true]; exact m1
    have hf := getFatAabb_of (a4 rfl) (i := id) (upd_same _ _ _)
    rw [e] at e'
    cases e'
    exact ⟨{ p with box := box, fat := Tree.fatMoved box disp, moved := p.moved || true }, buf ++ [id], rfl, rfl, .move h hid e a1 hf⟩

/-- The fat box of child `i` of fixture `f` covers the child's box at the transform. -/
def CoversAt (w : World F) (xf : Xf F) (f i : Nat) : Prop :=
  ∀ id, (w.g.fixtures f).proxies[i]? = some ⟨some f, i, some id⟩ →
    ∃ fat box, w.bp.tree.getFatAabb id = some fat ∧ (w.g.fixtures f).shape.computeAabb xf i = some box ∧ Covers fat box

/-- The state while fixtures are synchronized, `w` having been the state before. -/
structure Syncing (w v : World F) : Prop where
  frame : v = { w with bp := v.bp, paabb := v.paabb }
  prox : ∃ gh buf rep, PI w.g.fixtures v.bp (Live w.g) gh buf rep

theorem Syncing.one {w v v' : World F} {f i : Nat} {xf1 xf2 : Xf F} (h : Syncing w v) (hL : Live w.g f i) (e : synchronizeProxy f xf1 xf2 v i = some v') :
    Syncing w v' ∧ CoversAt v' xf2 f i ∧ ∀ (f' i' id : Nat), Live w.g f' i' → (f', i') ≠ (f, i) →
      (w.g.fixtures f').proxies[i']? = some ⟨some f', i', some id⟩ → v'.bp.tree.getFatAabb id = v.bp.tree.getFatAabb id := by
  obtain ⟨gh, buf, rep, hp⟩ := h.prox
  have hg : v.g = w.g := by rw [h.frame]
  obtain ⟨id, p, k1, k2, k3⟩ := hp.has f i hL
  unfold synchronizeProxy at e
  rw [hg] at e
  simp only [k1, Option.bind_eq_bind, Option.bind_some, Option.bind_eq_some_iff] at e
  obtain ⟨a1, e1, a2, e2, bp', e3, e4⟩ := e
  obtain ⟨p', buf', h1, h2, h3⟩ := bmove' hp.hist k2 e3
  cases e4
  have hcov : Covers p'.fat p'.box := by
    obtain ⟨peak, hh⟩ := (bhistInv h3).hist
    exact (histInv hh).covers id p' (upd_same _ _ _)
  refine ⟨⟨by rw [h.frame], upd gh id (some p'), buf', rep, h3, ?_, ?_⟩, ?_, ?_⟩
  · intro a b hab
    obtain ⟨id', q, m1, m2, m3⟩ := hp.has a b hab
    by_cases hid : id' = id
    · subst hid
      refine ⟨id', p', m1, upd_same _ _ _, ?_⟩
      rw [k2] at m2
      cases m2
      rw [h1, m3]
    · exact ⟨id', q, m1, by rw [upd_other _ _ hid]; exact m2, m3⟩
  · intro id' q hq
    by_cases hid : id' = id
    · subst hid
      simp only [upd_same, Option.some.injEq] at hq
      subst hq
      rw [h1]
      exact hp.only id' p k2
    · rw [upd_other _ _ hid] at hq
      exact hp.only id' q hq
  · intro id' hid'
    replace hid' : (w.g.fixtures f).proxies[i]? = some ⟨some f, i, some id'⟩ := hid'
    rw [k1] at hid'
    cases hid'
    refine ⟨p'.fat, a2, getFat_of h3 (upd_same _ _ _), ?_, ?_⟩
    · exact e2
    · rw [h2] at hcov
      exact covers_right hcov
  · intro f' i' id' hl hne hpr
    obtain ⟨id2, q, m1, m2, m3⟩ := hp.has f' i' hl
    rw [hpr] at m1
    cases m1
    have hid : id' ≠ id := by
      rintro rfl
      rw [k2] at m2
      cases m2
      exact hne (m3.symm.trans k3)
    rw [getFat_of h3 (p := q) (by rw [upd_other _ _ hid]; exact m2), getFat_of hp.hist m2]

theorem foldlM_pre {α β : Type} {f : β → α → Option β} (P : List α → β → Prop) {l : List α} {b b' : β}
    (h : l.foldlM f b = some b') (h0 : P [] b) (hs : ∀ pre x post, l = pre ++ x :: post → ∀ b b', P pre b → f b x = some b' → P (pre ++ [x]) b') : P l b' := by
  suffices H : ∀ (pre post : List α) (b : β), l = pre ++ post → P pre b → post.foldlM f b = some b' → P l b' from H [] l b rfl h0 h
  intro pre post
  induction post generalizing pre with
  | nil => intro b hl hp e; cases e; rw [hl, List.append_nil]; exact hp
  | cons x post ih =>
    intro b hl hp e
    rw [List.foldlM_cons] at e
    simp only [Option.bind_eq_bind, Option.bind_eq_some_iff] at e
    obtain ⟨b1, e1, e2⟩ := e
    exact ih (pre ++ [x]) b1 (by rw [hl]; simp) (hs pre x post hl b b1 hp e1) e2

theorem CoversAt.of_fat {w v v' : World F} {xf : Xf F} {f i : Nat} (hv : Syncing w v) (hv' : Syncing w v')
    (hf : ∀ id, (w.g.fixtures f).proxies[i]? = some ⟨some f, i, some id⟩ → v'.bp.tree.getFatAabb id = v.bp.tree.getFatAabb id)
    (h : CoversAt v xf f i) : CoversAt v' xf f i := by
  have hg : v.g = w.g := by rw [hv.frame]
  have hg' : v'.g = w.g := by rw [hv'.frame]
  intro id hid
  rw [hg'] at hid
  obtain ⟨fat, box, k1, k2, k3⟩ := h id (by rw [hg]; exact hid)
  exact ⟨fat, box, by rw [hf id hid]; exact k1, by rw [hg', ← hg]; exact k2, k3⟩

theorem Syncing.fixture {w v v' : World F} {f : Nat} {xf1 xf2 : Xf F} (h : Syncing w v) (hL : ∀ i < (w.g.fixtures f).proxyCount, Live w.g f i)
    (e : synchronize xf1 xf2 v f = some v') :
    Syncing w v' ∧ (∀ i < (w.g.fixtures f).proxyCount, CoversAt v' xf2 f i) ∧ ∀ (f' i' id : Nat), Live w.g f' i' → f' ≠ f →
      (w.g.fixtures f').proxies[i']? = some ⟨some f', i', some id⟩ → v'.bp.tree.getFatAabb id = v.bp.tree.getFatAabb id := by
  unfold synchronize at e
  rw [show v.g = w.g by rw [h.frame]] at e
  have := foldlM_pre (fun pre u => Syncing w u ∧ (∀ i ∈ pre, CoversAt u xf2 f i) ∧ ∀ (f' i' id : Nat), Live w.g f' i' → f' ≠ f →
      (w.g.fixtures f').proxies[i']? = some ⟨some f', i', some id⟩ → u.bp.tree.getFatAabb id = v.bp.tree.getFatAabb id) e
    ⟨h, fun i hi => (by cases hi), fun _ _ _ _ _ _ => rfl⟩ (by
      rintro pre i post hl u u' ⟨h1, h2, h3⟩ e'
      have hi : i < (w.g.fixtures f).proxyCount := List.mem_range.mp (by rw [hl]; simp)
      obtain ⟨k1, k2, k3⟩ := h1.one (hL i hi) e'
      refine ⟨k1, fun j hj => ?_, fun f' i' id a1 a2 a3 => (k3 f' i' id a1 (fun hc => a2 (Prod.mk.inj hc).1) a3).trans (h3 f' i' id a1 a2 a3)⟩
      rcases List.mem_append.mp hj with hj | hj
      · have hji : j < (w.g.fixtures f).proxyCount := List.mem_range.mp (by rw [hl]; simp [hj])
        by_cases hij : j = i
        · subst hij; exact k2
        · exact (h2 j hj).of_fat h1 k1 (fun id a => k3 f j id (hL j hji) (fun hc => hij (Prod.mk.inj hc).2) a)
      · rw [List.mem_singleton] at hj; subst hj; exact k2)
  exact ⟨this.1, fun i hi => this.2.1 i (List.mem_range.mpr hi), this.2.2⟩

theorem Syncing.fixtures {w v' : World F} {xf1 xf2 : Xf F} {x : Nat} (h : WInv w)
    (e : (w.g.bodies x).fixtures.foldlM (synchronize xf1 xf2) w = some v') :
    Syncing w v' ∧ (∀ f ∈ (w.g.bodies x).fixtures, ∀ i, Live w.g f i → CoversAt v' xf2 f i) ∧ ∀ (f' i' id : Nat), Live w.g f' i' → f' ∉ (w.g.bodies x).fixtures →
      (w.g.fixtures f').proxies[i']? = some ⟨some f', i', some id⟩ → v'.bp.tree.getFatAabb id = w.bp.tree.getFatAabb id := by
  have := foldlM_pre (fun pre u => Syncing w u ∧ (∀ f ∈ pre, ∀ i, Live w.g f i → CoversAt u xf2 f i) ∧ ∀ (f' i' id : Nat), Live w.g f' i' → f' ∉ (w.g.bodies x).fixtures →
      (w.g.fixtures f').proxies[i']? = some ⟨some f', i', some id⟩ → u.bp.tree.getFatAabb id = w.bp.tree.getFatAabb id) e
    ⟨⟨rfl, h.prox⟩, fun i hi => (by cases hi), fun _ _ _ _ _ _ => rfl⟩ (by
      rintro pre f post hl u u' ⟨h1, h2, h3⟩ e'
      have hf : f ∈ (w.g.bodies x).fixtures := by rw [hl]; simp
      obtain ⟨-, -, hL⟩ := h.body.sync hf
      obtain ⟨k1, k2, k3⟩ := h1.fixture hL e'
      have hcount : ∀ i, Live w.g f i → i < (w.g.fixtures f).proxyCount := by
        intro i hi
        obtain ⟨-, -, -, q1, q2⟩ := h.body.fix hf
        cases he : (w.g.bodies x).enabled with
        | true => rw [(q1 he).1]; exact ((q1 he).2 i).mp hi
        | false => exact absurd hi ((q2 he).2 i)
      refine ⟨k1, fun g hg i hi => ?_, fun f' i' id a1 a2 a3 => (k3 f' i' id a1 (fun hc => a2 (hc ▸ hf)) a3).trans (h3 f' i' id a1 a2 a3)⟩
      by_cases hgf : g = f
      · subst hgf; exact k2 i (hcount i hi)
      · have : g ∈ pre := by
          rcases List.mem_append.mp hg with hg | hg
          · exact hg
          · exact absurd (List.mem_singleton.mp hg) hgf
        exact (h2 g this i hi).of_fat h1 k1 (fun id a => k3 g i id hi hgf a))
  exact this

/-- The fat boxes of the live proxies of body `b` cover the boxes of its shapes at the body's transform. -/
def Covered (w : World F) (b : Nat) : Prop := ∀ f ∈ (w.g.bodies b).fixtures, ∀ i, Live w.g f i → CoversAt w (w.phys b).xf f i

/-- Synchronizing the fixtures of a body: its boxes are covered, other bodies' boxes stay. -/
theorem synchronizeFixtures_track {w w' : World F} {x : Nat} (h : WInv w) (e : w.synchronizeFixtures x = some w') :
    Syncing w w' ∧ Covered w' x ∧ ∀ (f' i' id : Nat), Live w.g f' i' → f' ∉ (w.g.bodies x).fixtures →
      (w.g.fixtures f').proxies[i']? = some ⟨some f', i', some id⟩ → w'.bp.tree.getFatAabb id = w.bp.tree.getFatAabb id := by
  have H : ∀ xf1, (w.g.bodies x).fixtures.foldlM (synchronize xf1 (w.phys x).xf) w = some w' → _ := fun xf1 e =>
    Syncing.fixtures (xf1 := xf1) (xf2 := (w.phys x).xf) h e
  have : ∃ xf1, (w.g.bodies x).fixtures.foldlM (synchronize xf1 (w.phys x).xf) w = some w' := by
    unfold synchronizeFixtures at e
    dsimp only at e
    split at e
    · exact ⟨_, e⟩
    · exact ⟨_, e⟩
  obtain ⟨xf1, e'⟩ := this
  obtain ⟨k1, k2, k3⟩ := H xf1 e'
  refine ⟨k1, fun f hf i hi => ?_, k3⟩
  have hg : w'.g = w.g := by rw [k1.frame]
  have hp : w'.phys = w.phys := by rw [k1.frame]
  rw [hg] at hf hi
  rw [hp]
  exact k2 f hf i hi

theorem synchronizeFixtures_spares {w w' : World F} {b x : Nat} (h : WInv w) (hx : x ≠ b) (e : w.synchronizeFixtures x = some w') : Spares b w w' := by
  obtain ⟨k1, -, k3⟩ := synchronizeFixtures_track h e
  have hg : w'.g = w.g := by rw [k1.frame]
  have hp : w'.phys = w.phys := by rw [k1.frame]
  refine ⟨⟨by unfold World.typeOf; rw [hg], by rw [hg], by rw [hg], by rw [hg], by rw [hg]; exact fun _ _ => Iff.rfl, fun f hf i id hl hpr => k3 f i id hl ?_ hpr⟩, by rw [hp], by rw [hp]; exact _root_.id, by rw [hg]; exact _root_.id⟩
  intro hf'
  have h1 := (h.body.fix hf).2.1
  rw [(h.body.fix hf').2.1] at h1
  exact hx (Option.some.inj h1)

end
end B2
