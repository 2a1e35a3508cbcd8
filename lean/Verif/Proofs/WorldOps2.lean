import Verif.Proofs.WorldOps

/-! Destruction of fixtures and bodies, `set_type`, `set_enabled` and the remaining functions. -/
namespace B2
set_option linter.unusedSectionVars false
open Spec

theorem list_inv {α β : Type} {f : β → α → Option β} (P : List α → β → Prop) {l : List α} {b b' : β} (h : l.foldlM f b = some b') (h0 : P [] b)
    (hs : ∀ pre x post, l = pre ++ x :: post → ∀ b b', P pre b → f b x = some b' → P (pre ++ [x]) b') : P l b' := by
  have : ∀ (post pre : List α) (b : β), l = pre ++ post → P pre b → post.foldlM f b = some b' → P l b' := by
    intro post
    induction post with
    | nil => intro pre b hl hp e; cases e; simpa [hl] using hp
    | cons x post ih =>
      intro pre b hl hp e
      rw [List.foldlM_cons] at e
      simp only [Option.bind_eq_bind, Option.bind_eq_some_iff] at e
      obtain ⟨b1, e1, e2⟩ := e
      exact ih (pre ++ [x]) b1 (by simp [hl]) (hs pre x post hl b b1 hp e1) e2
  exact this l [] b rfl h0 h

section
variable {F : Type} [Field F] [LinearOrder F] [IsStrictOrderedRing F] [Elem F]

theorem LinkInv.congr' {g g' : Graph F} (h : LinkInv g) (h1 : g'.contactList = g.contactList) (h2 : g'.contactCount = g.contactCount)
    (h3 : g'.nextContact = g.nextContact) (h4 : g'.contacts = g.contacts)
    (h5 : ∀ c ∈ g.contactList, ∀ f, (f = (g.contacts c).fA ∨ f = (g.contacts c).fB) → (g'.fixtures f).body = (g.fixtures f).body)
    (h6 : ∀ b, (g'.bodies b).contacts = (g.bodies b).contacts) : LinkInv g' := by
  have hj : ∀ c ∈ g.contactList, ∀ b o, g'.joins c b o ↔ g.joins c b o := by
    intro c hc b o
    unfold Graph.joins
    rw [h4, h5 c hc _ (Or.inl rfl), h5 c hc _ (Or.inr rfl)]
  refine ⟨by rw [h1]; exact h.nodup, by rw [h1, h2]; exact h.count, by rw [h1, h3]; exact h.lt, ?_, ?_, ?_⟩
  · intro c hc
    rw [h1] at hc
    rw [h4, h5 c hc _ (Or.inl rfl), h5 c hc _ (Or.inr rfl)]
    exact h.bodies c hc
  · intro b c o
    rw [h6, h1, h.edges]
    exact and_congr_right fun hc => (hj c hc b o).symm
  · intro b; rw [h6]; exact h.edgeNodup b

namespace World

variable {gh : Nat → Option (Proxy F (Nat × Nat))} {buf : List Nat} {rep : Set (Nat × Nat)}

theorem destroyAll_spec {N : Nat × Nat → AABB F → Prop} {w : World F} {L : Nat → Nat → Prop} {l : List Nat} (hn : l.Nodup)
    (h : PI w.g.fixtures w.bp L gh buf rep) (hL : ∀ f ∈ l, ∀ i, L f i ↔ i < (w.g.fixtures f).proxyCount) :
    ∃ w' gh' buf' rep', l.foldlM destroyProxies w = some w' ∧ FixFrame N w w' ∧ (∀ f ∈ l, (w'.g.fixtures f).proxyCount = 0) ∧
      (∀ f, f ∉ l → w'.g.fixtures f = w.g.fixtures f) ∧ PI w'.g.fixtures w'.bp (fun f i => L f i ∧ f ∉ l) gh' buf' rep' := by
  obtain ⟨w', e, e1, e2, e3, gh', buf', rep', e4⟩ := list_spec (f := destroyProxies) (b := w) (l := l)
    (fun pre w' => FixFrame N w w' ∧ (∀ f ∈ pre, (w'.g.fixtures f).proxyCount = 0) ∧
      (∀ f, f ∉ pre → w'.g.fixtures f = w.g.fixtures f) ∧ ∃ gh' buf' rep', PI w'.g.fixtures w'.bp (fun f i => L f i ∧ f ∉ pre) gh' buf' rep')
    ⟨.refl _, by simp, fun _ _ => rfl, gh, buf, rep, h.congr (fun _ => rfl) (by simp)⟩ (by
      rintro pre f post hl w1 ⟨a1, a2, a3, gh1, buf1, rep1, a4⟩
      have hfp : f ∉ pre := by
        rw [hl] at hn
        intro hm
        exact (List.nodup_append.mp hn).2.2 f hm f (by simp) rfl
      obtain ⟨w2, gh2, buf2, rep2, b1, b2, b3, b4, b5⟩ := destroyProxies_spec (f := f) (n := (w.g.fixtures f).proxyCount) a4 (by rw [a3 f hfp])
        (fun i => by simp only [hfp, not_false_eq_true, and_true]; exact hL f (by rw [hl]; simp) i)
      refine ⟨w2, b1, a1.trans b2, ?_, ?_, gh2, buf2, rep2, b5.congr (fun _ => rfl) (fun x i => by simp; tauto)⟩
      · intro x hx
        by_cases hxf : x = f
        · rw [hxf]; exact b3
        · rw [b4 x hxf]; exact a2 x (by simpa [hxf] using hx)
      · intro x hx
        simp only [List.mem_append, List.mem_singleton, not_or] at hx
        rw [b4 x hx.2, a3 x hx.1])
  exact ⟨w', gh', buf', rep', e, e1, e2, e3, e4⟩

theorem createAll_spec {N : Nat × Nat → AABB F → Prop} {w : World F} {L : Nat → Nat → Prop} {l : List Nat} (xf : Xf F) (hn : l.Nodup)
    (h : PI w.g.fixtures w.bp L gh buf rep) (hL : ∀ f ∈ l, (∀ i, ¬ L f i) ∧ (w.g.fixtures f).proxyCount = 0 ∧
      (w.g.fixtures f).shape.childCount = some (w.g.fixtures f).proxies.length)
    (hN : ∀ f ∈ l, ∀ i a, (w.g.fixtures f).shape.computeAabb xf i = some a → N (f, i) a) :
    ∃ w' gh' buf', l.foldlM (fun w f => w.createProxies f xf) w = some w' ∧ FixFrame N w w' ∧
      (∀ f ∈ l, (w'.g.fixtures f).proxyCount = (w.g.fixtures f).proxies.length) ∧
      (∀ f, f ∉ l → w'.g.fixtures f = w.g.fixtures f) ∧
      PI w'.g.fixtures w'.bp (fun f i => L f i ∨ (f ∈ l ∧ i < (w.g.fixtures f).proxies.length)) gh' buf' rep := by
  obtain ⟨w', e, e1, e2, e3, gh', buf', e4⟩ := list_spec (f := fun w f => createProxies w f xf) (b := w) (l := l)
    (fun pre w' => FixFrame N w w' ∧ (∀ f ∈ pre, (w'.g.fixtures f).proxyCount = (w.g.fixtures f).proxies.length) ∧
      (∀ f, f ∉ pre → w'.g.fixtures f = w.g.fixtures f) ∧ ∃ gh' buf',
        PI w'.g.fixtures w'.bp (fun f i => L f i ∨ (f ∈ pre ∧ i < (w.g.fixtures f).proxies.length)) gh' buf' rep)
    ⟨.refl _, by simp, fun _ _ => rfl, gh, buf, h.congr (fun _ => rfl) (by simp)⟩ (by
      rintro pre f post hl w1 ⟨a1, a2, a3, gh1, buf1, a4⟩
      have hfp : f ∉ pre := by
        rw [hl] at hn
        intro hm
        exact (List.nodup_append.mp hn).2.2 f hm f (by simp) rfl
      obtain ⟨c1, c2, c3⟩ := hL f (by rw [hl]; simp)
      obtain ⟨w2, gh2, buf2, b1, b2, b3, b4, b5⟩ := createProxies_spec (f := f) (n := (w.g.fixtures f).proxies.length) xf a4 (by rw [a3 f hfp]; exact c3) (by rw [a3 f hfp])
        (by rw [a3 f hfp]; exact c2) (fun i => by simp only [hfp, false_and, or_false]; exact c1 i)
        (by rw [a3 f hfp]; exact hN f (by rw [hl]; simp))
      refine ⟨w2, b1, a1.trans b2, ?_, ?_, gh2, buf2, b5.congr (fun _ => rfl) (fun x i => ?_)⟩
      · intro x hx
        by_cases hxf : x = f
        · rw [hxf]; exact b3
        · rw [b4 x hxf]; exact a2 x (by simpa [hxf] using hx)
      · intro x hx
        simp only [List.mem_append, List.mem_singleton, not_or] at hx
        rw [b4 x hx.2, a3 x hx.1]
      · simp only [List.mem_append, List.mem_singleton]
        constructor
        · rintro (h1 | ⟨h1 | rfl, h2⟩)
          · exact Or.inl (Or.inl h1)
          · exact Or.inl (Or.inr ⟨h1, h2⟩)
          · exact Or.inr ⟨rfl, h2⟩
        · rintro ((h1 | ⟨h1, h2⟩) | ⟨rfl, h2⟩)
          · exact Or.inl h1
          · exact Or.inr ⟨Or.inl h1, h2⟩
          · exact Or.inr ⟨Or.inr rfl, h2⟩)
  exact ⟨w', gh', buf', e, e1, e2, e3, e4⟩

/-! ### destroy_fixture -/

/-- The contacts of a list of edges that end at fixture `f`. -/
def endsAt (w : World F) (f : Nat) (l : List (Nat × Nat)) : List Nat :=
  (l.map Prod.fst).filter fun c => decide (f = (w.g.contacts c).fA ∨ f = (w.g.contacts c).fB)

theorem destroyContactsOf_cut {env : Env F} {f : Nat} : ∀ (l : List (Nat × Nat)) {w w' : World F}, LinkInv w.g → (l.map Prod.fst).Nodup →
    (∀ e ∈ l, e.1 ∈ w.g.contactList) → destroyContactsOf env f l w = some w' →
    Cut w w' (fun x => x ∈ endsAt w f l) (endEvents env w (endsAt w f l)) := by
  intro l
  induction l with
  | nil =>
    intro w w' h _ _ e
    cases e
    exact (Cut.refl h).congr (by simp [endsAt])
  | cons a l ih =>
    intro w w' h hn hm e
    rw [List.map_cons, List.nodup_cons] at hn
    unfold destroyContactsOf at e
    simp only [Option.bind_eq_bind, Option.bind_eq_some_iff] at e
    obtain ⟨w1, e1, e2⟩ := e
    by_cases hc : f = (w.g.contacts a.1).fA ∨ f = (w.g.contacts a.1).fB
    · rw [if_pos hc] at e1
      have c1 := contactDestroy_cut h (hm a (by simp)) e1
      have hE : endsAt w1 f l = endsAt w f l := by unfold endsAt; rw [c1.shrunk.contacts]
      have c2 := ih (w := w1) c1.shrunk.link hn.2 (fun x hx => (c1.shrunk.mem _).mpr ⟨hm x (by simp [hx]), fun he => hn.1 (he ▸ List.mem_map.mpr ⟨x, hx, rfl⟩)⟩) e2
      have c3 := c1.trans c2
      rw [hE, endEvents_calm c1.calm c1.rest] at c3
      have hE2 : endsAt w f (a :: l) = a.1 :: endsAt w f l := by
        unfold endsAt; simp [hc]
      rw [hE2]
      exact c3.congr (by simp)
    · rw [if_neg hc] at e1
      cases e1
      have hE2 : endsAt w f (a :: l) = endsAt w f l := by
        unfold endsAt; simp [hc]
      rw [hE2]
      exact ih h hn.2 (fun x hx => hm x (by simp [hx])) e2

theorem destroyContactsOf_total {env : Env F} (he : env.Safe) {f : Nat} : ∀ (l : List (Nat × Nat)) {w : World F}, LinkInv w.g → (l.map Prod.fst).Nodup →
    (∀ e ∈ l, e.1 ∈ w.g.contactList) → ∃ w', destroyContactsOf env f l w = some w' := by
  intro l
  induction l with
  | nil => intro w _ _ _; exact ⟨w, rfl⟩
  | cons a l ih =>
    intro w h hn hm
    rw [List.map_cons, List.nodup_cons] at hn
    unfold destroyContactsOf
    by_cases hc : f = (w.g.contacts a.1).fA ∨ f = (w.g.contacts a.1).fB
    · obtain ⟨w1, e1⟩ := contactDestroy_total he h (hm a (by simp))
      have c1 := contactDestroy_cut h (hm a (by simp)) e1
      obtain ⟨w2, e2⟩ := ih (w := w1) c1.shrunk.link hn.2 (fun x hx => (c1.shrunk.mem _).mpr ⟨hm x (by simp [hx]), fun he => hn.1 (he ▸ List.mem_map.mpr ⟨x, hx, rfl⟩)⟩)
      exact ⟨w2, by simp only [if_pos hc, e1, Option.bind_eq_bind, Option.bind_some]; exact e2⟩
    · obtain ⟨w2, e2⟩ := ih h hn.2 (fun x hx => hm x (by simp [hx]))
      exact ⟨w2, by simp only [if_neg hc, Option.bind_eq_bind, Option.bind_some]; exact e2⟩

theorem edge_list {g : Graph F} (h : LinkInv g) (b : Nat) : ∀ e ∈ (g.bodies b).contacts, e.1 ∈ g.contactList :=
  fun e he => ((h.edges b e.1 e.2).mp he).1

theorem destroyFixture_spec' {env : Env F} {w w' : World F} {b f : Nat} (hw : WInv w) (hb : b ∈ w.g.bodyList)
    (e : w.destroyFixture env b f = some w') :
    w.locked = false ∧ WInv w' ∧ Tr env w w' ∧ Rest w w' ∧ (w'.g.fixtures f).body = none ∧ w'.g.bodyList = w.g.bodyList ∧
    (∀ x, (w'.g.bodies x).fixtures = (w.g.bodies x).fixtures.erase f) ∧
    (∀ c, c ∈ w'.g.contactList ↔ c ∈ w.g.contactList ∧ (w.g.contacts c).fA ≠ f ∧ (w.g.contacts c).fB ≠ f) ∧ ∀ D, Carry (fun _ _ => False) D (fun _ => False) w w' := by
  unfold destroyFixture at e
  split at e
  · cases e
  rename_i hl
  split at e
  · cases e
  rename_i hbf
  push Not at hbf
  split at e
  · cases e
  have hbf' : (w.g.fixtures f).body = some b := hbf
  have hfm : f ∈ (w.g.bodies b).fixtures := (hw.body.fixtures b f).mpr ⟨hb, hbf'⟩
  have hone : ∀ x, x ≠ b → f ∉ (w.g.bodies x).fixtures := by
    intro x hx hm
    have := ((hw.body.fixtures x f).mp hm).2
    rw [hbf'] at this
    cases this
    exact hx rfl
  have hr : removeOne (w.g.bodies b).fixtures f = some ((w.g.bodies b).fixtures.erase f) := if_pos hfm
  simp only [hr, Option.bind_eq_bind, Option.bind_some, Option.bind_eq_some_iff] at e
  obtain ⟨w2, e2, w3, e3, e4⟩ := e
  set w1 := w.setBody b { w.g.bodies b with fixtures := (w.g.bodies b).fixtures.erase f } with hw1
  have hb1 : ∀ x, w1.g.bodies x = { w.g.bodies x with fixtures := (w.g.bodies x).fixtures.erase f } := by
    intro x
    by_cases hx : x = b
    · subst hx; exact upd_same _ _ _
    · have : w1.g.bodies x = w.g.bodies x := upd_other _ _ hx
      rw [this, List.erase_of_not_mem (hone x hx)]
  have hl1 : LinkInv w1.g := hw.link.congr rfl rfl rfl rfl (fun _ => rfl) (fun x => by rw [hb1])
  have c2 := destroyContactsOf_cut _ hl1 (hw.link.edgeNodup b) (edge_list hw.link b) e2
  have hS : ∀ c ∈ w.g.contactList, c ∈ endsAt w1 f (w.g.bodies b).contacts ↔ ((w.g.contacts c).fA = f ∨ (w.g.contacts c).fB = f) := by
    intro c hc
    unfold endsAt
    rw [List.mem_filter, decide_eq_true_iff]
    have hcs : w1.g.contacts = w.g.contacts := rfl
    rw [hcs]
    constructor
    · rintro ⟨-, h | h⟩
      · exact Or.inl h.symm
      · exact Or.inr h.symm
    · intro h
      refine ⟨?_, ?_⟩
      · obtain ⟨bA, bB, k1, k2, -⟩ := hw.link.bodies c hc
        rcases h with h | h
        · refine List.mem_map.mpr ⟨(c, bB), (hw.link.edges _ _ _).mpr ⟨hc, Or.inl ⟨?_, k2⟩⟩, rfl⟩
          rw [h]; exact hbf'
        · refine List.mem_map.mpr ⟨(c, bA), (hw.link.edges _ _ _).mpr ⟨hc, Or.inr ⟨?_, k1⟩⟩, rfl⟩
          rw [h]; exact hbf'
      · rcases h with h | h
        · exact Or.inl h.symm
        · exact Or.inr h.symm
  have hmem2 : ∀ c, c ∈ w2.g.contactList ↔ c ∈ w.g.contactList ∧ (w.g.contacts c).fA ≠ f ∧ (w.g.contacts c).fB ≠ f := by
    intro c
    rw [c2.shrunk.mem]
    show c ∈ w.g.contactList ∧ _ ↔ _
    refine and_congr_right fun hc => ?_
    rw [hS c hc]; tauto
  have hb2 : ∀ x, w2.g.bodies x = { w.g.bodies x with fixtures := (w.g.bodies x).fixtures.erase f, contacts := (w2.g.bodies x).contacts } := by
    intro x
    have := c2.shrunk.body x
    rw [hb1] at this
    exact this
  have hf2 : w2.g.fixtures = w.g.fixtures := c2.shrunk.fixtures
  obtain ⟨-, -, hch, hfe, hfd⟩ := hw.body.fix hfm
  obtain ⟨gh, buf, rep, hpi⟩ := hw.prox
  have hpi2 : PI w2.g.fixtures w2.bp (Live w.g) gh buf rep := by
    rw [c2.bp]; exact hpi.congr (fun x => by rw [hf2]) (fun _ _ => Iff.rfl)
  obtain ⟨ff3, ho3, gh3, buf3, rep3, hpi3⟩ : FixFrame (fun _ _ => False) w2 w3 ∧ (∀ x, x ≠ f → w3.g.fixtures x = w2.g.fixtures x) ∧
      ∃ gh3 buf3 rep3, PI w3.g.fixtures w3.bp (fun x i => Live w.g x i ∧ x ≠ f) gh3 buf3 rep3 := by
    cases hen : (w.g.bodies b).enabled with
    | true =>
      rw [if_pos (by rw [hb2]; exact hen)] at e3
      obtain ⟨h1, h2⟩ := hfe hen
      obtain ⟨w3', gh3, buf3, rep3, k1, k2, k3, k4, k5⟩ := destroyProxies_spec (f := f) hpi2 rfl (fun i => by rw [h2, hf2, h1])
      rw [k1] at e3
      cases e3
      exact ⟨k2, k4, gh3, buf3, rep3, k5⟩
    | false =>
      rw [if_neg (by rw [hb2]; simp [hen])] at e3
      cases e3
      obtain ⟨h1, h2⟩ := hfd hen
      refine ⟨.refl _, fun _ _ => rfl, gh, buf, rep, hpi2.congr (fun _ => rfl) (fun x i => ⟨fun h => h.1, fun h => ⟨h, ?_⟩⟩)⟩
      rintro rfl
      exact h2 i h
  set w4 := w3.setFix f { w3.g.fixtures f with body := none } with hw4
  set w5 := w4.setBody b { w4.g.bodies b with fixtureCount := (w4.g.bodies b).fixtureCount - 1 } with hw5
  obtain ⟨q6, l6⟩ := bodyOp_quiet (show w5.bodyOp b .resetMassData = some w' from e4)
  have hbod3 : w3.g.bodies = w2.g.bodies := ff3.bodies
  have hb5o : ∀ x, x ≠ b → w5.g.bodies x = w2.g.bodies x := fun x hx => (upd_other _ _ hx).trans (by rw [← hbod3]; rfl)
  have hb5b : w5.g.bodies b = { w2.g.bodies b with fixtureCount := (w2.g.bodies b).fixtureCount - 1 } := by
    have e : w5.g.bodies b = { w4.g.bodies b with fixtureCount := (w4.g.bodies b).fixtureCount - 1 } := upd_same _ _ _
    rw [e, ← hbod3]; rfl
  have hb5 : ∀ x, w5.g.bodies x = { w.g.bodies x with fixtures := (w.g.bodies x).fixtures.erase f, contacts := (w2.g.bodies x).contacts, fixtureCount := (if x = b then (w.g.bodies x).fixtureCount - 1 else (w.g.bodies x).fixtureCount) } := by
    intro x
    by_cases hx : x = b
    · subst hx; rw [hb5b, hb2 x]; simp
    · rw [hb5o x hx, hb2 x]; simp [hx]
  have hf5o : ∀ x, x ≠ f → w5.g.fixtures x = w.g.fixtures x := by
    intro x hx
    have : w5.g.fixtures x = w3.g.fixtures x := upd_other _ _ hx
    rw [this, ho3 x hx, hf2]
  have hf5n : (w5.g.fixtures f).body = none := by
    have : w5.g.fixtures f = { w3.g.fixtures f with body := none } := upd_same _ _ _
    rw [this]
  have hg3 : w3.g = { w2.g with fixtures := w3.g.fixtures } := ff3.g
  have hg5 : w5.g = { w.g with bodies := w5.g.bodies, fixtures := w5.g.fixtures, contactList := w2.g.contactList, contactCount := w2.g.contactCount } := by
    have e : w5.g = { w3.g with bodies := w5.g.bodies, fixtures := w5.g.fixtures } := rfl
    rw [e, hg3, c2.shrunk.eq]
    rfl
  have hcs5 : w5.g.contacts = w.g.contacts := by rw [hg5]
  have hcl5 : w5.g.contactList = w2.g.contactList := by rw [hg5]
  have hbl5 : w5.g.bodyList = w.g.bodyList := by rw [hg5]
  have hmem5 : ∀ c, c ∈ w5.g.contactList ↔ c ∈ w.g.contactList ∧ (w.g.contacts c).fA ≠ f ∧ (w.g.contacts c).fB ≠ f := by
    intro c; rw [hcl5]; exact hmem2 c
  have hlive : ∀ x i, Live w5.g x i ↔ Live w.g x i ∧ x ≠ f := by
    intro x i
    by_cases hx : x = f
    · subst hx
      constructor
      · rintro ⟨y, -, -, hy, -⟩
        rw [hf5n] at hy; cases hy
      · rintro ⟨-, h⟩; exact absurd rfl h
    · simp only [ne_eq, hx, not_false_eq_true, and_true]
      unfold Live
      rw [hf5o x hx, hbl5]
      refine exists_congr fun y => and_congr_right fun _ => ?_
      rw [hb5]
  have winv5 : WInv w5 := by
    refine ⟨⟨?_, ?_, ?_, ?_, ?_⟩, gh3, buf3, rep3, hpi3.congr (fun x => ?_) hlive⟩
    · refine c2.shrunk.link.congr' hcl5 (by rw [hg5]) (by rw [hg5, c2.shrunk.nextContact]; rfl) (by rw [hcs5, c2.shrunk.contacts]; rfl) ?_ (fun x => by rw [hb5])
      intro c hc x hx
      obtain ⟨-, h1, h2⟩ := (hmem2 c).mp hc
      have hcs2 : w2.g.contacts = w.g.contacts := c2.shrunk.contacts
      rw [hcs2] at hx
      rw [hf5o x (by rcases hx with rfl | rfl; exacts [h1, h2]), hf2]
    · exact hw.joint.congr (by rw [hg5]) (by rw [hg5]) (by rw [hg5]) (by rw [hg5]) (by rw [hbl5]; exact fun _ h => h) (fun x => by rw [hb5])
    · refine ⟨by rw [hbl5]; exact hw.body.nodup, by rw [hbl5, hg5]; exact hw.body.count, by rw [hbl5, hg5]; exact hw.body.lt, ?_, ?_, ?_, ?_, ?_, ?_⟩
      · intro x y hx
        have h1 : w5.g.nextFixture = w.g.nextFixture := by rw [hg5]
        have h2 : w5.g.nextBody = w.g.nextBody := by rw [hg5]
        rw [h1, h2]
        by_cases hxf : x = f
        · subst hxf; rw [hf5n] at hx; cases hx
        · rw [hf5o x hxf] at hx; exact hw.body.owner x y hx
      · intro x y
        rw [hbl5, hb5]
        show y ∈ (w.g.bodies x).fixtures.erase f ↔ _
        rw [(hw.body.fixNodup x).mem_erase_iff, hw.body.fixtures]
        by_cases hy : y = f
        · subst hy; rw [hf5n]; simp
        · rw [hf5o y hy]; simp [hy]
      · intro x; rw [hb5]; exact (hw.body.fixNodup x).erase f
      · intro x
        rw [hb5]
        show (if x = b then (w.g.bodies x).fixtureCount - 1 else (w.g.bodies x).fixtureCount) = (((w.g.bodies x).fixtures.erase f).length : Int)
        by_cases hx : x = b
        · rw [if_pos hx, hw.body.fixCount, hx, List.length_erase_of_mem hfm]
          have := List.length_pos_of_mem hfm
          omega
        · rw [if_neg hx, hw.body.fixCount, List.erase_of_not_mem (hone x hx)]
      · intro x y hy hx
        by_cases hxf : x = f
        · rw [hxf, hf5n] at hx; cases hx
        · rw [hf5o x hxf] at hx ⊢
          exact hw.body.children x y (by rw [hbl5] at hy; exact hy) hx
      · intro x y hy hx
        by_cases hxf : x = f
        · rw [hxf, hf5n] at hx; cases hx
        · rw [hf5o x hxf] at hx ⊢
          rw [hb5]
          exact hw.body.proxyCount x y (by rw [hbl5] at hy; exact hy) hx
    · intro c hc
      obtain ⟨hc', h1, h2⟩ := (hmem5 c).mp hc
      refine (hw.ok c hc').congr' (by rw [hcs5]) (fun x y hx hxx => ?_)
      have hxf : x ≠ f := by rcases hxx with rfl | rfl; exacts [h1, h2]
      rw [hf5o x hxf]
      exact ⟨hx, rfl, by rw [hb5], fun i hi => (hlive x i).mpr ⟨hi, hxf⟩⟩
    · intro c hc c' hc'
      rw [hcs5]
      exact hw.uniq c ((hmem5 c).mp hc).1 c' ((hmem5 c').mp hc').1
    · by_cases hx : x = f
      · rw [hx]
        have : w5.g.fixtures f = { w3.g.fixtures f with body := none } := upd_same _ _ _
        rw [this]
      · have : w5.g.fixtures x = w3.g.fixtures x := upd_other _ _ hx
        rw [this]
  have tr1 : Tr env w w1 := .calm ⟨⟨fun _ => rfl, rfl, fun _ => rfl, fun _ => rfl, fun _ => rfl, fun x => by rw [typeOf, hb1]; rfl, fun _ _ => rfl⟩, fun _ => rfl⟩
    rfl rfl rfl rfl rfl (fun _ => rfl) (ev := []) rfl (by simp)
  have tr2 : Tr env w1 w2 := by
    refine c2.tr ?_ ?_
    · exact (hw.link.edgeNodup b).filter _
    · intro c hc
      obtain ⟨hc, -⟩ := List.mem_filter.mp hc
      obtain ⟨x, hx, rfl⟩ := List.mem_map.mp hc
      exact edge_list hw.link b x hx
  have tr35 : Tr env w3 w5 := by
    have hty : ∀ x, w5.typeOf x = w3.typeOf x := by
      intro x
      rw [typeOf, hb5, typeOf, hbod3, hb2]
    refine ⟨fun hs => hs.calm rfl ⟨fun _ => rfl, rfl, fun _ => rfl, fun _ => rfl, fun _ => rfl, hty, fun _ _ => rfl⟩, fun hfi c hc j hj hcc hjo => ?_, fun he => he⟩
    have hc5 : c ∈ w5.g.contactList := hc
    obtain ⟨-, h1, h2⟩ := (hmem5 c).mp hc5
    refine hfi c hc j hj hcc ?_
    unfold Graph.joins at hjo ⊢
    have hcs3 : w3.g.contacts = w.g.contacts := by rw [hg3, c2.shrunk.contacts]; rfl
    rw [hcs5, hf5o _ h1, hf5o _ h2] at hjo
    rw [hcs3, ho3 _ h1, ho3 _ h2, hf2]
    exact hjo
  have rest5 : Rest w w5 := ((Rest.mk rfl : Rest w w1).trans c2.rest).trans (ff3.rest.trans ⟨rfl⟩)
  refine ⟨by simpa using hl, winv5.frame q6.g q6.bp, (((tr1.trans tr2).trans ff3.tr).trans tr35).trans (.quiet0 q6 l6), rest5.trans q6.toWFrame.rest, ?_, ?_, ?_, ?_, fun D => ?_⟩
  · rw [q6.g]; exact hf5n
  · rw [q6.g]; exact hbl5
  · intro x; rw [q6.g, hb5]
  · intro c; rw [q6.g]; exact hmem5 c
  · have hbt : BT (fun _ _ => False) w.bp w5.bp := by
      show BT (fun _ _ => False) w.bp w3.bp
      have h := ff3.bt
      rw [c2.bp] at h
      exact h
    refine Carry.frame (w' := w5) ⟨hbt, fun _ _ _ _ _ _ _ h => h.elim, fun x y z hy hz => ?_, fun x y _ _ _ _ => by rw [hb5],
      fun j hj _ _ _ => Or.inl ⟨by rw [hg5]; exact hj, by rw [hg5]⟩, fun x y _ hy => ?_, fun c hc _ _ y z hy hz _ _ _ _ => ⟨(hmem5 c).mpr ⟨hc, ?_, ?_⟩, by rw [hcs5]⟩, fun x y z hy hz => ?_⟩
      q6.g q6.bp q6.toWFrame.filter
    · have hx : x ≠ f := by rintro rfl; rw [hf5n] at hz; cases hz
      rw [hf5o x hx, hy] at hz
      exact (Option.some.inj hz).symm
    · show (w3.fattr x).filter = _
      rw [ff3.eq]
      exact c2.filter x
    · intro h; rw [h, hf5n] at hy; cases hy
    · intro h; rw [h, hf5n] at hz; cases hz
    · have hx : x ≠ f := by rintro rfl; rw [hf5n] at hz; cases hz
      rw [hf5o x hx]

theorem destroyFixture_spec {env : Env F} {w w' : World F} {b f : Nat} (hw : WInv w) (hb : b ∈ w.g.bodyList)
    (e : w.destroyFixture env b f = some w') :
    w.locked = false ∧ WInv w' ∧ Tr env w w' ∧ Rest w w' ∧ (w'.g.fixtures f).body = none ∧ w'.g.bodyList = w.g.bodyList ∧
    (∀ x, (w'.g.bodies x).fixtures = (w.g.bodies x).fixtures.erase f) ∧
    (∀ c, c ∈ w'.g.contactList ↔ c ∈ w.g.contactList ∧ (w.g.contacts c).fA ≠ f ∧ (w.g.contacts c).fB ≠ f) := by
  obtain ⟨h1, h2, h3, h4, h5, h6, h7, h8, -⟩ := destroyFixture_spec' (env := env) hw hb e
  exact ⟨h1, h2, h3, h4, h5, h6, h7, h8⟩

/-! ### set_enabled -/

theorem setEnabled_true_spec' {env : Env F} {w w' : World F} {b : Nat} (hw : WInv w) (hb : b ∈ w.g.bodyList)
    (e : w.setEnabled env b true = some w') :
    w.locked = false ∧ WInv w' ∧ Tr env w w' ∧ Rest { w with newContacts := true } w' ∧ (w'.g.bodies b).enabled = true ∧
    w'.g = { w.g with bodies := upd w.g.bodies b { w.g.bodies b with enabled := true }, fixtures := w'.g.fixtures } ∧
    (∀ x, (w'.g.fixtures x).body = (w.g.fixtures x).body) ∧ w'.phys = w.phys ∧ ∀ D, Carry (Fit w) D (fun _ => False) w w' := by
  unfold setEnabled at e
  split at e
  · cases e
  rename_i hl
  simp only [if_pos] at e
  set w1 := w.setBody b { w.g.bodies b with enabled := true } with hw1
  have hb1 : ∀ x, x ≠ b → w1.g.bodies x = w.g.bodies x := fun x hx => upd_other _ _ hx
  have hb1b : w1.g.bodies b = { w.g.bodies b with enabled := true } := upd_same _ _ _
  have hty : ∀ x, (w1.g.bodies x).type = (w.g.bodies x).type := by
    intro x
    by_cases hx : x = b
    · rw [hx, hb1b]
    · rw [hb1 x hx]
  simp only [Option.bind_eq_bind, Option.bind_eq_some_iff] at e
  obtain ⟨w2, e2, e3⟩ := e
  cases e3
  have hfx : (w1.g.bodies b).fixtures = (w.g.bodies b).fixtures := by rw [hb1b]
  rw [hfx] at e2
  have tr1 : Tr env w w1 := .calm ⟨⟨fun _ => rfl, rfl, fun _ => rfl, fun _ => rfl, fun _ => rfl, hty, fun _ _ => rfl⟩, fun _ => rfl⟩
    rfl rfl rfl rfl rfl (fun _ => rfl) (ev := []) rfl (by simp)
  cases hen : (w.g.bodies b).enabled with
  | true =>
    have h0 : w1 = w := by
      have : upd w.g.bodies b { w.g.bodies b with enabled := true } = w.g.bodies := by
        funext x
        by_cases hx : x = b
        · rw [hx, upd_same, ← hen]
        · rw [upd_other _ _ hx]
      rw [hw1, setBody, this]
    have h2 : w2 = w := by
      rw [h0] at e2
      refine foldlM_inv (fun x : World F => x = w) e2 rfl ?_
      rintro f hf x x' rfl hx
      obtain ⟨-, -, h3, h4, -⟩ := hw.body.fix hf
      obtain ⟨h5, -⟩ := h4 hen
      unfold createProxies at hx
      dsimp only at hx
      split at hx
      · cases hx
      · rename_i h6
        push Not at h6
        have h7 : (x.g.fixtures f).proxies.length = 0 := by omega
        simp only [h3, h7, Option.bind_eq_bind, Option.bind_some, List.range_zero, List.foldlM_nil] at hx
        cases hx
        have : upd x.g.fixtures f { x.g.fixtures f with proxyCount := 0 } = x.g.fixtures := by
          funext y
          by_cases hy : y = f
          · rw [hy, upd_same, ← h6]
          · rw [upd_other _ _ hy]
        rw [setFix, this]
    subst h2
    refine ⟨by simpa using hl, hw.frame rfl rfl, ⟨id, id, id⟩, ⟨rfl⟩, hen, ?_, fun _ => rfl, rfl,
      fun D => .of_g (.refl _) rfl (fun _ _ _ _ _ _ _ h => h.elim) (fun _ _ => rfl)⟩
    have e0 : w2.g = w1.g := by rw [h0]
    show w2.g = _
    conv_lhs => rw [e0]
    rfl
  | false =>
    obtain ⟨gh, buf, rep, hpi⟩ := hw.prox
    obtain ⟨w2', gh2, buf2, k1, k2, k3, k4, k5⟩ := createAll_spec (w := w1) (L := Live w.g) (w1.phys b).xf (hw.body.fixNodup b) hpi (by
      intro f hf
      obtain ⟨-, -, h3, -, h4⟩ := hw.body.fix hf
      obtain ⟨h5, h6⟩ := h4 hen
      exact ⟨h6, h5, h3⟩) (N := Fit w) (fun f hf i a ha => ⟨b, (hw.body.fix hf).2.1, ha⟩)
    rw [k1] at e2
    cases e2
    have hbod : w2.g.bodies = w1.g.bodies := k2.bodies
    have hg2 : w2.g = { w.g with bodies := upd w.g.bodies b { w.g.bodies b with enabled := true }, fixtures := w2.g.fixtures } := by rw [k2.g]; rfl
    have hbl : w2.g.bodyList = w.g.bodyList := by rw [hg2]
    have hcl : w2.g.contactList = w.g.contactList := by rw [hg2]
    have hcs : w2.g.contacts = w.g.contacts := by rw [hg2]
    have hbody : ∀ x, (w2.g.fixtures x).body = (w.g.fixtures x).body := k2.body
    have hlen : ∀ x, (w2.g.fixtures x).proxies.length = (w.g.fixtures x).proxies.length := k2.len
    have hlive : ∀ x i, Live w2.g x i ↔ Live w.g x i ∨ (x ∈ (w.g.bodies b).fixtures ∧ i < (w.g.fixtures x).proxies.length) := by
      intro x i
      unfold Live
      rw [hbl, hbody, hlen, hbod, hw.body.fixtures]
      constructor
      · rintro ⟨y, h1, h2, h3, h4⟩
        by_cases hy : y = b
        · subst hy; exact Or.inr ⟨⟨hb, h3⟩, h4⟩
        · rw [hb1 y hy] at h2; exact Or.inl ⟨y, h1, h2, h3, h4⟩
      · rintro (⟨y, h1, h2, h3, h4⟩ | ⟨⟨-, h3⟩, h4⟩)
        · refine ⟨y, h1, ?_, h3, h4⟩
          by_cases hy : y = b
          · rw [hy, hb1b]
          · rw [hb1 y hy]; exact h2
        · exact ⟨b, hb, by rw [hb1b], h3, h4⟩
    have hcon : ∀ x, (w2.g.bodies x).contacts = (w.g.bodies x).contacts := by
      intro x
      rw [hbod]
      by_cases hx : x = b
      · rw [hx, hb1b]
      · rw [hb1 x hx]
    have hbfx : ∀ x, (w2.g.bodies x).fixtures = (w.g.bodies x).fixtures ∧ (w2.g.bodies x).fixtureCount = (w.g.bodies x).fixtureCount ∧
        (w2.g.bodies x).joints = (w.g.bodies x).joints := by
      intro x
      rw [hbod]
      by_cases hx : x = b
      · rw [hx, hb1b]; exact ⟨rfl, rfl, rfl⟩
      · rw [hb1 x hx]; exact ⟨rfl, rfl, rfl⟩
    have winv : WInv w2 := by
      refine ⟨⟨?_, ?_, ?_, ?_, ?_⟩, gh2, buf2, rep, k5.congr (fun _ => rfl) hlive⟩
      · exact hw.link.congr hcl (by rw [hg2]) (by rw [hg2]) hcs hbody hcon
      · exact hw.joint.congr (by rw [hg2]) (by rw [hg2]) (by rw [hg2]) (by rw [hg2]) (by rw [hbl]; exact fun _ h => h) (fun x => (hbfx x).2.2)
      · refine ⟨by rw [hbl]; exact hw.body.nodup, by rw [hbl, hg2]; exact hw.body.count, by rw [hbl, hg2]; exact hw.body.lt, ?_, ?_, ?_, ?_, ?_, ?_⟩
        · intro x y; rw [hbody, hg2]; exact hw.body.owner x y
        · intro x y; rw [(hbfx x).1, hbl, hbody]; exact hw.body.fixtures x y
        · intro x; rw [(hbfx x).1]; exact hw.body.fixNodup x
        · intro x; rw [(hbfx x).1, (hbfx x).2.1]; exact hw.body.fixCount x
        · intro x y hy hx
          rw [hbl] at hy
          rw [hbody] at hx
          rw [hlen, k2.shape]; exact hw.body.children x y hy hx
        · intro x y hy hx
          rw [hbl] at hy
          rw [hbody] at hx
          rw [hbod]
          by_cases hyb : y = b
          · subst hyb
            rw [hb1b, hlen]
            exact k3 x ((hw.body.fixtures y x).mpr ⟨hb, hx⟩)
          · rw [hb1 y hyb, k4 x (fun hm => ?_)]
            · exact hw.body.proxyCount x y hy hx
            · have := ((hw.body.fixtures b x).mp hm).2
              rw [hx] at this
              exact hyb (Option.some.inj this)
      · intro c hc
        rw [hcl] at hc
        exact (hw.ok c hc).congr (by rw [hcs]) hbody k2.shape (fun x => by rw [hbod]; exact hty x) (fun x i hi => (hlive x i).mpr (Or.inl hi))
      · rw [hcl, hcs]; exact hw.uniq
    refine ⟨by simpa using hl, winv.frame rfl rfl, (tr1.trans k2.tr).trans ⟨id, id, id⟩, ⟨?_⟩, ?_, hg2, hbody, k2.phys, fun D => ?_⟩
    · rw [k2.rest.eq]; rfl
    · show (w2.g.bodies b).enabled = true
      rw [hbod, hb1b]
    · refine Carry.frame (w' := w2) ⟨k2.bt, fun _ _ _ _ _ _ _ h => h.elim, fun x y z hy hz => ?_, fun x y _ _ _ _ => by rw [hbod]; exact hty y,
        fun j hj _ _ _ => Or.inl ⟨by rw [hg2]; exact hj, by rw [hg2]⟩, fun x y _ hy => by rw [k2.eq]; rfl, fun c hc _ _ y z hy hz _ _ _ _ => ⟨by rw [hcl]; exact hc, by rw [hcs]⟩, fun x _ _ _ _ => k2.shape x⟩
        rfl rfl (fun _ => rfl)
      rw [hbody, hy] at hz
      exact (Option.some.inj hz).symm

theorem setEnabled_true_spec {env : Env F} {w w' : World F} {b : Nat} (hw : WInv w) (hb : b ∈ w.g.bodyList)
    (e : w.setEnabled env b true = some w') :
    w.locked = false ∧ WInv w' ∧ Tr env w w' ∧ Rest { w with newContacts := true } w' ∧ (w'.g.bodies b).enabled = true ∧
    w'.g = { w.g with bodies := upd w.g.bodies b { w.g.bodies b with enabled := true }, fixtures := w'.g.fixtures } ∧
    (∀ x, (w'.g.fixtures x).body = (w.g.fixtures x).body) ∧ w'.phys = w.phys := by
  obtain ⟨h1, h2, h3, h4, h5, h6, h7, h8, -⟩ := setEnabled_true_spec' (env := env) hw hb e
  exact ⟨h1, h2, h3, h4, h5, h6, h7, h8⟩

end World
end
end B2
