import Verif.Proofs.WorldJoint

/-! The functions that create, change and destroy bodies and fixtures. -/
namespace B2
set_option linter.unusedSectionVars false
open Spec

section
variable {F : Type} [Field F] [LinearOrder F] [IsStrictOrderedRing F] [Elem F]

theorem ContactOk.congr' {g g' : Graph F} {c : Nat} (h : ContactOk g c) (h1 : g'.contacts c = g.contacts c)
    (h2 : ∀ f b, (g.fixtures f).body = some b → (f = (g.contacts c).fA ∨ f = (g.contacts c).fB) →
      (g'.fixtures f).body = some b ∧ (g'.fixtures f).shape = (g.fixtures f).shape ∧ (g'.bodies b).type = (g.bodies b).type ∧
      (∀ i, Live g f i → Live g' f i)) : ContactOk g' c := by
  obtain ⟨bA, bB, k1, k2, k3, k4, k5, k6, k7⟩ := h
  obtain ⟨a1, a2, a3, a4⟩ := h2 _ _ k1 (Or.inl rfl)
  obtain ⟨b1, b2, b3, b4⟩ := h2 _ _ k2 (Or.inr rfl)
  refine ⟨bA, bB, ?_, ?_, k3, ?_, ?_, ?_, ?_⟩
  · rw [h1]; exact a1
  · rw [h1]; exact b1
  · rw [h1]; exact a4 _ k4
  · rw [h1]; exact b4 _ k5
  · rw [a3, b3]; exact k6
  · rw [h1, a2, b2]; exact k7

theorem Phys.new_static {d : BodyDef F} {p : Phys F} (h : Phys.new d = some p) (ht : d.type = .static) : p.awake = false := by
  unfold Phys.new at h
  split at h
  · cases h; simp [ht]
  · cases h

theorem GInv.fixLt {g : Graph F} (h : GInv g) {c : Nat} (hc : c ∈ g.contactList) : (g.contacts c).fA < g.nextFixture ∧ (g.contacts c).fB < g.nextFixture := by
  obtain ⟨bA, bB, h1, h2, -⟩ := h.link.bodies c hc
  exact ⟨(h.body.owner _ _ h1).1, (h.body.owner _ _ h2).1⟩

namespace World

/-! ### create_body -/

theorem createBody_spec {env : Env F} {w w' : World F} {d : BodyDef F} {b : Nat} (hw : WInv w) (e : w.createBody d = some (w', b)) :
    b = w.g.nextBody ∧ w.locked = false ∧ WInv w' ∧ Tr env w w' ∧ Rest w w' ∧ w'.g.bodyList = b :: w.g.bodyList := by
  unfold createBody at e
  split at e
  · cases e
  rename_i hl
  cases hp : Phys.new d with
  | none => simp [hp] at e
  | some p =>
    simp only [hp, Option.bind_eq_bind, Option.bind_some] at e
    obtain ⟨rfl, rfl⟩ := Prod.mk.inj (Option.some.inj e)
    have hfresh : ∀ f, (w.g.fixtures f).body ≠ some w.g.nextBody := fun f hf => absurd (hw.body.owner f _ hf).2 (lt_irrefl _)
    have hnb : w.g.nextBody ∉ w.g.bodyList := fun hm => absurd (hw.body.lt _ hm) (lt_irrefl _)
    have hbo : ∀ x, x ≠ w.g.nextBody → upd w.g.bodies w.g.nextBody ⟨d.type, d.enabled, [], 0, [], []⟩ x = w.g.bodies x := fun x hx => upd_other _ _ hx
    have hbn : upd w.g.bodies w.g.nextBody ⟨d.type, d.enabled, [], 0, [], []⟩ w.g.nextBody = ⟨d.type, d.enabled, [], 0, [], []⟩ := upd_same _ _ _
    have hlive : ∀ f i, (∃ b ∈ w.g.nextBody :: w.g.bodyList, (upd w.g.bodies w.g.nextBody ⟨d.type, d.enabled, [], 0, [], []⟩ b).enabled = true ∧
        (w.g.fixtures f).body = some b ∧ i < (w.g.fixtures f).proxies.length) ↔ Live w.g f i := by
      intro f i
      unfold Live
      constructor
      · rintro ⟨b, h1, h2, h3, h4⟩
        have hb : b ≠ w.g.nextBody := by rintro rfl; exact hfresh f h3
        rw [hbo b hb] at h2
        exact ⟨b, by simpa [hb] using h1, h2, h3, h4⟩
      · rintro ⟨b, h1, h2, h3, h4⟩
        have hb : b ≠ w.g.nextBody := by rintro rfl; exact hfresh f h3
        exact ⟨b, by simp [h1], by rw [hbo b hb]; exact h2, h3, h4⟩
    refine ⟨rfl, by simpa using hl, ⟨⟨?_, ?_, ?_, ?_, ?_⟩, ?_⟩, ?_, ⟨rfl⟩, rfl⟩
    · refine ⟨hw.link.nodup, hw.link.count, hw.link.lt, hw.link.bodies, ?_, ?_⟩
      · intro x c o
        show (c, o) ∈ (upd w.g.bodies w.g.nextBody _ x).contacts ↔ c ∈ w.g.contactList ∧ w.g.joins c x o
        by_cases hx : x = w.g.nextBody
        · subst hx
          rw [hbn]
          simp only [List.not_mem_nil, false_iff]
          rintro ⟨-, h | h⟩
          · exact hfresh _ h.1
          · exact hfresh _ h.1
        · rw [hbo x hx]; exact hw.link.edges x c o
      · intro x
        show ((upd w.g.bodies w.g.nextBody _ x).contacts.map Prod.fst).Nodup
        by_cases hx : x = w.g.nextBody
        · subst hx; rw [hbn]; simp
        · rw [hbo x hx]; exact hw.link.edgeNodup x
    · refine ⟨hw.joint.nodup, hw.joint.count, hw.joint.lt, ?_, ?_, ?_⟩
      · intro j hj
        obtain ⟨h1, h2, h3⟩ := hw.joint.ends j hj
        exact ⟨h1, List.mem_cons_of_mem _ h2, List.mem_cons_of_mem _ h3⟩
      · intro x j o
        show (j, o) ∈ (upd w.g.bodies w.g.nextBody _ x).joints ↔ j ∈ w.g.jointList ∧ w.g.jjoins j x o
        by_cases hx : x = w.g.nextBody
        · subst hx
          rw [hbn]
          simp only [List.not_mem_nil, false_iff]
          rintro ⟨hj, h | h⟩
          · obtain ⟨-, h2, h3⟩ := hw.joint.ends j hj
            exact hnb (h.1 ▸ h2)
          · obtain ⟨-, h2, h3⟩ := hw.joint.ends j hj
            exact hnb (h.1 ▸ h3)
        · rw [hbo x hx]; exact hw.joint.edges x j o
      · intro x
        show ((upd w.g.bodies w.g.nextBody _ x).joints.map Prod.fst).Nodup
        by_cases hx : x = w.g.nextBody
        · subst hx; rw [hbn]; simp
        · rw [hbo x hx]; exact hw.joint.edgeNodup x
    · refine ⟨List.nodup_cons.mpr ⟨hnb, hw.body.nodup⟩, ?_, ?_, ?_, ?_, ?_, ?_, ?_, ?_⟩
      · show w.g.bodyCount + 1 = _
        rw [hw.body.count]; rfl
      · intro x hx
        show x < w.g.nextBody + 1
        rcases List.mem_cons.mp hx with rfl | hx
        · omega
        · have := hw.body.lt x hx; omega
      · intro f b hf
        obtain ⟨h1, h2⟩ := hw.body.owner f b hf
        exact ⟨h1, Nat.lt_succ_of_lt h2⟩
      · intro x f
        show f ∈ (upd w.g.bodies w.g.nextBody _ x).fixtures ↔ x ∈ w.g.nextBody :: w.g.bodyList ∧ (w.g.fixtures f).body = some x
        by_cases hx : x = w.g.nextBody
        · subst hx; rw [hbn]; simp [hfresh]
        · rw [hbo x hx, hw.body.fixtures]; simp [hx]
      · intro x
        show (upd w.g.bodies w.g.nextBody _ x).fixtures.Nodup
        by_cases hx : x = w.g.nextBody
        · subst hx; rw [hbn]; simp
        · rw [hbo x hx]; exact hw.body.fixNodup x
      · intro x
        show (upd w.g.bodies w.g.nextBody _ x).fixtureCount = ((upd w.g.bodies w.g.nextBody _ x).fixtures.length : Int)
        by_cases hx : x = w.g.nextBody
        · subst hx; rw [hbn]; simp
        · rw [hbo x hx]; exact hw.body.fixCount x
      · intro f b hb hf
        have hne : b ≠ w.g.nextBody := by rintro rfl; exact hfresh f hf
        exact hw.body.children f b (by simpa [hne] using hb) hf
      · intro f b hb hf
        have hne : b ≠ w.g.nextBody := by rintro rfl; exact hfresh f hf
        show (w.g.fixtures f).proxyCount = if (upd w.g.bodies w.g.nextBody _ b).enabled then _ else _
        rw [hbo b hne]
        exact hw.body.proxyCount f b (by simpa [hne] using hb) hf
    · intro c hc
      refine (hw.ok c hc).congr' rfl (fun f b hf _ => ⟨hf, rfl, ?_, fun i => (hlive f i).mpr⟩)
      have hne : b ≠ w.g.nextBody := by rintro rfl; exact hfresh f hf
      show (upd w.g.bodies w.g.nextBody _ b).type = _
      rw [hbo b hne]
    · exact hw.uniq
    · obtain ⟨gh, buf, rep, hpi⟩ := hw.prox
      exact ⟨gh, buf, rep, hpi.congr (fun _ => rfl) hlive⟩
    · refine ⟨fun hs x hx ht => ?_, fun hf => hf, fun he => he⟩
      by_cases hxn : x = w.g.nextBody
      · subst hxn
        have ht' : (upd w.g.bodies w.g.nextBody ⟨d.type, d.enabled, [], 0, [], []⟩ w.g.nextBody).type = .static := ht
        rw [hbn] at ht'
        show (upd w.phys w.g.nextBody p w.g.nextBody).awake = false
        rw [upd_same]
        exact Phys.new_static hp ht'
      · have ht' : (upd w.g.bodies w.g.nextBody ⟨d.type, d.enabled, [], 0, [], []⟩ x).type = .static := ht
        rw [hbo x hxn] at ht'
        show (upd w.phys w.g.nextBody p x).awake = false
        rw [upd_other _ _ hxn]
        have hx' : x < w.g.nextBody + 1 := hx
        exact hs x (by omega) ht'

theorem createBody_carry {N : Nat × Nat → AABB F → Prop} {w w' : World F} {d : BodyDef F} {b : Nat} (hw : WInv w) (e : w.createBody d = some (w', b)) (D : Nat → Nat → Prop) :
    Carry N D (fun _ => False) w w' := by
  unfold createBody at e
  split at e
  · cases e
  cases hp : Phys.new d with
  | none => simp [hp] at e
  | some p =>
    simp only [hp, Option.bind_eq_bind, Option.bind_some] at e
    obtain ⟨rfl, rfl⟩ := Prod.mk.inj (Option.some.inj e)
    refine ⟨.refl _, fun _ _ _ _ _ _ _ h => h.elim, fun f x y h1 h2 => ?_, fun f x _ hf hx _ => ?_, fun j hj _ _ _ => Or.inl ⟨hj, rfl⟩, fun _ _ _ _ => rfl,
      fun c hc _ _ _ _ _ _ _ _ _ _ => ⟨hc, rfl⟩, fun _ _ _ _ _ => rfl⟩
    · have h2' : (w.g.fixtures f).body = some y := h2
      rw [h1] at h2'
      exact (Option.some.inj h2').symm
    · have hne : x ≠ w.g.nextBody := by rintro rfl; exact absurd (hw.body.lt _ hx) (lt_irrefl _)
      show (upd w.g.bodies w.g.nextBody _ x).type = _
      rw [upd_other _ _ hne]

/-! ### create_fixture -/

theorem createFixture_spec' {env : Env F} {w w' : World F} {b f : Nat} {d : FixDef F} (hw : WInv w) (hb : b ∈ w.g.bodyList)
    (e : w.createFixture b d = some (w', f)) :
    f = w.g.nextFixture ∧ w.locked = false ∧ WInv w' ∧ Tr env w w' ∧ Rest { w with newContacts := true } w' ∧
    (w'.g.bodies b).fixtures = f :: (w.g.bodies b).fixtures ∧ w'.g.bodyList = w.g.bodyList ∧ (w'.g.fixtures f).shape = d.shape ∧
    ∀ D, Carry (fun p a => p.1 = f ∧ d.shape.computeAabb (w.phys b).xf p.2 = some a) D (fun _ => False) w w' := by
  unfold createFixture at e
  split at e
  · cases e
  rename_i hl
  simp only [Option.bind_eq_bind, Option.bind_eq_some_iff] at e
  obtain ⟨n, hn, w2, e2, w3, e3, e4⟩ := e
  obtain ⟨rfl, rfl⟩ := Prod.mk.inj (Option.some.inj e4)
  set f := w.g.nextFixture with hf
  set w1 : World F := { w with
      g := { w.g with fixtures := upd w.g.fixtures f ⟨some b, d.shape, List.replicate n ⟨none, 0, none⟩, 0⟩
                      nextFixture := f + 1 }
      fattr := upd w.fattr f d.attr } with hw1
  have hfo : ∀ x, x ≠ f → w1.g.fixtures x = w.g.fixtures x := fun x hx => upd_other _ _ hx
  have hfn : w1.g.fixtures f = ⟨some b, d.shape, List.replicate n ⟨none, 0, none⟩, 0⟩ := upd_same _ _ _
  have hno : ∀ x, (w.g.fixtures f).body ≠ some x := fun x hx => absurd (hw.body.owner f x hx).1 (lt_irrefl _)
  have hnl : ∀ i, ¬ Live w.g f i := fun i ⟨x, _, _, hx, _⟩ => hno x hx
  have hblt := hw.body.lt b hb
  obtain ⟨gh, buf, rep, hpi⟩ := hw.prox
  have hpi1 : PI w1.g.fixtures w1.bp (Live w.g) gh buf rep := by
    refine ⟨hpi.hist, fun x i hx => ?_, fun id p hp => ?_⟩
    · rw [hfo x (by rintro rfl; exact hnl i hx)]
      exact hpi.has x i hx
    · obtain ⟨a1, a2⟩ := hpi.only id p hp
      refine ⟨a1, ?_⟩
      rw [hfo _ (by intro he; rw [he] at a1; exact hnl _ a1)]
      exact a2
  obtain ⟨gh2, buf2, ff2, hc2, ho2, hpi2⟩ : ∃ gh2 buf2, FixFrame (fun p a => p.1 = f ∧ d.shape.computeAabb (w.phys b).xf p.2 = some a) w1 w2 ∧ (w2.g.fixtures f).proxyCount = (if (w.g.bodies b).enabled then n else 0) ∧
      (∀ x, x ≠ f → w2.g.fixtures x = w1.g.fixtures x) ∧
      PI w2.g.fixtures w2.bp (fun x i => Live w.g x i ∨ ((w.g.bodies b).enabled = true ∧ x = f ∧ i < n)) gh2 buf2 rep := by
    have e2' : (if (w.g.bodies b).enabled then w1.createProxies f (w1.phys b).xf else some w1) = some w2 := e2
    cases hen : (w.g.bodies b).enabled with
    | true =>
      rw [hen, if_pos rfl] at e2'
      obtain ⟨w2', gh2, buf2, k1, k2, k3, k4, k5⟩ := createProxies_spec (w1.phys b).xf hpi1 (by rw [hfn]; exact hn) (by rw [hfn]; simp)
        (by rw [hfn]) hnl (N := fun p a => p.1 = f ∧ d.shape.computeAabb (w.phys b).xf p.2 = some a) (fun i a h => ⟨rfl, by rw [hfn] at h; exact h⟩)
      rw [k1] at e2'
      cases e2'
      exact ⟨gh2, buf2, k2, by simpa using k3, k4, k5.congr (fun _ => rfl) (by simp)⟩
    | false =>
      rw [hen, if_neg (by simp)] at e2'
      rw [← Option.some.inj e2']
      exact ⟨gh, buf, .refl _, by rw [hfn]; simp, fun _ _ => rfl, hpi1.congr (fun _ => rfl) (by simp)⟩
  set w2' := w2.setBody b { w2.g.bodies b with
      fixtures := f :: (w2.g.bodies b).fixtures, fixtureCount := (w2.g.bodies b).fixtureCount + 1 } with hw2'
  have hbod2 : w2.g.bodies = w.g.bodies := ff2.bodies
  have hbo : ∀ x, x ≠ b → w2'.g.bodies x = w.g.bodies x := fun x hx => (upd_other _ _ hx).trans (by rw [hbod2])
  have hbn : w2'.g.bodies b = { w.g.bodies b with fixtures := f :: (w.g.bodies b).fixtures, fixtureCount := (w.g.bodies b).fixtureCount + 1 } := by
    have e1 : w2'.g.bodies b = { w2.g.bodies b with fixtures := f :: (w2.g.bodies b).fixtures, fixtureCount := (w2.g.bodies b).fixtureCount + 1 } := upd_same _ _ _
    rw [e1, hbod2]
  have hg2 : w2.g = { w.g with fixtures := w2.g.fixtures, nextFixture := f + 1 } := by rw [ff2.g]
  have hg2' : w2'.g = { w.g with fixtures := w2.g.fixtures, nextFixture := f + 1, bodies := w2'.g.bodies } := by
    show ({ w2.g with bodies := w2'.g.bodies } : Graph F) = _
    rw [hg2]
  have hfx : w2'.g.fixtures = w2.g.fixtures := rfl
  have hfxo : ∀ x, x ≠ f → w2'.g.fixtures x = w.g.fixtures x := fun x hx => (ho2 x hx).trans (hfo x hx)
  have hfxb : (w2'.g.fixtures f).body = some b := by rw [hfx, ff2.body, hfn]
  have hfxs : (w2'.g.fixtures f).shape = d.shape := by rw [hfx, ff2.shape, hfn]
  have hfxl : (w2'.g.fixtures f).proxies.length = n := by rw [hfx, ff2.len, hfn]; simp
  have hbl : w2'.g.bodyList = w.g.bodyList := by rw [hg2']
  have hen' : ∀ x, (w2'.g.bodies x).enabled = (w.g.bodies x).enabled := by
    intro x
    by_cases hx : x = b
    · subst hx; rw [hbn]
    · rw [hbo x hx]
  have hty' : ∀ x, (w2'.g.bodies x).type = (w.g.bodies x).type := by
    intro x
    by_cases hx : x = b
    · subst hx; rw [hbn]
    · rw [hbo x hx]
  have hcl : w2'.g.contactList = w.g.contactList := by rw [hg2']
  have hcs : w2'.g.contacts = w.g.contacts := by rw [hg2']
  have hjl : w2'.g.jointList = w.g.jointList := by rw [hg2']
  have hjs : w2'.g.joints = w.g.joints := by rw [hg2']
  have hlive : ∀ x i, Live w2'.g x i ↔ Live w.g x i ∨ ((w.g.bodies b).enabled = true ∧ x = f ∧ i < n) := by
    intro x i
    by_cases hx : x = f
    · rw [hx]
      simp only [hnl i, false_or, true_and]
      unfold Live
      rw [hfxb, hfxl, hbl]
      constructor
      · rintro ⟨y, h1, h2, h3, h4⟩
        cases h3
        rw [hen'] at h2
        exact ⟨h2, h4⟩
      · rintro ⟨h1, h2⟩
        exact ⟨b, hb, by rw [hen']; exact h1, rfl, h2⟩
    · simp only [hx, false_and, and_false, or_false]
      unfold Live
      rw [hfxo x hx, hbl]
      simp only [hen']
  have hclf : ∀ c ∈ w.g.contactList, (w.g.contacts c).fA ≠ f ∧ (w.g.contacts c).fB ≠ f := by
    intro c hc
    obtain ⟨h1, h2⟩ := hw.toGInv.fixLt hc
    exact ⟨Nat.ne_of_lt h1, Nat.ne_of_lt h2⟩
  have hjoin : ∀ c ∈ w.g.contactList, ∀ x o, w2'.g.joins c x o ↔ w.g.joins c x o := by
    intro c hc x o
    obtain ⟨h1, h2⟩ := hclf c hc
    unfold Graph.joins
    rw [hcs, hfxo _ h1, hfxo _ h2]
  have winv : WInv w2' := by
    refine ⟨⟨?_, ?_, ?_, ?_, ?_⟩, gh2, buf2, rep, hpi2.congr (fun _ => rfl) hlive⟩
    · refine ⟨by rw [hcl]; exact hw.link.nodup, by rw [hcl, hg2']; exact hw.link.count, by rw [hcl, hg2']; exact hw.link.lt, ?_, ?_, ?_⟩
      · intro c hc
        rw [hcl] at hc
        obtain ⟨h1, h2⟩ := hclf c hc
        rw [hcs, hfxo _ h1, hfxo _ h2]
        exact hw.link.bodies c hc
      · intro x c o
        have : (w2'.g.bodies x).contacts = (w.g.bodies x).contacts := by
          by_cases hx : x = b
          · subst hx; rw [hbn]
          · rw [hbo x hx]
        rw [this, hw.link.edges, hcl]
        exact and_congr_right fun hc => (hjoin c hc x o).symm
      · intro x
        have : (w2'.g.bodies x).contacts = (w.g.bodies x).contacts := by
          by_cases hx : x = b
          · subst hx; rw [hbn]
          · rw [hbo x hx]
        rw [this]; exact hw.link.edgeNodup x
    · refine hw.joint.congr hjl (by rw [hg2']) (by rw [hg2']) hjs (by rw [hbl]; exact fun _ h => h) (fun x => ?_)
      by_cases hx : x = b
      · subst hx; rw [hbn]
      · rw [hbo x hx]
    · refine ⟨by rw [hbl]; exact hw.body.nodup, by rw [hbl, hg2']; exact hw.body.count, by rw [hbl, hg2']; exact hw.body.lt, ?_, ?_, ?_, ?_, ?_, ?_⟩
      · intro x y hx
        have h1 : w2'.g.nextFixture = f + 1 := by rw [hg2']
        have h2 : w2'.g.nextBody = w.g.nextBody := by rw [hg2']
        rw [h1, h2]
        by_cases hxf : x = f
        · subst hxf; rw [hfxb] at hx; cases hx; exact ⟨by omega, hblt⟩
        · rw [hfxo x hxf] at hx
          obtain ⟨a1, a2⟩ := hw.body.owner x y hx
          exact ⟨by omega, a2⟩
      · intro x y
        rw [hbl]
        by_cases hx : x = b
        · rw [hx, hbn]
          by_cases hy : y = f
          · subst hy
            rw [hfxb]; simp [hb]
          · rw [hfxo y hy]
            have : y ∈ f :: (w.g.bodies b).fixtures ↔ y ∈ (w.g.bodies b).fixtures := by simp [hy]
            exact this.trans (hw.body.fixtures b y)
        · rw [hbo x hx, hw.body.fixtures]
          by_cases hy : y = f
          · subst hy
            rw [hfxb]
            simp only [hno, and_false, false_iff, Option.some.injEq, not_and]
            exact fun _ h => hx h.symm
          · rw [hfxo y hy]
      · intro x
        by_cases hx : x = b
        · rw [hx, hbn]
          refine List.nodup_cons.mpr ⟨fun hm => ?_, hw.body.fixNodup b⟩
          exact hno b ((hw.body.fixtures b f).mp hm).2
        · rw [hbo x hx]; exact hw.body.fixNodup x
      · intro x
        by_cases hx : x = b
        · rw [hx, hbn]
          show (w.g.bodies b).fixtureCount + 1 = ((f :: (w.g.bodies b).fixtures).length : Int)
          rw [hw.body.fixCount]; simp
        · rw [hbo x hx]; exact hw.body.fixCount x
      · intro x y hy hx
        rw [hbl] at hy
        by_cases hxf : x = f
        · subst hxf; rw [hfxs, hfxl]; exact hn
        · rw [hfxo x hxf] at hx ⊢
          exact hw.body.children x y hy hx
      · intro x y hy hx
        rw [hbl] at hy
        rw [hen']
        by_cases hxf : x = f
        · rw [hxf] at hx ⊢
          rw [hfxb] at hx; cases hx
          rw [hfxl]; exact hc2
        · rw [hfxo x hxf] at hx ⊢
          exact hw.body.proxyCount x y hy hx
    · intro c hc
      rw [hcl] at hc
      obtain ⟨h1, h2⟩ := hclf c hc
      refine (hw.ok c hc).congr' (by rw [hcs]) (fun x y hx hfx' => ?_)
      have hxf : x ≠ f := by
        rcases hfx' with rfl | rfl
        · exact h1
        · exact h2
      rw [hfxo x hxf]
      exact ⟨hx, rfl, hty' y, fun i hi => (hlive x i).mpr (Or.inl hi)⟩
    · rw [hcl, hcs]; exact hw.uniq
  have tr : Tr env w w2' := by
    have hphys : w2'.phys = w.phys := ff2.phys
    have hcst : w2'.cst = w.cst := ff2.cst
    have hlog : w2'.log = w.log := ff2.log
    refine ⟨fun hs x hx ht => ?_, fun hfi c hc j hj hcc hjo => ?_, fun he => he.congr (ev := []) hcl (fun c _ => by rw [hcst]) hlog (by simp)⟩
    · rw [hphys]
      rw [typeOf, hty'] at ht
      exact hs x (by rw [hg2'] at hx; exact hx) ht
    · rw [hcl] at hc
      rw [hjl] at hj
      rw [hjs] at hcc hjo
      rw [hcst]
      exact hfi c hc j hj hcc ((hjoin c hc _ _).mp hjo)
  have rest2 : Rest w w2' := ⟨by
    have e : w2' = { w2 with g := w2'.g } := rfl
    rw [e, ff2.eq]⟩
  obtain ⟨q3, l3⟩ : Quiet w2' w3 ∧ w3.log = w2'.log := by
    have e3' : (if d.attr.density > 0 then w2'.resetMassData b else some w2') = some w3 := e3
    split at e3'
    · exact bodyOp_quiet e3'
    · rw [← Option.some.inj e3']; exact ⟨.refl _, rfl⟩
  refine ⟨rfl, by simpa using hl, ?_, ?_, ⟨?_⟩, ?_, ?_, ?_, fun D => ?_⟩
  · exact (winv.frame q3.g q3.bp).frame rfl rfl
  · exact (tr.trans (.quiet0 q3 l3)).trans ⟨id, id, id⟩
  · have e := q3.toWFrame.eq
    rw [rest2.eq] at e
    rw [e]
  · show (w3.g.bodies b).fixtures = _
    rw [q3.g, hbn]
  · show w3.g.bodyList = _
    rw [q3.g, hbl]
  · show (w3.g.fixtures f).shape = _
    rw [q3.g, hfxs]
  · refine Carry.frame (w' := w2') ⟨ff2.bt, fun _ _ _ _ _ _ _ h => h.elim, fun x y z hy hz => ?_, fun x y _ _ _ _ => hty' y,
      fun j hj _ _ _ => Or.inl ⟨by rw [hjl]; exact hj, by rw [hjs]⟩, fun x y _ hy => ?_, fun c hc _ _ _ _ _ _ _ _ _ _ => ⟨by rw [hcl]; exact hc, by rw [hcs]⟩, fun x y z hy hz => ?_⟩
      q3.g q3.bp q3.toWFrame.filter
    · have hx : x ≠ f := by rintro rfl; exact hno y hy
      rw [hfxo x hx, hy] at hz
      exact (Option.some.inj hz).symm
    · have hx : x ≠ f := by rintro rfl; exact hno y hy
      have : w2'.fattr = w1.fattr := by
        show w2.fattr = _
        rw [ff2.eq]
      rw [this]
      show (upd w.fattr f d.attr x).filter = _
      rw [upd_other _ _ hx]
    · have hx : x ≠ f := by rintro rfl; exact hno y hy
      rw [hfxo x hx]

theorem createFixture_spec {env : Env F} {w w' : World F} {b f : Nat} {d : FixDef F} (hw : WInv w) (hb : b ∈ w.g.bodyList)
    (e : w.createFixture b d = some (w', f)) :
    f = w.g.nextFixture ∧ w.locked = false ∧ WInv w' ∧ Tr env w w' ∧ Rest { w with newContacts := true } w' ∧
    (w'.g.bodies b).fixtures = f :: (w.g.bodies b).fixtures ∧ w'.g.bodyList = w.g.bodyList ∧ (w'.g.fixtures f).shape = d.shape := by
  obtain ⟨h1, h2, h3, h4, h5, h6, h7, h8, -⟩ := createFixture_spec' (env := env) hw hb e
  exact ⟨h1, h2, h3, h4, h5, h6, h7, h8⟩

end World
end
end B2
