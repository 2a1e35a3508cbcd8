import Verif.Proofs.WorldProxy
import Verif.Props.Shapes

/-! The invariant of the world. -/
namespace B2
set_option linter.unusedSectionVars false
open Spec

theorem range_spec {β : Type} {f : β → Nat → Option β} (P : Nat → β → Prop) {b : β} (n : Nat) (h0 : P 0 b)
    (hs : ∀ i < n, ∀ b, P i b → ∃ b', f b i = some b' ∧ P (i + 1) b') :
    ∃ b', (List.range n).foldlM f b = some b' ∧ P n b' := by
  induction n with
  | zero => exact ⟨b, rfl, h0⟩
  | succ n ih =>
    obtain ⟨b1, h1, h2⟩ := ih (fun i hi => hs i (by omega))
    obtain ⟨b2, h3, h4⟩ := hs n (by omega) b1 h2
    exact ⟨b2, by rw [List.range_succ, List.foldlM_append, h1]; simpa using h3, h4⟩

theorem list_spec {α β : Type} {f : β → α → Option β} (P : List α → β → Prop) {l : List α} {b : β} (h0 : P [] b)
    (hs : ∀ pre x post, l = pre ++ x :: post → ∀ b, P pre b → ∃ b', f b x = some b' ∧ P (pre ++ [x]) b') :
    ∃ b', l.foldlM f b = some b' ∧ P l b' := by
  have : ∀ (post pre : List α) (b : β), l = pre ++ post → P pre b → ∃ b', post.foldlM f b = some b' ∧ P l b' := by
    intro post
    induction post with
    | nil => intro pre b hl hp; exact ⟨b, rfl, by simpa [hl] using hp⟩
    | cons x post ih =>
      intro pre b hl hp
      obtain ⟨b1, h1, h2⟩ := hs pre x post hl b hp
      obtain ⟨b2, h3, h4⟩ := ih (pre ++ [x]) b1 (by simp [hl]) h2
      exact ⟨b2, by rw [List.foldlM_cons, h1]; exact h3, h4⟩
  exact this l [] b rfl h0

section
variable {F : Type} [Field F] [LinearOrder F] [IsStrictOrderedRing F] [Elem F]

/-- Child `i` of fixture `f` belongs to an enabled body of the world. -/
def Live (g : Graph F) (f i : Nat) : Prop :=
  ∃ b ∈ g.bodyList, (g.bodies b).enabled = true ∧ (g.fixtures f).body = some b ∧ i < (g.fixtures f).proxies.length

theorem computeAabb_total (s : Shape F) (xf : Xf F) {n i : Nat} (h : s.childCount = some n) (hi : i < n) :
    ∃ a, s.computeAabb xf i = some a := Props.c49_total s i n xf h hi

/-- Body list, fixture lists and counters agree. -/
structure BodyInv (g : Graph F) : Prop where
  nodup : g.bodyList.Nodup
  count : g.bodyCount = g.bodyList.length
  lt : ∀ b ∈ g.bodyList, b < g.nextBody
  owner : ∀ f b, (g.fixtures f).body = some b → f < g.nextFixture ∧ b < g.nextBody
  fixtures : ∀ b f, f ∈ (g.bodies b).fixtures ↔ b ∈ g.bodyList ∧ (g.fixtures f).body = some b
  fixNodup : ∀ b, (g.bodies b).fixtures.Nodup
  fixCount : ∀ b, (g.bodies b).fixtureCount = (g.bodies b).fixtures.length
  children : ∀ f b, b ∈ g.bodyList → (g.fixtures f).body = some b →
    (g.fixtures f).shape.childCount = some (g.fixtures f).proxies.length
  proxyCount : ∀ f b, b ∈ g.bodyList → (g.fixtures f).body = some b →
    (g.fixtures f).proxyCount = if (g.bodies b).enabled then (g.fixtures f).proxies.length else 0

/-- A contact joins children of fixtures of two enabled bodies, one of them dynamic, in the order of its class. -/
def ContactOk (g : Graph F) (c : Nat) : Prop :=
  ∃ bA bB, (g.fixtures (g.contacts c).fA).body = some bA ∧ (g.fixtures (g.contacts c).fB).body = some bB ∧ bA ≠ bB ∧
    Live g (g.contacts c).fA (g.contacts c).iA ∧ Live g (g.contacts c).fB (g.contacts c).iB ∧
    ((g.bodies bA).type = .dynamic ∨ (g.bodies bB).type = .dynamic) ∧
    registers (g.fixtures (g.contacts c).fA).shape.type (g.fixtures (g.contacts c).fB).shape.type = ⟨some (g.contacts c).kind, true⟩

/-- The two contacts join the same children. -/
def SameEnds (k k' : ConS) : Prop :=
  (k.fA = k'.fA ∧ k.iA = k'.iA ∧ k.fB = k'.fB ∧ k.iB = k'.iB) ∨ (k.fA = k'.fB ∧ k.iA = k'.iB ∧ k.fB = k'.fA ∧ k.iB = k'.iA)

structure GInv (g : Graph F) : Prop where
  link : LinkInv g
  joint : JointInv g
  body : BodyInv g
  ok : ∀ c ∈ g.contactList, ContactOk g c
  uniq : ∀ c ∈ g.contactList, ∀ c' ∈ g.contactList, SameEnds (g.contacts c) (g.contacts c') → c = c'

structure WInv (w : World F) : Prop extends GInv w.g where
  prox : ∃ gh buf rep, PI w.g.fixtures w.bp (Live w.g) gh buf rep

/-- The part of the invariant about bodies and proxies. -/
structure PInv (w : World F) : Prop where
  body : BodyInv w.g
  prox : ∃ gh buf rep, PI w.g.fixtures w.bp (Live w.g) gh buf rep

theorem WInv.pinv {w : World F} (h : WInv w) : PInv w := ⟨h.body, h.prox⟩

theorem WInv.frame {w w' : World F} (h : WInv w) (hg : w'.g = w.g) (hb : w'.bp = w.bp) : WInv w' :=
  ⟨by rw [hg]; exact h.toGInv, by rw [hg, hb]; exact h.prox⟩

namespace World

/-! ### Loops over proxies -/

/-- Only the broad-phase, the boxes and the proxies of fixtures differ. -/
structure FixFrame (N : Nat × Nat → AABB F → Prop) (w w' : World F) : Prop where
  eq : w' = { w with g := { w.g with fixtures := w'.g.fixtures }, bp := w'.bp, paabb := w'.paabb }
  fix : ∀ f, w'.g.fixtures f = { w.g.fixtures f with proxies := (w'.g.fixtures f).proxies, proxyCount := (w'.g.fixtures f).proxyCount }
  len : ∀ f, (w'.g.fixtures f).proxies.length = (w.g.fixtures f).proxies.length
  bt : BT N w.bp w'.bp

variable {N : Nat × Nat → AABB F → Prop}

namespace FixFrame
variable {w w' w'' : World F}
theorem refl (w : World F) : FixFrame N w w := ⟨rfl, fun _ => rfl, fun _ => rfl, .refl _⟩
theorem trans (h : FixFrame N w w') (h' : FixFrame N w' w'') : FixFrame N w w'' :=
  ⟨by rw [h'.eq, h.eq], fun f => by
    have e := h'.fix f
    rw [h.fix f] at e
    exact e, fun f => (h'.len f).trans (h.len f), h.bt.trans h'.bt⟩
theorem body (h : FixFrame N w w') (f : Nat) : (w'.g.fixtures f).body = (w.g.fixtures f).body := by rw [h.fix f]
theorem shape (h : FixFrame N w w') (f : Nat) : (w'.g.fixtures f).shape = (w.g.fixtures f).shape := by rw [h.fix f]
theorem bodies (h : FixFrame N w w') : w'.g.bodies = w.g.bodies := by rw [h.eq]
theorem bodyList (h : FixFrame N w w') : w'.g.bodyList = w.g.bodyList := by rw [h.eq]
theorem g (h : FixFrame N w w') : w'.g = { w.g with fixtures := w'.g.fixtures } := by rw [h.eq]
theorem log (h : FixFrame N w w') : w'.log = w.log := by rw [h.eq]
theorem phys (h : FixFrame N w w') : w'.phys = w.phys := by rw [h.eq]
theorem cst (h : FixFrame N w w') : w'.cst = w.cst := by rw [h.eq]
theorem rest (h : FixFrame N w w') : Rest w w' := ⟨by rw [h.eq]⟩
theorem calm (h : FixFrame N w w') : Calm w w' := by
  have hb := h.bodies
  have hp := h.phys
  have hc := h.cst
  have hj : w'.jIsland = w.jIsland := by rw [h.eq]
  exact ⟨⟨fun _ => by rw [hc], hj, fun _ => by rw [hp], fun _ => by rw [hp], fun _ => by rw [hp],
    fun b => by rw [typeOf, hb]; rfl, fun _ _ => by rw [hp]⟩, fun _ => by rw [hc]⟩
theorem live (h : FixFrame N w w') (f i : Nat) : Live w'.g f i ↔ Live w.g f i := by
  unfold Live; rw [h.bodies, h.bodyList, h.body, h.len]
end FixFrame

theorem ProxyFrame.fix {f : Nat} {w w' : World F} (h : ProxyFrame N f w w') : FixFrame N w w' := by
  refine ⟨h.eq, fun x => ?_, fun x => ?_, h.bt⟩
  · by_cases hx : x = f
    · subst hx
      have hs := h.self
      have hc : (w'.g.fixtures x).proxyCount = (w.g.fixtures x).proxyCount := by rw [hs]
      rw [hc]; exact hs
    · rw [h.other x hx]
  · by_cases hx : x = f
    · subst hx; exact h.len
    · rw [h.other x hx]

variable {gh : Nat → Option (Proxy F (Nat × Nat))} {buf : List Nat} {rep : Set (Nat × Nat)}

theorem createProxies_spec {w : World F} {f n : Nat} {L : Nat → Nat → Prop} (xf : Xf F)
    (h : PI w.g.fixtures w.bp L gh buf rep) (hc : (w.g.fixtures f).shape.childCount = some n)
    (hn : (w.g.fixtures f).proxies.length = n) (h0 : (w.g.fixtures f).proxyCount = 0) (hL : ∀ i, ¬ L f i)
    (hN : ∀ i a, (w.g.fixtures f).shape.computeAabb xf i = some a → N (f, i) a) :
    ∃ w' gh' buf', w.createProxies f xf = some w' ∧ FixFrame N w w' ∧ (w'.g.fixtures f).proxyCount = n ∧
      (∀ f', f' ≠ f → w'.g.fixtures f' = w.g.fixtures f') ∧
      PI w'.g.fixtures w'.bp (fun a b => L a b ∨ (a = f ∧ b < n)) gh' buf' rep := by
  let w1 := w.setFix f { w.g.fixtures f with proxyCount := n }
  have f1 : FixFrame N w w1 := by
    refine ⟨rfl, fun x => ?_, fun x => ?_, .refl _⟩
    · by_cases hx : x = f
      · subst hx; simp [w1, setFix]
      · simp [w1, setFix, upd_other _ _ hx]
    · by_cases hx : x = f
      · subst hx; simp [w1, setFix]
      · simp [w1, setFix, upd_other _ _ hx]
  have p1 : PI w1.g.fixtures w1.bp L gh buf rep := h.congr (fun x => by
    by_cases hx : x = f
    · subst hx; simp [w1, setFix]
    · simp [w1, setFix, upd_other _ _ hx]) (fun _ _ => Iff.rfl)
  obtain ⟨w', e, e1, gh', buf', e2⟩ := range_spec (f := createProxy f xf) (b := w1)
    (fun k w' => ProxyFrame N f w1 w' ∧ ∃ gh' buf', PI w'.g.fixtures w'.bp (fun a b => L a b ∨ (a = f ∧ b < k)) gh' buf' rep) n
    ⟨.refl _ _, gh, buf, p1.congr (fun _ => rfl) (fun a b => by simp)⟩ (by
      rintro i hi w2 ⟨hf, gh2, buf2, hp⟩
      have hsh : (w2.g.fixtures f).shape = (w.g.fixtures f).shape := by
        rw [hf.self]; simp [w1, setFix]
      have hlen : (w2.g.fixtures f).proxies.length = n := by rw [hf.len]; simp [w1, setFix, hn]
      obtain ⟨a, ha⟩ := computeAabb_total (w.g.fixtures f).shape xf hc hi
      obtain ⟨w3, gh3, buf3, k1, k2, k3⟩ := createProxy_spec' (f := f) (i := i) (xf := xf) (aabb := a) hp (by omega) (by rw [hsh]; exact ha)
        (by rintro (h | ⟨-, h⟩)
            · exact hL i h
            · omega) (hN i a ha)
      refine ⟨w3, k1, hf.trans k2, gh3, buf3, k3.congr (fun _ => rfl) (fun a b => ?_)⟩
      constructor
      · rintro (h | ⟨h1, h2⟩)
        · exact Or.inl (Or.inl h)
        · by_cases hb : b = i
          · exact Or.inr ⟨h1, hb⟩
          · exact Or.inl (Or.inr ⟨h1, by omega⟩)
      · rintro ((h | ⟨h1, h2⟩) | ⟨h1, h2⟩)
        · exact Or.inl h
        · exact Or.inr ⟨h1, by omega⟩
        · exact Or.inr ⟨h1, by omega⟩)
  refine ⟨w', gh', buf', ?_, f1.trans e1.fix, ?_, ?_, e2⟩
  · unfold createProxies
    simp only [h0, hc, Option.bind_eq_bind, Option.bind_some, ne_eq, not_true, if_false]
    exact e
  · rw [e1.self]; simp [w1, setFix]
  · intro f' hf'
    rw [e1.other f' hf']
    simp [w1, setFix, upd_other _ _ hf']

theorem destroyProxies_spec {w : World F} {f n : Nat} {L : Nat → Nat → Prop}
    (h : PI w.g.fixtures w.bp L gh buf rep) (hn : (w.g.fixtures f).proxyCount = n) (hL : ∀ i, L f i ↔ i < n) :
    ∃ w' gh' buf' rep', w.destroyProxies f = some w' ∧ FixFrame N w w' ∧ (w'.g.fixtures f).proxyCount = 0 ∧
      (∀ f', f' ≠ f → w'.g.fixtures f' = w.g.fixtures f') ∧
      PI w'.g.fixtures w'.bp (fun a b => L a b ∧ a ≠ f) gh' buf' rep' := by
  obtain ⟨w1, e, e1, gh', buf', rep', e2⟩ := range_spec (f := destroyProxy f) (b := w)
    (fun k w' => ProxyFrame N f w w' ∧ ∃ gh' buf' rep', PI w'.g.fixtures w'.bp (fun a b => L a b ∧ ¬ (a = f ∧ b < k)) gh' buf' rep') n
    ⟨.refl _ _, gh, buf, rep, h.congr (fun _ => rfl) (fun a b => by simp)⟩ (by
      rintro i hi w2 ⟨hf, gh2, buf2, rep2, hp⟩
      obtain ⟨w3, gh3, buf3, rep3, k1, k2, k3⟩ := destroyProxy_spec' (f := f) (i := i) hp ⟨(hL i).mpr hi, by omega⟩
      refine ⟨w3, k1, hf.trans k2, gh3, buf3, rep3, k3.congr (fun _ => rfl) (fun a b => ?_)⟩
      constructor
      · rintro ⟨h1, h2⟩
        exact ⟨⟨h1, fun h => h2 ⟨h.1, by omega⟩⟩, fun h => h2 ⟨h.1, by omega⟩⟩
      · rintro ⟨⟨h1, h2⟩, h3⟩
        exact ⟨h1, fun h => by
          by_cases hb : b = i
          · exact h3 ⟨h.1, hb⟩
          · exact h2 ⟨h.1, by omega⟩⟩)
  have f2 : FixFrame N w1 (w1.setFix f { w1.g.fixtures f with proxyCount := 0 }) := by
    refine ⟨rfl, fun x => ?_, fun x => ?_, .refl _⟩
    · by_cases hx : x = f
      · subst hx; simp [setFix]
      · simp [setFix, upd_other _ _ hx]
    · by_cases hx : x = f
      · subst hx; simp [setFix]
      · simp [setFix, upd_other _ _ hx]
  refine ⟨w1.setFix f { w1.g.fixtures f with proxyCount := 0 }, gh', buf', rep', ?_, e1.fix.trans f2, by simp [setFix], ?_, ?_⟩
  · unfold destroyProxies
    rw [hn, e]
    rfl
  · intro f' hf'
    simp [setFix, upd_other _ _ hf', e1.other f' hf']
  · refine e2.congr (fun x => ?_) (fun a b => ?_)
    · by_cases hx : x = f
      · subst hx; simp [setFix]
      · simp [setFix, upd_other _ _ hx]
    · constructor
      · rintro ⟨h1, h2⟩; exact ⟨h1, fun h => h2 h.1⟩
      · rintro ⟨h1, h2⟩
        refine ⟨h1, ?_⟩
        rintro rfl
        exact h2 ⟨rfl, (hL b).mp h1⟩

theorem synchronize_spec {w : World F} {f : Nat} {L : Nat → Nat → Prop} (xf1 xf2 : Xf F)
    (h : PI w.g.fixtures w.bp L gh buf rep) (hc : (w.g.fixtures f).shape.childCount = some (w.g.fixtures f).proxies.length)
    (hp : (w.g.fixtures f).proxyCount ≤ (w.g.fixtures f).proxies.length) (hL : ∀ i < (w.g.fixtures f).proxyCount, L f i)
    (hN : ∀ i a, (w.g.fixtures f).shape.computeAabb xf2 i = some a → N (f, i) a) :
    ∃ w', synchronize xf1 xf2 w f = some w' ∧ BpFrame N w w' ∧ ∃ gh' buf', PI w'.g.fixtures w'.bp L gh' buf' rep := by
  refine range_spec (f := synchronizeProxy f xf1 xf2) (b := w)
    (fun _ w' => BpFrame N w w' ∧ ∃ gh' buf', PI w'.g.fixtures w'.bp L gh' buf' rep) _ ⟨.refl _, gh, buf, h⟩ ?_
  rintro i hi w2 ⟨hf, gh2, buf2, hp2⟩
  obtain ⟨a1, h1⟩ := computeAabb_total (w.g.fixtures f).shape xf1 hc (i := i) (by omega)
  obtain ⟨a2, h2⟩ := computeAabb_total (w.g.fixtures f).shape xf2 hc (i := i) (by omega)
  obtain ⟨w3, gh3, buf3, k1, k2, k3⟩ := synchronizeProxy_spec (f := f) (i := i) (xf1 := xf1) (xf2 := xf2) (a1 := a1) (a2 := a2) hp2 (hL i hi)
    (by rw [hf.g]; exact h1) (by rw [hf.g]; exact h2) (hN i a2 h2)
  exact ⟨w3, k1, hf.trans k2, gh3, buf3, k3⟩

theorem touchProxies_buf {w : World F} {f : Nat} {L : Nat → Nat → Prop}
    (h : PI w.g.fixtures w.bp L gh buf rep) (hL : ∀ i < (w.g.fixtures f).proxyCount, L f i) :
    ∃ w', w.touchProxies f = some w' ∧ BpFrame N w w' ∧ ∃ buf', PI w'.g.fixtures w'.bp L gh buf' rep ∧ (∀ x ∈ buf, x ∈ buf') ∧
      ∀ i < (w.g.fixtures f).proxyCount, ∀ id p, gh id = some p → p.data = (f, i) → id ∈ buf' := by
  refine range_spec (b := w)
    (fun n w' => BpFrame N w w' ∧ ∃ buf', PI w'.g.fixtures w'.bp L gh buf' rep ∧ (∀ x ∈ buf, x ∈ buf') ∧
      ∀ i < n, ∀ id p, gh id = some p → p.data = (f, i) → id ∈ buf') _ ⟨.refl _, buf, h, fun _ h => h, fun i hi => absurd hi (by omega)⟩ ?_
  rintro i hi w2 ⟨hf, buf2, hp2, hs2, hb2⟩
  obtain ⟨w3, id, -, k0, k1, k2, k3⟩ := touchOne_spec (f := f) (i := i) hp2 (hL i hi)
  refine ⟨w3, k1, hf.trans k2, _, k3, fun x hx => List.mem_append_left _ (hs2 x hx), ?_⟩
  intro i' hi' id' p' g1 g2
  rcases Nat.lt_succ_iff_lt_or_eq.mp hi' with hlt | rfl
  · exact List.mem_append_left _ (hb2 i' hlt id' p' g1 g2)
  · exact List.mem_append_right _ (by simp [k0 id' p' g1 g2])

theorem touchProxies_spec {w : World F} {f : Nat} {L : Nat → Nat → Prop}
    (h : PI w.g.fixtures w.bp L gh buf rep) (hL : ∀ i < (w.g.fixtures f).proxyCount, L f i) :
    ∃ w', w.touchProxies f = some w' ∧ BpFrame N w w' ∧ ∃ gh' buf', PI w'.g.fixtures w'.bp L gh' buf' rep := by
  obtain ⟨w', k1, k2, buf', k3, -⟩ := touchProxies_buf h hL
  exact ⟨w', k1, k2, gh, buf', k3⟩

end World

/-- What a body's fixtures know in an invariant world. -/
theorem BodyInv.fix {g : Graph F} (h : BodyInv g) {b f : Nat} (hf : f ∈ (g.bodies b).fixtures) :
    b ∈ g.bodyList ∧ (g.fixtures f).body = some b ∧ (g.fixtures f).shape.childCount = some (g.fixtures f).proxies.length ∧
    ((g.bodies b).enabled = true → (g.fixtures f).proxyCount = (g.fixtures f).proxies.length ∧ ∀ i, Live g f i ↔ i < (g.fixtures f).proxies.length) ∧
    ((g.bodies b).enabled = false → (g.fixtures f).proxyCount = 0 ∧ ∀ i, ¬ Live g f i) := by
  obtain ⟨h1, h2⟩ := (h.fixtures b f).mp hf
  have h3 := h.proxyCount f b h1 h2
  refine ⟨h1, h2, h.children f b h1 h2, fun he => ⟨by rw [h3, he]; simp, fun i => ⟨?_, fun hi => ⟨b, h1, he, h2, hi⟩⟩⟩, fun he => ⟨by rw [h3, he]; simp, ?_⟩⟩
  · rintro ⟨b', -, -, -, hi⟩; exact hi
  · rintro i ⟨b', -, he', hb', -⟩
    rw [h2] at hb'
    cases hb'
    rw [he] at he'
    cases he'

theorem BodyInv.sync {g : Graph F} (h : BodyInv g) {b f : Nat} (hf : f ∈ (g.bodies b).fixtures) :
    (g.fixtures f).shape.childCount = some (g.fixtures f).proxies.length ∧
    (g.fixtures f).proxyCount ≤ (g.fixtures f).proxies.length ∧ ∀ i < (g.fixtures f).proxyCount, Live g f i := by
  obtain ⟨-, -, h3, h4, h5⟩ := h.fix hf
  refine ⟨h3, ?_⟩
  cases he : (g.bodies b).enabled with
  | true =>
    obtain ⟨h6, h7⟩ := h4 he
    exact ⟨by omega, fun i hi => (h7 i).mpr (by omega)⟩
  | false =>
    obtain ⟨h6, -⟩ := h5 he
    exact ⟨by omega, fun i hi => by omega⟩

namespace World

theorem _root_.B2.WInv.bpFrame {w w' : World F} (h : WInv w) (hf : BpFrame N w w') (hp : PInv w') : WInv w' :=
  ⟨by rw [hf.g]; exact h.toGInv, hp.prox⟩

theorem syncAll_spec {w : World F} {b : Nat} (xf1 xf2 : Xf F) (h : PInv w)
    (hN : ∀ f ∈ (w.g.bodies b).fixtures, ∀ i a, (w.g.fixtures f).shape.computeAabb xf2 i = some a → N (f, i) a) :
    ∃ w', (w.g.bodies b).fixtures.foldlM (synchronize xf1 xf2) w = some w' ∧ BpFrame N w w' ∧ PInv w' := by
  obtain ⟨gh, buf, rep, hp⟩ := h.prox
  obtain ⟨w', e, e1, e2⟩ := list_spec (f := synchronize xf1 xf2) (b := w) (l := (w.g.bodies b).fixtures)
    (fun _ w' => BpFrame N w w' ∧ ∃ gh' buf', PI w'.g.fixtures w'.bp (Live w.g) gh' buf' rep) ⟨.refl _, gh, buf, hp⟩ (by
      rintro pre f post hl w2 ⟨hf, gh2, buf2, hp2⟩
      obtain ⟨h1, h2, h3⟩ := h.body.sync (b := b) (f := f) (by rw [hl]; simp)
      obtain ⟨w3, k1, k2, k3⟩ := synchronize_spec (f := f) xf1 xf2 hp2 (by rw [hf.g]; exact h1) (by rw [hf.g]; exact h2) (by rw [hf.g]; exact h3)
        (by rw [hf.g]; exact hN f (by rw [hl]; simp))
      exact ⟨w3, k1, hf.trans k2, k3⟩)
  obtain ⟨gh', buf', e2⟩ := e2
  refine ⟨w', e, e1, ⟨by rw [e1.g]; exact h.body, gh', buf', rep, ?_⟩⟩
  rw [e1.g] at e2 ⊢; exact e2

/-- The box of a fixture child at its body's transform. -/
def Fit (w : World F) (d : Nat × Nat) (a : AABB F) : Prop :=
  ∃ b, (w.g.fixtures d.1).body = some b ∧ (w.g.fixtures d.1).shape.computeAabb (w.phys b).xf d.2 = some a

theorem synchronizeFixtures_spec {w : World F} (b : Nat) (h : PInv w) :
    ∃ w', w.synchronizeFixtures b = some w' ∧ BpFrame (Fit w) w w' ∧ PInv w' := by
  have hN : ∀ f ∈ (w.g.bodies b).fixtures, ∀ i a, (w.g.fixtures f).shape.computeAabb (w.phys b).xf i = some a → Fit w (f, i) a :=
    fun f hf i a ha => ⟨b, (h.body.fix hf).2.1, ha⟩
  unfold synchronizeFixtures
  dsimp only
  split
  · exact syncAll_spec _ _ h hN
  · exact syncAll_spec _ _ h hN

/-- A proxy of a fixture of body `b` has a child index below the number of the fixture's proxies in the tree. -/
theorem _root_.B2.PI.index {w : World F} {b : Nat} (h : BodyInv w.g) (hp : PI w.g.fixtures w.bp (Live w.g) gh buf rep) {id : Nat} {p : Proxy F (Nat × Nat)}
    (hid : gh id = some p) (hf : p.data.1 ∈ (w.g.bodies b).fixtures) : p.data.2 < (w.g.fixtures p.data.1).proxyCount := by
  obtain ⟨-, -, -, h4, h5⟩ := h.fix hf
  have hl := (hp.only id p hid).1
  cases he : (w.g.bodies b).enabled with
  | true => rw [(h4 he).1]; exact ((h4 he).2 _).mp hl
  | false => exact absurd hl ((h5 he).2 _)

theorem touchAll_buf {w : World F} {b : Nat} (h : PInv w) :
    ∃ w', (w.g.bodies b).fixtures.foldlM touchProxies w = some w' ∧ BpFrame N w w' ∧ PInv w' ∧
      ∀ gh buf rep, BHist w'.bp gh buf rep → ∀ id p, gh id = some p → p.data.1 ∈ (w.g.bodies b).fixtures → id ∈ buf := by
  obtain ⟨gh, buf, rep, hp⟩ := h.prox
  obtain ⟨w', e, e1, e2⟩ := list_spec (f := touchProxies) (b := w) (l := (w.g.bodies b).fixtures)
    (fun pre w' => BpFrame N w w' ∧ ∃ buf', PI w'.g.fixtures w'.bp (Live w.g) gh buf' rep ∧
      ∀ id p, gh id = some p → p.data.1 ∈ pre → id ∈ buf') ⟨.refl _, buf, hp, fun _ _ _ h => (by cases h)⟩ (by
      rintro pre f post hl w2 ⟨hf, buf2, hp2, hb2⟩
      have hm : f ∈ (w.g.bodies b).fixtures := by rw [hl]; simp
      obtain ⟨-, -, h3⟩ := h.body.sync hm
      obtain ⟨w3, k1, k2, buf3, k3, k4, k5⟩ := touchProxies_buf (f := f) hp2 (by rw [hf.g]; exact h3)
      refine ⟨w3, k1, hf.trans k2, buf3, k3, fun id p hid hpf => ?_⟩
      rcases List.mem_append.mp hpf with hpf | hpf
      · exact k4 _ (hb2 id p hid hpf)
      · have hpf : p.data.1 = f := by simpa using hpf
        have hx := hp.index h.body hid (b := b) (by rw [hpf]; exact hm)
        refine k5 p.data.2 ?_ id p hid (by rw [← hpf])
        rw [hf.g, ← hpf]; exact hx)
  obtain ⟨buf', e2, e3⟩ := e2
  refine ⟨w', e, e1, ⟨by rw [e1.g]; exact h.body, gh, buf', rep, ?_⟩, fun gh2 buf2 rep2 hh id p hid hpf => ?_⟩
  · rw [e1.g] at e2 ⊢; exact e2
  · obtain ⟨rfl, a1, -⟩ := Spec.BHist.agree hh e2.hist
    obtain ⟨p', g1, g2, -⟩ := a1 id p hid
    exact e3 id p' g1 (by rw [g2]; exact hpf)

theorem touchAll_spec {w : World F} {b : Nat} (h : PInv w) :
    ∃ w', (w.g.bodies b).fixtures.foldlM touchProxies w = some w' ∧ BpFrame N w w' ∧ PInv w' := by
  obtain ⟨w', k1, k2, k3, -⟩ := touchAll_buf (b := b) h
  exact ⟨w', k1, k2, k3⟩

end World
end
end B2
