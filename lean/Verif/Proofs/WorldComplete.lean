import Verif.Proofs.WorldHist
import Verif.Spec.WorldContacts

/-! Every pair of fixtures that ought to have a contact has one, or a proxy of it is in the buffer. -/
namespace B2
set_option linter.unusedSectionVars false
open Spec World

section
variable {F : Type} [Field F] [LinearOrder F] [IsStrictOrderedRing F] [Elem F]
variable {env : Env F} {D : Nat → Nat → Prop}

theorem filterCollide_allows (w : World F) (f f' : Nat) : (w.filterCollide env f f').1 = true ↔ FilterAllows env w f f' := by
  unfold World.filterCollide FilterAllows
  cases env.filter <;> rfl

theorem filterAllows_congr (hs : FilterSteady env) {w w' : World F} {f f' : Nat} (h1 : (w'.fattr f).filter = (w.fattr f).filter)
    (h2 : (w'.fattr f').filter = (w.fattr f').filter) (h : FilterAllows env w f f') : FilterAllows env w' f f' := by
  unfold FilterAllows at h ⊢
  cases he : env.filter with
  | none => rw [he] at h; dsimp only at h ⊢; rw [h1, h2]; exact h
  | some φ => rw [he] at h; dsimp only at h ⊢; rw [hs φ he w' w f f' h1 h2]; exact h

theorem Spec.MayCollide.symm {w : World F} {f f' : Nat} (h : MayCollide env D w f f') : MayCollide env D w f' f := by
  obtain ⟨a, b, h1, h2, h3, h4, h5, h6, h7, h8, h9, h10, h11, h12⟩ := h
  exact ⟨b, a, h2, h1, h4, h3, h5.symm, h7, h6, h8.symm, fun j hj h => h9 j hj h.symm, h10.symm, h12, h11⟩

theorem Spec.HasContact.symm {w : World F} {x y : Nat × Nat} (h : HasContact w x y) : HasContact w y x := by
  obtain ⟨c, h1, h2⟩ := h
  exact ⟨c, h1, h2.symm⟩

/-- The two worlds agree on what `MayCollide` looks at. -/
structure Alike (w w' : World F) : Prop where
  body : ∀ f, (w'.g.fixtures f).body = (w.g.fixtures f).body
  bodyList : w'.g.bodyList = w.g.bodyList
  type : ∀ b, (w'.g.bodies b).type = (w.g.bodies b).type
  enabled : ∀ b, (w'.g.bodies b).enabled = (w.g.bodies b).enabled
  jointList : w'.g.jointList = w.g.jointList
  joints : w'.g.joints = w.g.joints
  filter : ∀ f, (w'.fattr f).filter = (w.fattr f).filter

theorem Alike.symm {w w' : World F} (h : Alike w w') : Alike w' w :=
  ⟨fun f => (h.body f).symm, h.bodyList.symm, fun b => (h.type b).symm, fun b => (h.enabled b).symm, h.jointList.symm, h.joints.symm, fun f => (h.filter f).symm⟩

theorem Alike.may (hs : FilterSteady env) {w w' : World F} (h : Alike w w') {f f' : Nat} (hm : MayCollide env D w f f') : MayCollide env D w' f f' := by
  obtain ⟨a, b, h1, h2, h3, h4, h5, h6, h7, h8, h9, h10, h11, h12⟩ := hm
  refine ⟨a, b, (h.body f).trans h1, (h.body f').trans h2, h.bodyList ▸ h3, h.bodyList ▸ h4, h5, (h.enabled a).trans h6, (h.enabled b).trans h7, ?_, ?_, h10, ?_, ?_⟩
  · rw [h.type, h.type]; exact h8
  · rw [h.jointList, h.joints]; exact h9
  · exact filterAllows_congr hs (h.filter _) (h.filter _) h11
  · exact filterAllows_congr hs (h.filter _) (h.filter _) h12

theorem WFrame.alike {w w' : World F} (h : WFrame w w') : Alike w w' :=
  ⟨fun f => by rw [h.g], by rw [h.g], fun b => by rw [h.g], fun b => by rw [h.g], by rw [h.g], by rw [h.g], h.filter⟩

theorem World.Extend.alike {w w' : World F} (h : Extend w w') : Alike w w' := by
  have hb := h.body
  refine ⟨fun f => by rw [h.eq], by rw [h.eq], fun b => by rw [hb], fun b => by rw [hb], by rw [h.eq], by rw [h.eq], fun f => by rw [h.fattr]⟩

theorem World.Extend.has {w w' : World F} (hw : GInv w.g) (h : Extend w w') {x y : Nat × Nat} (hc : HasContact w x y) : HasContact w' x y := by
  obtain ⟨c, h1, h2⟩ := hc
  obtain ⟨a1, -, a3⟩ := h.old c (hw.link.lt c h1)
  exact ⟨c, a3.mpr h1, by rw [a1]; exact h2⟩

/-- Every two proxies that overlap and may collide have a contact or one is in the buffer. -/
def Comp (env : Env F) (D : Nat → Nat → Prop) (w : World F) : Prop :=
  ∀ gh buf rep, BHist w.bp gh buf rep → ∀ id1 id2 p1 p2, gh id1 = some p1 → gh id2 = some p2 →
    MayCollide env D w p1.data.1 p2.data.1 → Meets p1.fat p2.fat → HasContact w p1.data p2.data ∨ id1 ∈ buf ∨ id2 ∈ buf

/-- No proxy is waiting in the buffer. -/
def Idle (w : World F) : Prop := ∀ gh buf rep, BHist w.bp gh buf rep → buf = []

theorem Comp.carry (hs : FilterSteady env) {N : Nat × Nat → AABB F → Prop} {T : Nat → Prop} {w w' : World F} (hw : WInv w) (h : Comp env D w) (hc : Carry N D T w w') : Comp env D w' := by
  intro gh' buf' rep' hb' id1 id2 q1 q2 e1 e2 hmay hmeet
  by_cases hm1 : id1 ∈ buf'
  · exact Or.inr (Or.inl hm1)
  by_cases hm2 : id2 ∈ buf'
  · exact Or.inr (Or.inr hm2)
  left
  obtain ⟨gh, buf, rep, hp⟩ := hw.prox
  have ht1 : ¬ T q1.data.1 := fun ht => hm1 (hc.touched _ _ _ hb' id1 q1 e1 ht)
  have ht2 : ¬ T q2.data.1 := fun ht => hm2 (hc.touched _ _ _ hb' id2 q2 e2 ht)
  rcases hc.bt.track _ _ _ _ _ _ hp.hist hb' id1 q1 e1 with k | ⟨n1, p1, g1, d1, f1⟩
  · exact absurd k hm1
  rcases hc.bt.track _ _ _ _ _ _ hp.hist hb' id2 q2 e2 with k | ⟨n2, p2, g2, d2, f2⟩
  · exact absurd k hm2
  obtain ⟨⟨a0, la, ena, fa, -⟩, -⟩ := hp.only id1 p1 g1
  obtain ⟨⟨b0, lb, enb, fb, -⟩, -⟩ := hp.only id2 p2 g2
  rw [d1] at fa
  rw [d2] at fb
  obtain ⟨a, b, h1, h2, h3, h4, h5, h6, h7, h8, h9, h10, h11, h12⟩ := hmay
  obtain rfl := hc.body _ _ _ fa h1
  obtain rfl := hc.body _ _ _ fb h2
  have hM : MayCollide env D w p1.data.1 p2.data.1 := by
    rw [d1, d2]
    refine ⟨a, b, fa, fb, la, lb, h5, ena, enb, ?_, ?_, h10, ?_, ?_⟩
    · rw [← hc.type _ _ ht1 fa la h3, ← hc.type _ _ ht2 fb lb h4]; exact h8
    · intro j hj hab
      by_contra hcc
      have hcc : (w.g.joints j).collideConnected = false := by simpa using hcc
      have hl : (w.g.joints j).a ∈ w'.g.bodyList ∧ (w.g.joints j).b ∈ w'.g.bodyList := by
        rcases hab with ⟨r1, r2⟩ | ⟨r1, r2⟩ <;> rw [r1, r2]
        · exact ⟨h3, h4⟩
        · exact ⟨h4, h3⟩
      rcases hc.joint j hj hcc hl.1 hl.2 with ⟨k1, k2⟩ | k
      · have := h9 j k1 (by rw [k2]; exact hab)
        rw [k2, hcc] at this
        cases this
      · rcases hab with ⟨r1, r2⟩ | ⟨r1, r2⟩ <;> rw [r1, r2] at k
        · exact h10.1 k
        · exact h10.2 k
    · exact filterAllows_congr hs (hc.filter _ _ ht1 fa).symm (hc.filter _ _ ht2 fb).symm h11
    · exact filterAllows_congr hs (hc.filter _ _ ht2 fb).symm (hc.filter _ _ ht1 fa).symm h12
  rcases h gh buf rep hp.hist id1 id2 p1 p2 g1 g2 hM (by rw [f1, f2]; exact hmeet) with ⟨c, c1, c2⟩ | k | k
  · rw [d1, d2] at c2
    dsimp only at c2
    have key : c ∈ w'.g.contactList ∧ w'.g.contacts c = w.g.contacts c := by
      rcases c2 with ⟨r1, r2⟩ | ⟨r1, r2⟩
      · have e1 : (w.g.contacts c).fA = q1.data.1 := congrArg Prod.fst r1
        have e2 : (w.g.contacts c).fB = q2.data.1 := congrArg Prod.fst r2
        exact hc.contact c c1 (by rw [e1]; exact ht1) (by rw [e2]; exact ht2) a b (by rw [e1]; exact h1) (by rw [e2]; exact h2) h3 h4 h6 h7
      · have e1 : (w.g.contacts c).fA = q2.data.1 := congrArg Prod.fst r1
        have e2 : (w.g.contacts c).fB = q1.data.1 := congrArg Prod.fst r2
        exact hc.contact c c1 (by rw [e1]; exact ht2) (by rw [e2]; exact ht1) b a (by rw [e1]; exact h2) (by rw [e2]; exact h1) h4 h3 h7 h6
    exact ⟨c, key.1, by rw [key.2]; exact c2⟩
  · exact absurd k n1
  · exact absurd k n2

theorem Idle.of_bp {w w' : World F} (h : Idle w) (hb : w'.bp = w.bp) : Idle w' := by
  unfold Idle at h ⊢
  rw [hb]; exact h

/-! ### Looking for new contacts -/

namespace World

theorem shouldCollide_may {w : World F} {f f' : Nat} {a b : Nat} (h : JointInv w.g) (hm : MayCollide env D w f f')
    (ha : w.bodyOf f = some a) (hb : w.bodyOf f' = some b) : w.shouldCollide b a = true := by
  obtain ⟨a', b', h1, h2, h3, h4, h5, h6, h7, h8, h9, -⟩ := hm
  obtain rfl : a' = a := Option.some.inj (h1.symm.trans ha)
  obtain rfl : b' = b := Option.some.inj (h2.symm.trans hb)
  unfold shouldCollide
  rw [if_neg]
  · rw [Bool.not_eq_true', List.any_eq_false]
    rintro ⟨j, o⟩ hj
    simp only [Bool.and_eq_true, beq_iff_eq, Bool.not_eq_true', not_and, Bool.not_eq_false]
    rintro rfl
    obtain ⟨k1, k2⟩ := (h.edges _ _ _).mp hj
    exact h9 j k1 (by unfold Graph.jjoins at k2; tauto)
  · unfold typeOf
    tauto

variable {gh : Nat → Option (Proxy F (Nat × Nat))} {buf : List Nat} {rep : Set (Nat × Nat)}

theorem addPair_has {w w' : World F} {id1 id2 : Nat} {p1 p2 : Proxy F (Nat × Nat)} (h : GInv w.g)
    (hp : PI w.g.fixtures w.bp (Live w.g) gh buf rep) (h1 : gh id1 = some p1) (h2 : gh id2 = some p2)
    (hm : MayCollide env D w p1.data.1 p2.data.1)
    (e : w.addPair env (some p1.data) (some p2.data) = some w') : HasContact w' p1.data p2.data := by
  obtain ⟨k1, k2⟩ := hp.only id1 p1 h1
  obtain ⟨m1, m2⟩ := hp.only id2 p2 h2
  obtain ⟨bA, -, -, hA, -⟩ := k1
  obtain ⟨bB, -, -, hB, -⟩ := m1
  have hA' : w.bodyOf p1.data.1 = some bA := hA
  have hB' : w.bodyOf p2.data.1 = some bB := hB
  have hsc := shouldCollide_may h.joint hm hA' hB'
  have hfl : (w.filterCollide env p1.data.1 p2.data.1).1 = true := by
    obtain ⟨_, _, -, -, -, -, -, -, -, -, -, -, h11, -⟩ := hm
    exact (filterCollide_allows w _ _).mpr h11
  have hbb : bA ≠ bB := by
    obtain ⟨a', b', r1, r2, -, -, h5, -⟩ := hm
    rw [Option.some.inj (hA.symm.trans r1), Option.some.inj (hB.symm.trans r2)]
    exact h5
  unfold addPair at e
  simp only [k2, m2, hA', hB', Option.bind_eq_bind, Option.bind_some] at e
  rw [if_neg hbb] at e
  by_cases hhas : w.hasContact bA bB p1.data.1 p1.data.2 p2.data.1 p2.data.2
  · rw [if_pos hhas] at e
    cases e
    obtain ⟨c, c1, c2⟩ := (hasContact_iff h.link hA hB).mp hhas
    refine ⟨c, c1, ?_⟩
    dsimp only
    rcases c2 with ⟨r1, r2, r3, r4⟩ | ⟨r1, r2, r3, r4⟩
    · left; rw [r1, r2, r3, r4]; exact ⟨rfl, rfl⟩
    · right; rw [r1, r2, r3, r4]; exact ⟨rfl, rfl⟩
  rw [if_neg hhas, if_neg (by rw [hsc]; simp), if_neg (by rw [hfl]; simp)] at e
  simp only [Option.bind_eq_some_iff] at e
  obtain ⟨k, c1, c2⟩ := e
  generalize (w.filterCollide env p1.data.1 p2.data.1).2 = v at c1 c2
  unfold insertContact at c2
  simp only [Option.bind_eq_bind, Option.bind_eq_some_iff] at c2
  obtain ⟨x1, -, x2, -, c2⟩ := c2
  cases c2
  refine ⟨v.g.nextContact, by simp [setBody], ?_⟩
  have hk : upd v.g.contacts v.g.nextContact k v.g.nextContact = k := upd_same _ _ _
  change ((upd v.g.contacts v.g.nextContact k v.g.nextContact).fA, (upd v.g.contacts v.g.nextContact k v.g.nextContact).iA) = _ ∧
    ((upd v.g.contacts v.g.nextContact k v.g.nextContact).fB, (upd v.g.contacts v.g.nextContact k v.g.nextContact).iB) = _ ∨
    ((upd v.g.contacts v.g.nextContact k v.g.nextContact).fA, (upd v.g.contacts v.g.nextContact k v.g.nextContact).iA) = _ ∧
    ((upd v.g.contacts v.g.nextContact k v.g.nextContact).fB, (upd v.g.contacts v.g.nextContact k v.g.nextContact).iB) = _
  rw [hk]
  rcases registers_primary c1 with ⟨hk, -⟩ | ⟨hk, -⟩
  · left; rw [hk]; exact ⟨rfl, rfl⟩
  · right; rw [hk]; exact ⟨rfl, rfl⟩

theorem addPairs_has (hs : FilterSteady env) : ∀ (pairs : List (Nat × Nat)) {w w' : World F}, GInv w.g →
    PI w.g.fixtures w.bp (Live w.g) gh buf rep → (∀ q ∈ pairs, ∃ p1 p2, gh q.1 = some p1 ∧ gh q.2 = some p2) →
    pairs.foldl (fun (r : Option (World F)) q => r.bind fun w => w.addPair env ((gh q.1).map (·.data)) ((gh q.2).map (·.data))) (some w) = some w' →
    ∀ q ∈ pairs, ∀ p1 p2, gh q.1 = some p1 → gh q.2 = some p2 → MayCollide env D w p1.data.1 p2.data.1 → HasContact w' p1.data p2.data := by
  intro pairs
  induction pairs with
  | nil => intro w w' h _ _ e q hq; cases hq
  | cons q pairs ih =>
    intro w w' h hp hq e
    rw [List.foldl_cons, Option.bind_some] at e
    obtain ⟨p1, p2, h1, h2⟩ := hq q (by simp)
    rw [h1, h2] at e
    simp only [Option.map_some] at e
    cases h3 : w.addPair env (some p1.data) (some p2.data) with
    | none =>
      rw [h3] at e
      have : ∀ l : List (Nat × Nat), l.foldl (fun (r : Option (World F)) q => r.bind fun w => w.addPair env ((gh q.1).map (·.data)) ((gh q.2).map (·.data))) none = none := by
        intro l
        induction l with
        | nil => rfl
        | cons a l ih => rw [List.foldl_cons]; exact ih
      rw [this] at e
      cases e
    | some w1 =>
      rw [h3] at e
      have e1 := addPair_extend h hp h1 h2 h3
      have hp1 : PI w1.g.fixtures w1.bp (Live w1.g) gh buf rep := by
        rw [e1.bp]
        exact hp.congr (fun f => by rw [e1.fixtures]) e1.live
      have hq1 : ∀ q ∈ pairs, ∃ p1 p2, gh q.1 = some p1 ∧ gh q.2 = some p2 := fun q hq' => hq q (by simp [hq'])
      have e2 := addPairs_extend pairs e1.ginv hp1 hq1 e
      intro q' hq' p1' p2' g1 g2 hm
      rcases List.mem_cons.mp hq' with rfl | hq'
      · rw [h1] at g1
        rw [h2] at g2
        cases g1
        cases g2
        exact e2.has e1.ginv (addPair_has h hp h1 h2 hm h3)
      · exact ih e1.ginv hp1 hq1 e q' hq' p1' p2' g1 g2 (e1.alike.may hs hm)

/-- After looking for new contacts nothing is waiting and nothing is missing. -/
theorem findNewContacts_comp (hs : FilterSteady env) {w w' : World F} (h : WInv w) (hc : Comp env D w) (e : w.findNewContacts env = some w') :
    Comp env D w' ∧ Idle w' := by
  obtain ⟨gh, buf, rep, hp⟩ := h.prox
  obtain ⟨pairs, bp', rep', u1, u2, u3, u4⟩ := bupdate hp.hist
  unfold findNewContacts at e
  rw [u1] at e
  simp only [Option.bind_eq_bind, Option.bind_some, Option.bind_eq_some_iff] at e
  obtain ⟨w1, e1, e2⟩ := e
  have x1 := addPairs_extend pairs h.toGInv hp (fun q hq => (u3 q hq).2) e1
  have x2 := addPairs_has (D := D) hs pairs h.toGInv hp (fun q hq => (u3 q hq).2) e1
  cases e2
  refine ⟨?_, fun g b r hb => (Spec.BHist.agree hb u4).1⟩
  intro gh' buf' rep' hb' id1 id2 q1 q2 a1 a2 hmay hmeet
  left
  obtain ⟨-, t1, -⟩ := Spec.BHist.agree hb' u4
  have back : ∀ id q, gh' id = some q → ∃ p, gh id = some p ∧ p.data = q.data ∧ p.fat = q.fat := by
    intro id q hq
    obtain ⟨p', b1, b2, b3⟩ := t1 id q hq
    simp only [Option.map_eq_some_iff] at b1
    obtain ⟨p, b4, rfl⟩ := b1
    exact ⟨p, b4, b2, b3⟩
  obtain ⟨p1, g1, d1, f1⟩ := back id1 q1 a1
  obtain ⟨p2, g2, d2, f2⟩ := back id2 q2 a2
  have hal : Alike { w1 with bp := bp' } w := ⟨x1.alike.symm.body, x1.alike.symm.bodyList, x1.alike.symm.type, x1.alike.symm.enabled,
    x1.alike.symm.jointList, x1.alike.symm.joints, x1.alike.symm.filter⟩
  have hM : MayCollide env D w p1.data.1 p2.data.1 := by rw [d1, d2]; exact hal.may hs hmay
  have hm : Meets p1.fat p2.fat := by rw [f1, f2]; exact hmeet
  rw [← d1, ← d2]
  show HasContact w1 p1.data p2.data
  have hne : id1 ≠ id2 := by
    rintro rfl
    rw [g1] at g2
    cases g2
    obtain ⟨a, b, r1, r2, -, -, r3, -⟩ := hM
    rw [r1] at r2
    exact r3 (Option.some.inj r2)
  have hbuf : id1 ∈ buf ∨ id2 ∈ buf → HasContact w1 p1.data p2.data := by
    intro hb
    rcases Nat.lt_or_gt_of_ne hne with hlt | hlt
    · exact x2 _ (u2 id1 id2 p1 p2 hlt g1 g2 hm hb) p1 p2 g1 g2 hM
    · exact (x2 _ (u2 id2 id1 p2 p1 hlt g2 g1 (meets_symm hm) hb.symm) p2 p1 g2 g1 hM.symm).symm
  rcases hc gh buf rep hp.hist id1 id2 p1 p2 g1 g2 hM hm with k | k
  · exact x1.has h.toGInv k
  · exact hbuf k

/-! ### Destroying contacts in `collide` -/

/-- Why `collide` may destroy a contact. -/
def Reason (env : Env F) (D : Nat → Nat → Prop) (w : World F) (c : Nat) : Prop :=
  MayCollide env D w (w.g.contacts c).fA (w.g.contacts c).fB →
    ∀ gh buf rep, BHist w.bp gh buf rep → ∀ id1 id2 p1 p2, gh id1 = some p1 → gh id2 = some p2 →
      p1.data = ((w.g.contacts c).fA, (w.g.contacts c).iA) → p2.data = ((w.g.contacts c).fB, (w.g.contacts c).iB) → ¬ Meets p1.fat p2.fat

theorem Reason.frame (hs : FilterSteady env) {w w' : World F} (h : WFrame w w') {c : Nat} (hr : Reason env D w' c) : Reason env D w c := by
  unfold Reason at hr ⊢
  rw [h.g, h.bp] at hr
  exact fun hm => hr (h.alike.may hs hm)

theorem collideActive_reason {w w' : World F} {c bA bB : Nat} (h : WInv w) (e : w.collideActive env c bA bB = some (w', false)) :
    Reason env D w c := by
  unfold collideActive at e
  dsimp only at e
  split at e
  · cases e
  simp only [Option.bind_eq_bind, Option.bind_eq_some_iff] at e
  obtain ⟨pA, a1, idA, a2, pB, b1, idB, b2, o, e1, e⟩ := e
  split at e
  · rename_i ho
    subst ho
    intro _ gh buf rep hb id1 id2 p1 p2 g1 g2 d1 d2 hm
    obtain ⟨gh0, buf0, rep0, hp⟩ := h.prox
    obtain ⟨-, t1, -⟩ := Spec.BHist.agree hb hp.hist
    obtain ⟨q1, s1, s2, -⟩ := t1 id1 p1 g1
    obtain ⟨q2, r1, r2, -⟩ := t1 id2 p2 g2
    have k1 := (hp.only id1 q1 s1).2
    have k2 := (hp.only id2 q2 r1).2
    rw [s2, d1] at k1
    rw [r2, d2] at k2
    dsimp only at k1 k2
    rw [a1] at k1
    rw [b1] at k2
    cases k1
    cases k2
    cases a2
    cases b2
    rw [boverlap hb g1 g2, (overlap_iff _ _).mpr hm] at e1
    cases e1
  · simp only [Option.bind_eq_some_iff] at e
    obtain ⟨w1, -, e⟩ := e
    cases e

theorem collideOne_reason (hs : FilterSteady env) {w w' : World F} {c : Nat} (h : WInv w) (e : w.collideOne env c = some (w', false)) : Reason env D w c := by
  unfold collideOne at e
  simp only [Option.bind_eq_bind, Option.bind_eq_some_iff] at e
  obtain ⟨bA, hA, bB, hB, e⟩ := e
  split at e
  · split at e
    · rename_i hsc
      intro hm
      rw [shouldCollide_may h.joint hm hA hB] at hsc
      cases hsc
    have q := filterCollide_quiet env w (w.g.contacts c).fA (w.g.contacts c).fB
    split at e
    · rename_i hf
      rintro ⟨_, _, -, -, -, -, -, -, -, -, -, -, h11, -⟩
      rw [(filterCollide_allows w _ _).mpr h11] at hf
      cases hf
    · have fr : WFrame w ((w.filterCollide env (w.g.contacts c).fA (w.g.contacts c).fB).2.setCst c
          { (w.filterCollide env (w.g.contacts c).fA (w.g.contacts c).fB).2.cst c with filter := false }) := q.toWFrame.trans ⟨rfl⟩
      exact .frame hs fr (collideActive_reason (h.frame fr.g fr.bp) e)
  · exact collideActive_reason h e

theorem collideLoop_reason (hs : FilterSteady env) : ∀ (l : List Nat) {w w' : World F} {ds ds' : List Nat}, WInv w → (∀ c ∈ l, c ∈ w.g.contactList) →
    collideLoop env l w ds = some (w', ds') → (∀ c ∈ ds, Reason env D w c) → ∀ c ∈ ds', Reason env D w c := by
  intro l
  induction l with
  | nil => intro w w' ds ds' h _ e hd; cases e; exact hd
  | cons c l ih =>
    intro w w' ds ds' h hm e hd
    unfold collideLoop at e
    simp only [Option.bind_eq_bind, Option.bind_eq_some_iff] at e
    obtain ⟨⟨w1, k⟩, e1, e2⟩ := e
    obtain ⟨a1, a2, -⟩ := collideOne_good h (hm c (by simp)) e1
    have b := ih a1 (fun x hx => by rw [a2.g]; exact hm x (by simp [hx])) e2 (fun x hx => ?_)
    · exact fun x hx => .frame hs a2 (b x hx)
    · have hx' : Reason env D w x := by
        cases k
        · rcases List.mem_append.mp hx with hx | hx
          · exact hd x hx
          · rw [List.mem_singleton.mp hx]
            exact collideOne_reason hs h e1
        · exact hd x hx
      unfold Reason at hx' ⊢
      rw [a2.g, a2.bp]
      exact fun hm => hx' (a2.alike.symm.may hs hm)

theorem collide_comp (hs : FilterSteady env) {w w' : World F} (h : WInv w) (hc : Comp env D w) (e : w.collide env = some w') : Comp env D w' := by
  unfold collide at e
  simp only [Option.bind_eq_bind, Option.bind_eq_some_iff] at e
  obtain ⟨⟨w1, ds⟩, e1, e2⟩ := e
  have hr := collideLoop_reason (D := D) hs _ h (fun _ h => h) e1 (by simp)
  obtain ⟨b1, b2, -, -, -, new, b6, b7, -⟩ := collideLoop_spec _ h (fun _ h => h) h.link.nodup e1
  simp only [List.nil_append] at b6
  subst b6
  have hm : ∀ c ∈ ds, c ∈ w1.g.contactList := fun c hc => by rw [b2.g]; exact b7.subset hc
  have cut := destroyList_cut ds b1.link (b7.nodup h.link.nodup) hm e2
  have hsh := cut.shrunk
  have al : Alike w' w := by
    refine ⟨fun f => ?_, ?_, fun b => ?_, fun b => ?_, ?_, ?_, fun f => ?_⟩
    · rw [hsh.fixtures, b2.g]
    · rw [hsh.bodyList, b2.g]
    · rw [hsh.body, b2.g]
    · rw [hsh.body, b2.g]
    · rw [hsh.jointList, b2.g]
    · rw [hsh.joints, b2.g]
    · rw [cut.filter, b2.filter]
  intro gh buf rep hb id1 id2 p1 p2 g1 g2 hmay hmeet
  rw [cut.bp, b2.bp] at hb
  have hM := al.may hs hmay
  rcases hc gh buf rep hb id1 id2 p1 p2 g1 g2 hM hmeet with ⟨c, c1, c2⟩ | k
  · left
    refine ⟨c, (hsh.mem c).mpr ⟨by rw [b2.g]; exact c1, fun hcd => ?_⟩, ?_⟩
    · rcases c2 with ⟨r1, r2⟩ | ⟨r1, r2⟩
      · refine hr c hcd ?_ gh buf rep hb id1 id2 p1 p2 g1 g2 r1.symm r2.symm hmeet
        rw [← r1, ← r2] at hM
        exact hM
      · refine hr c hcd ?_ gh buf rep hb id2 id1 p2 p1 g2 g1 r1.symm r2.symm (meets_symm hmeet)
        rw [← r1, ← r2] at hM
        exact hM.symm
    · rw [hsh.contacts, b2.g]; exact c2
  · exact Or.inr k

/-! ### The step -/

theorem _root_.B2.Comp.wframe (hs : FilterSteady env) {w w' : World F} (hw : WInv w) (h : Comp env D w) (hf : WFrame w w') : Comp env D w' := h.carry hs (N := fun _ _ => True) hw hf.carry

/-- Nothing is missing and, if `I`, nothing is waiting. -/
structure Full (env : Env F) (D : Nat → Nat → Prop) (I : Prop) (w : World F) : Prop where
  winv : WInv w
  comp : Comp env D w
  idle : I → Idle w

variable {I : Prop}

theorem Full.wframe (hs : FilterSteady env) {w w' : World F} (h : Full env D I w) (hf : WFrame w w') : Full env D I w' :=
  ⟨h.winv.frame hf.g hf.bp, h.comp.wframe hs h.winv hf, fun i => (h.idle i).of_bp hf.bp⟩

theorem Full.same (hs : FilterSteady env) {w w' : World F} (h : Full env D I w) (h1 : w'.g = w.g) (h2 : w'.bp = w.bp) (h3 : w'.fattr = w.fattr) : Full env D I w' :=
  ⟨h.winv.frame h1 h2, h.comp.carry hs (N := fun _ _ => True) h.winv (T := fun _ => False) (.of_g (by rw [h2]; exact .refl _) h1 (fun _ _ _ _ _ _ _ h => h.elim) (fun f _ => by rw [h3])), fun i => (h.idle i).of_bp h2⟩

theorem syncBodies_comp (hs : FilterSteady env) {w w' : World F} {l : List Nat} (h : WInv w) (hc : Comp env D w)
    (e : l.foldlM (fun w b =>
    if (w.phys b).island = false then some w
    else if w.typeOf b = .static then some w
    else w.synchronizeFixtures b) w = some w') : WInv w' ∧ Comp env D w' := by
  refine foldlM_inv (fun x : World F => WInv x ∧ Comp env D x) e ⟨h, hc⟩ ?_
  intro b _ x x' hx hv
  split at hv
  · cases hv; exact hx
  split at hv
  · cases hv; exact hx
  obtain ⟨w2, k1, k2, k3⟩ := synchronizeFixtures_spec b hx.1.pinv
  rw [k1] at hv
  cases hv
  have g : Good env x x' := .bpf hx.1 k2 k3
  exact ⟨g.winv, hx.2.carry hs hx.1 k2.carry⟩

theorem solve_full (hs : FilterSteady env) {w w' : World F} {step : TimeStep F} (h : WInv w) (hc : Comp env D w) (e : w.solve env step = some w') :
    Full env D I w' := by
  have hw' := (solve_good h e).winv
  unfold solve at e
  simp only [Option.bind_eq_bind, Option.bind_eq_some_iff] at e
  obtain ⟨⟨w1, isl⟩, e1, w2, e2, e3⟩ := e
  have m1 := solveIslands_mild e1
  obtain ⟨h2, c2⟩ := syncBodies_comp hs (h.frame m1.g m1.bp) (hc.wframe hs h m1.toWFrame) e2
  obtain ⟨c3, i3⟩ := findNewContacts_comp hs h2 c2 e3
  exact ⟨hw', c3, fun _ => i3⟩

theorem toiRelease_comp (hs : FilterSteady env) {w w' : World F} {b : Nat} (h : WInv w) (hc : Comp env D w) (e : w.toiRelease b = some w') : Comp env D w' := by
  unfold toiRelease at e
  dsimp only at e
  have m1 : Mild w (w.setPhys b { w.phys b with island := false }) := setPhys_mild (by intro _; rfl)
  have c1 := hc.wframe hs h m1.toWFrame
  have h1 := h.frame m1.g m1.bp
  split at e
  · cases e; exact c1
  · simp only [Option.bind_eq_bind, Option.bind_eq_some_iff] at e
    obtain ⟨w2, e2, e3⟩ := e
    obtain ⟨w2', k1, k2, k3⟩ := synchronizeFixtures_spec b h1.pinv
    rw [k1] at e2
    cases e2
    have g2 : GoodT env _ _ := .bpf h1 k2 k3
    cases e3
    refine (c1.carry hs h1 k2.carry).wframe hs g2.winv ?_
    exact (foldl_mild (fun _ _ _ => setCst_mild (by rfl) (by rfl) (by rfl)) _).toWFrame

theorem toiSolid_full (hs : FilterSteady env) {step : TimeStep F} {w w' : World F} {c bA bB : Nat} {alpha : F} (h : WInv w) (hc : Comp env D w)
    (e : w.toiSolid env step c bA bB alpha = some w') : Full env D I w' := by
  have hw' := (toiSolid_good h e).winv
  unfold toiSolid at e
  simp only [Option.bind_eq_bind, Option.bind_eq_some_iff] at e
  obtain ⟨x2, e0, w3, e3, w4, e4, e5⟩ := e
  unfold toiIsland at e0
  simp only [Option.bind_eq_bind, Option.bind_eq_some_iff] at e0
  obtain ⟨x1, e1, e2⟩ := e0
  have m0 : Mild w (toiAddBody (toiAddBody ((w.setAwake bA true).setAwake bB true, ⟨[], [c], []⟩) bA) bB).1 :=
    ((setAwake_mild w bA true).trans (setAwake_mild _ bB true)).trans ((toiAddBody_mild (_, ⟨[], [c], []⟩) bA).trans (toiAddBody_mild _ bB))
  generalize toiAddBody (toiAddBody ((w.setAwake bA true).setAwake bB true, ⟨[], [c], []⟩) bA) bB = x0 at m0 e1
  have m1 : Mild x0.1 (x0.1.setCst c { x0.1.cst c with island := true }) := setCst_mild (by rfl) (by rfl) (by rfl)
  have f0 := m0.toWFrame.trans m1.toWFrame
  have v1 := (toiVisits_good (env := env) (x := (_, x0.2)) (h.frame f0.g f0.bp) e1).2
  have f1 := f0.trans v1
  have f2 := f1.trans (toiVisits_good (h.frame f1.g f1.bp) e2).2
  have f3 := f2.trans (islandSolveToi_mild e3).toWFrame
  have g3 : WInv w3 ∧ Comp env D w3 := ⟨h.frame f3.g f3.bp, hc.wframe hs h f3⟩
  have g4 : WInv w4 ∧ Comp env D w4 := foldlM_inv (fun y : World F => WInv y ∧ Comp env D y) e4 g3
    (fun b _ y y' hy hv => ⟨(toiRelease_good (env := env) hy.1 hv).winv, toiRelease_comp hs hy.1 hy.2 hv⟩)
  obtain ⟨c5, i5⟩ := findNewContacts_comp hs g4.1 g4.2 e5
  exact ⟨hw', c5, fun _ => i5⟩

theorem toiEvent_full (hs : FilterSteady env) {step : TimeStep F} {w w' : World F} {c : Nat} {alpha : F} {solid : Bool} (h : Full env D I w) (hc : c ∈ w.g.contactList)
    (e : w.toiEvent env step c alpha = some (w', solid)) : Full env D I w' := by
  unfold toiEvent at e
  simp only [Option.bind_eq_bind, Option.bind_eq_some_iff] at e
  obtain ⟨bA, -, bB, -, w1, e1, w2, e2, w3, e3, e⟩ := e
  have m2 := (advance_mild e1).trans (advance_mild e2)
  have f3 : WFrame w w3 := m2.toWFrame.trans (contactUpdate_spec e3).1
  set w4 := w3.setCst c { w3.cst c with toiFlag := false, toiCount := (w3.cst c).toiCount + 1 } with hw4
  have s4 : Soft w3 w4 := setCst_soft (by rfl) (by rfl)
  have f4 : WFrame w w4 := f3.trans s4.toWFrame
  split at e
  · cases e
    refine (h.wframe hs f4).wframe hs (Mild.toWFrame ?_)
    exact ((setCst_mild (by rfl) (by rfl) (by rfl)).trans (restore_mild _ _ _)).trans (restore_mild _ _ _)
  · simp only [Option.bind_eq_some_iff] at e
    obtain ⟨w5, e5, e6⟩ := e
    cases e6
    have := h.wframe hs f4
    exact toiSolid_full hs this.winv this.comp e5

theorem toiLoop_full (hs : FilterSteady env) {step : TimeStep F} : ∀ (n : Nat) {w w' : World F}, Full env D I w → toiLoop env step n w = some w' → Full env D I w' := by
  intro n
  induction n with
  | zero => intro w w' _ e; cases e
  | succ n ih =>
    intro w w' h e
    unfold toiLoop at e
    simp only [Option.bind_eq_bind, Option.bind_eq_some_iff] at e
    obtain ⟨⟨w1, best, m⟩, e1, e⟩ := e
    obtain ⟨m1, hb⟩ := toiScan_mild _ e1
    have g1 := h.wframe hs m1.toWFrame
    cases best with
    | none => cases e; exact g1.same hs rfl rfl rfl
    | some c =>
      dsimp only at e
      split at e
      · cases e; exact g1.same hs rfl rfl rfl
      · simp only [Option.bind_eq_some_iff] at e
        obtain ⟨⟨w2, solid⟩, e2, e⟩ := e
        have hc : c ∈ w1.g.contactList := by
          rw [m1.g]
          rcases hb c rfl with h | h
          · cases h
          · exact h.1
        have g2 := toiEvent_full hs g1 hc e2
        split at e
        · cases e; exact g2.same hs rfl rfl rfl
        · exact ih g2 e

theorem solveToi_full (hs : FilterSteady env) {w w' : World F} {step : TimeStep F} (h : Full env D I w) (e : w.solveToi env step = some w') : Full env D I w' :=
  toiLoop_full hs _ (h.wframe hs (toiReset_soft w).toWFrame) e

/-- In a step of positive length that solves, nothing is left missing or waiting. -/
theorem stepLocked_full (hs : FilterSteady env) {w w' : World F} {step : TimeStep F} (h : WInv w) (hc : Comp env D w) (e : w.stepLocked env step = some w') :
    Full env D (w.stepComplete = true ∧ 0 < step.dt) w' := by
  unfold stepLocked at e
  simp only [Option.bind_eq_bind, Option.bind_eq_some_iff] at e
  obtain ⟨w1, e1, w2, e2, w3, e3, e4⟩ := e
  have g1 := (collide_good h e1).1
  have c1 := collide_comp hs h hc e1
  have hsc : w1.stepComplete = w.stepComplete := g1.rest.stepComplete
  rw [← hsc]
  have f2 : Full env D (w1.stepComplete = true ∧ 0 < step.dt) w2 := by
    split at e2
    · exact solve_full hs g1.winv c1 e2
    · rename_i hn
      cases e2
      exact ⟨g1.winv, c1, fun hi => absurd hi hn⟩
  have f3 : Full env D (w1.stepComplete = true ∧ 0 < step.dt) w3 := by
    split at e3
    · exact solveToi_full hs f2 e3
    · cases e3; exact f2
  have f4 : Full env D (w1.stepComplete = true ∧ 0 < step.dt) (if step.dt > 0 then { w3 with invDt0 := step.invDt } else w3) := by
    split
    · exact f3.same hs rfl rfl rfl
    · exact f3
  generalize (if step.dt > 0 then { w3 with invDt0 := step.invDt } else w3) = w4 at *
  cases e4
  split
  · exact f4.wframe hs (clearForces_mild _).toWFrame
  · exact f4

theorem step_full (hs : FilterSteady env) {w w' : World F} {dt : F} {vi pi : Nat} (h : WInv w) (hc : Comp env D w) (e : w.step env dt vi pi = some w') :
    Full env D (w.stepComplete = true ∧ 0 < dt) w' := by
  unfold step at e
  simp only [Option.bind_eq_bind, Option.bind_eq_some_iff] at e
  obtain ⟨w1, e1, w2, e2, e3⟩ := e
  cases e3
  have f1 : Full env D False w1 ∧ w1.stepComplete = w.stepComplete := by
    obtain ⟨v, g1, hv, -⟩ := stepBegin_good h e1
    have hsc : v.stepComplete = w.stepComplete := g1.rest.stepComplete
    refine ⟨?_, by rw [hv]; exact hsc⟩
    unfold stepBegin at e1
    split at e1
    · simp only [Option.bind_eq_bind, Option.bind_eq_some_iff] at e1
      obtain ⟨x1, a1, a2⟩ := e1
      cases a2
      have f : Full env D False x1 := ⟨(findNewContacts_good h a1).winv, (findNewContacts_comp hs h hc a1).1, fun h => h.elim⟩
      exact f.same hs rfl rfl rfl
    · cases e1
      exact ⟨h, hc, fun h => h.elim⟩
  have f2 : Full env D False { w1 with locked := true } := f1.1.same hs rfl rfl rfl
  have f3 := stepLocked_full hs f2.winv f2.comp e2
  rw [show ({ w1 with locked := true } : World F).stepComplete = w.stepComplete from f1.2] at f3
  exact f3.same hs rfl rfl rfl
end World

/-! ### The calls -/

theorem World.createJoint_carry {N : Nat × Nat → AABB F → Prop} {w w' : World F} {d : JointS} {j : Nat} (hw : GInv w.g) (hA : d.a ∈ w.g.bodyList) (hB : d.b ∈ w.g.bodyList)
    (e : w.createJoint d = some (w', j)) : Carry N D (fun _ => False) w w' := by
  obtain ⟨rfl, -, -, jf, -, -, hb, -, -, hf, -, -, hl, hj, -⟩ := createJoint_spec hw hA hB e
  refine ⟨by rw [hb]; exact .refl _, fun _ _ _ _ _ _ _ h => h.elim, ?_, ?_, ?_, fun f _ _ _ => by rw [hf], ?_, fun f _ _ _ _ => by rw [jf.fixtures]⟩
  · intro f b b' h h'
    rw [jf.fixtures, h] at h'
    exact (Option.some.inj h').symm
  · intro f b _ _ _ _
    rw [jf.body]
  · intro i hi _ _ _
    refine Or.inl ⟨by rw [hl]; exact List.mem_cons_of_mem _ hi, ?_⟩
    rw [hj, upd_other _ _ (Nat.ne_of_lt (hw.joint.lt i hi))]
  · intro c hc _ _ _ _ _ _ _ _ _ _
    rw [jf.contactList, jf.contacts]
    exact ⟨hc, rfl⟩

theorem World.destroyJoint_carry {N : Nat × Nat → AABB F → Prop} {w w' : World F} {j : Nat} (hw : GInv w.g) (hl : w.locked = false) (hj : j ∈ w.g.jointList)
    (hD : (w.g.joints j).collideConnected = false → D (w.g.joints j).a (w.g.joints j).b)
    (e : w.destroyJoint j = some w') : Carry N D (fun _ => False) w w' := by
  obtain ⟨v, e', jf, -, -, hb, -, -, hf, -, -, -, hl', hj', -⟩ := destroyJoint_spec hw hl hj
  have : w' = v := Option.some.inj (e.symm.trans e')
  subst this
  refine ⟨by rw [hb]; exact .refl _, fun _ _ _ _ _ _ _ h => h.elim, ?_, ?_, ?_, fun f _ _ _ => by rw [hf], ?_, fun f _ _ _ _ => by rw [jf.fixtures]⟩
  · intro f b b' h h'
    rw [jf.fixtures, h] at h'
    exact (Option.some.inj h').symm
  · intro f b _ _ _ _
    rw [jf.body]
  · intro i hi hcc _ _
    by_cases hij : i = j
    · subst hij
      exact Or.inr (hD hcc)
    · exact Or.inl ⟨by rw [hl']; exact (List.mem_erase_of_ne hij).mpr hi, by rw [hj']⟩
  · intro c hc _ _ _ _ _ _ _ _ _ _
    rw [jf.contactList, jf.contacts]
    exact ⟨hc, rfl⟩

theorem meets_shift (o : Vec2 F) (a b : AABB F) : Meets (shift o a) (shift o b) ↔ Meets a b := by
  unfold Meets shift
  simp only [Vec2.sub_x, Vec2.sub_y, sub_le_sub_iff_right]

theorem call_comp (hs : FilterSteady env) {w w' : World F} (c : Call F) (h : HInv env w) (hc : Comp env D w) (hok : c.Ok w)
    (hD : ∀ j, c = .destroyJoint j → (w.g.joints j).collideConnected = false → D (w.g.joints j).a (w.g.joints j).b)
    (e : c.run env w = some w') : Comp env D w' := by
  have same : ∀ {v : World F}, v.g = w.g → v.bp = w.bp → v.fattr = w.fattr → Comp env D v := fun h1 h2 h3 =>
    hc.carry hs (N := fun _ _ => True) h.toWInv (T := fun _ => False) (.of_g (by rw [h2]; exact .refl _) h1 (fun _ _ _ _ _ _ _ h => h.elim) (fun f _ => by rw [h3]))
  cases c with
  | createBody d =>
    simp only [Call.run, Option.map_eq_some_iff] at e
    obtain ⟨⟨v, b⟩, e, rfl⟩ := e
    exact hc.carry hs (N := fun _ _ => True) h.toWInv (createBody_carry h.toWInv e D)
  | destroyBody b =>
    obtain ⟨-, d⟩ := destroyBody_spec h.toWInv hok e
    exact hc.carry hs h.toWInv (d.carry D)
  | createFixture b d =>
    simp only [Call.run, Option.map_eq_some_iff] at e
    obtain ⟨⟨v, f⟩, e, rfl⟩ := e
    obtain ⟨-, -, -, -, -, -, -, -, k⟩ := createFixture_spec' (env := env) h.toWInv hok e
    exact hc.carry hs h.toWInv (k D)
  | destroyFixture b f =>
    obtain ⟨-, -, -, -, -, -, -, -, k⟩ := destroyFixture_spec' h.toWInv hok e
    exact hc.carry hs h.toWInv (k D)
  | createJoint d =>
    simp only [Call.run, Option.map_eq_some_iff] at e
    obtain ⟨⟨v, j⟩, e, rfl⟩ := e
    exact hc.carry hs (N := fun _ _ => True) h.toWInv (createJoint_carry h.toGInv hok.1 hok.2 e)
  | destroyJoint j => exact hc.carry hs (N := fun _ _ => True) h.toWInv (destroyJoint_carry h.toGInv h.unlocked hok (hD j rfl) e)
  | setType b t =>
    obtain ⟨-, -, -, -, -, -, -, -, T, k⟩ := setType_spec' h.toWInv e
    exact hc.carry hs h.toWInv (k D)
  | setEnabled b flag =>
    cases flag with
    | true =>
      obtain ⟨-, -, -, -, -, -, -, -, k⟩ := setEnabled_true_spec' h.toWInv hok e
      exact hc.carry hs h.toWInv (k D)
    | false =>
      obtain ⟨-, -, -, -, -, -, -, -, -, k⟩ := setEnabled_false_spec' h.toWInv hok e
      exact hc.carry hs h.toWInv (k D)
  | setTransform b p a =>
    obtain ⟨v, e', -, -, -, -, k⟩ := setTransform_spec (env := env) b p a h.toWInv h.unlocked
    have : w' = v := Option.some.inj (e.symm.trans e')
    subst this
    exact hc.carry hs h.toWInv (k D)
  | setMassData b m =>
    obtain ⟨-, h1, -⟩ := setMassData_spec (env := env) e
    exact hc.wframe hs h.toWInv h1.toWFrame
  | setFilterData f d =>
    obtain ⟨b, hb, hf⟩ := hok
    obtain ⟨-, -, -, -, -, k⟩ := setFilterData_spec (env := env) h.toWInv hb hf e
    exact hc.carry hs h.toWInv (k D)
  | refilter f =>
    obtain ⟨b, hb, hf⟩ := hok
    obtain ⟨-, -, -, -, -, k⟩ := refilter_spec (env := env) h.toWInv hb hf e
    exact hc.carry hs h.toWInv (k D)
  | user op =>
    obtain ⟨q, hl⟩ := userOp_quiet e
    exact hc.wframe hs h.toWInv q.toWFrame
  | setAllowSleeping flag =>
    cases e
    unfold setAllowSleeping
    split
    · exact hc
    · dsimp only
      split
      · obtain ⟨q, -⟩ := foldl_quiet (f := fun w b => w.setAwake b true) (fun w b => ⟨setAwake_quiet w b true, rfl⟩) w.g.bodyList { w with allowSleep := flag }
        have h1 : Comp env D { w with allowSleep := flag } := same rfl rfl rfl
        exact Comp.wframe hs (w := { w with allowSleep := flag }) (h.toWInv.frame rfl rfl) h1 q.toWFrame
      · exact same rfl rfl rfl
  | setGravity x => cases e; exact same rfl rfl rfl
  | setAutoClearForces x => cases e; exact same rfl rfl rfl
  | setWarmStarting x => cases e; exact same rfl rfl rfl
  | setContinuousPhysics x => cases e; exact same rfl rfl rfl
  | setSubStepping x => cases e; exact same rfl rfl rfl
  | clearForces =>
    cases e
    obtain ⟨-, -, h3⟩ := clearForcesAll_spec (env := env) h.toWInv
    exact hc.wframe hs h.toWInv h3
  | shiftOrigin o =>
    obtain ⟨v, e', -, -, -, k1, k2, k3⟩ := shiftOrigin_spec' (env := env) o h.toWInv h.unlocked
    have : w' = v := Option.some.inj (e.symm.trans e')
    subst this
    have al : Alike w' w := ⟨fun f => by rw [k1], by rw [k1], fun b => by rw [k1], fun b => by rw [k1], by rw [k1], by rw [k1], fun f => (k3 f).symm⟩
    obtain ⟨gh, buf, rep, hp⟩ := h.toWInv.prox
    intro gh' buf' rep' hb' id1 id2 q1 q2 a1 a2 hmay hmeet
    rw [k2] at hb'
    obtain ⟨rfl, t1, -⟩ := Spec.BHist.agree hb' (.shift o hp.hist)
    have back : ∀ id q, gh' id = some q → ∃ p, gh id = some p ∧ p.data = q.data ∧ q.fat = shift o p.fat := by
      intro id q hq
      obtain ⟨p', b1, b2, b3⟩ := t1 id q hq
      simp only [Option.map_eq_some_iff] at b1
      obtain ⟨p, b4, rfl⟩ := b1
      exact ⟨p, b4, b2, b3.symm⟩
    obtain ⟨p1, g1, d1, f1⟩ := back id1 q1 a1
    obtain ⟨p2, g2, d2, f2⟩ := back id2 q2 a2
    rw [f1, f2, meets_shift] at hmeet
    have hM := al.may hs hmay
    rw [← d1, ← d2] at hM ⊢
    rcases hc gh buf' rep hp.hist id1 id2 p1 p2 g1 g2 hM hmeet with k | k
    · refine Or.inl ?_
      unfold HasContact at k ⊢
      rw [k1]; exact k
    · exact Or.inr k
  | step dt vi pi => exact (step_full hs h.toWInv hc e).comp

theorem Spec.DHist.whist {w : World F} (h : DHist env D w) : WHist env w := by
  induction h with
  | new => exact .new ..
  | call c _ hok _ e ih => exact .call c ih hok e

theorem dhist_comp (hs : FilterSteady env) {w : World F} (h : DHist env D w) : Comp env D w := by
  induction h with
  | new =>
    intro gh buf rep hb id1 id2 p1 p2 g1 _ _ _
    obtain ⟨-, t, -⟩ := Spec.BHist.agree hb .new
    obtain ⟨p', h', -⟩ := t id1 p1 g1
    cases h'
  | call c h hok hD e ih => exact call_comp hs c (whist_inv h.whist) ih hok hD e

/-- Proxies of the fixtures and the broad-phase, related. -/
theorem fatOverlap_meets {w : World F} (h : WInv w) {x y : Nat × Nat} (ho : FatOverlap w x y) (hx : Live w.g x.1 x.2) (hy : Live w.g y.1 y.2) :
    ∃ gh buf rep, BHist w.bp gh buf rep ∧ ∃ id1 id2 p1 p2, gh id1 = some p1 ∧ gh id2 = some p2 ∧ p1.data = x ∧ p2.data = y ∧ Meets p1.fat p2.fat := by
  obtain ⟨gh, buf, rep, hp⟩ := h.prox
  obtain ⟨px, py, idx, idy, h1, h2, h3, h4, h5⟩ := ho
  obtain ⟨i1, p1, a1, a2, a3⟩ := hp.has _ _ hx
  obtain ⟨i2, p2, b1, b2, b3⟩ := hp.has _ _ hy
  rw [h1] at a1
  rw [h3] at b1
  cases a1
  cases b1
  cases h2
  cases h4
  rw [boverlap hp.hist a2 b2] at h5
  exact ⟨gh, buf, rep, hp.hist, _, _, p1, p2, a2, b2, a3, b3, (overlap_iff _ _).mp (Option.some.inj h5)⟩
end
end B2
