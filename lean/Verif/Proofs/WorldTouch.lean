import Verif.Spec.Touch
import Verif.Proofs.WorldPoints
import Verif.Proofs.WorldStepTrack
import Verif.Proofs.WorldComplete

/-! The touching flags after the collision pass. -/
namespace B2
set_option linter.unusedSectionVars false
open World Spec

section
variable {F : Type} [Field F] [LinearOrder F] [IsStrictOrderedRing F] [Elem F]

namespace World
variable {env : Env F}

/-- Nothing that matters to collision has changed: transforms, sensors; no body has fallen asleep. -/
structure Same4 (w w' : World F) : Prop where
  frame : WFrame w w'
  xf : ∀ b, (w'.phys b).xf = (w.phys b).xf
  awake : ∀ b, (w.phys b).awake = true → (w'.phys b).awake = true
  sensor : ∀ x, w'.sensorContact x = w.sensorContact x

theorem Same4.refl (w : World F) : Same4 w w := ⟨.refl w, fun _ => rfl, fun _ => id, fun _ => rfl⟩
theorem Same4.trans {w w' w'' : World F} (h : Same4 w w') (h' : Same4 w' w'') : Same4 w w'' :=
  ⟨h.frame.trans h'.frame, fun b => (h'.xf b).trans (h.xf b), fun b x => h'.awake b (h.awake b x), fun x => (h'.sensor x).trans (h.sensor x)⟩

theorem evaluate_congr {w w' : World F} (hg : w'.g = w.g) (hx : ∀ b, (w'.phys b).xf = (w.phys b).xf) (c : Nat) : Engine.evaluate w' c = Engine.evaluate w c := by
  unfold Engine.evaluate bodyOf
  simp only [hg, hx]

theorem overlap_congr {w w' : World F} (hg : w'.g = w.g) (hx : ∀ b, (w'.phys b).xf = (w.phys b).xf) (c : Nat) : Engine.overlap w' c = Engine.overlap w c := by
  unfold Engine.overlap bodyOf
  simp only [hg, hx]

theorem touches_iff (w : World F) (c : Nat) : TouchFound w (w.g.contacts c) ↔
    (if w.sensorContact c = true then Engine.overlap w c = some true else ∃ m, Engine.evaluate w c = some m ∧ m.points ≠ []) := by
  unfold TouchFound sensorContact Engine.overlap Engine.evaluate bodyOf
  simp only [Bool.or_eq_true, Option.bind_eq_bind, Option.bind_eq_some_iff]
  split
  · constructor
    · rintro ⟨a, b, h1, h2, pA, pB, r, h3, h4, h5, h6⟩
      exact ⟨a, h1, b, h2, pA, h3, pB, h4, r, h5, by simp [h6]⟩
    · rintro ⟨a, h1, b, h2, pA, h3, pB, h4, r, h5, h6⟩
      exact ⟨a, b, h1, h2, pA, pB, r, h3, h4, h5, by simpa using h6⟩
  · constructor
    · rintro ⟨a, b, h1, h2, m, h3, h4⟩
      exact ⟨m, ⟨a, h1, b, h2, h3⟩, h4⟩
    · rintro ⟨m, ⟨a, h1, b, h2, h3⟩, h4⟩
      exact ⟨a, b, h1, h2, m, h3, h4⟩

/-- What touching depends on. -/
theorem touches_congr {w w' : World F} (hf : ∀ f, w'.g.fixtures f = w.g.fixtures f) (hx : ∀ b, (w'.phys b).xf = (w.phys b).xf) (k : ConS)
    (hA : (w'.fattr k.fA).sensor = (w.fattr k.fA).sensor) (hB : (w'.fattr k.fB).sensor = (w.fattr k.fB).sensor) : TouchFound w' k ↔ TouchFound w k := by
  unfold TouchFound
  simp only [hf, hx, hA, hB]

theorem active_congr {w w' : World F} (hf : ∀ f, w'.g.fixtures f = w.g.fixtures f) (ht : ∀ b, (w'.g.bodies b).type = (w.g.bodies b).type)
    (ha : ∀ b, (w.phys b).awake = true → (w'.phys b).awake = true) {k : ConS} (h : Active w k) : Active w' k := by
  obtain ⟨b, h1, h2, h3⟩ := h
  exact ⟨b, ha b h1, by rw [ht]; exact h2, by rw [hf, hf]; exact h3⟩

theorem Same4.touches {w w' : World F} (h : Same4 w w') (c : Nat) : TouchFound w' (w'.g.contacts c) ↔ TouchFound w (w.g.contacts c) := by
  rw [touches_iff, touches_iff, h.sensor, evaluate_congr h.frame.g h.xf, overlap_congr h.frame.g h.xf]

theorem Same4.active {w w' : World F} (h : Same4 w w') {c : Nat} (ha : Active w (w.g.contacts c)) : Active w' (w'.g.contacts c) := by
  have hg := h.frame.g
  rw [hg]
  exact active_congr (fun f => by rw [hg]) (fun b => by rw [hg]) h.awake ha

theorem Same4.near {w w' : World F} (h : Same4 w w') {c : Nat} : FatNear w' (w'.g.contacts c) ↔ FatNear w (w.g.contacts c) := by
  unfold FatNear FatOverlap
  rw [h.frame.g, h.frame.bp]

theorem refresh_touch {E : Engine F} {w w' : World F} {c : Nat} (e : w.refresh E.env c = some w') : (w'.cst c).touching = true ↔ TouchFound w (w.g.contacts c) := by
  rw [touches_iff]
  unfold refresh at e
  simp only [Option.bind_eq_bind, Option.bind_eq_some_iff] at e
  obtain ⟨bA, -, bB, -, e⟩ := e
  have at' : ∀ (v : World F) (s : CState F), (v.setCst c s).cst c = s := fun v s => upd_same _ _ _
  split at e
  · rename_i hs
    replace hs : w.sensorContact c = true := hs
    simp only [Option.bind_eq_some_iff] at e
    obtain ⟨t, e1, e2⟩ := e
    cases e2
    replace e1 : Engine.overlap w c = some t := e1
    rw [if_pos hs, e1, at']
    simp
  · rename_i hs
    replace hs : ¬ w.sensorContact c = true := hs
    simp only [Option.bind_eq_some_iff, Option.filter_eq_some_iff] at e
    obtain ⟨m, ⟨e1, -⟩, e2⟩ := e
    replace e1 : Engine.evaluate w c = some m := e1
    cases e2
    rw [if_neg hs, e1, at']
    simp [List.length_pos_iff]

theorem contactUpdate_touch {E : Engine F} (hE : CallbacksTame E.env) (hL : LeavesBodies E.env) {w w' : World F} {c : Nat} (e : w.contactUpdate E.env c = some w') :
    Same4 w w' ∧ (∀ x, x ≠ c → (w'.cst x).touching = (w.cst x).touching) ∧ ((w'.cst c).touching = true ↔ TouchFound w (w.g.contacts c)) := by
  obtain ⟨s1, -, s3, -⟩ := contactUpdate_spec e
  obtain ⟨-, p2, -⟩ := contactUpdate_points hE e
  refine ⟨⟨s1, fun b => ?_, fun b => ?_, p2⟩, s3, ?_⟩
  · have h : (w'.phys b).core.xf = (w.phys b).core.xf := by rw [(contactUpdate_spares (b := b) hL e).core]
    exact h
  · exact (contactUpdate_spares (b := b) hL e).awake
  · unfold contactUpdate at e
    simp only [Option.bind_eq_bind, Option.bind_eq_some_iff] at e
    obtain ⟨w1, h1, w2, h2, w3, h3, h4⟩ := e
    have f : Firm w1 w' := ((listens_firm hE h2).trans (listens_firm hE h3)).trans (listens_firm hE h4)
    rw [f.touching]
    exact refresh_touch h1

theorem collideActive_touch {E : Engine F} (hE : CallbacksTame E.env) (hL : LeavesBodies E.env) {w w' : World F} {c bA bB : Nat} {k : Bool}
    (hA : w.bodyOf (w.g.contacts c).fA = some bA) (hB : w.bodyOf (w.g.contacts c).fB = some bB)
    (e : w.collideActive E.env c bA bB = some (w', k)) :
    Same4 w w' ∧ (∀ x, x ≠ c → (w'.cst x).touching = (w.cst x).touching) ∧
      (Active w (w.g.contacts c) → (k = true ↔ FatNear w (w.g.contacts c)) ∧ (k = true → ((w'.cst c).touching = true ↔ TouchFound w (w.g.contacts c)))) := by
  unfold collideActive at e
  dsimp only at e
  split at e
  · rename_i hn
    cases e
    refine ⟨.refl w, fun _ _ => rfl, ?_⟩
    rintro ⟨b, h1, h2, h3⟩
    exfalso
    unfold bodyOf at hA hB
    rw [hA, hB] at h3
    unfold isAwake typeOf at hn
    rcases h3 with h3 | h3 <;> cases h3
    · simp [h1, h2] at hn
    · simp [h1, h2] at hn
  simp only [Option.bind_eq_bind, Option.bind_eq_some_iff] at e
  obtain ⟨pA, a1, idA, a2, pB, b1, idB, b2, o, e1, e⟩ := e
  have hnear : FatNear w (w.g.contacts c) ↔ o = true := by
    constructor
    · rintro ⟨px, py, ix, iy, c1, c2, c3, c4, c5⟩
      dsimp only at c1 c3
      rw [a1] at c1; cases c1
      rw [b1] at c3; cases c3
      rw [a2] at c2; cases c2
      rw [b2] at c4; cases c4
      rw [e1] at c5
      exact Option.some.inj c5
    · rintro rfl
      exact ⟨pA, pB, idA, idB, a1, a2, b1, b2, e1⟩
  split at e
  · rename_i ho
    subst ho
    cases e
    refine ⟨.refl w, fun _ _ => rfl, fun _ => ⟨?_, fun h => by cases h⟩⟩
    rw [hnear]
  · rename_i ho
    simp only [Option.bind_eq_some_iff] at e
    obtain ⟨w1, e2, e3⟩ := e
    cases e3
    obtain ⟨k1, k2, k3⟩ := contactUpdate_touch hE hL e2
    refine ⟨k1, k2, fun _ => ⟨?_, fun _ => k3⟩⟩
    rw [hnear]
    simpa using ho

theorem collideOne_touch {E : Engine F} (hE : CallbacksTame E.env) (hL : LeavesBodies E.env) {w w' : World F} {c : Nat} {k : Bool}
    (e : w.collideOne E.env c = some (w', k)) :
    Same4 w w' ∧ (∀ x, x ≠ c → (w'.cst x).touching = (w.cst x).touching) ∧
      (Active w (w.g.contacts c) → (k = true → FatNear w (w.g.contacts c) ∧ ((w'.cst c).touching = true ↔ TouchFound w (w.g.contacts c))) ∧ ((w.cst c).filter = false → FatNear w (w.g.contacts c) → k = true)) := by
  unfold collideOne at e
  simp only [Option.bind_eq_bind, Option.bind_eq_some_iff] at e
  obtain ⟨bA, hA, bB, hB, e⟩ := e
  split at e
  · rename_i hf
    have q := filterCollide_quiet E.env w (w.g.contacts c).fA (w.g.contacts c).fB
    have qt : ∀ x, ((w.filterCollide E.env (w.g.contacts c).fA (w.g.contacts c).fB).2.cst x).touching = (w.cst x).touching :=
      (filterCollide_firm E.env w (w.g.contacts c).fA (w.g.contacts c).fB).touching
    have q4 : Same4 w (w.filterCollide E.env (w.g.contacts c).fA (w.g.contacts c).fB).2 := by
      unfold filterCollide
      split
      · exact .refl w
      · exact ⟨⟨rfl⟩, fun _ => rfl, fun _ => id, fun _ => rfl⟩
    split at e
    · cases e
      exact ⟨.refl w, fun _ _ => rfl, fun _ => ⟨fun h => (by cases h), fun h => absurd (h.symm.trans hf) (by decide)⟩⟩
    split at e
    · cases e
      exact ⟨q4, fun x _ => qt x, fun _ => ⟨fun h => (by cases h), fun h => absurd (h.symm.trans hf) (by decide)⟩⟩
    · generalize hv : (w.filterCollide E.env (w.g.contacts c).fA (w.g.contacts c).fB).2 = v at *
      have s1 : Same4 w (v.setCst c { v.cst c with filter := false }) := q4.trans ⟨⟨rfl⟩, fun _ => rfl, fun _ => id, fun _ => rfl⟩
      have hg := s1.frame.g
      have hb : ∀ f, (v.setCst c { v.cst c with filter := false }).bodyOf f = w.bodyOf f := fun f => by unfold bodyOf; rw [hg]
      obtain ⟨k1, k2, k3⟩ := collideActive_touch hE hL (by rw [hb, hg]; exact hA) (by rw [hb, hg]; exact hB) e
      refine ⟨s1.trans k1, fun x hx => ?_, fun ha => ⟨fun hk => ?_, fun h => absurd (h.symm.trans hf) (by decide)⟩⟩
      · rw [k2 x hx]
        exact (congrArg CState.touching (upd_other _ _ hx)).trans (qt x)
      · obtain ⟨k4, k5⟩ := k3 (s1.active ha)
        exact ⟨s1.near.mp (k4.mp hk), (k5 hk).trans (s1.touches c)⟩
  · rename_i hf
    obtain ⟨k1, k2, k3⟩ := collideActive_touch hE hL hA hB e
    exact ⟨k1, k2, fun ha => ⟨fun hk => ⟨(k3 ha).1.mp hk, (k3 ha).2 hk⟩, fun _ => (k3 ha).1.mpr⟩⟩

theorem collideLoop_touch {E : Engine F} (hE : CallbacksTame E.env) (hL : LeavesBodies E.env) : ∀ (l : List Nat) {w w' : World F} {ds ds' : List Nat}, WInv w →
    (∀ c ∈ l, c ∈ w.g.contactList) → l.Nodup → (∀ c ∈ ds, c ∉ l) → collideLoop E.env l w ds = some (w', ds') →
    Same4 w w' ∧ (∀ c ∈ ds, c ∈ ds') ∧ (∀ x, x ∉ l → (w'.cst x).touching = (w.cst x).touching ∧ (x ∈ ds' ↔ x ∈ ds)) ∧
      ∀ c ∈ l, Active w (w.g.contacts c) → (c ∉ ds' → FatNear w (w.g.contacts c) ∧ ((w'.cst c).touching = true ↔ TouchFound w (w.g.contacts c))) ∧ ((w.cst c).filter = false → FatNear w (w.g.contacts c) → c ∉ ds') := by
  intro l
  induction l with
  | nil =>
    intro w w' ds ds' h _ _ _ e
    cases e
    exact ⟨.refl w, fun _ => id, fun _ _ => ⟨rfl, Iff.rfl⟩, fun c hc => by cases hc⟩
  | cons c l ih =>
    intro w w' ds ds' h hm hn hd e
    unfold collideLoop at e
    simp only [Option.bind_eq_bind, Option.bind_eq_some_iff] at e
    obtain ⟨⟨w1, k⟩, e1, e2⟩ := e
    obtain ⟨a1, a2, -, -, -, a6, -⟩ := collideOne_good h (hm c (by simp)) e1
    obtain ⟨b1, b2, b3⟩ := collideOne_touch hE hL e1
    obtain ⟨hcl, hnl⟩ := List.nodup_cons.mp hn
    have hdc : c ∉ ds := fun hc => hd c hc (by simp)
    obtain ⟨i1, i2, i3, i4⟩ := ih a1 (fun x hx => by rw [a2.g]; exact hm x (by simp [hx])) hnl (ds := if k = true then ds else ds ++ [c]) (fun x hx => by
      split at hx
      · exact fun hxl => hd x hx (by simp [hxl])
      · rcases List.mem_append.mp hx with hx | hx
        · exact fun hxl => hd x hx (by simp [hxl])
        · rw [List.mem_singleton.mp hx]; exact hcl) e2
    have hcd : c ∈ ds' ↔ k = false := by
      rw [(i3 c hcl).2]
      cases k <;> simp [hdc]
    refine ⟨b1.trans i1, fun x hx => i2 x ?_, fun x hx => ?_, fun x hx ha => ?_⟩
    · split
      · exact hx
      · simp [hx]
    · have hxc : x ≠ c := fun h => hx (by simp [h])
      have hxl : x ∉ l := fun h => hx (by simp [h])
      refine ⟨(i3 x hxl).1.trans (b2 x hxc), ?_⟩
      rw [(i3 x hxl).2]
      split
      · rfl
      · simp [hxc]
    · rcases List.mem_cons.mp hx with rfl | hxl
      · obtain ⟨c1, c2⟩ := b3 ha
        refine ⟨fun hnd => ?_, fun hf hnr hcd' => ?_⟩
        · have hk : k = true := by
            cases k
            · exact absurd (hcd.mpr rfl) hnd
            · rfl
          rw [(i3 x hcl).1]
          exact c1 hk
        · rw [c2 hf hnr] at hcd
          exact absurd (hcd.mp hcd') (by decide)
      · have hxc : x ≠ c := fun h => hcl (h ▸ hxl)
        obtain ⟨c1, c2⟩ := i4 x hxl (b1.active ha)
        refine ⟨fun hnd => ?_, fun hf hnr => ?_⟩
        · obtain ⟨d1, d2⟩ := c1 hnd
          exact ⟨b1.near.mp d1, d2.trans (b1.touches x)⟩
        · exact c2 ((a6 x hxc).trans hf) (b1.near.mpr hnr)

/-- The contact has no pending filtering, or would pass it. -/
def PassesFilter (env : Env F) (w : World F) (c : Nat) : Prop :=
  (w.cst c).filter = false ∨ FilterSteady env ∧ ∃ D, MayCollide env D w (w.g.contacts c).fA (w.g.contacts c).fB

/-- After the collision pass. -/
theorem collide_touch {E : Engine F} (hE : CallbacksTame E.env) (hL : LeavesBodies E.env) {w w' : World F} (h : WInv w) (e : w.collide E.env = some w') :
    (∀ c ∈ w'.g.contactList, c ∈ w.g.contactList) ∧ w'.g.contacts = w.g.contacts ∧ w'.g.nextContact = w.g.nextContact ∧ ∀ c ∈ w.g.contactList, Active w (w.g.contacts c) →
      (c ∈ w'.g.contactList → FatNear w (w.g.contacts c) ∧ ((w'.cst c).touching = true ↔ TouchFound w (w.g.contacts c))) ∧ (PassesFilter E.env w c → FatNear w (w.g.contacts c) → c ∈ w'.g.contactList) := by
  unfold collide at e
  simp only [Option.bind_eq_bind, Option.bind_eq_some_iff] at e
  obtain ⟨⟨w1, ds⟩, e1, e2⟩ := e
  obtain ⟨i1, -, -, i4⟩ := collideLoop_touch hE hL _ h (fun _ h => h) h.link.nodup (by simp) e1
  obtain ⟨b1, b2, -, -, -, new, b6, b7, -⟩ := collideLoop_spec _ h (fun _ h => h) h.link.nodup e1
  simp only [List.nil_append] at b6
  subst b6
  have hm : ∀ c ∈ ds, c ∈ w1.g.contactList := fun c hc => by rw [b2.g]; exact b7.subset hc
  have cut := destroyList_cut ds b1.link (b7.nodup h.link.nodup) hm e2
  have ft : Firm w1 w' := Firm.foldlM e2 (fun _ _ _ _ h => contactDestroy_firm hE h)
  have mem : ∀ c, c ∈ w'.g.contactList ↔ c ∈ w.g.contactList ∧ c ∉ ds := fun c => by rw [cut.shrunk.mem, b2.g]
  refine ⟨fun c hc => ((mem c).mp hc).1, by rw [cut.shrunk.contacts, b2.g], by rw [cut.shrunk.nextContact, b2.g], fun c hc ha => ?_⟩
  obtain ⟨c1, c2⟩ := i4 c hc ha
  refine ⟨fun hk => ?_, fun hf hn => (mem c).mpr ⟨hc, ?_⟩⟩
  rotate_left
  · rcases hf with hf | ⟨hs, D, hm⟩
    · exact c2 hf hn
    · intro hd
      obtain ⟨_, _, -, -, -, l1, l2, -⟩ := h.ok c hc
      obtain ⟨gh, buf, rep, hh, id1, id2, p1, p2, q1, q2, q3, q4, q5⟩ := fatOverlap_meets h hn l1 l2
      exact collideLoop_reason (D := D) hs _ h (fun _ h => h) e1 (by simp) c hd hm gh buf rep hh id1 id2 p1 p2 q1 q2 q3 q4 q5
  rw [ft.touching]
  exact c1 ((mem c).mp hk).2

/-- Looking for new contacts leaves the fat boxes. -/
theorem findNewContacts_overlap {w w' : World F} (h : WInv w) (e : w.findNewContacts env = some w') {x y : Nat × Nat} (hx : Live w.g x.1 x.2) (hy : Live w.g y.1 y.2) :
    FatOverlap w' x y ↔ FatOverlap w x y := by
  obtain ⟨w1, x1, hw', hi⟩ := findNewContacts_spec h e
  obtain ⟨gh, buf, rep, hp⟩ := h.prox
  obtain ⟨pairs, bp', rep', u1, -, u3, u4⟩ := bupdate hp.hist
  have hbp : w'.bp = bp' := by
    unfold findNewContacts at e
    rw [u1] at e
    simp only [Option.bind_eq_bind, Option.bind_some, Option.bind_eq_some_iff] at e
    obtain ⟨w2, e1, e2⟩ := e
    cases e2
    rfl
  have hfx : w'.g.fixtures = w.g.fixtures := by rw [show w'.g = w1.g by rw [hw']]; exact x1.fixtures
  obtain ⟨i1, p1, a1, a2, -⟩ := hp.has _ _ hx
  obtain ⟨i2, p2, b1, b2, -⟩ := hp.has _ _ hy
  have o1 := boverlap hp.hist a2 b2
  have o2 := boverlap u4 (i := i1) (j := i2) (p := { p1 with moved := false }) (q := { p2 with moved := false }) (by rw [a2]; rfl) (by rw [b2]; rfl)
  unfold FatOverlap
  rw [hfx, hbp, a1, b1]
  constructor
  · rintro ⟨_, _, _, _, c1, c2, c3, c4, c5⟩
    cases c1; cases c3; cases c2; cases c4
    exact ⟨_, _, _, _, rfl, rfl, rfl, rfl, by rw [o1]; rw [o2] at c5; exact c5⟩
  · rintro ⟨_, _, _, _, c1, c2, c3, c4, c5⟩
    cases c1; cases c3; cases c2; cases c4
    exact ⟨_, _, _, _, rfl, rfl, rfl, rfl, by rw [o2]; rw [o1] at c5; exact c5⟩

theorem findNewContacts_near {w w' : World F} (h : WInv w) (e : w.findNewContacts env = some w') {c : Nat} (hc : c ∈ w'.g.contactList) :
    FatNear w' (w'.g.contacts c) ↔ FatNear w (w'.g.contacts c) := by
  obtain ⟨w1, x1, hw', hi⟩ := findNewContacts_spec h e
  have hg : w'.g = w1.g := by rw [hw']
  obtain ⟨_, _, -, -, -, l1, l2, -⟩ := hi.ok c hc
  have live : ∀ f i, Live w'.g f i → Live w.g f i := fun f i hl => by rw [hg] at hl; exact (x1.live f i).mp hl
  exact findNewContacts_overlap h e (live _ _ l1) (live _ _ l2)

theorem stepBegin_touch {w w' : World F} (h : WInv w) (e : w.stepBegin env = some w') :
    WInv w' ∧ w'.continuous = w.continuous ∧ (∀ c ∈ w.g.contactList, c ∈ w'.g.contactList ∧ w'.g.contacts c = w.g.contacts c ∧ (PassesFilter env w c → PassesFilter env w' c)) ∧
    (∀ c ∈ w'.g.contactList, c ∉ w.g.contactList → w.g.nextContact ≤ c) ∧ w.g.nextContact ≤ w'.g.nextContact ∧
    ∀ c ∈ w'.g.contactList, (FatNear w' (w'.g.contacts c) ↔ FatNear w (w'.g.contacts c)) ∧ (TouchFound w' (w'.g.contacts c) ↔ TouchFound w (w'.g.contacts c)) ∧
      (Active w (w'.g.contacts c) → Active w' (w'.g.contacts c)) := by
  unfold stepBegin at e
  split at e
  · simp only [Option.bind_eq_bind, Option.bind_eq_some_iff] at e
    obtain ⟨w1, e1, e2⟩ := e
    cases e2
    obtain ⟨w2, x2, hw', hi⟩ := findNewContacts_spec h e1
    have hg : w1.g = w2.g := by rw [hw']
    have hfx : w1.g.fixtures = w.g.fixtures := by rw [hg]; exact x2.fixtures
    have hph : w1.phys = w.phys := by rw [hw']; exact x2.phys
    have hfa : w1.fattr = w.fattr := by rw [hw']; exact x2.fattr
    have hcs : w1.cst = w2.cst := by rw [hw']
    refine ⟨hi.frame rfl rfl, ?_, fun c hc => ?_, fun c hc hn => ?_, ?_, fun c hc => ⟨findNewContacts_near h e1 hc, ?_, fun ha => ?_⟩⟩
    · show w1.continuous = _
      rw [hw']; exact x2.rest.continuous
    · obtain ⟨o1, o2, o3⟩ := x2.old c (h.link.lt c hc)
      refine ⟨?_, ?_, ?_⟩
      · show c ∈ w1.g.contactList
        rw [hg]; exact o3.mpr hc
      · show w1.g.contacts c = _
        rw [hg]; exact o1
      · rintro (hf | ⟨hs, D, hm⟩)
        · left
          show (w1.cst c).filter = _
          rw [hcs, o2]; exact hf
        · refine .inr ⟨hs, D, ?_⟩
          have al : Alike w w1 := by
            have := x2.alike
            exact ⟨fun f => by rw [hg]; exact this.body f, by rw [hg]; exact this.bodyList, fun b => by rw [hg]; exact this.type b, fun b => by rw [hg]; exact this.enabled b,
              by rw [hg]; exact this.jointList, by rw [hg]; exact this.joints, fun f => by rw [hfa]⟩
          have hk : w1.g.contacts c = w.g.contacts c := by rw [hg]; exact o1
          have al' : Alike w ({ w1 with newContacts := false } : World F) := ⟨al.body, al.bodyList, al.type, al.enabled, al.jointList, al.joints, al.filter⟩
          show MayCollide env D _ (w1.g.contacts c).fA (w1.g.contacts c).fB
          rw [hk]
          exact al'.may hs hm
    · by_contra hlt
      refine hn (((x2.old c (not_le.mp hlt)).2.2).mp ?_)
      rw [← hg]; exact hc
    · show _ ≤ w1.g.nextContact
      rw [hg]; exact x2.next
    · exact touches_congr (fun f => congrFun hfx f) (fun b => by show (w1.phys b).xf = _; rw [hph]) _ (by show (w1.fattr _).sensor = _; rw [hfa]) (by show (w1.fattr _).sensor = _; rw [hfa])
    · refine active_congr (fun f => congrFun hfx f) (fun b => ?_) (fun b hb => ?_) ha
      · show (w1.g.bodies b).type = _
        rw [hg, x2.body]
      · show (w1.phys b).awake = true
        rw [hph]; exact hb
  · cases e
    exact ⟨h, rfl, fun c hc => ⟨hc, rfl, id⟩, fun c hc hn => absurd hc hn, le_refl _, fun c hc => ⟨Iff.rfl, Iff.rfl, id⟩⟩

theorem solve_touch {w w' : World F} {step : TimeStep F} (h : WInv w) (e : w.solve env step = some w') :
    (∀ c ∈ w.g.contactList, c ∈ w'.g.contactList ∧ w'.g.contacts c = w.g.contacts c ∧ (w'.cst c).touching = (w.cst c).touching) ∧
    ∀ c ∈ w'.g.contactList, c ∉ w.g.contactList → w.g.nextContact ≤ c ∧ (w'.cst c).touching = false := by
  unfold solve at e
  simp only [Option.bind_eq_bind, Option.bind_eq_some_iff] at e
  obtain ⟨⟨w1, isl⟩, e1, w2, e2, e3⟩ := e
  have m1 := solveIslands_mild e1
  have b2 : WInv w2 ∧ w2.g = w1.g ∧ w2.cst = w1.cst := by
    refine foldlM_inv (fun x : World F => WInv x ∧ x.g = w1.g ∧ x.cst = w1.cst) e2 ⟨h.frame m1.g m1.bp, rfl, rfl⟩ ?_
    intro b _ x x' hx hv
    split at hv
    · cases hv; exact hx
    split at hv
    · cases hv; exact hx
    obtain ⟨w2, k1, k2, k3⟩ := synchronizeFixtures_spec b hx.1.pinv
    rw [k1] at hv
    cases hv
    have g : Good env x x' := .bpf hx.1 k2 k3
    exact ⟨g.winv, k2.g.trans hx.2.1, k2.cst.trans hx.2.2⟩
  obtain ⟨h2, g2, c2⟩ := b2
  obtain ⟨w3, x3, hw', hi⟩ := findNewContacts_spec h2 e3
  have hg : w'.g = w3.g := by rw [hw']
  have hcs : w'.cst = w3.cst := by rw [hw']
  have hgw : w2.g = w.g := g2.trans m1.g
  refine ⟨fun c hc => ?_, fun c hc hn => ?_⟩
  · obtain ⟨o1, o2, o3⟩ := x3.old c (by rw [hgw]; exact h.link.lt c hc)
    rw [hg, hcs]
    refine ⟨o3.mpr (by rw [hgw]; exact hc), o1.trans (by rw [hgw]), ?_⟩
    rw [o2, c2]
    exact m1.touching c
  · rw [hg] at hc
    have hge : w.g.nextContact ≤ c := by
      by_contra hlt
      rw [← hgw] at hlt
      refine hn ?_
      rw [← hgw]
      exact ((x3.old c (not_le.mp hlt)).2.2).mp hc
    refine ⟨hge, ?_⟩
    rw [hcs]
    exact (x3.new c hc (by rw [hgw]; exact hge)).1

theorem stepLocked_touch {E : Engine F} (hE : CallbacksTame E.env) (hL : LeavesBodies E.env) {w w' : World F} {step : TimeStep F} (h : WInv w)
    (hc : w.continuous = false ∨ ¬ 0 < step.dt) (e : w.stepLocked E.env step = some w') :
    (∀ c ∈ w.g.contactList, Active w (w.g.contacts c) → (c ∈ w'.g.contactList → w'.g.contacts c = w.g.contacts c ∧ FatNear w (w.g.contacts c) ∧ ((w'.cst c).touching = true ↔ TouchFound w (w.g.contacts c))) ∧
      (PassesFilter E.env w c → FatNear w (w.g.contacts c) → c ∈ w'.g.contactList)) ∧
    ∀ c ∈ w'.g.contactList, (w'.cst c).touching = true → c ∈ w.g.contactList ∧ w'.g.contacts c = w.g.contacts c := by
  unfold stepLocked at e
  simp only [Option.bind_eq_bind, Option.bind_eq_some_iff] at e
  obtain ⟨w2, f1, w3, f2, w4, f3, f4⟩ := e
  have g1 := (collide_good h f1).1
  obtain ⟨t1, hk, hn, t2⟩ := collide_touch hE hL h f1
  replace hk : ∀ c, w2.g.contacts c = w.g.contacts c := fun c => congrFun hk c
  have hcont : w2.continuous = w.continuous := g1.rest.continuous
  have r3 : (∀ c ∈ w2.g.contactList, c ∈ w3.g.contactList ∧ w3.g.contacts c = w2.g.contacts c ∧ (w3.cst c).touching = (w2.cst c).touching) ∧
      (∀ c ∈ w3.g.contactList, c ∉ w2.g.contactList → w2.g.nextContact ≤ c ∧ (w3.cst c).touching = false) ∧ w3.continuous = w2.continuous := by
    split at f2
    · obtain ⟨a, b⟩ := solve_touch g1.winv f2
      exact ⟨a, b, (solve_good g1.winv f2).rest.continuous⟩
    · cases f2
      exact ⟨fun c hc => ⟨hc, rfl, rfl⟩, fun c hc hn => absurd hc hn, rfl⟩
  have e4 : w4 = w3 := by
    split at f3
    · rename_i hx
      rcases hc with hc | hc
      · rw [r3.2.2, hcont, hc] at hx
        exact absurd hx.1 (by decide)
      · exact absurd hx.2 hc
    · cases f3; rfl
  subst e4
  have r5 : w'.g = w4.g ∧ ∀ c, (w'.cst c).touching = (w4.cst c).touching := by
    cases f4
    have q : ∀ v : World F, v.g = w4.g → v.cst = w4.cst → (if v.clearForces then v.clearForcesAll else v).g = w4.g ∧
        ∀ c, ((if v.clearForces then v.clearForcesAll else v).cst c).touching = (w4.cst c).touching := by
      intro v h1 h2
      split
      · exact ⟨(clearForces_mild v).g.trans h1, fun c => by rw [(clearForces_mild v).touching, h2]⟩
      · exact ⟨h1, fun c => by rw [h2]⟩
    refine q _ ?_ ?_ <;> split <;> rfl
  rw [r5.1]
  refine ⟨fun c hm ha => ?_, fun c hm ht => ?_⟩
  · obtain ⟨t3, t4⟩ := t2 c hm ha
    refine ⟨fun hx => ?_, fun hf hn => (r3.1 c (t4 hf hn)).1⟩
    have hx2 : c ∈ w2.g.contactList := by
      by_contra hno
      have := (r3.2.1 c hx hno).1
      rw [hn] at this
      exact absurd (h.link.lt c hm) (not_lt.mpr this)
    rw [r5.2, (r3.1 c hx2).2.2]
    exact ⟨by rw [(r3.1 c hx2).2.1, hk], t3 hx2⟩
  · rw [r5.2] at ht
    have hx2 : c ∈ w2.g.contactList := by
      by_contra hno
      rw [(r3.2.1 c hm hno).2] at ht
      cases ht
    exact ⟨t1 c hx2, by rw [(r3.1 c hx2).2.1, hk]⟩

theorem PassesFilter.lock {env : Env F} {w : World F} {c : Nat} (h : PassesFilter env w c) : PassesFilter env ({ w with locked := true } : World F) c :=
  h.imp id fun ⟨hs, D, hm⟩ => ⟨hs, D, Alike.may hs (w := w) (w' := { w with locked := true }) ⟨fun _ => rfl, rfl, fun _ => rfl, fun _ => rfl, rfl, rfl, fun _ => rfl⟩ hm⟩

theorem step_touch {E : Engine F} (hE : CallbacksTame E.env) (hL : LeavesBodies E.env) {w w' : World F} {dt : F} {vi pi : Nat} (h : WInv w)
    (hc : w.continuous = false ∨ ¬ 0 < dt) (e : w.step E.env dt vi pi = some w') :
    (∀ c ∈ w.g.contactList, Active w (w.g.contacts c) → (c ∈ w'.g.contactList → w'.g.contacts c = w.g.contacts c ∧ FatNear w (w.g.contacts c) ∧ ((w'.cst c).touching = true ↔ TouchFound w (w.g.contacts c))) ∧
      (PassesFilter E.env w c → FatNear w (w.g.contacts c) → c ∈ w'.g.contactList)) ∧
    ∀ c ∈ w'.g.contactList, (w'.cst c).touching = true → Active w (w'.g.contacts c) → TouchFound w (w'.g.contacts c) := by
  unfold step at e
  simp only [Option.bind_eq_bind, Option.bind_eq_some_iff] at e
  obtain ⟨w1, e1, w5, e2, e3⟩ := e
  cases e3
  obtain ⟨i1, s2, s3, s4, s5, s6⟩ := stepBegin_touch h e1
  obtain ⟨t1, t2⟩ := stepLocked_touch hE hL (w := { w1 with locked := true }) (i1.frame rfl rfl) (hc.imp (fun h => s2.trans h) id) e2
  refine ⟨fun c hm ha => ?_, fun c hm ht ha => ?_⟩
  · obtain ⟨m1, m2, m3⟩ := s3 c hm
    obtain ⟨n1, n2, n3⟩ := s6 c m1
    rw [m2] at n1 n2 n3
    have t := t1 c m1
    rw [show ({ w1 with locked := true } : World F).g.contacts c = w.g.contacts c from m2] at t
    obtain ⟨t3, t4⟩ := t (n3 ha)
    refine ⟨fun hx => ?_, fun hf hn => t4 (m3 hf).lock (n1.mpr hn)⟩
    obtain ⟨k1, k2, k3⟩ := t3 hx
    exact ⟨k1, n1.mp k2, k3.trans n2⟩
  · obtain ⟨m1, m2⟩ := t2 c hm ht
    obtain ⟨n1, n2, n3⟩ := s6 c m1
    rw [← show w5.g.contacts c = w1.g.contacts c from m2] at n1 n2 n3
    have t := t1 c m1
    rw [← m2] at t
    exact n2.mp (((t (n3 ha)).1 hm).2.2.mp ht)

/-- A pair that overlaps when contacts have just been looked for, or are about to be, has its contact after the step. -/
theorem step_notice {E : Engine F} (hE : CallbacksTame E.env) (hL : LeavesBodies E.env) {D : Nat → Nat → Prop} (hs : FilterSteady E.env) {w w' : World F} {dt : F} {vi pi : Nat} (h : WInv w)
    (hco : Comp E.env D w) (hid : w.newContacts = true ∨ Idle w)
    (hc : w.continuous = false ∨ ¬ 0 < dt) (e : w.step E.env dt vi pi = some w') {x y : Nat × Nat} (hx : Live w.g x.1 x.2) (hy : Live w.g y.1 y.2)
    (hm : MayCollide E.env D w x.1 y.1) (ho : FatOverlap w x y) (ha : ∃ b, (w.phys b).awake = true ∧ (w.g.bodies b).type ≠ .static ∧ ((w.g.fixtures x.1).body = some b ∨ (w.g.fixtures y.1).body = some b)) :
    ∃ c ∈ w'.g.contactList, (((w'.g.contacts c).fA, (w'.g.contacts c).iA) = x ∧ ((w'.g.contacts c).fB, (w'.g.contacts c).iB) = y ∨
        ((w'.g.contacts c).fA, (w'.g.contacts c).iA) = y ∧ ((w'.g.contacts c).fB, (w'.g.contacts c).iB) = x) ∧
      ((w'.cst c).touching = true ↔ TouchFound w (w'.g.contacts c)) ∧
      ∃ k, registers (w.g.fixtures (w'.g.contacts c).fA).shape.type (w.g.fixtures (w'.g.contacts c).fB).shape.type = ⟨some k, true⟩ := by
  unfold step at e
  simp only [Option.bind_eq_bind, Option.bind_eq_some_iff] at e
  obtain ⟨w1, e1, w5, e2, e3⟩ := e
  cases e3
  obtain ⟨i1, s2, s3, s4, s5, s6⟩ := stepBegin_touch h e1
  obtain ⟨t1, t2⟩ := stepLocked_touch hE hL (w := { w1 with locked := true }) (i1.frame rfl rfl) (hc.imp (fun h => s2.trans h) id) e2
  have key : Comp E.env D w1 ∧ Idle w1 ∧ Alike w w1 ∧ FatOverlap w1 x y ∧ Live w1.g x.1 x.2 ∧ Live w1.g y.1 y.2 ∧ w1.g.fixtures = w.g.fixtures := by
    unfold stepBegin at e1
    split at e1
    · simp only [Option.bind_eq_bind, Option.bind_eq_some_iff] at e1
      obtain ⟨v, a1, a2⟩ := e1
      cases a2
      obtain ⟨v2, x2, hv, hi⟩ := findNewContacts_spec h a1
      have hg : v.g = v2.g := by rw [hv]
      have hfa : v.fattr = w.fattr := by rw [hv]; exact x2.fattr
      have := x2.alike
      obtain ⟨k1, k2⟩ := findNewContacts_comp hs h hco a1
      have fu : Full E.env D True v := ⟨(findNewContacts_good h a1).winv, k1, fun _ => k2⟩
      have fu' : Full E.env D True ({ v with newContacts := false } : World F) := fu.same hs rfl rfl rfl
      refine ⟨fu'.comp, fu'.idle trivial, ⟨fun f => by show (v.g.fixtures f).body = _; rw [hg]; exact this.body f, by show v.g.bodyList = _; rw [hg]; exact this.bodyList,
        fun b => by show (v.g.bodies b).type = _; rw [hg]; exact this.type b, fun b => by show (v.g.bodies b).enabled = _; rw [hg]; exact this.enabled b,
        by show v.g.jointList = _; rw [hg]; exact this.jointList, by show v.g.joints = _; rw [hg]; exact this.joints, fun f => by show (v.fattr f).filter = _; rw [hfa]⟩, ?_, ?_, ?_, ?_⟩
      · exact (findNewContacts_overlap h a1 hx hy).mpr ho
      · show Live v.g _ _
        rw [hg]; exact (x2.live _ _).mpr hx
      · show Live v.g _ _
        rw [hg]; exact (x2.live _ _).mpr hy
      · show v.g.fixtures = _
        rw [hg]; exact x2.fixtures
    · rename_i hn
      cases e1
      exact ⟨hco, hid.resolve_left hn, ⟨fun _ => rfl, rfl, fun _ => rfl, fun _ => rfl, rfl, rfl, fun _ => rfl⟩, ho, hx, hy, rfl⟩
  obtain ⟨k1, k2, k3, k4, k5, k6, k7⟩ := key
  obtain ⟨gh, buf, rep, hb, id1, id2, p1, p2, g1, g2, rfl, rfl, hmt⟩ := fatOverlap_meets i1 k4 k5 k6
  have he := k2 gh buf rep hb
  subst he
  have hm1 := k3.may hs hm
  have hh : HasContact w1 p1.data p2.data := by
    rcases k1 gh [] rep hb id1 id2 p1 p2 g1 g2 hm1 hmt with k | k | k
    · exact k
    · cases k
    · cases k
  obtain ⟨c, hc1, hc2⟩ := hh
  dsimp only at hc2
  obtain ⟨n1, n2, n3⟩ := s6 c hc1
  have hact : Active w (w1.g.contacts c) := by
    obtain ⟨b, b1, b2, b3⟩ := ha
    refine ⟨b, b1, b2, ?_⟩
    rcases hc2 with ⟨q1, q2⟩ | ⟨q1, q2⟩
    · rw [← q1, ← q2] at b3; exact b3
    · rw [← q1, ← q2] at b3; exact b3.symm
  have hpass : PassesFilter E.env w1 c := by
    refine .inr ⟨hs, D, ?_⟩
    rcases hc2 with ⟨q1, q2⟩ | ⟨q1, q2⟩
    · rw [← q1, ← q2] at hm1; exact hm1
    · rw [← q1, ← q2] at hm1; exact hm1.symm
  have hnear : FatNear w1 (w1.g.contacts c) := by
    unfold FatNear
    rcases hc2 with ⟨q1, q2⟩ | ⟨q1, q2⟩
    · rw [q1, q2]; exact k4
    · rw [q1, q2]
      obtain ⟨px, py, i, j, o1, o2, o3, o4, o5⟩ := k4
      refine ⟨py, px, j, i, o3, o4, o1, o2, ?_⟩
      simp only [BroadPhase.testOverlap, Option.bind_eq_bind, Option.bind_eq_some_iff] at o5 ⊢
      obtain ⟨u, u1, v, u2, u3⟩ := o5
      refine ⟨v, u2, u, u1, ?_⟩
      have := (overlap_iff u v).mp (Option.some.inj u3)
      exact congrArg some ((overlap_iff v u).mpr ⟨this.2.1, this.1, this.2.2.2, this.2.2.1⟩)
  obtain ⟨t3, t4⟩ := t1 c hc1 (n3 hact)
  have hin := t4 hpass.lock hnear
  obtain ⟨j1, j2, j3⟩ := t3 hin
  replace j1 : w5.g.contacts c = w1.g.contacts c := j1
  refine ⟨c, hin, ?_, ?_, ?_⟩
  · show ((w5.g.contacts c).fA, _) = _ ∧ _ ∨ _
    rw [j1]
    exact hc2
  · show _ ↔ TouchFound w (w5.g.contacts c)
    rw [j1]
    exact j3.trans n2
  · show ∃ k, registers (w.g.fixtures (w5.g.contacts c).fA).shape.type (w.g.fixtures (w5.g.contacts c).fB).shape.type = ⟨some k, true⟩
    rw [j1, ← k7]
    obtain ⟨_, _, -, -, -, -, -, -, hr⟩ := i1.ok c hc1
    exact ⟨_, hr⟩

end World
end
end B2
