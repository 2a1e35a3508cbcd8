import Verif.Proofs.WorldSteady
import Verif.Proofs.WorldTotal
import Verif.Spec.Impact

/-! Continuous collision: the times of impact that are kept are right. -/
namespace B2
set_option linter.unusedSectionVars false
open World Spec

section
variable {F : Type} [Field F] [LinearOrder F] [IsStrictOrderedRing F] [Elem F]
variable {env : Env F} {dt : F} {b : Nat}

theorem core_sweep {p q : Phys F} (h : q.core = p.core) : q.sweep = p.sweep := by rw [core_eq h]

/-- The kept times of impact are the same. -/
def SameToi (w w' : World F) : Prop := ∀ k, (w'.cst k).toiFlag = (w.cst k).toiFlag ∧ (w'.cst k).toi = (w.cst k).toi

namespace SameToi
variable {w w' w'' : World F}
theorem refl (w : World F) : SameToi w w := fun _ => ⟨rfl, rfl⟩
theorem trans (h : SameToi w w') (h' : SameToi w' w'') : SameToi w w'' := fun k => ⟨(h' k).1.trans (h k).1, (h' k).2.trans (h k).2⟩
theorem calm (h : Calm0 w w') : SameToi w w' := fun k => ⟨h.toiFlag k, h.toi k⟩
theorem same (h : w'.cst = w.cst) : SameToi w w' := fun k => by rw [h]; exact ⟨rfl, rfl⟩
theorem setCst {c : Nat} {s : CState F} (h1 : s.toiFlag = (w.cst c).toiFlag) (h2 : s.toi = (w.cst c).toi) : SameToi w (w.setCst c s) :=
  fun k => ⟨proj_upd (fun q : CState F => q.toiFlag) h1 k, proj_upd (fun q : CState F => q.toi) h2 k⟩
end SameToi

theorem toiVisit_sameToi {a : F} {body : Nat} {x x' : World F × Island} {ed : Nat × Nat} (e : toiVisit env a body x ed = some x') : SameToi x.1 x'.1 := by
  unfold toiVisit at e
  dsimp only at e
  split at e
  · cases e; exact .refl _
  split at e
  · cases e
  split at e
  · cases e; exact .refl _
  split at e
  · cases e; exact .refl _
  simp only [Option.bind_eq_bind, Option.bind_eq_some_iff] at e
  obtain ⟨w1, e1, w2, e2, e3⟩ := e
  have h1 : SameToi x.1 w1 := by
    split at e1
    · exact .same (advance_calm0 e1).2.1
    · cases e1; exact .refl _
  have h2 := h1.trans (.calm (contactUpdate_spec e2).2.1)
  split at e3
  · cases e3; exact h2.trans (.same rfl)
  have h3 : SameToi x.1 (w2.setCst ed.1 { w2.cst ed.1 with island := true }) := h2.trans (.setCst rfl rfl)
  split at e3
  · cases e3; exact h3
  · cases e3
    refine h3.trans (.same ?_)
    show (if _ then _ else _ : World F).cst = _
    split <;> rfl

theorem toiVisits_sameToi {a : F} {body : Nat} {x x' : World F × Island} (e : toiVisits env a x body = some x') : SameToi x.1 x'.1 := by
  unfold toiVisits at e
  split at e
  · exact foldlM_inv (fun y => SameToi x.1 y.1) e (.refl _) (fun ed _ y y' hy h => hy.trans (toiVisit_sameToi h))
  · cases e; exact .refl _

theorem toiIsland_sameToi {w : World F} {c bA bB : Nat} {a : F} {x : World F × Island} (e : w.toiIsland env c bA bB a = some x) : SameToi w x.1 := by
  unfold toiIsland at e
  simp only [Option.bind_eq_bind, Option.bind_eq_some_iff] at e
  obtain ⟨x1, e1, e2⟩ := e
  refine (SameToi.trans ?_ (toiVisits_sameToi e1)).trans (toiVisits_sameToi e2)
  exact SameToi.setCst (w := w) (c := c) (s := { w.cst c with island := true }) rfl rfl

/-- KeptToi times of impact are the same or forgotten. -/
def FewerToi (w w' : World F) : Prop := ∀ k, (w'.cst k).toiFlag = true → (w.cst k).toiFlag = true ∧ (w'.cst k).toi = (w.cst k).toi

namespace FewerToi
variable {w w' w'' : World F}
theorem refl (w : World F) : FewerToi w w := fun _ h => ⟨h, rfl⟩
theorem trans (h : FewerToi w w') (h' : FewerToi w' w'') : FewerToi w w'' := fun k hk =>
  have a := h' k hk
  have b := h k a.1
  ⟨b.1, a.2.trans b.2⟩
theorem same (h : SameToi w w') : FewerToi w w' := fun k hk => ⟨(h k).1 ▸ hk, (h k).2⟩
theorem clear {c : Nat} {s : CState F} (h1 : s.toiFlag = false) : FewerToi w (w.setCst c s) := by
  intro k hk
  replace hk : (upd w.cst c s k).toiFlag = true := hk
  show _ ∧ (upd w.cst c s k).toi = _
  by_cases hkc : k = c
  · subst hkc; rw [upd_same, h1] at hk; cases hk
  · rw [upd_other _ _ hkc] at hk ⊢; exact ⟨hk, rfl⟩
theorem off (h : FewerToi w w') {k : Nat} (hk : (w.cst k).toiFlag = false) : (w'.cst k).toiFlag = false := by
  by_contra hn
  rw [(h k (by simpa using hn)).1] at hk
  cases hk
end FewerToi

theorem clears_fewer (l : List (Nat × Nat)) (w : World F) :
    FewerToi w (l.foldl (fun w e => w.setCst e.1 { w.cst e.1 with toiFlag := false, island := false }) w) ∧
    ∀ e ∈ l, ((l.foldl (fun w e => w.setCst e.1 { w.cst e.1 with toiFlag := false, island := false }) w).cst e.1).toiFlag = false := by
  induction l generalizing w with
  | nil => exact ⟨.refl _, by simp⟩
  | cons x l ih =>
    rw [List.foldl_cons]
    obtain ⟨i1, i2⟩ := ih (w.setCst x.1 { w.cst x.1 with toiFlag := false, island := false })
    refine ⟨(FewerToi.clear rfl).trans i1, fun e he => ?_⟩
    rcases List.mem_cons.mp he with rfl | he
    · refine i1.off ?_
      show (upd w.cst e.1 _ e.1).toiFlag = false
      rw [upd_same]
    · exact i2 e he

/-- Releasing a body: nothing moves, and a dynamic body's contacts forget their times of impact. -/
theorem toiRelease_fewer {w w' : World F} {y : Nat} (h : WInv w) (e : w.toiRelease y = some w') :
    WInv w' ∧ w'.g = w.g ∧ (∀ z, (w'.phys z).sweep = (w.phys z).sweep) ∧ FewerToi w w' ∧
    (w.typeOf y = .dynamic → ∀ ed ∈ (w.g.bodies y).contacts, (w'.cst ed.1).toiFlag = false) := by
  have hw1 : WInv (w.setPhys y { w.phys y with island := false }) := h.frame rfl rfl
  have hs1 : ∀ z, ((w.setPhys y { w.phys y with island := false }).phys z).sweep = (w.phys z).sweep := fun z => proj_upd (fun q : Phys F => q.sweep) (by rfl) z
  have hg1 : (w.setPhys y { w.phys y with island := false }).g = w.g := rfl
  have hf1 : FewerToi w (w.setPhys y { w.phys y with island := false }) := .same (.same rfl)
  have ht1 : (w.setPhys y { w.phys y with island := false }).typeOf y = w.typeOf y := rfl
  unfold toiRelease at e
  dsimp only at e
  generalize w.setPhys y { w.phys y with island := false } = w1 at *
  split at e
  · rename_i htd
    cases e
    exact ⟨hw1, hg1, hs1, hf1, fun hd => absurd (ht1.trans hd) htd⟩
  · simp only [Option.bind_eq_bind, Option.bind_eq_some_iff] at e
    obtain ⟨w2, e2, e3⟩ := e
    cases e3
    obtain ⟨w2', k1, k2, k3⟩ := synchronizeFixtures_spec y hw1.pinv
    rw [e2] at k1
    cases k1
    obtain ⟨t1, -, -⟩ := synchronizeFixtures_track hw1 e2
    have hg2 : w2.g = w1.g := by rw [t1.frame]
    have hp2 : w2.phys = w1.phys := by rw [t1.frame]
    have hc2 : w2.cst = w1.cst := by rw [t1.frame]
    have hw2 : WInv w2 := hw1.bpFrame k2 k3
    obtain ⟨s1, s2, s3⟩ := setCsts_same (w2.g.bodies y).contacts (fun _ e => e.1) (fun w e => { w.cst e.1 with toiFlag := false, island := false }) w2
    obtain ⟨c1, c2⟩ := clears_fewer (w2.g.bodies y).contacts w2
    refine ⟨hw2.frame s1 s2, s1.trans (hg2.trans hg1), fun z => ?_, (hf1.trans (.same (.same hc2))).trans c1, fun _ ed hed => c2 ed (by rw [hg2, hg1]; exact hed)⟩
    rw [show _ = w2.phys from s3, hp2]; exact hs1 z

theorem toiReleases_fewer : ∀ (l : List Nat) {w w' : World F}, WInv w → l.foldlM toiRelease w = some w' →
    WInv w' ∧ w'.g = w.g ∧ (∀ z, (w'.phys z).sweep = (w.phys z).sweep) ∧ FewerToi w w' ∧
    (∀ y ∈ l, w.typeOf y = .dynamic → ∀ ed ∈ (w.g.bodies y).contacts, (w'.cst ed.1).toiFlag = false) := by
  intro l
  induction l with
  | nil => intro w w' h e; cases e; exact ⟨h, rfl, fun _ => rfl, .refl _, by simp⟩
  | cons x l ih =>
    intro w w' h e
    rw [List.foldlM_cons] at e
    simp only [Option.bind_eq_bind, Option.bind_eq_some_iff] at e
    obtain ⟨w1, e1, e2⟩ := e
    obtain ⟨a1, a2, a3, a4, a5⟩ := toiRelease_fewer h e1
    obtain ⟨b1, b2, b3, b4, b5⟩ := ih a1 e2
    refine ⟨b1, b2.trans a2, fun z => (b3 z).trans (a3 z), a4.trans b4, fun y hy hd ed hed => ?_⟩
    rcases List.mem_cons.mp hy with rfl | hy
    · exact b4.off (a5 hd ed hed)
    · exact b5 y hy (by rw [World.typeOf, a2]; exact hd) ed (by rw [a2]; exact hed)

/-- A body that is not in the island around a time of impact keeps its sweep. -/
theorem still_follows (s : Sweep F) : Follows0 b (fun v : World F => (v.phys b).sweep = s) (fun _ _ => True) where
  full hs h := (congrArg Phys.sweep hs.core).trans h
  half _ _ := trivial
  advance _ _ _ _ _ := trivial
  restore := by
    intro v v1 v2 a h _ _ _
    unfold World.restore
    show (upd v2.phys b _ b).sweep = s
    rw [upd_same]; exact h
  resync _ := trivial

theorem joins_listed {w : World F} (h : WInv w) {k y z : Nat} (hk : k ∈ w.g.contactList) (hj : w.g.joins k y z) : y ∈ w.g.bodyList := by
  obtain ⟨bA, bB, hA, hB, -, lA, lB, -, -⟩ := contact_met h hk
  rcases hj with ⟨h1, -⟩ | ⟨h1, -⟩
  · have : some bA = some y := hA.symm.trans h1
    cases this; exact lA
  · have : some bB = some y := hB.symm.trans h1
    cases this; exact lB

/-- What an impact does to the kept times of impact and to the sweeps of dynamic bodies: no time is made up, new contacts have none, and a contact that keeps
its time has dynamic bodies whose sweeps are unchanged. -/
structure Hit (w w' : World F) : Prop where
  fewer : ∀ k ∈ w.g.contactList, (w'.cst k).toiFlag = true → (w.cst k).toiFlag = true ∧ (w'.cst k).toi = (w.cst k).toi
  fresh : ∀ k ∈ w'.g.contactList, k ∉ w.g.contactList → (w'.cst k).toiFlag = false
  sweep : ∀ k ∈ w.g.contactList, (w'.cst k).toiFlag = true → ∀ y z, w.g.joins k y z → w.typeOf y = .dynamic → (w'.phys y).sweep = (w.phys y).sweep
  contacts : ∀ k ∈ w.g.contactList, w'.g.contacts k = w.g.contacts k
  fixtures : w'.g.fixtures = w.g.fixtures

theorem Hit.pre {w w1 w' : World F} (h : Hit w1 w') (hg : w1.g = w.g) (hf : FewerToi w w1)
    (hs : ∀ k ∈ w.g.contactList, (w'.cst k).toiFlag = true → ∀ y z, w.g.joins k y z → w.typeOf y = .dynamic → (w'.phys y).sweep = (w1.phys y).sweep → (w1.phys y).sweep = (w.phys y).sweep) : Hit w w' where
  fewer k hk hf' := by
    obtain ⟨a, b⟩ := h.fewer k (by rw [hg]; exact hk) hf'
    obtain ⟨c, d⟩ := hf k a
    exact ⟨c, b.trans d⟩
  fresh k hk hn := h.fresh k hk (by rw [hg]; exact hn)
  sweep k hk hf' y z hj hd := by
    have := h.sweep k (by rw [hg]; exact hk) hf' y z (by rw [hg]; exact hj) (by rw [World.typeOf, hg]; exact hd)
    exact this.trans (hs k hk hf' y z hj hd this)
  contacts k hk := by rw [h.contacts k (by rw [hg]; exact hk), hg]
  fixtures := by rw [h.fixtures, hg]

theorem toiSolid_hit (hE : LeavesBodies env) {a : F} (h0 : 0 ≤ a) (h1 : a < 1) {step : TimeStep F} {w w' : World F} (hi : WInv w) (ht : Timely w) (hcl : Clean w)
    {c bA bB : Nat} (hc : c ∈ w.g.contactList) (hj : w.g.joins c bA bB) (hA : bA ∈ w.g.bodyList) (hB : bB ∈ w.g.bodyList) (hne : bA ≠ bB) (hmA : Act w.g bA) (hmB : Act w.g bB)
    (e : w.toiSolid env step c bA bB a = some w') :
    Hit w w' ∧ ∀ k ∈ w.g.contactList, (w'.cst k).toiFlag = true → ∀ y z, w.g.joins k y z → w.typeOf y = .dynamic → y ≠ bA ∧ y ≠ bB := by
  unfold toiSolid at e
  simp only [Option.bind_eq_bind, Option.bind_eq_some_iff] at e
  obtain ⟨x, e1, w1, e2, w2, e3, e4⟩ := e
  obtain ⟨hx, -⟩ := toiIsland_fitted hi.toGInv hc hj hcl hA hB hne e1
  have hnd : x.2.bodies.Nodup := by
    rw [List.nodup_iff_getElem?_ne_getElem?]
    intro i j hij hjl hij'
    obtain ⟨y, hy⟩ : ∃ y, x.2.bodies[j]? = some y := ⟨_, List.getElem?_eq_getElem hjl⟩
    have k1 := hx.index j y hy
    have k2 := hx.index i y (hij'.trans hy)
    rw [k1] at k2
    omega
  have T1 := toiIsland_sameToi e1
  have T2 : SameToi w w1 := T1.trans (.calm (islandSolveToi_calm0 e2))
  have X0 := toiIsland_track (b := bA) (Full := fun _ => True) (Half := fun _ _ => True) ⟨fun _ _ => trivial, fun _ _ => trivial, fun _ _ _ _ _ => trivial, fun _ _ _ _ => trivial, fun _ => trivial⟩
    hE h0 h1 hi.toGInv ht hcl hA hB hne hmA hmB (fun _ _ => trivial) (fun _ => trivial) hA e1
  have f2 : WFrame w w1 := X0.frame.trans (islandSolveToi_mild e2).toWFrame
  have hw1 : WInv w1 := hi.frame f2.g f2.bp
  obtain ⟨r1, r2, r3, r4, r5⟩ := toiReleases_fewer x.2.bodies hw1 e3
  have hph := findNewContacts_phys e4
  obtain ⟨w3, x1, hw', -⟩ := findNewContacts_spec r1 e4
  have hg' : w'.g = w3.g := by rw [hw']
  have hc' : w'.cst = w3.cst := by rw [hw']
  have hlt : ∀ k ∈ w.g.contactList, k < w2.g.nextContact := fun k hk => by
    rw [r2, f2.g]
    exact hi.link.lt k hk
  have fw : FewerToi w w2 := (FewerToi.same T2).trans r4
  -- a contact that keeps its time has no dynamic body in the island
  have out : ∀ k ∈ w.g.contactList, (w'.cst k).toiFlag = true → ∀ y z, w.g.joins k y z → w.typeOf y = .dynamic → y ∉ x.2.bodies := by
    intro k hk hf y z hjo hd hy
    rw [hc', (x1.old k (hlt k hk)).2.1] at hf
    have := r5 y hy (by rw [World.typeOf, f2.g]; exact hd) (k, z) (by rw [f2.g]; exact (hi.link.edges y k z).mpr ⟨hk, hjo⟩)
    rw [show (w2.cst k).toiFlag = false from this] at hf
    cases hf
  have two : bA ∈ x.2.bodies ∧ bB ∈ x.2.bodies := by
    obtain ⟨-, p1, p2, -⟩ := toiIsland_placed hi.toGInv hc hj (hcl bA hA) (hcl bB hB) hne e1
    exact ⟨List.mem_of_getElem? p1, List.mem_of_getElem? p2⟩
  refine ⟨⟨fun k hk hf => ?_, fun k hk hn => ?_, fun k hk hf y z hjo hd => ?_, fun k hk => ?_, ?_⟩, fun k hk hf y z hjo hd => ?_⟩
  · rw [hc', (x1.old k (hlt k hk)).2.1] at hf ⊢
    exact fw k hf
  · rw [hc']
    rw [hg'] at hk
    by_cases hl : k < w2.g.nextContact
    · rw [(x1.old k hl).2.2, r2, f2.g] at hk
      exact absurd hk hn
    · exact (x1.new k hk (by omega)).2.2.2.1
  · have hy := out k hk hf y z hjo hd
    have hyl : y ∈ w.g.bodyList := joins_listed hi hk hjo
    have hcore := ((islandSolveToi_track (b := y) hE hx hnd e2).1 hy).core
    rw [hph, r3, show (w1.phys y).sweep = (x.1.phys y).sweep from core_sweep hcore]
    have X := toiIsland_track (b := y) (still_follows (w.phys y).sweep) hE h0 h1 hi.toGInv ht hcl hA hB hne hmA hmB (fun _ _ => rfl) (fun _ => trivial) hyl e1
    refine X.full ?_
    cases hfl : (x.1.phys y).island with
    | false => rfl
    | true => exact absurd (X.flag y hyl hfl) hy
  · rw [hg', (x1.old k (hlt k hk)).1, r2, f2.g]
  · rw [hg', x1.eq, r2, f2.g]
  · have hy := out k hk hf y z hjo hd
    exact ⟨fun h => hy (h ▸ two.1), fun h => hy (h ▸ two.2)⟩

theorem advance_sweep {w w' : World F} {y z : Nat} {a : F} (e : w.advance y a = some w') (h : z ≠ y) : (w'.phys z).sweep = (w.phys z).sweep := by
  obtain ⟨p, -, rfl, -⟩ := advance_eq e
  show (upd w.phys y p z).sweep = _
  rw [upd_other _ _ h]

theorem toiEvent_hit (hE : LeavesBodies env) {a : F} (h0 : 0 ≤ a) (h1 : a < 1) {step : TimeStep F} {w : World F} (hi : WInv w) (ht : Timely w) (hcl : Clean w)
    {c : Nat} (hc : c ∈ w.g.contactList) {x : World F × Bool} (e : w.toiEvent env step c a = some x) : Hit w x.1 := by
  obtain ⟨bA, bB, hA, hB, hne, lA, lB, mA, mB⟩ := contact_met hi hc
  unfold toiEvent at e
  simp only [hA, hB, Option.bind_eq_bind, Option.bind_some, Option.bind_eq_some_iff] at e
  obtain ⟨w1, e1, w2, e2, w3, e3, e⟩ := e
  obtain ⟨f3, c3, -, -⟩ := contactUpdate_spec e3
  obtain ⟨p1, -, hw1, ha1⟩ := advance_eq e1
  obtain ⟨p2, -, hw2, ha2⟩ := advance_eq e2
  have t1 : Timely w1 := by rw [hw1]; exact ht.setPhys (by rw [ha1]; exact h0)
  have t2 : Timely w2 := by rw [hw2]; exact t1.setPhys (by rw [ha2]; exact h0)
  have t4 : Timely (w3.setCst c { w3.cst c with toiFlag := false, toiCount := (w3.cst c).toiCount + 1 }) := (t2.calm f3.g c3).setCst (fun hh => by cases hh)
  have f2 : WFrame w w2 := (advance_mild e1).toWFrame.trans (advance_mild e2).toWFrame
  have f4 : WFrame w (w3.setCst c { w3.cst c with toiFlag := false, toiCount := (w3.cst c).toiCount + 1 }) := (f2.trans f3).trans (setCst_soft (by rfl) (by rfl)).toWFrame
  have i4 : ∀ y, ((w3.setCst c { w3.cst c with toiFlag := false, toiCount := (w3.cst c).toiCount + 1 }).phys y).island = (w.phys y).island :=
    fun y => (c3.island y).trans ((((advance_calm0 e2).2.2 y).1).trans ((advance_calm0 e1).2.2 y).1)
  have k4 : FewerToi w (w3.setCst c { w3.cst c with toiFlag := false, toiCount := (w3.cst c).toiCount + 1 }) :=
    ((FewerToi.same (.same ((advance_calm0 e2).2.1.trans (advance_calm0 e1).2.1))).trans (.same (.calm c3))).trans (.clear rfl)
  have s4 : ∀ y, y ≠ bA → y ≠ bB → ((w3.setCst c { w3.cst c with toiFlag := false, toiCount := (w3.cst c).toiCount + 1 }).phys y).sweep = (w.phys y).sweep := by
    intro y n1 n2
    have hcore := (contactUpdate_spares hE (b := y) e3).core
    show (w3.phys y).sweep = _
    rw [show (w3.phys y).sweep = (w2.phys y).sweep from core_sweep hcore, advance_sweep e2 n2, advance_sweep e1 n1]
  generalize w3.setCst c { w3.cst c with toiFlag := false, toiCount := (w3.cst c).toiCount + 1 } = w4 at *
  split at e
  · cases e
    have g5 : ((w4.setCst c { w4.cst c with enabled := false }).restore bA (w.phys bA).sweep |>.restore bB (w.phys bB).sweep).g = w.g := f4.g
    have k5 : FewerToi w ((w4.setCst c { w4.cst c with enabled := false }).restore bA (w.phys bA).sweep |>.restore bB (w.phys bB).sweep) :=
      k4.trans (.same (SameToi.setCst (w := w4) (c := c) (s := { w4.cst c with enabled := false }) rfl rfl))
    refine ⟨fun k _ => k5 k, fun k hk hn => absurd (by rw [g5] at hk; exact hk) hn, fun k _ _ y z _ _ => ?_, fun k _ => by rw [g5], by rw [g5]⟩
    show (upd (upd w4.phys bA _) bB _ y).sweep = _
    by_cases hyB : y = bB
    · subst hyB; rw [upd_same]; rfl
    · rw [upd_other _ _ hyB]
      by_cases hyA : y = bA
      · subst hyA; rw [upd_same]; rfl
      · rw [upd_other _ _ hyA]; exact s4 y hyA hyB
  · simp only [Option.bind_eq_some_iff] at e
    obtain ⟨w5, e5, hx⟩ := e
    cases hx
    obtain ⟨q1, q2⟩ := toiSolid_hit hE h0 h1 (hi.frame f4.g f4.bp) t4 (fun y hy => by rw [i4]; exact hcl y (by rw [← f4.g]; exact hy))
      (by rw [f4.g]; exact hc) (by rw [f4.g]; exact Or.inl ⟨hA, hB⟩) (by rw [f4.g]; exact lA) (by rw [f4.g]; exact lB) hne (by rw [f4.g]; exact mA) (by rw [f4.g]; exact mB) e5
    refine q1.pre f4.g k4 (fun k hk hf y z hj hd _ => ?_)
    obtain ⟨n1, n2⟩ := q2 k (by rw [f4.g]; exact hk) hf y z (by rw [f4.g]; exact hj) (by rw [World.typeOf, f4.g]; exact hd)
    exact s4 y n1 n2

/-! ### The courses of the bodies -/

theorem Spec.SameCourse.refl (s : Sweep F) : SameCourse s s := ⟨rfl, fun _ => rfl, fun _ => rfl⟩
theorem Spec.SameCourse.trans {s s' s'' : Sweep F} (h : SameCourse s s') (h' : SameCourse s' s'') : SameCourse s s'' :=
  ⟨h.center.trans h'.center, fun t => (h.path t).trans (h'.path t), fun t => (h.turn t).trans (h'.turn t)⟩

/-- Bringing a sweep to a later time does not change its course. -/
theorem course_advance {s s' : Sweep F} {a : F} (ha : a < 1) (e : s.advance a = some s') : SameCourse s s' := by
  obtain ⟨hlt, rfl⟩ := Sweep.advance_eq e
  have h1 : (1 - a) ≠ 0 := by linarith
  have h2 : (1 - s.alpha0) ≠ 0 := by linarith
  have key : ∀ x x0 tau : F, x + ((1 - tau) / (1 - s.alpha0)) * (x0 - x) = x + ((1 - tau) / (1 - a)) * (x0 + ((a - s.alpha0) / (1 - s.alpha0)) * (x - x0) - x) := by
    intro x x0 tau
    field_simp
    ring
  refine ⟨rfl, fun tau => ?_, fun tau => ?_⟩
  · simp only [centerAt, Vec2.ext_iff, Vec2.add_x, Vec2.add_y, Vec2.smul_x, Vec2.smul_y, Vec2.sub_x, Vec2.sub_y]
    exact ⟨key _ _ _, key _ _ _⟩
  · exact key _ _ _

/-- Static and kinematic bodies keep their course. -/
theorem course_heavy {T T' t t' : BodyType} {p0 p q : Phys F} (hp : HeavyF T dt p0 t p) (hq : HeavyF T' dt p0 t' q) (h1 : p.sweep.alpha0 < 1) (h2 : q.sweep.alpha0 < 1) :
    SameCourse p.sweep q.sweep := by
  have h1 : (1 - p.sweep.alpha0) ≠ 0 := by linarith
  have h2 : (1 - q.sweep.alpha0) ≠ 0 := by linarith
  have key : ∀ {x x0 y0 v al be : F} (tau : F), 1 - al ≠ 0 → 1 - be ≠ 0 → x0 + ((1 - al) * dt) * v = x → y0 + ((1 - be) * dt) * v = x →
      x + ((1 - tau) / (1 - al)) * (x0 - x) = x + ((1 - tau) / (1 - be)) * (y0 - x) := by
    intro x x0 y0 v al be tau g1 g2 e1 e2
    have e1 : x0 - x = - ((1 - al) * dt * v) := by rw [← e1]; ring
    have e2 : y0 - x = - ((1 - be) * dt * v) := by rw [← e2]; ring
    rw [e1, e2]
    field_simp
  refine ⟨hp.center.trans hq.center.symm, fun tau => ?_, fun tau => ?_⟩
  · have c1 := hp.c0
    have c2 := hq.c0
    unfold centerAt
    rw [hp.c, hq.c]
    simp only [Vec2.ext_iff, Vec2.add_x, Vec2.add_y, Vec2.smul_x, Vec2.smul_y, Vec2.sub_x, Vec2.sub_y] at c1 c2 ⊢
    exact ⟨key tau h1 h2 c1.1 c2.1, key tau h1 h2 c1.2 c2.2⟩
  · unfold angleAt
    rw [hp.a, hq.a]
    exact key tau h1 h2 hp.a0 hq.a0

theorem early_follows : Follows env dt b (fun v : World F => (v.phys b).sweep.alpha0 < 1) (fun _ v => (v.phys b).sweep.alpha0 < 1) (fun v => (v.phys b).sweep.alpha0 < 1) where
  full hs h := by rw [core_sweep hs.core]; exact h
  half hs h := by rw [core_sweep hs.core]; exact h
  done hs h := by rw [core_sweep hs.core]; exact h
  align := by
    intro v a s _ _ _ h1 e
    show (upd v.phys b _ b).sweep.alpha0 < 1
    rw [upd_same]
    show s.alpha0 < 1
    rw [sweep_advance_alpha e]; exact h1
  advance := by
    intro v v' a _ _ _ h1 e
    obtain ⟨p, -, rfl, hp⟩ := advance_eq e
    show (upd v.phys b p b).sweep.alpha0 < 1
    rw [upd_same, hp]; exact h1
  restore := by
    intro v v1 v2 a h _ _ _
    unfold World.restore
    show (upd v2.phys b _ b).sweep.alpha0 < 1
    rw [upd_same]; exact h
  resync := by
    intro v a h
    unfold World.restore
    show (upd v.phys b _ b).sweep.alpha0 < 1
    rw [upd_same]; exact h
  solve := by
    intro v v1 isl sub states i a h _ _ _ _ _ _ _ _ _ hp _
    show (upd v.phys b _ b).sweep.alpha0 < 1
    rw [upd_same]
    show (v1.phys b).sweep.alpha0 < 1
    rcases hp with hp | hp <;> rw [hp] <;> exact h
  release := by
    intro v v' h hw _ e
    obtain ⟨t1, -, -⟩ := synchronizeFixtures_track hw e
    rw [show v'.phys = v.phys by rw [t1.frame]]; exact h
  stay h _ := h

/-! ### The kept times are right -/

/-- The kept time of contact `k` is what the search found on the present courses of its bodies. -/
def KeptToi (env : Env F) (w : World F) (k : Nat) : Prop :=
  ∀ bA bB, w.bodyOf (w.g.contacts k).fA = some bA → w.bodyOf (w.g.contacts k).fB = some bB →
    ∃ (u : World F) (r : Bool × F), u.g.contacts k = w.g.contacts k ∧ u.g.fixtures = w.g.fixtures ∧ env.toi u k = some r ∧
      (u.phys bA).sweep.alpha0 = (u.phys bB).sweep.alpha0 ∧ (u.phys bA).sweep.alpha0 < 1 ∧
      SameCourse (u.phys bA).sweep (w.phys bA).sweep ∧ SameCourse (u.phys bB).sweep (w.phys bB).sweep ∧
      (w.typeOf bA = .dynamic → (u.phys bA).sweep.alpha0 ≤ (w.phys bA).sweep.alpha0) ∧ (w.typeOf bB = .dynamic → (u.phys bB).sweep.alpha0 ≤ (w.phys bB).sweep.alpha0) ∧
      (w.cst k).toi = if r.1 then min ((u.phys bA).sweep.alpha0 + (1 - (u.phys bA).sweep.alpha0) * r.2) 1 else 1

theorem KeptToi.move {w w' : World F} {k : Nat} (h : KeptToi env w k) (hk : w'.g.contacts k = w.g.contacts k) (hf : w'.g.fixtures = w.g.fixtures) (ht : (w'.cst k).toi = (w.cst k).toi)
    (hty : ∀ y, w'.typeOf y = w.typeOf y)
    (hs : ∀ y, w.bodyOf (w.g.contacts k).fA = some y ∨ w.bodyOf (w.g.contacts k).fB = some y → SameCourse (w.phys y).sweep (w'.phys y).sweep ∧
      (w.typeOf y = .dynamic → (w.phys y).sweep.alpha0 ≤ (w'.phys y).sweep.alpha0)) : KeptToi env w' k := by
  intro bA bB hA hB
  have hbo : ∀ f, w'.bodyOf f = w.bodyOf f := fun f => by unfold World.bodyOf; rw [hf]
  rw [hk, hbo] at hA hB
  obtain ⟨u, r, u1, u2, u3, u4, u5, u6, u7, u8, u9, u10⟩ := h bA bB hA hB
  obtain ⟨a1, a2⟩ := hs bA (.inl hA)
  obtain ⟨b1, b2⟩ := hs bB (.inr hB)
  refine ⟨u, r, u1.trans hk.symm, u2.trans hf.symm, u3, u4, u5, u6.trans a1, u7.trans b1, fun hd => ?_, fun hd => ?_, ht.trans u10⟩
  · rw [hty] at hd; exact (u8 hd).trans (a2 hd)
  · rw [hty] at hd; exact (u9 hd).trans (b2 hd)

/-- What holds between two impacts. `P` are the bodies at the beginning of the step. -/
structure Impacts (env : Env F) (dt : F) (P : Nat → Phys F) (w : World F) : Prop where
  winv : WInv w
  clean : Clean w
  times : Timely w
  early : ∀ y ∈ w.g.bodyList, (w.phys y).sweep.alpha0 < 1
  heavy : ∀ y ∈ w.g.bodyList, w.typeOf y ≠ .dynamic → (w.g.bodies y).enabled = true → Slow dt (P y).v (P y).w ∧ At y (HeavyF (w.typeOf y) dt (P y)) w
  kept : ∀ k ∈ w.g.contactList, (w.cst k).toiFlag = true → KeptToi env w k

variable {P : Nat → Phys F}

theorem event_impacts (hE : LeavesBodies env) (hH : HeavyStay env) {a : F} (h0 : 0 ≤ a) (h1 : a < 1) {step : TimeStep F} (hdt : step.dt = dt) {w : World F} (h : Impacts env dt P w)
    {c : Nat} (hc : c ∈ w.g.contactList) {x : World F × Bool} (e : w.toiEvent env step c a = some x) : Impacts env dt P x.1 := by
  have hit := toiEvent_hit hE h0 h1 h.winv h.times h.clean hc e
  have gd := (toiEvent_good (env := env) h.winv hc e).1
  have tE : ∀ y ∈ w.g.bodyList, TL y (fun v => (v.phys y).sweep.alpha0 < 1) x.1 := fun y hy =>
    toiEvent_track early_follows hE h0 h1 hdt ⟨h.winv, h.clean, h.times, h.early y hy, hy⟩ hc e
  obtain ⟨bA, -, -, -, -, lA, -, -, -⟩ := contact_met h.winv hc
  have T := tE bA lA
  have hbl := gd.bodyList
  have hen : ∀ y, (x.1.g.bodies y).enabled = (w.g.bodies y).enabled := fun y => by rw [gd.body y]
  have hvy : ∀ y ∈ w.g.bodyList, w.typeOf y ≠ .dynamic → (w.g.bodies y).enabled = true → Slow dt (P y).v (P y).w ∧ At y (HeavyF (w.typeOf y) dt (P y)) x.1 := by
    intro y hy hd hen
    obtain ⟨k1, k2⟩ := h.heavy y hy hd hen
    exact ⟨k1, (toiEvent_track (heavy_follows hH k1 hd) hE h0 h1 hdt ⟨h.winv, h.clean, h.times, k2, hy⟩ hc e).full⟩
  refine ⟨T.winv, T.clean, T.times, fun y hy => (tE y (by rw [← hbl]; exact hy)).full, fun y hy hd hen' => ?_, fun k hk hf => ?_⟩
  · rw [gd.type] at hd ⊢
    exact hvy y (by rw [← hbl]; exact hy) hd (by rw [← hen]; exact hen')
  · have hkl : k ∈ w.g.contactList := by
      by_contra hn
      rw [hit.fresh k hk hn] at hf; cases hf
    obtain ⟨f1, f2⟩ := hit.fewer k hkl hf
    refine (h.kept k hkl f1).move (hit.contacts k hkl) hit.fixtures f2 gd.type (fun y hy => ?_)
    obtain ⟨z, hjo⟩ : ∃ z, w.g.joins k y z := by
      obtain ⟨bA, bB, hA, hB, -⟩ := contact_met h.winv hkl
      rcases hy with hy | hy
      · exact ⟨bB, .inl ⟨hy, hB⟩⟩
      · exact ⟨bA, .inr ⟨hy, hA⟩⟩
    have hyl := joins_listed h.winv hkl hjo
    by_cases hd : w.typeOf y = .dynamic
    · rw [hit.sweep k hkl hf y z hjo hd]
      exact ⟨.refl _, fun _ => le_refl _⟩
    · have hen := ginv_enabled h.winv.toGInv hkl hjo
      exact ⟨course_heavy (h.heavy y hyl hd hen).2 (hvy y hyl hd hen).2 (h.early y hyl) (tE y hyl).full, fun hd' => absurd hd' hd⟩

/-! ### The search -/

/-- What decides whether a contact is watched is the same. -/
structure SameWatch (w w' : World F) : Prop where
  g : w'.g = w.g
  fattr : w'.fattr = w.fattr
  cst : ∀ k, (w'.cst k).enabled = (w.cst k).enabled ∧ (w'.cst k).toiCount = (w.cst k).toiCount
  phys : ∀ y, (w'.phys y).awake = (w.phys y).awake ∧ (w'.phys y).bullet = (w.phys y).bullet

namespace SameWatch
variable {w w' w'' : World F}
theorem refl (w : World F) : SameWatch w w := ⟨rfl, rfl, fun _ => ⟨rfl, rfl⟩, fun _ => ⟨rfl, rfl⟩⟩
theorem trans (h : SameWatch w w') (h' : SameWatch w' w'') : SameWatch w w'' :=
  ⟨h'.g.trans h.g, h'.fattr.trans h.fattr, fun k => ⟨(h'.cst k).1.trans (h.cst k).1, (h'.cst k).2.trans (h.cst k).2⟩,
    fun y => ⟨(h'.phys y).1.trans (h.phys y).1, (h'.phys y).2.trans (h.phys y).2⟩⟩
theorem type (h : SameWatch w w') (y : Nat) : w'.typeOf y = w.typeOf y := by unfold World.typeOf; rw [h.g]
theorem watched (h : SameWatch w w') {k bA bB : Nat} (hw : Watched w' k bA bB) : Watched w k bA bB := by
  have ha : ∀ y, w'.active y = w.active y := fun y => by unfold World.active World.isAwake; rw [(h.phys y).1, h.type]
  have hb : ∀ y, w'.collides y = w.collides y := fun y => by unfold World.collides; rw [(h.phys y).2, h.type]
  obtain ⟨h1, h2, h3, h4, h5⟩ := hw
  rw [ha, ha] at h4
  rw [hb, hb] at h5
  refine ⟨(h.cst k).1.symm.trans h1, (h.cst k).2 ▸ h2, ?_, h4, h5⟩
  unfold World.sensorContact at h3 ⊢
  rw [h.g, h.fattr] at h3
  exact h3
end SameWatch

theorem alignSweeps_course {w w' : World F} {bA bB : Nat} {a : F} (hne : bA ≠ bB) (e : w.alignSweeps bA bB = some (w', a)) :
    SameWatch w w' ∧ w'.cst = w.cst ∧ (∀ y, SameCourse (w.phys y).sweep (w'.phys y).sweep ∧ (w.phys y).sweep.alpha0 ≤ (w'.phys y).sweep.alpha0) ∧
    (w'.phys bA).sweep.alpha0 = a ∧ (w'.phys bB).sweep.alpha0 = a ∧ a < 1 := by
  have key : ∀ {y : Nat} {t : F} {s : Sweep F}, (w.phys y).sweep.alpha0 < t → t < 1 → (w.phys y).sweep.advance t = some s →
      SameWatch w (w.setPhys y { w.phys y with sweep := s }) ∧
      (∀ z, SameCourse (w.phys z).sweep ((w.setPhys y { w.phys y with sweep := s }).phys z).sweep ∧ (w.phys z).sweep.alpha0 ≤ ((w.setPhys y { w.phys y with sweep := s }).phys z).sweep.alpha0) ∧
      ((w.setPhys y { w.phys y with sweep := s }).phys y).sweep.alpha0 = t ∧ (∀ z, z ≠ y → ((w.setPhys y { w.phys y with sweep := s }).phys z) = w.phys z) := by
    intro y t s hlt ht hs
    have hy : (w.setPhys y { w.phys y with sweep := s }).phys y = { w.phys y with sweep := s } := upd_same _ _ _
    have hz : ∀ z, z ≠ y → (w.setPhys y { w.phys y with sweep := s }).phys z = w.phys z := fun z h => upd_other _ _ h
    refine ⟨⟨rfl, rfl, fun _ => ⟨rfl, rfl⟩, fun z => ?_⟩, fun z => ?_, ?_, hz⟩
    · by_cases h : z = y
      · subst h; rw [hy]; exact ⟨rfl, rfl⟩
      · rw [hz z h]; exact ⟨rfl, rfl⟩
    · by_cases h : z = y
      · subst h; rw [hy]
        exact ⟨course_advance ht hs, by show _ ≤ s.alpha0; rw [sweep_advance_alpha hs]; exact hlt.le⟩
      · rw [hz z h]; exact ⟨.refl _, le_refl _⟩
    · rw [hy]; exact sweep_advance_alpha hs
  unfold alignSweeps at e
  dsimp only at e
  split at e
  · rename_i hab
    simp only [Option.bind_eq_bind, Option.bind_eq_some_iff] at e
    obtain ⟨s, hs, e⟩ := e
    split at e
    · rename_i hlt
      cases e
      obtain ⟨k1, k2, k3, k4⟩ := key hab hlt hs
      exact ⟨k1, rfl, k2, k3, by rw [k4 bB (Ne.symm hne)], hlt⟩
    · cases e
  rename_i hab
  split at e
  · rename_i hba
    simp only [Option.bind_eq_bind, Option.bind_eq_some_iff] at e
    obtain ⟨s, hs, e⟩ := e
    split at e
    · rename_i hlt
      cases e
      obtain ⟨k1, k2, k3, k4⟩ := key hba hlt hs
      exact ⟨k1, rfl, k2, by rw [k4 bA hne], k3, hlt⟩
    · cases e
  · rename_i hba
    split at e
    · rename_i hlt
      cases e
      exact ⟨.refl _, rfl, fun _ => ⟨.refl _, le_refl _⟩, rfl, le_antisymm (not_lt.mp hab) (not_lt.mp hba), hlt⟩
    · cases e

/-- One contact of the search. -/
theorem toiOf_impacts (hT : ToiForward env) (hH : HeavyStay env) {w : World F} (h : Impacts env dt P w) {c : Nat} (hc : c ∈ w.g.contactList) {x : World F × Option F}
    (e : w.toiOf env c = some x) :
    Impacts env dt P x.1 ∧ SameWatch w x.1 ∧ (∀ k, (w.cst k).toiFlag = true → (x.1.cst k).toiFlag = true ∧ (x.1.cst k).toi = (w.cst k).toi) ∧
    (∀ bA bB, w.bodyOf (w.g.contacts c).fA = some bA → w.bodyOf (w.g.contacts c).fB = some bB → Watched w c bA bB → x.2 = some (x.1.cst c).toi ∧ (x.1.cst c).toiFlag = true) := by
  obtain ⟨bA, bB, hA, hB, hne, lA, lB, mA, mB⟩ := contact_met h.winv hc
  have tE : ∀ y ∈ w.g.bodyList, TL y (fun v => (v.phys y).sweep.alpha0 < 1) x.1 := fun y hy =>
    (toiOf_track (env := env) (dt := dt) early_follows hT ⟨h.winv, h.clean, h.times, h.early y hy, hy⟩ hc e).1
  have hvy : ∀ y ∈ w.g.bodyList, w.typeOf y ≠ .dynamic → (w.g.bodies y).enabled = true → Slow dt (P y).v (P y).w ∧ At y (HeavyF (w.typeOf y) dt (P y)) x.1 := by
    intro y hy hd hen
    obtain ⟨k1, k2⟩ := h.heavy y hy hd hen
    exact ⟨k1, (toiOf_track (heavy_follows hH k1 hd) hT ⟨h.winv, h.clean, h.times, k2, hy⟩ hc e).1.full⟩
  have main : ∀ {v : World F}, x.1 = v → SameWatch w v → (∀ k ∈ w.g.contactList, (v.cst k).toiFlag = true → KeptToi env v k) → Impacts env dt P v := by
    rintro v rfl hw hk
    have T := tE bA lA
    refine ⟨T.winv, T.clean, T.times, fun y hy => (tE y (by rw [← hw.g]; exact hy)).full, fun y hy hd hen => ?_, fun k hk' => hk k (by rw [← hw.g]; exact hk')⟩
    rw [hw.type] at hd ⊢
    exact hvy y (by rw [← hw.g]; exact hy) hd (by rw [← hw.g]; exact hen)
  unfold toiOf at e
  dsimp only at e
  split at e
  · rename_i hen
    cases e
    exact ⟨h, .refl _, fun _ hk => ⟨hk, rfl⟩, fun _ _ _ _ hw => absurd hw.enabled (by rw [hen]; decide)⟩
  split at e
  · rename_i hct
    cases e
    exact ⟨h, .refl _, fun _ hk => ⟨hk, rfl⟩, fun _ _ _ _ hw => absurd hw.count (not_le.mpr hct)⟩
  split at e
  · rename_i hf
    cases e
    exact ⟨h, .refl _, fun _ hk => ⟨hk, rfl⟩, fun _ _ _ _ _ => ⟨rfl, hf⟩⟩
  rename_i hnf
  split at e
  · rename_i hsn
    cases e
    exact ⟨h, .refl _, fun _ hk => ⟨hk, rfl⟩, fun _ _ _ _ hw => absurd hw.solid (by rw [hsn]; decide)⟩
  simp only [hA, hB, Option.bind_eq_bind, Option.bind_some] at e
  split at e
  · cases e
  split at e
  · cases e
  split at e
  · rename_i hac
    cases e
    refine ⟨h, .refl _, fun _ hk => ⟨hk, rfl⟩, fun bA' bB' hA' hB' hw => ?_⟩
    rw [hA] at hA'; rw [hB] at hB'; cases hA'; cases hB'
    have := hw.active
    rw [hac.1, hac.2] at this
    simp at this
  split at e
  · rename_i hco
    cases e
    refine ⟨h, .refl _, fun _ hk => ⟨hk, rfl⟩, fun bA' bB' hA' hB' hw => ?_⟩
    rw [hA] at hA'; rw [hB] at hB'; cases hA'; cases hB'
    have := hw.collides
    rw [hco.1, hco.2] at this
    simp at this
  simp only [Option.bind_eq_some_iff] at e
  obtain ⟨⟨w1, a0⟩, e1, r, er, e⟩ := e
  obtain ⟨s1, s2, s3, s4, s5, s6⟩ := alignSweeps_course hne e1
  dsimp only at er e
  cases e
  set v : World F := w1.setCst c { w1.cst c with toi := if r.1 = true then min (a0 + (1 - a0) * r.2) 1 else 1, toiFlag := true } with hv
  have hvc : v.cst c = { w1.cst c with toi := if r.1 = true then min (a0 + (1 - a0) * r.2) 1 else 1, toiFlag := true } := upd_same _ _ _
  have hvk : ∀ k, k ≠ c → v.cst k = w.cst k := fun k hk => (upd_other _ _ hk).trans (by rw [s2])
  have sw : SameWatch w v := by
    refine ⟨s1.g, s1.fattr, fun k => ?_, s1.phys⟩
    by_cases hk : k = c
    · subst hk; rw [hvc]; exact s1.cst k
    · rw [hvk k hk]; exact ⟨rfl, rfl⟩
  refine ⟨main rfl sw (fun k hk hf => ?_), sw, fun k hf => ?_, fun _ _ _ _ _ => ⟨?_, ?_⟩⟩
  · by_cases hkc : k = c
    · subst hkc
      intro cA cB hA' hB'
      have hg : v.g = w.g := sw.g
      have hbo : ∀ f, v.bodyOf f = w.bodyOf f := fun f => by unfold World.bodyOf; rw [hg]
      rw [hg, hbo] at hA' hB'
      rw [hA] at hA'; rw [hB] at hB'; cases hA'; cases hB'
      refine ⟨w1, r, by rw [hg, s1.g], by rw [hg, s1.g], er, s4.trans s5.symm, by rw [s4]; exact s6, .refl _, .refl _, fun _ => le_refl _, fun _ => le_refl _, ?_⟩
      rw [hvc, s4]
    · rw [hvk k hkc] at hf
      refine (h.kept k hk hf).move (by rw [sw.g]) (by rw [sw.g]) (by rw [hvk k hkc]) sw.type (fun y _ => ⟨(s3 y).1, fun _ => (s3 y).2⟩)
  · by_cases hkc : k = c
    · subst hkc; exact absurd hf hnf
    · rw [hvk k hkc]; exact ⟨hf, rfl⟩
  · rw [hvc]
  · rw [hvc]

/-- The search: the time it ends with is not after that of any watched contact. -/
theorem toiScan_impacts (hT : ToiForward env) (hH : HeavyStay env) : ∀ (l : List Nat) {w w' : World F} {best best' : Option Nat} {m m' : F}, Impacts env dt P w →
    (∀ c ∈ l, c ∈ w.g.contactList) → (best = none → m = 1) → toiScan env l w best m = some (w', best', m') →
    Impacts env dt P w' ∧ SameWatch w w' ∧ (∀ k, (w.cst k).toiFlag = true → (w'.cst k).toiFlag = true ∧ (w'.cst k).toi = (w.cst k).toi) ∧ m' ≤ m ∧ (best' = none → m' = 1) ∧
    ∀ c ∈ l, ∀ bA bB, w.bodyOf (w.g.contacts c).fA = some bA → w.bodyOf (w.g.contacts c).fB = some bB → Watched w' c bA bB → (w'.cst c).toiFlag = true ∧ m' ≤ (w'.cst c).toi := by
  intro l
  induction l with
  | nil =>
    intro w w' best best' m m' h _ hm e
    cases e
    exact ⟨h, .refl _, fun _ hk => ⟨hk, rfl⟩, le_refl _, hm, by simp⟩
  | cons c l ih =>
    intro w w' best best' m m' h hc hm e
    unfold toiScan at e
    simp only [Option.bind_eq_bind, Option.bind_eq_some_iff] at e
    obtain ⟨⟨w1, t⟩, e1, e⟩ := e
    obtain ⟨h1, s1, f1, k1⟩ := toiOf_impacts hT hH h (hc c (by simp)) e1
    dsimp only at h1 s1 f1 k1
    have hc' : ∀ x ∈ l, x ∈ w1.g.contactList := fun x hx => by rw [s1.g]; exact hc x (by simp [hx])
    have hbo : ∀ f, w1.bodyOf f = w.bodyOf f := fun f => by unfold World.bodyOf; rw [s1.g]
    have key : ∀ {b1 : Option Nat} {m1 : F}, m1 ≤ m → (b1 = none → m1 = 1) → (∀ a, t = some a → m1 ≤ a) → toiScan env l w1 b1 m1 = some (w', best', m') →
        Impacts env dt P w' ∧ SameWatch w w' ∧ (∀ k, (w.cst k).toiFlag = true → (w'.cst k).toiFlag = true ∧ (w'.cst k).toi = (w.cst k).toi) ∧ m' ≤ m ∧ (best' = none → m' = 1) ∧
        ∀ x ∈ c :: l, ∀ bA bB, w.bodyOf (w.g.contacts x).fA = some bA → w.bodyOf (w.g.contacts x).fB = some bB → Watched w' x bA bB → (w'.cst x).toiFlag = true ∧ m' ≤ (w'.cst x).toi := by
      intro b1 m1 hle hb1 hta e
      obtain ⟨i1, i2, i3, i4, i5, i6⟩ := ih h1 hc' hb1 e
      refine ⟨i1, s1.trans i2, fun k hk => ?_, i4.trans hle, i5, fun x hx bA bB hA hB hw => ?_⟩
      · obtain ⟨a1, a2⟩ := f1 k hk
        obtain ⟨b1, b2⟩ := i3 k a1
        exact ⟨b1, b2.trans a2⟩
      · rcases List.mem_cons.mp hx with rfl | hx
        · obtain ⟨a1, a2⟩ := k1 bA bB hA hB ((s1.trans i2).watched hw)
          obtain ⟨b1, b2⟩ := i3 x a2
          exact ⟨b1, by rw [b2]; exact i4.trans (hta _ a1)⟩
        · exact i6 x hx bA bB (by rw [s1.g, hbo]; exact hA) (by rw [s1.g, hbo]; exact hB) hw
    cases t with
    | none => exact key (le_refl _) hm (fun a h => by cases h) e
    | some alpha =>
      dsimp only at e
      split at e
      · rename_i hlt
        exact key hlt.le (fun h => by cases h) (fun a h => by cases h; exact le_refl _) e
      · rename_i hlt
        exact key (le_refl _) hm (fun a h => by cases h; exact not_lt.mp hlt) e

/-- The loop ends without an impact left before the end of the step. -/
theorem toiLoop_impacts (hE : LeavesBodies env) (hT : ToiForward env) (hH : HeavyStay env) {step : TimeStep F} (hdt : step.dt = dt) :
    ∀ (n : Nat) {w w' : World F}, Impacts env dt P w → w.subStepping = false → toiLoop env step n w = some w' →
    Impacts env dt P w' ∧ ∀ k ∈ w'.g.contactList, ∀ bA bB, w'.bodyOf (w'.g.contacts k).fA = some bA → w'.bodyOf (w'.g.contacts k).fB = some bB → Watched w' k bA bB →
      (w'.cst k).toiFlag = true ∧ 1 - 10 * epsilon < (w'.cst k).toi := by
  intro n
  induction n with
  | zero => intro w w' _ _ e; cases e
  | succ n ih =>
    intro w w' h hsub e
    unfold toiLoop at e
    simp only [Option.bind_eq_bind, Option.bind_eq_some_iff] at e
    obtain ⟨⟨w1, best, m⟩, e1, e⟩ := e
    obtain ⟨h1, s1, -, -, hb, hk⟩ := toiScan_impacts hT hH _ h (fun _ h => h) (fun _ => rfl) e1
    have hset : ∀ {v : World F} (f : Bool), Impacts env dt P v → Impacts env dt P { v with stepComplete := f } := fun {v} f hv =>
      ⟨hv.winv.frame rfl rfl, hv.clean, ⟨hv.times.alpha, hv.times.toi⟩, hv.early, hv.heavy, hv.kept⟩
    have fin : 1 - 10 * epsilon < m → Impacts env dt P { w1 with stepComplete := true } ∧ ∀ k ∈ w1.g.contactList, ∀ bA bB, w1.bodyOf (w1.g.contacts k).fA = some bA →
        w1.bodyOf (w1.g.contacts k).fB = some bB → Watched { w1 with stepComplete := true } k bA bB → (w1.cst k).toiFlag = true ∧ 1 - 10 * epsilon < (w1.cst k).toi := by
      intro hm
      refine ⟨hset _ h1, fun k hkl bA bB hA hB hw => ?_⟩
      have hbo : ∀ f, w1.bodyOf f = w.bodyOf f := fun f => by unfold World.bodyOf; rw [s1.g]
      rw [s1.g, hbo] at hA hB
      obtain ⟨a1, a2⟩ := hk k (by rw [← s1.g]; exact hkl) bA bB hA hB ⟨hw.enabled, hw.count, hw.solid, hw.active, hw.collides⟩
      exact ⟨a1, hm.trans_le a2⟩
    cases best with
    | none =>
      cases e
      refine fin ?_
      rw [hb rfl]
      have : (0 : F) < epsilon := by unfold epsilon; positivity
      linarith
    | some c =>
      dsimp only at e
      split at e
      · rename_i hm
        cases e
        exact fin hm
      rename_i hm
      simp only [Option.bind_eq_some_iff] at e
      obtain ⟨⟨w2, solid⟩, e2, e⟩ := e
      obtain ⟨m1, hbest⟩ := toiScan_mild _ e1
      have hc1 : c ∈ w1.g.contactList := by
        rw [m1.g]
        rcases hbest c rfl with h | h
        · cases h
        · exact h.1
      have hm0 : 0 ≤ m := by
        obtain ⟨bA, -, -, -, -, lA, -⟩ := contact_met h.winv (c := c) (by rw [← m1.g]; exact hc1)
        exact (toiScan_track (env := env) (dt := dt) early_follows hT _ ⟨h.winv, h.clean, h.times, h.early bA lA, lA⟩ (fun _ h => h) zero_le_one e1).2
      have h2 := event_impacts hE hH hm0 (early_time hm) hdt h1 hc1 e2
      have hs2 : w2.subStepping = false := by
        rw [(toiEvent_good (env := env) h1.winv hc1 e2).1.rest.subStepping, m1.toWFrame.rest.subStepping]; exact hsub
      dsimp only at e
      rw [if_neg (fun h => by rw [hs2] at h; cases h.2)] at e
      exact ih h2 hs2 e

/-- Everything but the forces is the same. -/
structure SameButForces (u w' : World F) : Prop where
  g : w'.g = u.g
  cst : w'.cst = u.cst
  fattr : w'.fattr = u.fattr
  phys : ∀ y, (w'.phys y).sweep = (u.phys y).sweep ∧ (w'.phys y).awake = (u.phys y).awake ∧ (w'.phys y).bullet = (u.phys y).bullet

theorem clearForcesAll_same (w : World F) : SameButForces w w.clearForcesAll := by
  have key : ∀ (l : List Nat) (v : World F), SameButForces w v → SameButForces w (l.foldl (fun w y => w.setPhys y { w.phys y with force := ⟨0, 0⟩, torque := 0 }) v) := by
    intro l
    induction l with
    | nil => intro v h; exact h
    | cons x l ih =>
      intro v h
      rw [List.foldl_cons]
      refine ih _ ⟨h.g, h.cst, h.fattr, fun y => ?_⟩
      show (upd v.phys x _ y).sweep = _ ∧ (upd v.phys x _ y).awake = _ ∧ (upd v.phys x _ y).bullet = _
      by_cases hy : y = x
      · subst hy; rw [upd_same]; exact h.phys y
      · rw [upd_other _ _ hy]; exact h.phys y
  unfold clearForcesAll
  exact key _ _ ⟨rfl, rfl, rfl, fun _ => ⟨rfl, rfl, rfl⟩⟩

theorem toiReset_flags {w : World F} (hc : w.stepComplete = true) : ∀ c ∈ w.g.contactList, (w.toiReset.cst c).toiFlag = false := by
  intro c hm
  have key : ∀ (l : List Nat) (v : World F), (c ∈ l ∨ (v.cst c).toiFlag = false) →
      ((l.foldl (fun (w : World F) c => w.setCst c { w.cst c with toiFlag := false, island := false, toiCount := 0, toi := 1 }) v).cst c).toiFlag = false := by
    intro l
    induction l with
    | nil => intro v h; rcases h with h | h; · cases h
             · exact h
    | cons a l ih =>
      intro v h
      rw [List.foldl_cons]
      refine ih _ ?_
      by_cases hca : c = a
      · right
        subst hca
        show (upd v.cst c _ c).toiFlag = false
        rw [upd_same]
      · rcases h with h | h
        · rcases List.mem_cons.mp h with h | h
          · exact absurd h hca
          · exact .inl h
        · right
          show (upd v.cst a _ c).toiFlag = false
          rw [upd_other _ _ hca]; exact h
  have hg : ∀ (l : List Nat) (v : World F), (l.foldl (fun (w : World F) b => w.setPhys b { w.phys b with island := false, sweep := { (w.phys b).sweep with alpha0 := 0 } }) v).g = v.g := by
    intro l
    induction l with
    | nil => intro v; rfl
    | cons a l ih => intro v; rw [List.foldl_cons, ih]; rfl
  unfold toiReset
  rw [if_pos hc]
  dsimp only
  exact key _ _ (.inl (by rw [hg]; exact hm))

/-- A static or kinematic body at the beginning of a step; `S` are those that need no solution. -/
structure HeavyReady (w : World F) (dt : F) (y : Nat) (S : Prop) : Prop where
  con : Consistent (w.typeOf y) (w.phys y)
  static : w.typeOf y = .static → S
  rest : S → (w.phys y).v = ⟨0, 0⟩ ∧ (w.phys y).w = 0 ∧ (w.phys y).sweep.c0 = (w.phys y).sweep.c ∧ (w.phys y).sweep.a0 = (w.phys y).sweep.a
  kin : ¬ S → (w.phys y).awake = true
  slow : Slow dt (w.phys y).v (w.phys y).w
  restless : w.allowSleep = true → restless (w.phys y) = true ∨ ((w.phys y).v = ⟨0, 0⟩ ∧ (w.phys y).w = 0)

theorem step_impacts {w w' : World F} {vi pi : Nat} (hE : LeavesBodies env) (hP : PostSolveLinks env) (hT : ToiForward env) (hH : HeavyStay env)
    (hw : WInv w) (hc : w.stepComplete = true) (hcont : w.continuous = true) (hsub : w.subStepping = false) (hpos : 0 < dt)
    (hb : ∀ y ∈ w.g.bodyList, w.typeOf y ≠ .dynamic → (w.g.bodies y).enabled = true → ∃ S, HeavyReady w dt y S) (e : w.step env dt vi pi = some w') :
    ∃ u : World F, Impacts env dt w.phys u ∧ SameButForces u w' ∧
      ∀ k ∈ u.g.contactList, ∀ bA bB, u.bodyOf (u.g.contacts k).fA = some bA → u.bodyOf (u.g.contacts k).fB = some bB → Watched u k bA bB →
        (u.cst k).toiFlag = true ∧ 1 - 10 * epsilon < (u.cst k).toi := by
  unfold step at e
  simp only [Option.bind_eq_bind, Option.bind_eq_some_iff] at e
  obtain ⟨w1, e1, w2, e2, e3⟩ := e
  unfold stepLocked at e2
  simp only [Option.bind_eq_bind, Option.bind_eq_some_iff] at e2
  obtain ⟨w3, e4, w4, e5, w5, e6, e7⟩ := e2
  have c1 : ∀ y, Calms y w w1 := by
    intro y
    unfold stepBegin at e1
    split at e1
    · simp only [Option.bind_eq_bind, Option.bind_eq_some_iff] at e1
      obtain ⟨v, e1, e1'⟩ := e1
      cases e1'
      exact ((findNewContacts_spares hw e1).trans (.unmoved (w := v) (w' := { v with newContacts := false }) rfl rfl rfl)).calms
    · cases e1; exact (Spares.refl _).calms
  obtain ⟨v, g1, rfl, -⟩ := stepBegin_good hw e1
  have hw1 : WInv { v with newContacts := false, locked := true } := g1.winv.frame rfl rfl
  obtain ⟨g3, -⟩ := collide_good hw1 e4
  have c3 : ∀ y, Calms y w w3 := fun y =>
    ((c1 y).trans (Spares.unmoved (w := { v with newContacts := false }) (w' := { v with newContacts := false, locked := true }) rfl rfl rfl).calms).trans (collide_calms hE hw1 e4)
  have lists : SameLists w.g w3.g := by
    have a1 := g3.body
    have a2 := g3.eq
    dsimp only at a1 a2
    exact ⟨fun y => by rw [a1, g1.body], by rw [a2, g1.eq]⟩
  have hr3 : w3.gravity = w.gravity ∧ w3.allowSleep = w.allowSleep ∧ w3.continuous = w.continuous ∧ w3.stepComplete = w.stepComplete ∧ w3.subStepping = w.subStepping := by
    refine ⟨g3.rest.gravity.trans g1.rest.gravity, g3.rest.allowSleep.trans g1.rest.allowSleep, g3.rest.continuous.trans g1.rest.continuous, g3.rest.stepComplete.trans g1.rest.stepComplete,
      g3.rest.subStepping.trans g1.rest.subStepping⟩
  have hts : World.timeStep { { v with newContacts := false } with locked := true } dt vi pi = w.timeStep dt vi pi := by
    unfold World.timeStep
    dsimp only
    rw [g1.rest.invDt0, show v.warmStarting = w.warmStarting by rw [g1.rest.eq]]
  rw [hts] at e5 e6 e7
  have hdt : (w.timeStep dt vi pi).dt = dt := rfl
  rw [hdt] at e5 e6 e7
  rw [if_pos ⟨hr3.2.2.2.1.trans hc, hpos⟩] at e5
  have g4 := solve_good g3.winv e5
  have hc4 : w4.stepComplete = true := by rw [g4.rest.stepComplete, hr3.2.2.2.1]; exact hc
  rw [if_pos ⟨by rw [g4.rest.continuous, hr3.2.2.1]; exact hcont, hpos⟩] at e6
  unfold solveToi at e6
  -- the static and kinematic bodies when the continuous phase begins
  have hheavy : ∀ y ∈ w.g.bodyList, w.typeOf y ≠ .dynamic → (w.g.bodies y).enabled = true → Slow dt (w.phys y).v (w.phys y).w ∧ At y (Heavy1 (w.typeOf y) dt (w.phys y)) w4 := by
    intro y hy hty hen
    obtain ⟨S, R⟩ := hb y hy hty hen
    have hh := R.con.heavy hty
    have hposed : Posed (w.phys y) := posed_iff.mpr ⟨R.con.rotation, R.con.center⟩
    have hwake : ¬ ((w.phys y).v = ⟨0, 0⟩ ∧ (w.phys y).w = 0) → (w.phys y).awake = true := fun h => R.kin (fun s => h ⟨(R.rest s).1, (R.rest s).2.1⟩)
    have h0 : HeavyAs (w.typeOf y) (w.phys y) (w.typeOf y) (w.phys y) := ⟨rfl, hh.2.1, hh.2.2.2, rfl, rfl, rfl, rfl, hposed, hwake⟩
    have H1 := heavy_solves (b := y) (dt := dt) (S := S) (p0 := w.phys y) (T := w.typeOf y) (step := w.timeStep dt vi pi) (g := w3.g) (G := w.gravity) (al := w.allowSleep = true) hH R.slow rfl hty R.static
      (fun h => ⟨(R.rest h).1, (R.rest h).2.1⟩) (fun _ => by rw [lists.body]; exact hen) R.restless
    refine ⟨R.slow, solve_track H1 hE hP g3.winv (by rw [lists.eq]; exact hy) rfl (fun _ t => t.mem) hr3.1 (by rw [hr3.2.1]; exact id) ⟨?_, fun h => (c3 y).awake (R.kin h)⟩ e5⟩
    unfold At
    rw [(c3 y).type]
    exact Heavy0.core ⟨h0, rfl, rfl, fun h => ⟨(R.rest h).2.2.1, (R.rest h).2.2.2⟩⟩ (c3 y).core (c3 y).awake
  have hbl : w4.g.bodyList = w.g.bodyList := by rw [g4.bodyList, lists.eq]
  have hen4 : ∀ y, (w4.g.bodies y).enabled = (w.g.bodies y).enabled := fun y => by rw [g4.body, lists.body]
  have hty4 : ∀ y, w4.typeOf y = w.typeOf y := fun y => by rw [g4.type]; unfold World.typeOf; rw [lists.body]
  have start : Impacts env dt w.phys w4.toiReset := by
    obtain ⟨r1, r2, r3⟩ := toiReset_ready g4.winv (fun h => by rw [hc4] at h; cases h)
    have hg := (toiReset_soft w4).g
    have fl := toiReset_flags hc4
    refine ⟨r1, r2, ⟨fun y hy => ?_, fun k hk hf => ?_⟩, r3, fun y hy hd hen => ?_, fun k hk hf => ?_⟩
    · exact (toiReset_track hc4 g4.winv (by rw [← hg]; exact hy)).2.2.1.alpha y hy
    · rw [fl k (by rw [← hg]; exact hk)] at hf; cases hf
    · have hty : w4.toiReset.typeOf y = w.typeOf y := by rw [← hty4]; unfold World.typeOf; rw [hg]
      rw [hty] at hd ⊢
      rw [hg] at hy hen
      obtain ⟨k1, k2⟩ := hheavy y (by rw [← hbl]; exact hy) hd (by rw [← hen4]; exact hen)
      refine ⟨k1, ?_⟩
      have hp := (toiReset_track hc4 g4.winv hy).2.2.2.2.2
      unfold At at k2 ⊢
      rw [hty, hp]
      rw [hty4] at k2
      refine ⟨⟨k2.type, k2.invMass, k2.invI, k2.v, k2.w, k2.auto, k2.center, k2.posed, k2.wake⟩, k2.c, k2.a, ?_, ?_⟩
      · show (w4.phys y).sweep.c0 + ((1 - 0) * dt) * (w.phys y).v = _
        rw [k2.c0, sub_zero, one_mul]
      · show (w4.phys y).sweep.a0 + ((1 - 0) * dt) * (w.phys y).w = _
        rw [k2.a0, sub_zero, one_mul]
    · rw [fl k (by rw [← hg]; exact hk)] at hf; cases hf
  have hs4 : w4.toiReset.subStepping = false := by
    rw [(toiReset_soft w4).toWFrame.rest.subStepping, g4.rest.subStepping, hr3.2.2.2.2]; exact hsub
  obtain ⟨i1, i2⟩ := toiLoop_impacts hE hT hH hdt _ start hs4 e6
  refine ⟨w5, i1, ?_, i2⟩
  cases e3
  cases e7
  generalize hx : (if dt > 0 then { w5 with invDt0 := (w.timeStep dt vi pi).invDt } else w5) = x
  have hx' : SameButForces w5 x := by rw [← hx]; split <;> exact ⟨rfl, rfl, rfl, fun _ => ⟨rfl, rfl, rfl⟩⟩
  split
  · have k := clearForcesAll_same x
    exact ⟨k.g.trans hx'.g, k.cst.trans hx'.cst, k.fattr.trans hx'.fattr, fun y => ⟨(k.phys y).1.trans (hx'.phys y).1, (k.phys y).2.1.trans (hx'.phys y).2.1, (k.phys y).2.2.trans (hx'.phys y).2.2⟩⟩
  · exact ⟨hx'.g, hx'.cst, hx'.fattr, hx'.phys⟩

/-- In worlds reached by steady calls the static and kinematic bodies are as they must be at the beginning of a step. -/
theorem Spec.SteadyHist.heavyReady {w : World F} (hE : LeavesBodies env) (hP : PostSolveLinks env) (hT : ToiForward env) (hH : HeavyStay env) (h : SteadyHist env w) {vi pi : Nat}
    (hS : Steady w (.step dt vi pi)) (hpos : 0 < dt) : ∀ y ∈ w.g.bodyList, w.typeOf y ≠ .dynamic → (w.g.bodies y).enabled = true → ∃ S, HeavyReady w dt y S := by
  intro y hy hty hen
  have hcon := whist_stable consistent_stable h.plain.hist y hy
  have rest : ((w.phys y).v = ⟨0, 0⟩ ∧ (w.phys y).w = 0 ∧ (w.phys y).sweep.c0 = (w.phys y).sweep.c ∧ (w.phys y).sweep.a0 = (w.phys y).sweep.a) → ∃ S, HeavyReady w dt y S := fun hr =>
    ⟨True, hcon, fun _ => trivial, fun _ => hr, fun h => absurd trivial h, by rw [hr.1, hr.2.1]; exact slow_zero dt, fun _ => .inr ⟨hr.1, hr.2.1⟩⟩
  cases ht : w.typeOf y with
  | dynamic => exact absurd ht hty
  | static => exact rest (h.plain.rests hE hP hT hH y hy ht)
  | kinematic =>
    cases ha : (w.phys y).awake with
    | false => exact rest ((h.covered hE hP hT hH).2 y hy ht ha)
    | true =>
      have hS' := hS y hy ht ha hen hpos
      refine ⟨False, hcon, fun h => (by rw [ht] at h; cases h), fun h => h.elim, fun _ => ha, hS'.1, fun hal => ?_⟩
      cases hr : restless (w.phys y) with
      | true => exact .inl rfl
      | false => exact .inr (hS'.2 hal (restless_sleepy hr))

end
end B2
