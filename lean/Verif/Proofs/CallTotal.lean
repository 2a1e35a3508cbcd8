import Verif.Spec.Calls
import Verif.Proofs.SerializeTotal
import Verif.Proofs.WorldPointsHist
import Verif.Proofs.ShapeMass

/-! Which calls do not panic. -/
namespace B2
set_option linter.unusedSectionVars false
open World Spec

section
variable {F : Type} [Field F] [LinearOrder F] [IsStrictOrderedRing F] [Elem F] {env : Env F}

/-- Every fixture that was ever created can be given to the collision routines and has mass if its density is not zero. -/
def Sturdy (w : World F) : Prop := ∀ f < w.g.nextFixture, FineShape (w.g.fixtures f).shape ∧ (∀ d, 0 ≤ d → Spec.Solid (d, (w.g.fixtures f).shape)) ∧ 0 ≤ (w.fattr f).density

theorem Sturdy.fix {w w' : World F} (h : Sturdy w) (hf : FixSame w w') : Sturdy w' := by
  intro f hlt
  rw [hf.next] at hlt
  rw [hf.shape]
  obtain ⟨h1, h2, h3⟩ := h f hlt
  exact ⟨h1, h2, hf.density f h3⟩

theorem Sturdy.mass {w : World F} (h : Sturdy w) {b : Nat} (hlt : ∀ f ∈ (w.g.bodies b).fixtures, f < w.g.nextFixture) : ∀ x ∈ w.massList b, Spec.Solid x := by
  intro x hx
  unfold massList at hx
  obtain ⟨f, hf, rfl⟩ := List.mem_map.mp hx
  obtain ⟨-, h2, h3⟩ := h f (hlt f hf)
  exact h2 _ h3

theorem Sturdy.reset {w : World F} (h : Sturdy w) {b : Nat} (hlt : ∀ f ∈ (w.g.bodies b).fixtures, f < w.g.nextFixture) : ∃ w', w.resetMassData b = some w' := by
  obtain ⟨q, hq⟩ := reset_total (w.typeOf b) (w.massList b) (w.phys b) (h.mass hlt)
  refine ⟨w.setPhys b q, ?_⟩
  unfold World.resetMassData bodyOp
  simp only [BodyOp.run, hq, Option.bind_eq_bind, Option.bind_some]
  rfl

theorem older {w : World F} (hw : WInv w) (b : Nat) : ∀ f ∈ (w.g.bodies b).fixtures, f < w.g.nextFixture :=
  fun f hf => (hw.body.owner _ _ ((hw.body.fixtures b f).mp hf).2).1

theorem bodyOp_total {w : World F} (h : Sturdy w) {b : Nat} (hlt : ∀ f ∈ (w.g.bodies b).fixtures, f < w.g.nextFixture) (op : BodyOp F) : ∃ w', w.bodyOp b op = some w' := by
  have hr : ∀ p : Phys F, ∃ q, Phys.resetMassData (w.typeOf b) (w.massList b) p = some q := fun p => reset_total _ _ p (h.mass hlt)
  have : ∃ p, op.run (w.typeOf b) (w.massList b) (w.phys b) = some p := by
    cases op with
    | setFixedRotation flag =>
      simp only [BodyOp.run, Phys.setFixedRotation]
      split
      · exact ⟨_, rfl⟩
      · exact hr _
    | resetMassData => exact hr _
    | _ => exact ⟨_, rfl⟩
  obtain ⟨p, hp⟩ := this
  refine ⟨w.setPhys b p, ?_⟩
  unfold bodyOp
  rw [hp]
  rfl

theorem destroyFixture_total (hs : env.Safe) (hE : CallbacksTame env) {w : World F} {b f : Nat} (hw : WInv w) (hS : Sturdy w) (hl : w.locked = false) (hb : b ∈ w.g.bodyList)
    (hf : (w.g.fixtures f).body = some b) : ∃ w', w.destroyFixture env b f = some w' := by
  have hfm : f ∈ (w.g.bodies b).fixtures := (hw.body.fixtures b f).mpr ⟨hb, hf⟩
  have hcount := hw.body.fixCount b
  unfold destroyFixture
  rw [if_neg (by simp [hl]), if_neg (by simpa [bodyOf] using hf), if_neg (by
    have := List.length_pos_of_mem hfm
    omega)]
  have hr : removeOne (w.g.bodies b).fixtures f = some ((w.g.bodies b).fixtures.erase f) := if_pos hfm
  simp only [hr, Option.bind_eq_bind, Option.bind_some]
  set w1 := w.setBody b { w.g.bodies b with fixtures := (w.g.bodies b).fixtures.erase f } with hw1
  have hone : ∀ x, x ≠ b → f ∉ (w.g.bodies x).fixtures := by
    intro x hx hm
    have := ((hw.body.fixtures x f).mp hm).2
    rw [hf] at this
    cases this
    exact hx rfl
  have hb1 : ∀ x, w1.g.bodies x = { w.g.bodies x with fixtures := (w.g.bodies x).fixtures.erase f } := by
    intro x
    by_cases hx : x = b
    · subst hx; exact upd_same _ _ _
    · have : w1.g.bodies x = w.g.bodies x := upd_other _ _ hx
      rw [this, List.erase_of_not_mem (hone x hx)]
  have hl1 : LinkInv w1.g := hw.link.congr rfl rfl rfl rfl (fun _ => rfl) (fun x => by rw [hb1])
  have hmem : ∀ e ∈ (w.g.bodies b).contacts, e.1 ∈ w1.g.contactList := edge_list hw.link b
  obtain ⟨w2, e2⟩ := destroyContactsOf_total hs (f := f) (w.g.bodies b).contacts hl1 (hw.link.edgeNodup b) hmem
  rw [e2, Option.bind_some]
  have c2 := destroyContactsOf_cut _ hl1 (hw.link.edgeNodup b) (edge_list hw.link b) e2
  have hf2 : w2.g.fixtures = w.g.fixtures := c2.shrunk.fixtures
  have s2 : Sturdy w2 := (hS.fix (w' := w1) ⟨rfl, fun _ => rfl, fun _ => id⟩).fix (destroyContactsOf_firm hE _ e2).fix
  obtain ⟨-, -, hch, hfe, hfd⟩ := hw.body.fix hfm
  obtain ⟨gh, buf, rep, hpi⟩ := hw.prox
  have hpi2 : PI w2.g.fixtures w2.bp (Live w.g) gh buf rep := by
    rw [c2.bp]; exact hpi.congr (fun x => by rw [hf2]) (fun _ _ => Iff.rfl)
  have hen2 : (w2.g.bodies b).enabled = (w.g.bodies b).enabled := by rw [c2.shrunk.benabled, hb1]
  have h3 : ∃ w3, (if (w2.g.bodies b).enabled = true then w2.destroyProxies f else some w2) = some w3 ∧ FixSame w2 w3 ∧ w3.g.bodies = w2.g.bodies := by
    rw [hen2]
    split
    · rename_i hen
      obtain ⟨h1, h2⟩ := hfe hen
      obtain ⟨w3', gh3, buf3, rep3, k1, k2, -⟩ := destroyProxies_spec (N := fun _ _ => False) (f := f) hpi2 rfl (fun i => by rw [h2, hf2, h1])
      exact ⟨w3', k1, (destroyProxies_firm k1).fix, k2.bodies⟩
    · exact ⟨w2, rfl, .refl _, rfl⟩
  obtain ⟨w3, e3, fx3, hb3⟩ := h3
  rw [e3, Option.bind_some]
  refine Sturdy.reset (Sturdy.fix (w := w3) (s2.fix fx3) ?_) ?_
  · exact ⟨rfl, proj_upd (fun q : FixS F => q.shape) (by rfl), fun _ => id⟩
  intro x hx
  have hn : w3.g.nextFixture = w.g.nextFixture := fx3.next.trans c2.shrunk.nextFixture
  show x < w3.g.nextFixture
  rw [hn]
  refine older hw b x ?_
  have e5 : ∀ v : World F, ((v.setBody b { v.g.bodies b with fixtureCount := (v.g.bodies b).fixtureCount - 1 }).g.bodies b).fixtures = (v.g.bodies b).fixtures := fun v => by
    show (upd v.g.bodies b _ b).fixtures = _
    rw [upd_same]
  rw [e5] at hx
  replace hx : x ∈ (w3.g.bodies b).fixtures := hx
  rw [hb3, c2.shrunk.bfixtures, hb1] at hx
  exact List.mem_of_mem_erase hx

theorem setEnabled_total (hs : env.Safe) {w : World F} {b : Nat} {flag : Bool} (hw : WInv w) (hl : w.locked = false)
    (h : flag = true → (w.g.bodies b).enabled = false ∨ (w.g.bodies b).fixtures = []) : ∃ w', w.setEnabled env b flag = some w' := by
  unfold setEnabled
  rw [if_neg (by simp [hl])]
  dsimp only
  set w1 := w.setBody b { w.g.bodies b with enabled := flag } with hw1
  have hb1 : ∀ x, x ≠ b → w1.g.bodies x = w.g.bodies x := fun x hx => upd_other _ _ hx
  have hb1b : w1.g.bodies b = { w.g.bodies b with enabled := flag } := upd_same _ _ _
  have hfx : (w1.g.bodies b).fixtures = (w.g.bodies b).fixtures := by rw [hb1b]
  obtain ⟨gh, buf, rep, hpi⟩ := hw.prox
  rw [hfx]
  split
  · rename_i hfl
    rcases h hfl with hen | hnil
    · obtain ⟨w2, gh2, buf2, k1, -⟩ := createAll_spec (w := w1) (L := Live w.g) (w1.phys b).xf (hw.body.fixNodup b) hpi (by
        intro f hf
        obtain ⟨-, -, h3, -, h4⟩ := hw.body.fix hf
        obtain ⟨h5, h6⟩ := h4 hen
        exact ⟨h6, h5, h3⟩) (N := fun _ _ => True) (fun _ _ _ _ _ => trivial)
      rw [k1]
      exact ⟨_, rfl⟩
    · rw [hnil]
      exact ⟨_, rfl⟩
  · obtain ⟨w2, gh2, buf2, rep2, k1, k2, k3, k4, k5⟩ := destroyAll_spec (w := w1) (L := Live w.g) (hw.body.fixNodup b) hpi (by
      intro f hf i
      obtain ⟨-, -, -, h4, h5⟩ := hw.body.fix hf
      show Live w.g f i ↔ i < (w.g.fixtures f).proxyCount
      cases he : (w.g.bodies b).enabled with
      | true => rw [(h4 he).2, (h4 he).1]
      | false => rw [(h5 he).1]; simp [(h5 he).2 i]) (N := fun _ _ => False)
    rw [k1, Option.bind_eq_bind, Option.bind_some]
    have hbx : ∀ x, w1.g.bodies x = { w.g.bodies x with enabled := (w1.g.bodies x).enabled } := by
      intro x
      by_cases hx : x = b
      · rw [hx, hb1b]
      · rw [hb1 x hx]
    have hbod : w2.g.bodies = w1.g.bodies := k2.bodies
    have hg2 : w2.g = { w.g with bodies := upd w.g.bodies b { w.g.bodies b with enabled := flag }, fixtures := w2.g.fixtures } := by rw [k2.g]; rfl
    have hbody2 : ∀ x, (w2.g.fixtures x).body = (w.g.fixtures x).body := k2.body
    have hlink2 : LinkInv w2.g := hw.link.congr (by rw [hg2]) (by rw [hg2]) (by rw [hg2]) (by rw [hg2]) hbody2 (fun x => by rw [hbod, hbx])
    obtain ⟨w3, e3⟩ := destroyContacts_total hs (b := b) hlink2
    rw [← hbod, e3]
    exact ⟨_, rfl⟩

theorem setType_total (hs : env.Safe) {w : World F} {b : Nat} {t : BodyType} (hw : WInv w) (hS : Sturdy w) (hl : w.locked = false) : ∃ w', w.setType env b t = some w' := by
  unfold setType
  rw [if_neg (by simp [hl])]
  split
  · exact ⟨_, rfl⟩
  dsimp only
  set w1 := w.setBody b { w.g.bodies b with type := t } with hw1
  have hb1 : ∀ x, x ≠ b → w1.g.bodies x = w.g.bodies x := fun x hx => upd_other _ _ hx
  have hb1b : w1.g.bodies b = { w.g.bodies b with type := t } := upd_same _ _ _
  have hbx : ∀ x, w1.g.bodies x = { w.g.bodies x with type := (w1.g.bodies x).type } := by
    intro x
    by_cases hx : x = b
    · rw [hx, hb1b]
    · rw [hb1 x hx]
  obtain ⟨w2, e2⟩ := Sturdy.reset (w := w1) (b := b) (hS.fix ⟨rfl, fun _ => rfl, fun _ => id⟩) (by rw [hb1b]; exact older hw b)
  rw [e2, Option.bind_eq_bind, Option.bind_some]
  have h3 : ∃ w3, (if t = .static then
        (w2.setPhys b { w2.phys b with
          v := ⟨0, 0⟩, w := 0, sweep := { (w2.phys b).sweep with a0 := (w2.phys b).sweep.a, c0 := (w2.phys b).sweep.c }, awake := false }).synchronizeFixtures b
      else some w2) = some w3 := by
    split
    · have hp1 : PInv w1 := PInv.congr hw.pinv rfl rfl rfl rfl rfl (fun x => by rw [hbx]) (fun x => by rw [hbx]) (fun x => by rw [hbx]) rfl
      obtain ⟨p, ep, e2'⟩ := bodyOp_phys (show w1.bodyOp b .resetMassData = some w2 from e2)
      have f2 : WFrame w1 w2 := by rw [e2']; exact ⟨rfl⟩
      have hp2 : PInv (w2.setPhys b { w2.phys b with
          v := ⟨0, 0⟩, w := 0, sweep := { (w2.phys b).sweep with a0 := (w2.phys b).sweep.a, c0 := (w2.phys b).sweep.c }, awake := false }) :=
        ⟨by show BodyInv w2.g; rw [f2.g]; exact hp1.body, by show ∃ gh buf rep, PI w2.g.fixtures w2.bp (Live w2.g) gh buf rep; rw [f2.g, f2.bp]; exact hp1.prox⟩
      obtain ⟨w3, k1, -⟩ := synchronizeFixtures_spec b hp2
      exact ⟨w3, k1⟩
    · exact ⟨_, rfl⟩
  obtain ⟨w3, e3⟩ := h3
  rw [e3, Option.bind_some]
  set w4 := (w3.setAwake b true).setPhys b { (w3.setAwake b true).phys b with force := ⟨0, 0⟩, torque := 0 } with hw4
  obtain ⟨n1, n2, n3, n4, n5, n6, n7, n8, n9⟩ := setType_numeric hw hw1 e2 e3 hw4
  have hg4 : w4.g = { w.g with bodies := w1.g.bodies } := n1
  have hlink : LinkInv w4.g := hw.link.congr (by rw [hg4]) (by rw [hg4]) (by rw [hg4]) (by rw [hg4]) (fun x => by rw [hg4]) (fun x => by rw [hg4]; show (w1.g.bodies x).contacts = _; rw [hbx])
  obtain ⟨w5, e5⟩ := destroyContacts_total hs (b := b) hlink
  rw [e5, Option.bind_some]
  obtain ⟨cut, hnil⟩ := destroyContacts_cut hlink e5
  rw [clearContacts_id hnil]
  have hsh := cut.shrunk
  have hp5 : PInv w5 := PInv.congr n7 (by rw [hsh.bodyList]) (by rw [hsh.bodyCount]) hsh.nextBody hsh.nextFixture hsh.fixtures hsh.bfixtures hsh.bfixtureCount hsh.benabled cut.bp
  obtain ⟨w6, k1, -⟩ := touchAll_buf (N := fun _ _ => True) (b := b) hp5
  exact ⟨w6, k1⟩

theorem refilter_total {w : World F} {b f : Nat} (hw : WInv w) (hb : b ∈ w.g.bodyList) (hf : (w.g.fixtures f).body = some b)
    (hc : ∀ c ∈ w.g.contactList, (w.g.contacts c).fA ≠ f ∧ (w.g.contacts c).fB ≠ f) : ∃ w', w.refilter f = some w' := by
  unfold refilter
  rw [show w.bodyOf f = some b from hf]
  dsimp only
  rw [if_neg (by
    rw [List.any_eq_true]
    rintro ⟨e, he, h⟩
    obtain ⟨h1, h2⟩ := hc e.1 (edge_list hw.link b e he)
    simp [h1, h2] at h)]
  obtain ⟨gh, buf, rep, hp⟩ := hw.prox
  have hm : f ∈ (w.g.bodies b).fixtures := (hw.body.fixtures b f).mpr ⟨hb, hf⟩
  obtain ⟨h1, h2, h3⟩ := hw.body.sync hm
  obtain ⟨w1, k1, -⟩ := touchProxies_buf (N := fun _ _ => True) (f := f) hp h3
  exact ⟨w1, k1⟩

theorem userOp_total {w : World F} (hw : WInv w) (hS : Sturdy w) {op : UserOp F} (h : (Call.user op).Valid w) : ∃ w', w.userOp op = some w' := by
  cases op with
  | body b op => exact bodyOp_total hS (older hw b) op
  | fixtureSetDensity f x => exact ⟨_, if_pos h⟩
  | fixtureSetSensor f flag =>
    obtain ⟨⟨b, hb, hf⟩, -⟩ := h
    simp only [userOp, setSensor]
    split
    · rw [show w.bodyOf f = some b from hf]
      exact ⟨_, rfl⟩
    · exact ⟨_, rfl⟩
  | _ => exact ⟨_, rfl⟩

theorem Spec.Call.Valid.ok {w : World F} {c : Call F} (h : c.Valid w) : c.Ok w := by
  cases c with
  | createFixture b d => exact h.1
  | destroyFixture b f => exact h.1
  | createJoint d => exact ⟨h.1, h.2.1⟩
  | setEnabled b flag => exact h.1
  | setMassData b m => exact h.1
  | setFilterData f d => exact h.1
  | refilter f => exact h.1
  | destroyBody b => exact h
  | destroyJoint b => exact h
  | setType b t => exact h
  | setTransform b p a => exact h
  | _ => trivial

theorem Spec.Call.Valid.tame {w : World F} {c : Call F} (h : c.Valid w) : Tame w c := by
  cases c with
  | user op =>
    cases op with
    | fixtureSetSensor f flag => exact h.2
    | contactSetManifold c m => exact h
    | _ => trivial
  | _ => trivial

theorem createJoint_total {w : World F} {d : JointS} (hl : w.locked = false) (hd : d.a ≠ d.b) : ∃ r, w.createJoint d = some r := by
  unfold createJoint
  rw [if_neg (by simp [hl]), if_neg hd]
  exact ⟨_, rfl⟩

theorem setMassData_total {w : World F} {b : Nat} {m : MassData F} (hl : w.locked = false)
    (h : 0 < m.i → (if m.mass ≤ 0 then 1 else m.mass) * (m.center.x ^ 2 + m.center.y ^ 2) < m.i) : ∃ w', w.setMassData b m = some w' := by
  unfold setMassData
  rw [if_neg (by simp [hl])]
  have : ∃ p, (w.phys b).setMassData (w.typeOf b) m = some p := by
    unfold Phys.setMassData
    split
    · exact ⟨_, rfl⟩
    dsimp only
    split
    · rename_i hi
      rw [if_pos]
      · exact ⟨_, rfl⟩
      · have := h hi.1
        unfold dot
        rw [gt_iff_lt, sub_pos]
        calc _ = (if m.mass ≤ 0 then 1 else m.mass) * (m.center.x ^ 2 + m.center.y ^ 2) := by ring
          _ < _ := this
    · exact ⟨_, rfl⟩
  obtain ⟨p, hp⟩ := this
  rw [hp]
  exact ⟨_, rfl⟩

/-- A valid call does not panic if a step does not. -/
theorem valid_run (hs : CallbacksSafe env) (hE : CallbacksTame env) {w : World F} (h : HInv env w) (hS : Sturdy w) {c : Call F} [ElemLaws F] (hv : c.Valid w)
    (hstep : ∀ dt vi pi, c = .step dt vi pi → ∃ w', w.step env dt vi pi = some w') : ∃ w', c.run env w = some w' := by
  have hw := h.toWInv
  have hl : w.locked = false := h.unlocked
  cases c with
  | createBody d =>
    simp only [Call.run, createBody]
    rw [if_neg (by simp [hl]), Phys.new, if_pos ⟨hv.2, hv.1⟩]
    exact ⟨_, rfl⟩
  | destroyBody b => exact destroyBody_total hs hw hv hl
  | createFixture b d =>
    obtain ⟨hb, hd, ⟨n, hn⟩, hf, hx⟩ := hv
    obtain ⟨r, hr⟩ := createFixture_total hw hl hb hn (by
      intro x hx'
      rcases List.mem_cons.mp hx' with rfl | hx'
      · exact extended_solid hf hx _ hd
      · exact hS.mass (older hw b) x hx')
    exact ⟨r.1, by simp [Call.run, hr]⟩
  | destroyFixture b f => exact destroyFixture_total hs hE hw hS hl hv.1 hv.2
  | createJoint d =>
    obtain ⟨r, hr⟩ := createJoint_total hl hv.2.2
    exact ⟨r.1, by simp [Call.run, hr]⟩
  | destroyJoint j =>
    obtain ⟨w', e, -⟩ := destroyJoint_spec hw.toGInv hl hv
    exact ⟨w', e⟩
  | setType b t => exact setType_total hs hw hS hl
  | setEnabled b flag => exact setEnabled_total hs hw hl hv.2
  | setTransform b p a =>
    obtain ⟨w', e, -⟩ := setTransform_spec (env := env) b p a hw hl
    exact ⟨w', e⟩
  | setMassData b m => exact setMassData_total hl hv.2
  | setFilterData f d =>
    obtain ⟨⟨b, hb, hf⟩, hc⟩ := hv
    exact refilter_total (w := w.setFattr f { w.fattr f with filter := d }) (hw.frame rfl rfl) hb hf hc
  | refilter f =>
    obtain ⟨⟨b, hb, hf⟩, hc⟩ := hv
    exact refilter_total hw hb hf hc
  | user op => exact userOp_total hw hS hv
  | shiftOrigin o =>
    obtain ⟨w', e, -⟩ := shiftOrigin_spec' (env := env) o hw hl
    exact ⟨w', e⟩
  | step dt vi pi => exact hstep dt vi pi rfl
  | _ => exact ⟨_, rfl⟩

/-- A valid call leaves fixtures that are in order. -/
theorem valid_sturdy (hE : CallbacksTame env) (hI : ImpulsesPush env) [ElemLaws F] {w w' : World F} (hp : Pts w) (hS : Sturdy w) {c : Call F} (hv : c.Valid w)
    (e : c.run env w = some w') : Sturdy w' := by
  by_cases hc : ∃ b d, c = .createFixture b d
  · obtain ⟨b, d, rfl⟩ := hc
    obtain ⟨hb, hd, -, hf, hx⟩ := hv
    simp only [Call.run, Option.map_eq_some_iff] at e
    obtain ⟨⟨v, f⟩, e, rfl⟩ := e
    obtain ⟨u, hu, a1, a2, a3, a4, a5, a6, a7, a8, a9⟩ := createFixture_firm e
    refine Sturdy.fix ?_ hu.fix
    intro x hlt
    rw [a7] at hlt
    rw [a3]
    by_cases hxn : x = w.g.nextFixture
    · subst hxn
      rw [a8, upd_same]
      exact ⟨hf, fun d' hd' => extended_solid hf hx d' hd', hd⟩
    · rw [a9 x hxn, upd_other _ _ hxn]
      exact hS x (by omega)
  · push Not at hc
    exact hS.fix (call_fix hE hI c hc hp hv.tame e)

theorem Sturdy.shapes {w : World F} (h : Sturdy w) (hw : WInv w) : ShapesFine w := fun b _ f hf => (h f (older hw b f hf)).1

end
end B2
