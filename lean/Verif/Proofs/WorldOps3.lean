import Verif.Proofs.WorldOps2

/-! `set_enabled(false)`, `set_type`, `set_transform` and other functions that keep all bodies. -/
namespace B2
set_option linter.unusedSectionVars false
open Spec

section
variable {F : Type} [Field F] [LinearOrder F] [IsStrictOrderedRing F] [Elem F]

namespace World

theorem setEnabled_false_spec' {env : Env F} {w w' : World F} {b : Nat} (hw : WInv w) (hb : b ∈ w.g.bodyList)
    (e : w.setEnabled env b false = some w') :
    w.locked = false ∧ WInv w' ∧ Tr env w w' ∧ Rest w w' ∧ (w'.g.bodies b).enabled = false ∧ (w'.g.bodies b).contacts = [] ∧
    w'.g.bodyList = w.g.bodyList ∧ (∀ x, (w'.g.fixtures x).body = (w.g.fixtures x).body) ∧
    (∀ c, c ∈ w'.g.contactList ↔ c ∈ w.g.contactList ∧ ¬ ∃ o, w.g.joins c b o) ∧
    ∀ D, Carry (fun _ _ => False) D (fun _ => False) w w' := by
  unfold setEnabled at e
  split at e
  · cases e
  rename_i hl
  simp only [Bool.false_eq_true, if_false] at e
  set w1 := w.setBody b { w.g.bodies b with enabled := false } with hw1
  have hb1 : ∀ x, x ≠ b → w1.g.bodies x = w.g.bodies x := fun x hx => upd_other _ _ hx
  have hb1b : w1.g.bodies b = { w.g.bodies b with enabled := false } := upd_same _ _ _
  have hbx : ∀ x, w1.g.bodies x = { w.g.bodies x with enabled := (w1.g.bodies x).enabled } := by
    intro x
    by_cases hx : x = b
    · rw [hx, hb1b]
    · rw [hb1 x hx]
  simp only [Option.bind_eq_bind, Option.bind_eq_some_iff] at e
  obtain ⟨w2, e2, w3, e3, e4⟩ := e
  have hfx : (w1.g.bodies b).fixtures = (w.g.bodies b).fixtures := by rw [hb1b]
  rw [hfx] at e2
  have tr1 : Tr env w w1 := .calm ⟨⟨fun _ => rfl, rfl, fun _ => rfl, fun _ => rfl, fun _ => rfl, fun x => by rw [typeOf, hbx]; rfl, fun _ _ => rfl⟩, fun _ => rfl⟩
    rfl rfl rfl rfl rfl (fun _ => rfl) (ev := []) rfl (by simp)
  obtain ⟨gh, buf, rep, hpi⟩ := hw.prox
  obtain ⟨w2', gh2, buf2, rep2, k1, k2, k3, k4, k5⟩ := destroyAll_spec (w := w1) (L := Live w.g) (hw.body.fixNodup b) hpi (by
    intro f hf i
    obtain ⟨-, -, -, h4, h5⟩ := hw.body.fix hf
    show Live w.g f i ↔ i < (w.g.fixtures f).proxyCount
    cases he : (w.g.bodies b).enabled with
    | true => rw [(h4 he).2, (h4 he).1]
    | false => rw [(h5 he).1]; simp [(h5 he).2 i]) (N := fun _ _ => False)
  rw [k1] at e2
  cases e2
  have hbod : w2.g.bodies = w1.g.bodies := k2.bodies
  have hg2 : w2.g = { w.g with bodies := upd w.g.bodies b { w.g.bodies b with enabled := false }, fixtures := w2.g.fixtures } := by rw [k2.g]; rfl
  have hbody2 : ∀ x, (w2.g.fixtures x).body = (w.g.fixtures x).body := k2.body
  have hlink2 : LinkInv w2.g := hw.link.congr (by rw [hg2]) (by rw [hg2]) (by rw [hg2]) (by rw [hg2]) hbody2 (fun x => by rw [hbod, hbx])
  rw [← hbod] at e3
  obtain ⟨cut, hnil⟩ := destroyContacts_cut hlink2 e3
  have hcl := clearContacts_id hnil
  have h34 : w3 = w' := by rw [hcl] at e4; exact Option.some.inj e4
  subst h34
  have hs := cut.shrunk
  have hbl : w3.g.bodyList = w.g.bodyList := by rw [hs.bodyList, hg2]
  have hcs : w3.g.contacts = w.g.contacts := by rw [hs.contacts, hg2]
  have hbody : ∀ x, (w3.g.fixtures x).body = (w.g.fixtures x).body := fun x => by rw [hs.fixtures]; exact hbody2 x
  have hen : ∀ x, (w3.g.bodies x).enabled = if x = b then false else (w.g.bodies x).enabled := by
    intro x
    rw [hs.benabled, hbod]
    by_cases hx : x = b
    · rw [hx, hb1b]; simp
    · rw [hb1 x hx]; simp [hx]
  have hjn : ∀ c o, w2.g.joins c b o ↔ w.g.joins c b o := fun c o => Graph.joins_congr (by rw [hg2]) hbody2
  have hmem : ∀ c, c ∈ w3.g.contactList ↔ c ∈ w.g.contactList ∧ ¬ ∃ o, w.g.joins c b o := by
    intro c
    rw [hs.mem, hg2]
    simp only [← hg2, hjn]
  have hlen : ∀ x, (w3.g.fixtures x).proxies.length = (w.g.fixtures x).proxies.length := fun x => by rw [hs.fixtures]; exact k2.len x
  have hlive : ∀ x i, Live w3.g x i ↔ Live w.g x i ∧ x ∉ (w.g.bodies b).fixtures := by
    intro x i
    unfold Live
    rw [hbl, hbody, hlen, hw.body.fixtures]
    constructor
    · rintro ⟨y, h1, h2, h3, h4⟩
      rw [hen] at h2
      by_cases hy : y = b
      · rw [if_pos hy] at h2; cases h2
      · rw [if_neg hy] at h2
        refine ⟨⟨y, h1, h2, h3, h4⟩, fun h => ?_⟩
        rw [h3] at h
        exact hy (Option.some.inj h.2)
    · rintro ⟨⟨y, h1, h2, h3, h4⟩, h5⟩
      refine ⟨y, h1, ?_, h3, h4⟩
      rw [hen]
      have hy : y ≠ b := by
        rintro rfl
        exact h5 ⟨hb, h3⟩
      rw [if_neg hy]; exact h2
  have hb3 : ∀ x, (w3.g.bodies x).fixtures = (w.g.bodies x).fixtures ∧ (w3.g.bodies x).fixtureCount = (w.g.bodies x).fixtureCount ∧
      (w3.g.bodies x).joints = (w.g.bodies x).joints ∧ (w3.g.bodies x).type = (w.g.bodies x).type := by
    intro x
    rw [hs.bfixtures, hs.bfixtureCount, hs.bjoints, hs.btype, hbod, hbx]
    exact ⟨rfl, rfl, rfl, rfl⟩
  have winv : WInv w3 := by
    refine ⟨⟨hs.link, ?_, ?_, ?_, ?_⟩, gh2, buf2, rep2, ?_⟩
    · exact hw.joint.congr (by rw [hs.jointList, hg2]) (by rw [hs.jointCount, hg2]) (by rw [hs.nextJoint, hg2]) (by rw [hs.joints, hg2]) (by rw [hbl]; exact fun _ h => h) (fun x => (hb3 x).2.2.1)
    · refine ⟨by rw [hbl]; exact hw.body.nodup, by rw [hbl, hs.bodyCount, hg2]; exact hw.body.count, by rw [hbl, hs.nextBody, hg2]; exact hw.body.lt, ?_, ?_, ?_, ?_, ?_, ?_⟩
      · intro x y; rw [hbody, hs.nextFixture, hs.nextBody, hg2]; exact hw.body.owner x y
      · intro x y; rw [(hb3 x).1, hbl, hbody]; exact hw.body.fixtures x y
      · intro x; rw [(hb3 x).1]; exact hw.body.fixNodup x
      · intro x; rw [(hb3 x).1, (hb3 x).2.1]; exact hw.body.fixCount x
      · intro x y hy hx
        rw [hbl] at hy
        rw [hbody] at hx
        rw [hlen, hs.fixtures, k2.shape]; exact hw.body.children x y hy hx
      · intro x y hy hx
        rw [hbl] at hy
        rw [hbody] at hx
        rw [hen, hs.fixtures]
        by_cases hyb : y = b
        · subst hyb
          simp only [if_true, Bool.false_eq_true, if_false]
          exact k3 x ((hw.body.fixtures y x).mpr ⟨hb, hx⟩)
        · rw [if_neg hyb, k4 x (fun hm => ?_)]
          · exact hw.body.proxyCount x y hy hx
          · have := ((hw.body.fixtures b x).mp hm).2
            rw [hx] at this
            exact hyb (Option.some.inj this)
    · intro c hc
      obtain ⟨hc', hno⟩ := (hmem c).mp hc
      refine (hw.ok c hc').congr' (by rw [hcs]) (fun x y hx hxx => ⟨?_, ?_, ?_, fun i hi => (hlive x i).mpr ⟨hi, fun hm => hno ?_⟩⟩)
      · rw [hbody]; exact hx
      · rw [hs.fixtures]; exact k2.shape x
      · exact (hb3 y).2.2.2
      · have hxb := ((hw.body.fixtures b x).mp hm).2
        obtain ⟨bA, bB, m1, m2, -⟩ := hw.link.bodies c hc'
        rw [joins_exists]
        refine ⟨bA, bB, m1, m2, ?_⟩
        rcases hxx with rfl | rfl
        · rw [hxb] at m1; exact Or.inl (Option.some.inj m1).symm
        · rw [hxb] at m2; exact Or.inr (Option.some.inj m2).symm
    · intro c hc c' hc'
      rw [hcs]
      exact hw.uniq c ((hmem c).mp hc).1 c' ((hmem c').mp hc').1
    · rw [cut.bp]
      exact k5.congr (fun x => by rw [hs.fixtures]) hlive
  refine ⟨by simpa using hl, winv, (tr1.trans k2.tr).trans (destroyContacts_tr hlink2 e3), ?_, by rw [hen]; simp, hnil, hbl, hbody, hmem, fun D => ?_⟩
  · exact (show Rest w w1 from ⟨rfl⟩).trans (k2.rest.trans cut.rest)
  · have hbt : BT (fun _ _ => False) w.bp w3.bp := by
      rw [cut.bp]; exact k2.bt
    refine ⟨hbt, fun _ _ _ _ _ _ _ h => h.elim, fun x y z hy hz => ?_, fun x y _ _ _ _ => (hb3 y).2.2.2,
      fun j h1 _ _ _ => Or.inl ⟨by rw [hs.jointList, hg2]; exact h1, by rw [hs.joints, hg2]⟩, fun x y _ _ => ?_, fun c hc _ _ y z hy hz _ _ hy' hz' => ⟨(hmem c).mpr ⟨hc, ?_⟩, by rw [hcs]⟩, fun x _ _ _ _ => by rw [hs.fixtures]; exact k2.shape x⟩
    · rw [hbody, hy] at hz
      exact (Option.some.inj hz).symm
    · rw [cut.filter, k2.eq]; rfl
    · rw [hbody] at hy hz
      rw [hen] at hy' hz'
      rintro ⟨o, h | h⟩
      · rw [hy] at h; rw [if_pos (Option.some.inj h.1)] at hy'; cases hy'
      · rw [hz] at h; rw [if_pos (Option.some.inj h.1)] at hz'; cases hz'

theorem setEnabled_false_spec {env : Env F} {w w' : World F} {b : Nat} (hw : WInv w) (hb : b ∈ w.g.bodyList)
    (e : w.setEnabled env b false = some w') :
    w.locked = false ∧ WInv w' ∧ Tr env w w' ∧ Rest w w' ∧ (w'.g.bodies b).enabled = false ∧ (w'.g.bodies b).contacts = [] ∧
    w'.g.bodyList = w.g.bodyList ∧ (∀ x, (w'.g.fixtures x).body = (w.g.fixtures x).body) ∧
    (∀ c, c ∈ w'.g.contactList ↔ c ∈ w.g.contactList ∧ ¬ ∃ o, w.g.joins c b o) := by
  obtain ⟨h1, h2, h3, h4, h5, h6, h7, h8, h9, -⟩ := setEnabled_false_spec' (env := env) hw hb e
  exact ⟨h1, h2, h3, h4, h5, h6, h7, h8, h9⟩

/-! ### set_type -/

theorem PInv.congr {w w' : World F} (h : PInv w) (h1 : w'.g.bodyList = w.g.bodyList) (h2 : w'.g.bodyCount = w.g.bodyCount)
    (h3 : w'.g.nextBody = w.g.nextBody) (h4 : w'.g.nextFixture = w.g.nextFixture) (h5 : w'.g.fixtures = w.g.fixtures)
    (h6 : ∀ b, (w'.g.bodies b).fixtures = (w.g.bodies b).fixtures) (h7 : ∀ b, (w'.g.bodies b).fixtureCount = (w.g.bodies b).fixtureCount)
    (h8 : ∀ b, (w'.g.bodies b).enabled = (w.g.bodies b).enabled) (h9 : w'.bp = w.bp) : PInv w' := by
  obtain ⟨gh, buf, rep, hp⟩ := h.prox
  refine ⟨h.body.congr h1 h2 h3 h4 h5 h6 h7 h8, gh, buf, rep, ?_⟩
  rw [h9]
  refine hp.congr (fun f => by rw [h5]) (fun f i => ?_)
  unfold Live
  rw [h1, h5]
  exact exists_congr fun b => by rw [h8]

theorem bodyOp_phys {w w' : World F} {b : Nat} {op : BodyOp F} (h : w.bodyOp b op = some w') :
    ∃ p, op.run (w.typeOf b) (w.massList b) (w.phys b) = some p ∧ w' = w.setPhys b p := by
  unfold bodyOp at h
  simp only [Option.bind_eq_bind, Option.bind_eq_some_iff] at h
  obtain ⟨p, h1, h2⟩ := h
  exact ⟨p, h1, (Option.some.inj h2).symm⟩

theorem reset_xf {t : BodyType} {fs : List (F × Shape F)} {p q : Phys F} (e : Phys.resetMassData t fs p = some q) : q.xf = p.xf := by
  unfold Phys.resetMassData at e
  dsimp only at e
  split at e
  · cases e; rfl
  · simp only [Option.bind_eq_bind, Option.bind_eq_some_iff] at e
    obtain ⟨acc, e1, e⟩ := e
    generalize (if acc.mass > 0 then 1 / acc.mass else 0) = im at e
    generalize (if acc.mass > 0 then im * acc.center else acc.center) = ce at e
    split at e
    · split at e
      · cases e; rfl
      · cases e
    · cases e; rfl

/-- The numeric part of `set_type`, after which contacts are destroyed. -/
theorem setType_numeric {w w1 w2 w3 w4 : World F} {b : Nat} {t : BodyType} (hw : WInv w)
    (hw1 : w1 = w.setBody b { w.g.bodies b with type := t }) (e2 : w1.resetMassData b = some w2)
    (e3 : (if t = .static then
        (w2.setPhys b { w2.phys b with
          v := ⟨0, 0⟩, w := 0, sweep := { (w2.phys b).sweep with a0 := (w2.phys b).sweep.a, c0 := (w2.phys b).sweep.c }, awake := false }).synchronizeFixtures b
      else some w2) = some w3)
    (e4 : w4 = (w3.setAwake b true).setPhys b { (w3.setAwake b true).phys b with force := ⟨0, 0⟩, torque := 0 }) :
    w4.g = w1.g ∧ w4.cst = w.cst ∧ w4.log = w.log ∧ Rest w w4 ∧ (∀ x, x ≠ b → w4.phys x = w.phys x) ∧
    (t = .static → (w4.phys b).awake = false ∧ (w4.phys b).v = ⟨0, 0⟩ ∧ (w4.phys b).w = 0) ∧ PInv w4 ∧ BT (Fit w) w.bp w4.bp ∧ (∀ f, (w4.fattr f).filter = (w.fattr f).filter) := by
  have hb1 : ∀ x, x ≠ b → w1.g.bodies x = w.g.bodies x := fun x hx => by rw [hw1]; exact upd_other _ _ hx
  have hb1b : w1.g.bodies b = { w.g.bodies b with type := t } := by rw [hw1]; exact upd_same _ _ _
  have hbx : ∀ x, w1.g.bodies x = { w.g.bodies x with type := (w1.g.bodies x).type } := by
    intro x
    by_cases hx : x = b
    · rw [hx, hb1b]
    · rw [hb1 x hx]
  obtain ⟨p, ep, e2'⟩ := bodyOp_phys (show w1.bodyOp b .resetMassData = some w2 from e2)
  have hp1 : PInv w1 := PInv.congr hw.pinv (by rw [hw1]; rfl) (by rw [hw1]; rfl) (by rw [hw1]; rfl) (by rw [hw1]; rfl) (by rw [hw1]; rfl)
    (fun x => by rw [hbx]) (fun x => by rw [hbx]) (fun x => by rw [hbx]) (by rw [hw1]; rfl)
  have f2 : WFrame w1 w2 := by rw [e2']; exact ⟨rfl⟩
  have ty : ∀ v : World F, v.g = w1.g → v.typeOf b = t := fun v hv => by rw [typeOf, hv, hb1b]
  have hph2 : ∀ x, x ≠ b → w2.phys x = w.phys x := fun x hx => by rw [e2', hw1]; exact upd_other _ _ hx
  have last : ∀ (v : World F), v.g = w1.g → PInv v → w4 = (v.setAwake b true).setPhys b { (v.setAwake b true).phys b with force := ⟨0, 0⟩, torque := 0 } →
      w4.g = v.g ∧ w4.cst = v.cst ∧ w4.log = v.log ∧ Rest v w4 ∧ (∀ x, x ≠ b → w4.phys x = v.phys x) ∧
      (t = .static → (w4.phys b).awake = (v.phys b).awake ∧ (w4.phys b).v = (v.phys b).v ∧ (w4.phys b).w = (v.phys b).w) ∧ PInv w4 ∧ w4.bp = v.bp ∧ (∀ f, (w4.fattr f).filter = (v.fattr f).filter) := by
    intro v hv hp e
    subst e
    refine ⟨rfl, rfl, rfl, ⟨rfl⟩, fun x hx => ?_, fun ht => ?_, ⟨hp.body, hp.prox⟩, rfl, fun _ => rfl⟩
    · have : (v.setAwake b true).phys x = v.phys x := upd_other _ _ hx
      rw [← this]; exact upd_other _ _ hx
    · have : (v.setAwake b true).phys b = v.phys b := by
        have e : (v.setAwake b true).phys b = (v.phys b).setAwake (v.typeOf b) true := upd_same _ _ _
        rw [e, ty v hv, ht]; rfl
      have e : ((v.setAwake b true).setPhys b { (v.setAwake b true).phys b with force := ⟨0, 0⟩, torque := 0 }).phys b =
        { (v.setAwake b true).phys b with force := ⟨0, 0⟩, torque := 0 } := upd_same _ _ _
      rw [e, this]
      exact ⟨rfl, rfl, rfl⟩
  by_cases ht : t = .static
  · rw [if_pos ht] at e3
    set w2' := w2.setPhys b { w2.phys b with
          v := ⟨0, 0⟩, w := 0, sweep := { (w2.phys b).sweep with a0 := (w2.phys b).sweep.a, c0 := (w2.phys b).sweep.c }, awake := false } with hw2'
    have hp2 : PInv w2' := by
      have hg : w2'.g = w1.g := f2.g
      have hbp : w2'.bp = w1.bp := f2.bp
      exact ⟨by rw [hg]; exact hp1.body, by rw [hg, hbp]; exact hp1.prox⟩
    obtain ⟨w3', k1, k2, k3⟩ := synchronizeFixtures_spec b hp2
    rw [k1] at e3
    cases e3
    have hg3 : w3.g = w1.g := k2.g.trans f2.g
    obtain ⟨a1, a2, a3, a4, a5, a6, a7, a8, a9⟩ := last w3 hg3 k3 e4
    have hph : w3.phys b = w2'.phys b := by rw [k2.phys]
    have hp' : w2'.phys b = { w2.phys b with
          v := ⟨0, 0⟩, w := 0, sweep := { (w2.phys b).sweep with a0 := (w2.phys b).sweep.a, c0 := (w2.phys b).sweep.c }, awake := false } := upd_same _ _ _
    refine ⟨a1.trans hg3, ?_, ?_, ?_, fun x hx => ?_, fun _ => ?_, a7, ?_, fun f => ?_⟩
    · rw [a2, k2.cst, hw2', e2', hw1]; rfl
    · rw [a3, k2.log, hw2', e2', hw1]; rfl
    · refine Rest.trans ?_ (k2.rest.trans a4)
      rw [hw2', e2', hw1]
      exact ⟨rfl⟩
    · rw [a5 x hx, k2.phys, ← hph2 x hx]; exact upd_other _ _ hx
    · obtain ⟨b1, b2, b3⟩ := a6 ht
      rw [b1, b2, b3, hph, hp']
      exact ⟨rfl, rfl, rfl⟩
    · rw [a8]
      have h := k2.bt
      rw [show w2'.bp = w.bp from f2.bp.trans (by rw [hw1]; rfl)] at h
      refine h.mono ?_
      rintro d a ⟨x, h1, h2⟩
      have hf2 : w2'.g.fixtures = w.g.fixtures := by
        show w2.g.fixtures = _
        rw [f2.g, hw1]; rfl
      have hx2 : (w2'.phys x).xf = (w.phys x).xf := by
        by_cases hx : x = b
        · subst hx
          rw [hp']
          show (w2.phys x).xf = _
          rw [e2', show (w1.setPhys x p).phys x = p from upd_same _ _ _, reset_xf ep, hw1]
          rfl
        · rw [show w2'.phys x = w2.phys x from upd_other _ _ hx, hph2 x hx]
      rw [hf2] at h1 h2
      rw [hx2] at h2
      exact ⟨x, h1, h2⟩
    · rw [a9, k2.eq]
      show (w2.fattr f).filter = _
      rw [f2.filter, hw1]; rfl
  · rw [if_neg ht] at e3
    cases e3
    have hp2 : PInv w2 := ⟨by rw [f2.g]; exact hp1.body, by rw [f2.g, f2.bp]; exact hp1.prox⟩
    obtain ⟨a1, a2, a3, a4, a5, a6, a7, a8, a9⟩ := last w2 f2.g hp2 e4
    refine ⟨a1.trans f2.g, ?_, ?_, ?_, fun x hx => ?_, fun h => absurd h ht, a7, ?_, fun f => ?_⟩
    · rw [a2, e2', hw1]; rfl
    · rw [a3, e2', hw1]; rfl
    · refine Rest.trans ?_ a4
      rw [e2', hw1]
      exact ⟨rfl⟩
    · rw [a5 x hx, hph2 x hx]
    · rw [a8, f2.bp, hw1]; exact .refl _
    · rw [a9, f2.filter, hw1]; rfl

theorem setType_spec' {env : Env F} {w w' : World F} {b : Nat} {t : BodyType} (hw : WInv w)
    (e : w.setType env b t = some w') :
    w.locked = false ∧ WInv w' ∧ Tr env w w' ∧ Rest w w' ∧ (w'.g.bodies b).type = t ∧
    w'.g.bodyList = w.g.bodyList ∧ w'.g.fixtures = w.g.fixtures ∧
    (∀ c, c ∈ w'.g.contactList ↔ c ∈ w.g.contactList ∧ (w.typeOf b = t ∨ ¬ ∃ o, w.g.joins c b o)) ∧
    ∃ T, ∀ D, Carry (Fit w) D T w w' := by
  unfold setType at e
  split at e
  · cases e
  rename_i hl
  have hl' : w.locked = false := by simpa using hl
  split at e
  · rename_i ht
    cases e
    exact ⟨hl', hw, .refl _ _, .refl _, ht, rfl, rfl, fun c => by simp [ht], fun _ => False, fun D => (WFrame.refl w).carry⟩
  rename_i hnt
  dsimp only at e
  set w1 := w.setBody b { w.g.bodies b with type := t } with hw1
  rw [Option.bind_eq_bind, Option.bind_eq_some_iff] at e
  obtain ⟨w2, e2, e⟩ := e
  rw [Option.bind_eq_some_iff] at e
  obtain ⟨w3, e3, e⟩ := e
  set w4 := (w3.setAwake b true).setPhys b { (w3.setAwake b true).phys b with force := ⟨0, 0⟩, torque := 0 } with hw4
  rw [Option.bind_eq_some_iff] at e
  obtain ⟨w5, e5, e⟩ := e
  obtain ⟨n1, n2, n3, n4, n5, n6, n7, n8, n9⟩ := setType_numeric hw hw1 e2 e3 hw4
  have hb1 : ∀ x, x ≠ b → w1.g.bodies x = w.g.bodies x := fun x hx => upd_other _ _ hx
  have hb1b : w1.g.bodies b = { w.g.bodies b with type := t } := upd_same _ _ _
  have hbx : ∀ x, w1.g.bodies x = { w.g.bodies x with type := (w1.g.bodies x).type } := by
    intro x
    by_cases hx : x = b
    · rw [hx, hb1b]
    · rw [hb1 x hx]
  have hg4 : w4.g = { w.g with bodies := w1.g.bodies } := n1
  have hlink : LinkInv w4.g := hw.link.congr (by rw [hg4]) (by rw [hg4]) (by rw [hg4]) (by rw [hg4]) (fun x => by rw [hg4]) (fun x => by rw [hg4]; show (w1.g.bodies x).contacts = _; rw [hbx])
  obtain ⟨cut, hnil⟩ := destroyContacts_cut hlink e5
  rw [clearContacts_id hnil] at e
  have hs := cut.shrunk
  have hjn : ∀ c o, w4.g.joins c b o ↔ w.g.joins c b o := fun c o => Graph.joins_congr (by rw [hg4]) (fun f => by rw [hg4])
  have hmem : ∀ c, c ∈ w5.g.contactList ↔ c ∈ w.g.contactList ∧ ¬ ∃ o, w.g.joins c b o := by
    intro c
    rw [hs.mem]
    simp only [hjn]
    rw [hg4]
  have hb5 : ∀ x, (w5.g.bodies x).fixtures = (w.g.bodies x).fixtures ∧ (w5.g.bodies x).fixtureCount = (w.g.bodies x).fixtureCount ∧
      (w5.g.bodies x).joints = (w.g.bodies x).joints ∧ (w5.g.bodies x).enabled = (w.g.bodies x).enabled ∧ (x ≠ b → (w5.g.bodies x).type = (w.g.bodies x).type) := by
    intro x
    rw [hs.bfixtures, hs.bfixtureCount, hs.bjoints, hs.benabled, hs.btype, hg4]
    refine ⟨by show (w1.g.bodies x).fixtures = _; rw [hbx], by show (w1.g.bodies x).fixtureCount = _; rw [hbx], by show (w1.g.bodies x).joints = _; rw [hbx], by show (w1.g.bodies x).enabled = _; rw [hbx], fun hx => by show (w1.g.bodies x).type = _; rw [hb1 x hx]⟩
  have hbl : w5.g.bodyList = w.g.bodyList := by rw [hs.bodyList, hg4]
  have hfx : w5.g.fixtures = w.g.fixtures := by rw [hs.fixtures, hg4]
  have hcs : w5.g.contacts = w.g.contacts := by rw [hs.contacts, hg4]
  have hlive : ∀ x i, Live w5.g x i ↔ Live w.g x i := by
    intro x i
    unfold Live
    rw [hbl, hfx]
    exact exists_congr fun y => by rw [(hb5 y).2.2.2.1]
  have hp5 : PInv w5 := PInv.congr n7 (by rw [hbl, hg4]) (by rw [hs.bodyCount]) hs.nextBody hs.nextFixture hs.fixtures hs.bfixtures hs.bfixtureCount hs.benabled cut.bp
  have winv5 : WInv w5 := by
    refine ⟨⟨hs.link, ?_, hp5.body, ?_, ?_⟩, hp5.prox⟩
    · exact hw.joint.congr (by rw [hs.jointList, hg4]) (by rw [hs.jointCount, hg4]) (by rw [hs.nextJoint, hg4]) (by rw [hs.joints, hg4]) (by rw [hbl]; exact fun _ h => h) (fun x => (hb5 x).2.2.1)
    · intro c hc
      obtain ⟨hc', hno⟩ := (hmem c).mp hc
      refine (hw.ok c hc').congr' (by rw [hcs]) (fun x y hx hxx => ⟨by rw [hfx]; exact hx, by rw [hfx], (hb5 y).2.2.2.2 ?_, fun i hi => (hlive x i).mpr hi⟩)
      rintro rfl
      refine hno ?_
      obtain ⟨bA, bB, m1, m2, -⟩ := hw.link.bodies c hc'
      rw [joins_exists]
      refine ⟨bA, bB, m1, m2, ?_⟩
      rcases hxx with rfl | rfl
      · rw [hx] at m1; exact Or.inl (Option.some.inj m1).symm
      · rw [hx] at m2; exact Or.inr (Option.some.inj m2).symm
    · intro c hc c' hc'
      rw [hcs]
      exact hw.uniq c ((hmem c).mp hc).1 c' ((hmem c').mp hc').1
  have tr4 : Tr env w w4 := by
    refine ⟨fun hst x hx ht => ?_, fun hf => hf.congr (by rw [hg4]; exact fun _ h => h) (by rw [hg4]; exact fun _ h => h) (by rw [hg4]) (by rw [hg4]) (fun f => by rw [hg4]) (fun c => by rw [n2]; exact id),
      fun he => he.congr (ev := []) (by rw [hg4]) (fun c _ => by rw [n2]) n3 (by simp)⟩
    rw [hg4] at hx
    by_cases hxb : x = b
    · subst hxb
      refine (n6 ?_).1
      rw [typeOf, n1, hb1b] at ht
      exact ht
    · rw [n5 x hxb]
      refine hst x hx ?_
      rw [typeOf, n1, hb1 x hxb] at ht
      exact ht
  obtain ⟨w6, k1, k2, k3, k4⟩ := touchAll_buf (N := Fit w) (b := b) hp5
  rw [k1] at e
  cases e
  refine ⟨hl', winv5.bpFrame k2 k3, (tr4.trans (destroyContacts_tr hlink e5)).trans k2.tr, (n4.trans cut.rest).trans k2.rest, ?_, ?_, ?_, ?_, fun f => f ∈ (w.g.bodies b).fixtures, fun D => ?_⟩
  · rw [k2.g, hs.btype, n1, hb1b]
  · rw [k2.g, hbl]
  · rw [k2.g, hfx]
  · intro c
    rw [k2.g, hmem]
    simp [hnt]
  · have hbt : BT (Fit w) w.bp w'.bp := by
      have h := k2.bt
      rw [cut.bp] at h
      exact n8.trans h
    have hne : ∀ x y, x ∉ (w.g.bodies b).fixtures → (w.g.fixtures x).body = some y → y ∈ w.g.bodyList → y ≠ b := by
      rintro x y h1 h2 h3 rfl
      exact h1 ((hw.body.fixtures y x).mpr ⟨h3, h2⟩)
    refine ⟨hbt, fun gh buf rep hh id p h1 h2 => k4 gh buf rep hh id p h1 (by rw [(hb5 b).1]; exact h2), fun x y z hy hz => ?_, fun x y ht hx hy _ => ?_,
      fun j h1 _ _ _ => Or.inl ⟨by rw [k2.g, hs.jointList, hg4]; exact h1, by rw [k2.g, hs.joints, hg4]⟩, fun x y _ _ => ?_, fun c hc hA hB y z hy hz hyl hzl _ _ => ⟨?_, by rw [k2.g, hcs]⟩, fun x _ _ _ _ => by rw [k2.g, hfx]⟩
    · rw [k2.g, hfx, hy] at hz
      exact (Option.some.inj hz).symm
    · rw [k2.g]
      exact (hb5 y).2.2.2.2 (hne x y ht hx hy)
    · rw [k2.eq]
      show (w5.fattr x).filter = _
      rw [cut.filter, n9]
    · rw [k2.g, hmem]
      rw [k2.g, hfx] at hy hz
      rw [k2.g, hbl] at hyl hzl
      refine ⟨hc, ?_⟩
      rintro ⟨o, h | h⟩
      · rw [hy] at h; exact hne _ _ hA hy hyl (Option.some.inj h.1)
      · rw [hz] at h; exact hne _ _ hB hz hzl (Option.some.inj h.1)

theorem setType_spec {env : Env F} {w w' : World F} {b : Nat} {t : BodyType} (hw : WInv w)
    (e : w.setType env b t = some w') :
    w.locked = false ∧ WInv w' ∧ Tr env w w' ∧ Rest w w' ∧ (w'.g.bodies b).type = t ∧
    w'.g.bodyList = w.g.bodyList ∧ w'.g.fixtures = w.g.fixtures ∧
    (∀ c, c ∈ w'.g.contactList ↔ c ∈ w.g.contactList ∧ (w.typeOf b = t ∨ ¬ ∃ o, w.g.joins c b o)) := by
  obtain ⟨h1, h2, h3, h4, h5, h6, h7, h8, -⟩ := setType_spec' (env := env) hw e
  exact ⟨h1, h2, h3, h4, h5, h6, h7, h8⟩

/-! ### Functions that only change numbers -/

theorem setTransform_spec {env : Env F} {w : World F} (b : Nat) (pos : Vec2 F) (a : F) (hw : WInv w) (hl : w.locked = false) :
    ∃ w', w.setTransform b pos a = some w' ∧ WInv w' ∧ Tr env w w' ∧ Rest { w with newContacts := true } w' ∧ w'.g = w.g ∧
      ∀ D, Carry (fun d box => d.1 ∈ (w.g.bodies b).fixtures ∧ (w.g.fixtures d.1).shape.computeAabb ⟨pos, Rot.ofAngle a⟩ d.2 = some box) D (fun _ => False) w w' := by
  unfold setTransform
  rw [if_neg (by simp [hl])]
  set w1 := w.setPhys b { w.phys b with xf := ⟨pos, Rot.ofAngle a⟩, sweep := { (w.phys b).sweep with c := (⟨pos, Rot.ofAngle a⟩ : Xf F).mulV (w.phys b).sweep.localCenter, a := a, c0 := (⟨pos, Rot.ofAngle a⟩ : Xf F).mulV (w.phys b).sweep.localCenter, a0 := a } } with hw1
  have q1 : Quiet w w1 := setPhys_quiet ⟨rfl, rfl, rfl, fun _ => rfl⟩
  have winv1 : WInv w1 := hw.frame rfl rfl
  obtain ⟨w2, k1, k2, k3⟩ := syncAll_spec (b := b) ⟨pos, Rot.ofAngle a⟩ ⟨pos, Rot.ofAngle a⟩ winv1.pinv
    (N := fun d box => d.1 ∈ (w.g.bodies b).fixtures ∧ (w.g.fixtures d.1).shape.computeAabb ⟨pos, Rot.ofAngle a⟩ d.2 = some box) (fun f hf i box h => ⟨hf, h⟩)
  have winv2 := winv1.bpFrame k2 k3
  refine ⟨{ w2 with newContacts := true }, ?_, winv2.frame rfl rfl, ((Tr.quiet0 q1 rfl).trans k2.tr).trans ⟨id, id, id⟩, ⟨?_⟩, ?_, fun D => ?_⟩
  · simp only [Option.bind_eq_bind]
    rw [k1, Option.bind_some]; rfl
  · rw [k2.eq]
    rfl
  · exact k2.g
  · exact .of_g k2.bt k2.g (fun _ _ _ _ _ _ _ h => h.elim) (fun f _ => by
      show (w2.fattr f).filter = _
      rw [k2.eq]; rfl)

theorem setMassData_spec {env : Env F} {w w' : World F} {b : Nat} {m : MassData F} (e : w.setMassData b m = some w') :
    w.locked = false ∧ Quiet w w' ∧ Tr env w w' := by
  unfold setMassData at e
  split at e
  · cases e
  rename_i hl
  simp only [Option.bind_eq_bind, Option.bind_eq_some_iff] at e
  obtain ⟨p, e1, e2⟩ := e
  cases e2
  have q : Quiet w (w.setPhys b p) := setPhys_quiet (setMassData_pquiet e1)
  exact ⟨by simpa using hl, q, .quiet0 q rfl⟩

theorem refilter_spec' {env : Env F} {w w' : World F} {b f : Nat} (hw : WInv w) (hb : b ∈ w.g.bodyList) (hf : w.bodyOf f = some b)
    (e : w.refilter f = some w') : WInv w' ∧ Tr env w w' ∧ Rest w w' ∧ w'.g = w.g ∧ w'.cst = w.cst ∧ BT (fun _ _ => False) w.bp w'.bp ∧ w'.fattr = w.fattr ∧
    ∀ gh buf rep, BHist w'.bp gh buf rep → ∀ id p, gh id = some p → p.data.1 = f → id ∈ buf := by
  unfold refilter at e
  rw [hf] at e
  dsimp only at e
  split at e
  · cases e
  obtain ⟨gh, buf, rep, hp⟩ := hw.prox
  have hm : f ∈ (w.g.bodies b).fixtures := (hw.body.fixtures b f).mpr ⟨hb, hf⟩
  obtain ⟨h1, h2, h3⟩ := hw.body.sync hm
  obtain ⟨w1, k1, k2, buf', k3, k4, k5⟩ := touchProxies_buf (f := f) hp h3
  rw [k1] at e
  cases e
  refine ⟨⟨by rw [k2.g]; exact hw.toGInv, gh, buf', rep, ?_⟩, k2.tr, k2.rest, k2.g, k2.cst, k2.bt, by rw [k2.eq], fun gh2 buf2 rep2 hh id p hid hpf => ?_⟩
  · rw [k2.g] at k3 ⊢
    exact k3
  · obtain ⟨rfl, a1, -⟩ := Spec.BHist.agree hh k3.hist
    obtain ⟨p', g1, g2, -⟩ := a1 id p hid
    have hx := hp.index hw.body g1 (b := b) (by rw [g2, hpf]; exact hm)
    rw [g2, hpf] at hx
    exact k5 p'.data.2 (by rw [g2]; exact hx) id p' g1 (by rw [g2, ← hpf])

theorem refilter_spec {env : Env F} {w w' : World F} {b f : Nat} (hw : WInv w) (hb : b ∈ w.g.bodyList) (hf : w.bodyOf f = some b)
    (e : w.refilter f = some w') : WInv w' ∧ Tr env w w' ∧ Rest w w' ∧ w'.g = w.g ∧ w'.cst = w.cst ∧ ∀ D, Carry (fun _ _ => False) D (fun _ => False) w w' := by
  obtain ⟨h1, h2, h3, h4, h5, h6, h7, -⟩ := refilter_spec' (env := env) hw hb hf e
  exact ⟨h1, h2, h3, h4, h5, fun D => .of_g h6 h4 (fun _ _ _ _ _ _ _ h => h.elim) (fun f _ => by rw [h7])⟩

theorem setFilterData_spec {env : Env F} {w w' : World F} {b f : Nat} {d : Filter} (hw : WInv w) (hb : b ∈ w.g.bodyList) (hf : w.bodyOf f = some b)
    (e : w.setFilterData f d = some w') : WInv w' ∧ Tr env w w' ∧ Rest w w' ∧ w'.g = w.g ∧ w'.cst = w.cst ∧ ∀ D, Carry (fun _ _ => False) D (fun x => x = f) w w' := by
  unfold setFilterData at e
  set w1 := w.setFattr f { w.fattr f with filter := d } with hw1
  obtain ⟨k1, k2, k3, k4, k5, k6, k7, k8⟩ := refilter_spec' (env := env) (w := w1) (hw.frame rfl rfl) hb hf e
  refine ⟨k1, (show Tr env w w1 from ⟨id, id, id⟩).trans k2, (show Rest w w1 from ⟨rfl⟩).trans k3, k4, k5, fun D => .of_g k6 k4 k8 (fun x hx => ?_)⟩
  rw [k7]
  show (upd w.fattr f _ x).filter = _
  rw [upd_other _ _ hx]

theorem foldl_quiet {f : World F → Nat → World F} (hf : ∀ w b, Quiet w (f w b) ∧ (f w b).log = w.log) (l : List Nat) (w : World F) :
    Quiet w (l.foldl f w) ∧ (l.foldl f w).log = w.log := by
  refine foldl_inv (fun x => Quiet w x ∧ x.log = w.log) ⟨.refl _, rfl⟩ ?_
  rintro b - x ⟨h1, h2⟩
  exact ⟨h1.trans (hf x b).1, (hf x b).2.trans h2⟩

theorem setAllowSleeping_spec {env : Env F} {w : World F} (flag : Bool) (hw : WInv w) :
    WInv (w.setAllowSleeping flag) ∧ Tr env w (w.setAllowSleeping flag) ∧ Rest { w with allowSleep := flag } (w.setAllowSleeping flag) ∧
    (w.setAllowSleeping flag).g = w.g := by
  unfold setAllowSleeping
  split
  · rename_i h
    exact ⟨hw, .refl _ _, ⟨by rw [h]⟩, rfl⟩
  · dsimp only
    split
    · obtain ⟨q, l⟩ := foldl_quiet (f := fun w b => w.setAwake b true) (fun w b => ⟨setAwake_quiet w b true, rfl⟩) w.g.bodyList { w with allowSleep := flag }
      exact ⟨(hw.frame (w' := { w with allowSleep := flag }) rfl rfl).frame q.g q.bp, (show Tr env w { w with allowSleep := flag } from ⟨id, id, id⟩).trans (.quiet0 q l), q.toWFrame.rest, q.g⟩
    · exact ⟨hw.frame rfl rfl, ⟨id, id, id⟩, ⟨rfl⟩, rfl⟩

theorem clearForcesAll_quiet (w : World F) : Quiet w w.clearForcesAll ∧ w.clearForcesAll.log = w.log :=
  foldl_quiet (f := fun (w : World F) b => w.setPhys b { w.phys b with force := ⟨0, 0⟩, torque := 0 })
    (fun _ _ => ⟨setPhys_quiet ⟨rfl, rfl, rfl, fun _ => rfl⟩, rfl⟩) w.g.bodyList w

theorem clearForcesAll_spec {env : Env F} {w : World F} (hw : WInv w) :
    WInv w.clearForcesAll ∧ Tr env w w.clearForcesAll ∧ WFrame w w.clearForcesAll := by
  obtain ⟨q, l⟩ := clearForcesAll_quiet w
  exact ⟨hw.frame q.g q.bp, .quiet0 q l, q.toWFrame⟩

theorem PI.shift {fx : Nat → FixS F} {bp : BroadPhase F (Nat × Nat)} {L : Nat → Nat → Prop}
    {gh : Nat → Option (Proxy F (Nat × Nat))} {buf : List Nat} {rep : Set (Nat × Nat)} (h : PI fx bp L gh buf rep) (o : Vec2 F) :
    PI fx (bp.shiftOrigin o) L (fun i => (gh i).map fun p => { p with box := Spec.shift o p.box, fat := Spec.shift o p.fat }) buf rep := by
  refine ⟨.shift o h.hist, fun f i hl => ?_, fun id p hp => ?_⟩
  · obtain ⟨id, p, h1, h2, h3⟩ := h.has f i hl
    exact ⟨id, { p with box := Spec.shift o p.box, fat := Spec.shift o p.fat }, h1, by rw [h2]; rfl, h3⟩
  · cases hg : gh id with
    | none => rw [hg] at hp; cases hp
    | some q =>
      rw [hg] at hp
      cases hp
      exact h.only id q hg

theorem shiftOrigin_spec' {env : Env F} {w : World F} (o : Vec2 F) (hw : WInv w) (hl : w.locked = false) :
    ∃ w', w.shiftOrigin o = some w' ∧ WInv w' ∧ Tr env w w' ∧ Rest w w' ∧ w'.g = w.g ∧ w'.bp = w.bp.shiftOrigin o ∧ (∀ f, (w'.fattr f).filter = (w.fattr f).filter) := by
  unfold World.shiftOrigin
  rw [if_neg (by simp [hl])]
  obtain ⟨q, l⟩ := foldl_quiet (f := fun (w : World F) b =>
      let p := w.phys b
      w.setPhys b { p with
        xf := ⟨p.xf.p - o, p.xf.q⟩, sweep := { p.sweep with c0 := p.sweep.c0 - o, c := p.sweep.c - o } })
    (fun _ _ => ⟨setPhys_quiet ⟨rfl, rfl, rfl, fun _ => rfl⟩, rfl⟩) w.g.bodyList w
  refine ⟨_, rfl, ?_, (Tr.quiet0 q l).trans ⟨id, id, id⟩, ?_, q.g, by rw [← q.bp], q.toWFrame.filter⟩
  · obtain ⟨gh, buf, rep, hp⟩ := (hw.frame q.g q.bp).prox
    exact ⟨(hw.frame q.g q.bp).toGInv, _, _, _, PI.shift hp o⟩
  · exact q.toWFrame.rest.trans ⟨rfl⟩

end World
end
end B2
