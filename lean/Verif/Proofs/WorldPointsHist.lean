import Verif.Proofs.WorldHeld

/-! In every world reached by calls that respect `Tame`, solid contacts that touch have points. -/
namespace B2
set_option linter.unusedSectionVars false
open World Spec

section
variable {F : Type} [Field F] [LinearOrder F] [IsStrictOrderedRing F] [Elem F] {env : Env F}

namespace World

theorem same0 {w w' : World F} (hg : w'.g.contacts = w.g.contacts) (hl : w'.g.contactList = w.g.contactList) (hf : w'.fattr = w.fattr) (hs : w'.cst = w.cst)
    (hd : w'.stepComplete = w.stepComplete) (hr : w'.invDt0 = w.invDt0 := by rfl) (hn : w'.g.nextFixture = w.g.nextFixture := by rfl)
    (hx : ∀ f, (w'.g.fixtures f).shape = (w.g.fixtures f).shape := by first | exact fun _ => rfl | exact proj_upd (fun q : FixS F => q.shape) rfl) : Firm w w' := .same hg (fun c hc => by rw [← hl]; exact hc) hf hs hd hr hn hx

theorem Firm.after {w w' w'' : World F} (h : Firm w' w'') (hg : w'.g.contacts = w.g.contacts) (hl : w'.g.contactList = w.g.contactList) (hf : w'.fattr = w.fattr)
    (hs : w'.cst = w.cst) (hd : w'.stepComplete = w.stepComplete) (hr : w'.invDt0 = w.invDt0 := by rfl) (hn : w'.g.nextFixture = w.g.nextFixture := by rfl)
    (hx : ∀ f, (w'.g.fixtures f).shape = (w.g.fixtures f).shape := by first | exact fun _ => rfl | exact proj_upd (fun q : FixS F => q.shape) rfl) : Firm w w'' := (same0 hg hl hf hs hd hr hn hx).trans h
theorem Firm.before {w w' w'' : World F} (h : Firm w w') (hg : w''.g.contacts = w'.g.contacts) (hl : w''.g.contactList = w'.g.contactList) (hf : w''.fattr = w'.fattr)
    (hs : w''.cst = w'.cst) (hd : w''.stepComplete = w'.stepComplete) (hr : w''.invDt0 = w'.invDt0 := by rfl) (hn : w''.g.nextFixture = w'.g.nextFixture := by rfl)
    (hx : ∀ f, (w''.g.fixtures f).shape = (w'.g.fixtures f).shape := by first | exact fun _ => rfl | exact proj_upd (fun q : FixS F => q.shape) rfl) : Firm w w'' := h.trans (same0 hg hl hf hs hd hr hn hx)

theorem destroyContacts_firm (hE : CallbacksTame env) {w w' : World F} {l : List (Nat × Nat)} (e : destroyContacts env l w = some w') : Firm w w' :=
  Firm.foldlM e (fun _ _ _ _ h => contactDestroy_firm hE h)

theorem destroyContactsOf_firm (hE : CallbacksTame env) {f : Nat} : ∀ (l : List (Nat × Nat)) {w w' : World F}, destroyContactsOf env f l w = some w' → Firm w w' := by
  intro l
  induction l with
  | nil => intro w w' e; cases e; exact .refl _
  | cons a l ih =>
    intro w w' e
    unfold destroyContactsOf at e
    simp only [Option.bind_eq_bind, Option.bind_eq_some_iff] at e
    obtain ⟨w1, e1, e2⟩ := e
    have h1 : Firm w w1 := by
      split at e1
      · exact contactDestroy_firm hE e1
      · cases e1; exact .refl _
    exact h1.trans (ih e2)

theorem resetMassData_firm {w w' : World F} {b : Nat} (e : w.resetMassData b = some w') : Firm w w' :=
  userOp_firm (op := .body b .resetMassData) trivial e

theorem createProxies_firm {w w' : World F} {f : Nat} {xf : Xf F} (e : w.createProxies f xf = some w') : Firm w w' := by
  unfold createProxies at e
  dsimp only at e
  split at e
  · cases e
  simp only [Option.bind_eq_bind, Option.bind_eq_some_iff] at e
  obtain ⟨n, -, e⟩ := e
  refine Firm.after (Firm.foldlM e fun i _ v v' h => ?_) (by rfl) (by rfl) (by rfl) (by rfl) (by rfl)
  unfold createProxy at h
  simp only [Option.bind_eq_bind, Option.bind_eq_some_iff] at h
  obtain ⟨_, -, _, -, _, -, h⟩ := h
  cases h
  exact same0 (by rfl) (by rfl) (by rfl) (by rfl) (by rfl)

theorem destroyProxies_firm {w w' : World F} {f : Nat} (e : w.destroyProxies f = some w') : Firm w w' := by
  unfold destroyProxies at e
  simp only [Option.bind_eq_bind, Option.bind_eq_some_iff] at e
  obtain ⟨w1, e1, e2⟩ := e
  cases e2
  refine Firm.before (w' := w1) (Firm.foldlM e1 fun i _ v v' h => ?_) (by rfl) (by rfl) (by rfl) (by rfl) (by rfl)
  unfold destroyProxy at h
  simp only [Option.bind_eq_bind, Option.bind_eq_some_iff] at h
  obtain ⟨_, -, _, -, _, -, h⟩ := h
  cases h
  exact same0 (by rfl) (by rfl) (by rfl) (by rfl) (by rfl)

theorem touchProxies_firm {w w' : World F} {f : Nat} (e : w.touchProxies f = some w') : Firm w w' := by
  unfold touchProxies at e
  refine Firm.foldlM e fun i _ v v' h => ?_
  simp only [Option.bind_eq_bind, Option.bind_eq_some_iff] at h
  obtain ⟨_, -, _, -, _, -, h⟩ := h
  cases h
  exact same0 (by rfl) (by rfl) (by rfl) (by rfl) (by rfl)

theorem flagContacts_firm (w : World F) (a b : Nat) : Firm w (w.flagContacts a b) := by
  unfold flagContacts
  refine Firm.foldl (fun e _ v => ?_) w
  split
  · exact .setCst (by rfl) id id
  · exact .refl _

theorem destroyJoint_firm {w w' : World F} {j : Nat} (e : w.destroyJoint j = some w') : Firm w w' := by
  unfold destroyJoint at e
  split at e
  · cases e
  simp only [Option.bind_eq_bind, Option.bind_eq_some_iff] at e
  obtain ⟨jl, -, la, -, lb, -, e⟩ := e
  split at e
  · cases e
  have h1 : Firm w (({ w with g := { w.g with jointList := jl } } : World F).setAwake (w.g.joints j).a true |>.setAwake (w.g.joints j).b true) :=
    Firm.after (Firm.setAwake.trans .setAwake) (by rfl) (by rfl) (by rfl) (by rfl) (by rfl)
  cases e
  split
  · exact h1.trans (Firm.after (flagContacts_firm _ _ _) (by rfl) (by rfl) (by rfl) (by rfl) (by rfl))
  · exact h1.before (by rfl) (by rfl) (by rfl) (by rfl) (by rfl)

/-- After the new fixture is entered the rest of `create_fixture` changes nothing. -/
theorem createFixture_firm {w w' : World F} {b f : Nat} {d : FixDef F} (e : w.createFixture b d = some (w', f)) :
    ∃ v : World F, Firm v w' ∧ v.g.contacts = w.g.contacts ∧ v.g.contactList = w.g.contactList ∧ v.fattr = upd w.fattr w.g.nextFixture d.attr ∧ v.cst = w.cst ∧
      v.stepComplete = w.stepComplete ∧ v.invDt0 = w.invDt0 ∧ v.g.nextFixture = w.g.nextFixture + 1 ∧ (v.g.fixtures w.g.nextFixture).shape = d.shape ∧
      ∀ x, x ≠ w.g.nextFixture → (v.g.fixtures x).shape = (w.g.fixtures x).shape := by
  unfold createFixture at e
  split at e
  · cases e
  simp only [Option.bind_eq_bind, Option.bind_eq_some_iff] at e
  obtain ⟨n, -, w1, e1, w2, e2, e3⟩ := e
  cases e3
  refine ⟨{ w with
      g := { w.g with fixtures := upd w.g.fixtures w.g.nextFixture ⟨some b, d.shape, List.replicate n ⟨none, 0, none⟩, 0⟩, nextFixture := w.g.nextFixture + 1 }
      fattr := upd w.fattr w.g.nextFixture d.attr }, ?_, by rfl, by rfl, by rfl, by rfl, by rfl, by rfl, by rfl, congrArg FixS.shape (upd_same _ _ _),
    fun x hx => congrArg FixS.shape (upd_other _ _ hx)⟩
  have h2 : Firm w1 w2 := by
    split at e2
    · exact Firm.after (resetMassData_firm e2) (by rfl) (by rfl) (by rfl) (by rfl) (by rfl)
    · cases e2; exact same0 (by rfl) (by rfl) (by rfl) (by rfl) (by rfl)
  refine Firm.trans ?_ (h2.before (by rfl) (by rfl) (by rfl) (by rfl) (by rfl))
  split at e1
  · exact createProxies_firm e1
  · cases e1; exact .refl _

/-- A new fixture is a fixture of no contact. -/
theorem createFixture_pts {w w' : World F} (hw : WInv w) {b f : Nat} {d : FixDef F} (hp : Pts w) (e : w.createFixture b d = some (w', f)) : Pts w' := by
  obtain ⟨v, hv, a1, a2, a3, a4, a5, a6, -⟩ := createFixture_firm e
  refine (Keep2.firm hv).pts ?_
  have hnew : ∀ c ∈ w.g.contactList, (w.g.contacts c).fA ≠ w.g.nextFixture ∧ (w.g.contacts c).fB ≠ w.g.nextFixture := by
    intro c hc
    obtain ⟨bA, bB, hA, hB, -⟩ := hw.ok c hc
    have a := (hw.body.owner _ _ hA).1
    have b := (hw.body.owner _ _ hB).1
    omega
  have hs : ∀ c ∈ w.g.contactList, v.sensorContact c = w.sensorContact c := by
    intro c hc
    unfold sensorContact
    rw [a1, a3, upd_other _ _ (hnew c hc).1, upd_other _ _ (hnew c hc).2]
  refine ⟨fun c hc h1 h2 => ?_, fun h c hc h1 => ?_, fun c => ?_, ?_⟩
  · rw [a2] at hc
    rw [a4] at h2 ⊢
    exact hp.1 c hc ((hs c hc).symm.trans h1) h2
  · rw [a2] at hc
    rw [a4] at h1
    exact (hs c hc).trans (hp.2.1 (a5.symm.trans h) c hc h1)
  · rw [a4]; exact hp.2.2.1 c
  · rw [a6]; exact hp.2.2.2

theorem destroyFixture_firm (hE : CallbacksTame env) {w w' : World F} {b f : Nat} (e : w.destroyFixture env b f = some w') : Firm w w' := by
  unfold destroyFixture at e
  split at e
  · cases e
  split at e
  · cases e
  split at e
  · cases e
  simp only [Option.bind_eq_bind, Option.bind_eq_some_iff] at e
  obtain ⟨fl, -, w1, e1, w2, e2, e3⟩ := e
  have h1 : Firm w w1 := Firm.after (destroyContactsOf_firm hE _ e1) (by rfl) (by rfl) (by rfl) (by rfl) (by rfl)
  have h2 : Firm w1 w2 := by
    split at e2
    · exact destroyProxies_firm e2
    · cases e2; exact .refl _
  exact (h1.trans h2).trans (Firm.after (resetMassData_firm e3) (by rfl) (by rfl) (by rfl) (by rfl) (by rfl))

theorem setType_firm (hE : CallbacksTame env) {w w' : World F} {b : Nat} {t : BodyType} (e : w.setType env b t = some w') : Firm w w' := by
  unfold setType at e
  split at e
  · cases e
  split at e
  · cases e; exact .refl _
  simp only [Option.bind_eq_bind, Option.bind_eq_some_iff] at e
  obtain ⟨w1, e1, w2, e2, w3, e3, e4⟩ := e
  have h1 : Firm w w1 := Firm.after (resetMassData_firm e1) (by rfl) (by rfl) (by rfl) (by rfl) (by rfl)
  have h2 : Firm w1 w2 := by
    split at e2
    · exact Firm.trans .setPhys (synchronizeFixtures_firm e2)
    · cases e2; exact .refl _
  have h3 : Firm w2 w3 := (Firm.setAwake.trans .setPhys).trans (destroyContacts_firm hE e3)
  exact (h1.trans (h2.trans h3)).trans (Firm.after (Firm.foldlM e4 (fun _ _ _ _ h => touchProxies_firm h)) (by rfl) (by rfl) (by rfl) (by rfl) (by rfl))

theorem setEnabled_firm (hE : CallbacksTame env) {w w' : World F} {b : Nat} {flag : Bool} (e : w.setEnabled env b flag = some w') : Firm w w' := by
  unfold setEnabled at e
  split at e
  · cases e
  dsimp only at e
  split at e
  · simp only [Option.bind_eq_bind, Option.bind_eq_some_iff] at e
    obtain ⟨w1, e1, e2⟩ := e
    cases e2
    have h1 : Firm w w1 := Firm.after (Firm.foldlM e1 (fun _ _ _ _ h => createProxies_firm h)) (by rfl) (by rfl) (by rfl) (by rfl) (by rfl)
    exact Firm.before h1 (by rfl) (by rfl) (by rfl) (by rfl) (by rfl)
  · simp only [Option.bind_eq_bind, Option.bind_eq_some_iff] at e
    obtain ⟨w1, e1, w2, e2, e3⟩ := e
    cases e3
    have h1 : Firm w w1 := Firm.after (Firm.foldlM e1 (fun _ _ _ _ h => destroyProxies_firm h)) (by rfl) (by rfl) (by rfl) (by rfl) (by rfl)
    exact (h1.trans (destroyContacts_firm hE e2)).before (by rfl) (by rfl) (by rfl) (by rfl) (by rfl)

theorem refilter_firm {w w' : World F} {f : Nat} (e : w.refilter f = some w') : Firm w w' := by
  unfold refilter at e
  split at e
  · cases e; exact .refl _
  split at e
  · cases e
  · exact touchProxies_firm e

theorem destroyBody_firm (hE : CallbacksTame env) {w w' : World F} {b : Nat} (e : w.destroyBody env b = some w') : Firm w w' := by
  unfold destroyBody at e
  split at e
  · cases e
  split at e
  · cases e
  simp only [Option.bind_eq_bind, Option.bind_eq_some_iff] at e
  obtain ⟨w1, e1, w2, e2, w3, e3, bl, e4, e5⟩ := e
  cases e5
  have h1 : Firm w w1 := Firm.foldlM e1 fun x _ v v' h => by
    simp only [Option.bind_eq_bind, Option.bind_eq_some_iff] at h
    obtain ⟨u, a, b⟩ := h
    exact (goodbye_firm hE a).trans (destroyJoint_firm b)
  have h2 : Firm w1 w2 := Firm.after (destroyContacts_firm hE e2) (by rfl) (by rfl) (by rfl) (by rfl) (by rfl)
  have h3 : Firm w2 w3 := Firm.after (Firm.foldlM e3 fun x _ v v' h => by
    simp only [Option.bind_eq_bind, Option.bind_eq_some_iff] at h
    obtain ⟨u, a, u', b, c⟩ := h
    cases c
    exact ((goodbye_firm hE a).trans (destroyProxies_firm b)).before (by rfl) (by rfl) (by rfl) (by rfl) (by rfl)) (by rfl) (by rfl) (by rfl) (by rfl) (by rfl)
  exact (h1.trans (h2.trans h3)).before (by rfl) (by rfl) (by rfl) (by rfl) (by rfl)

theorem setSensor_fix {w w' : World F} {f : Nat} {flag : Bool} (e : w.setSensor f flag = some w') : FixSame w w' := by
  unfold setSensor at e
  split at e
  on_goal 2 => cases e; exact .refl _
  simp only [Option.bind_eq_bind, Option.bind_eq_some_iff] at e
  obtain ⟨b, -, e⟩ := e
  cases e
  refine ⟨rfl, fun _ => rfl, fun x hx => ?_⟩
  show 0 ≤ (upd w.fattr f _ x).density
  by_cases hxf : x = f
  · subst hxf; rw [upd_same]; exact hx
  · rw [upd_other _ _ hxf]; exact hx

/-- A tame call of `set_sensor`. -/
theorem setSensor_pts {w w' : World F} {f : Nat} {flag : Bool} (ht : Tame w (.user (.fixtureSetSensor f flag))) (hp : Pts w) (e : w.setSensor f flag = some w') : Pts w' := by
  have hfix := setSensor_fix e
  unfold setSensor at e
  split at e
  on_goal 2 => cases e; exact hp
  rename_i hne
  simp only [Option.bind_eq_bind, Option.bind_eq_some_iff] at e
  obtain ⟨b, -, e⟩ := e
  cases e
  rcases ht with ht | ht | ⟨ht, hc⟩
  · exact absurd ht hne
  · refine Keep2.pts (.firm ⟨fun _ => ?_, fun c hc => ?_, fun _ => ?_, fun _ => ?_, fun _ => ?_, ?_, fun h => ?_, hfix⟩) hp
    on_goal 7 => exact h
    on_goal 1 => exact id
    on_goal 2 => rfl
    on_goal 2 => exact id
    on_goal 2 => exact id
    on_goal 2 => rfl
    show ((upd w.fattr f _ (w.g.contacts c).fA).sensor || (upd w.fattr f _ (w.g.contacts c).fB).sensor) = _
    rw [upd_other _ _ (ht c hc).1, upd_other _ _ (ht c hc).2]
    rfl
  · subst ht
    refine ⟨fun c hcl h1 h2 => ?_, fun h => ?_, hp.2.2⟩
    · refine hp.1 c hcl ?_ h2
      have mono : ∀ x, (w.fattr x).sensor = true → (upd w.fattr f { (w.setAwake b true).fattr f with sensor := true } x).sensor = true := by
        intro x hx
        by_cases hxf : x = f
        · subst hxf; rw [upd_same]
        · rw [upd_other _ _ hxf]; exact hx
      replace h1 : ((upd w.fattr f _ (w.g.contacts c).fA).sensor || (upd w.fattr f _ (w.g.contacts c).fB).sensor) = false := h1
      rw [Bool.or_eq_false_iff] at h1
      unfold sensorContact
      rw [Bool.or_eq_false_iff]
      constructor
      · by_contra hx
        rw [Bool.not_eq_false] at hx
        have := mono _ hx
        rw [h1.1] at this
        cases this
      · by_contra hx
        rw [Bool.not_eq_false] at hx
        have := mono _ hx
        rw [h1.2] at this
        cases this
    · exfalso
      replace h : w.stepComplete = false := h
      rw [hc] at h
      cases h

end World

/-- A call that is not `Plain`: a new fixture, another value for the sensor, a step. -/
def Keeping : Call F → Prop
  | .createFixture _ _ | .user (.fixtureSetSensor _ _) | .step _ _ _ => True
  | _ => False

theorem call_keep2 (hE : CallbacksTame env) {w w' : World F} (c : Call F) (ha : ¬ Keeping c) (ht : Tame w c) (e : c.run env w = some w') : Keep2 w w' := by
  cases c with
  | createBody d =>
    simp only [Call.run, Option.map_eq_some_iff] at e
    obtain ⟨⟨v, b⟩, e, rfl⟩ := e
    unfold createBody at e
    split at e
    · cases e
    simp only [Option.bind_eq_bind, Option.bind_eq_some_iff] at e
    obtain ⟨p, e1, e2⟩ := e
    cases e2
    exact Keep2.firm (same0 (by rfl) (by rfl) (by rfl) (by rfl) (by rfl))
  | destroyBody b => exact Keep2.firm (destroyBody_firm hE e)
  | createFixture b d => exact absurd trivial ha
  | destroyFixture b f => exact Keep2.firm (destroyFixture_firm hE e)
  | createJoint d =>
    simp only [Call.run, Option.map_eq_some_iff] at e
    obtain ⟨⟨v, j⟩, e, rfl⟩ := e
    unfold createJoint at e
    split at e
    · cases e
    split at e
    · cases e
    dsimp only at e
    cases e
    refine Keep2.firm ?_
    split
    · exact Firm.after (flagContacts_firm _ _ _) (by rfl) (by rfl) (by rfl) (by rfl) (by rfl)
    · exact same0 (by rfl) (by rfl) (by rfl) (by rfl) (by rfl)
  | destroyJoint j => exact Keep2.firm (destroyJoint_firm e)
  | setType b t => exact Keep2.firm (setType_firm hE e)
  | setEnabled b flag => exact Keep2.firm (setEnabled_firm hE e)
  | setTransform b p a =>
    simp only [Call.run] at e
    unfold setTransform at e
    split at e
    · cases e
    simp only [Option.bind_eq_bind, Option.bind_eq_some_iff] at e
    obtain ⟨w1, e1, e2⟩ := e
    cases e2
    refine Keep2.firm (Firm.before (w' := w1) ?_ (by rfl) (by rfl) (by rfl) (by rfl) (by rfl))
    exact Firm.trans .setPhys (Firm.foldlM e1 (fun _ _ _ _ h => synchronize_firm h))
  | setMassData b m =>
    simp only [Call.run] at e
    unfold setMassData at e
    split at e
    · cases e
    simp only [Option.bind_eq_bind, Option.bind_eq_some_iff] at e
    obtain ⟨p, -, e⟩ := e
    cases e
    exact Keep2.firm .setPhys
  | setFilterData f d =>
    simp only [Call.run] at e
    exact Keep2.firm (Firm.trans (.setFattr (by rfl)) (refilter_firm e))
  | refilter f => exact Keep2.firm (refilter_firm e)
  | user op =>
    have tame : TameOp op → Keep2 w w' := fun h => Keep2.firm (userOp_firm h e)
    cases op with
    | fixtureSetSensor f flag => exact absurd trivial ha
    | contactSetManifold c m => exact tame ht
    | _ => exact tame trivial
  | setAllowSleeping flag =>
    cases e
    refine Keep2.firm ?_
    unfold setAllowSleeping
    split
    · exact .refl _
    dsimp only
    split
    · exact Firm.after (Firm.foldl (fun b _ v => .setAwake) _) (by rfl) (by rfl) (by rfl) (by rfl) (by rfl)
    · exact same0 (by rfl) (by rfl) (by rfl) (by rfl) (by rfl)
  | setGravity x => cases e; exact Keep2.firm (same0 (by rfl) (by rfl) (by rfl) (by rfl) (by rfl))
  | setAutoClearForces x => cases e; exact Keep2.firm (same0 (by rfl) (by rfl) (by rfl) (by rfl) (by rfl))
  | setWarmStarting x => cases e; exact Keep2.firm (same0 (by rfl) (by rfl) (by rfl) (by rfl) (by rfl))
  | setContinuousPhysics x => cases e; exact Keep2.firm (same0 (by rfl) (by rfl) (by rfl) (by rfl) (by rfl))
  | setSubStepping x => cases e; exact Keep2.firm (same0 (by rfl) (by rfl) (by rfl) (by rfl) (by rfl))
  | clearForces => cases e; exact Keep2.firm (clearForcesAll_firm w)
  | shiftOrigin o =>
    simp only [Call.run] at e
    unfold shiftOrigin at e
    split at e
    · cases e
    dsimp only at e
    cases e
    exact Keep2.firm (Firm.before (Firm.foldl (fun b _ v => .setPhys) w) (by rfl) (by rfl) (by rfl) (by rfl) (by rfl))
  | step dt vi pi => exact absurd trivial ha

theorem call_pts (hE : CallbacksTame env) (hI : ImpulsesPush env) {w w' : World F} (c : Call F) (h : HInv env w) (hp : Pts w) (ht : Tame w c) (e : c.run env w = some w') : Pts w' := by
  by_cases ha : Keeping c
  · cases c with
    | createFixture b d =>
      simp only [Call.run, Option.map_eq_some_iff] at e
      obtain ⟨⟨v, f⟩, e, rfl⟩ := e
      exact createFixture_pts h.toWInv hp e
    | user op =>
      cases op with
      | fixtureSetSensor f flag => exact setSensor_pts ht hp e
      | _ => exact absurd ha (by simp [Keeping])
    | step dt vi pi => exact step_pts hE hI hp e
    | _ => exact absurd ha (by simp [Keeping])
  · exact (call_keep2 hE c ha ht e).pts hp

/-- No call but `create_fixture` changes the fixtures. -/
theorem call_fix (hE : CallbacksTame env) (hI : ImpulsesPush env) {w w' : World F} (c : Call F) (hc : ∀ b d, c ≠ .createFixture b d) (hp : Pts w) (ht : Tame w c)
    (e : c.run env w = some w') : FixSame w w' := by
  by_cases ha : Keeping c
  · cases c with
    | createFixture b d => exact absurd rfl (hc b d)
    | user op =>
      cases op with
      | fixtureSetSensor f flag => exact setSensor_fix e
      | _ => exact absurd ha (by simp [Keeping])
    | step dt vi pi => exact step_fix hE hI hp.2.2 e
    | _ => exact absurd ha (by simp [Keeping])
  · exact (call_keep2 hE c ha ht e).fix

theorem tame_whist {w : World F} (h : TameHist env w) : WHist env w := by
  induction h with
  | new => exact .new ..
  | call c _ hok _ e ih => exact .call c ih hok e

theorem tame_pts (hE : CallbacksTame env) (hI : ImpulsesPush env) {w : World F} (h : TameHist env w) : Pts w := by
  induction h with
  | new =>
    refine ⟨fun c hc => ?_, fun _ c hc => ?_, fun c p hp => ?_, le_rfl⟩
    · exact absurd hc List.not_mem_nil
    · exact absurd hc List.not_mem_nil
    · cases hp
  | call c h hok ht e ih => exact call_pts hE hI c (whist_inv (tame_whist h)) ih ht e

end
end B2
