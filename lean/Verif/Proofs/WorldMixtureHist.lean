import Verif.Proofs.WorldMixture
import Verif.Proofs.WorldHist

/-! What the calls other than a step do to the coefficients of contacts. -/
namespace B2
set_option linter.unusedSectionVars false
open World Spec

section
variable {F : Type} [Field F] [LinearOrder F] [IsStrictOrderedRing F] [Elem F] {env : Env F}

theorem Mats.setPhys {w : World F} {b : Nat} {p : Phys F} : Mats w (w.setPhys b p) := .easy
theorem Mats.after {w v w' : World F} (h : Mats v w') (hn : v.g.nextContact = w.g.nextContact := by rfl) (hk : v.g.contacts = w.g.contacts := by rfl)
    (hl : ∀ c ∈ v.g.contactList, c ∈ w.g.contactList := by exact fun _ => id)
    (hf : ∀ f, (v.fattr f).coefs = (w.fattr f).coefs := by first | exact fun _ => rfl | exact proj_upd FAttr.coefs rfl)
    (hs : ∀ c, (v.cst c).coefs = (w.cst c).coefs := by exact fun _ => rfl) : Mats w w' := Mats.trans (.easy hn hk hl hf hs) h
theorem Mats.before {w v w' : World F} (h : Mats w v) (hn : w'.g.nextContact = v.g.nextContact := by rfl) (hk : w'.g.contacts = v.g.contacts := by rfl)
    (hl : ∀ c ∈ w'.g.contactList, c ∈ v.g.contactList := by exact fun _ => id)
    (hf : ∀ f, (w'.fattr f).coefs = (v.fattr f).coefs := by first | exact fun _ => rfl | exact proj_upd FAttr.coefs rfl)
    (hs : ∀ c, (w'.cst c).coefs = (v.cst c).coefs := by exact fun _ => rfl) : Mats w w' := h.trans (.easy hn hk hl hf hs)

theorem goodbye_mats (hE : Muted env) {w w' : World F} {k : EventKind} (e : w.goodbye env k = some w') : Mats w w' := by
  unfold goodbye at e
  split at e
  · exact emit_mats hE e
  · cases e; exact .refl _

theorem synchronize_mats {xf1 xf2 : Xf F} {w w' : World F} {f : Nat} (e : synchronize xf1 xf2 w f = some w') : Mats w w' := by
  unfold synchronize at e
  refine Mats.foldlM e fun v v' i _ h => ?_
  unfold synchronizeProxy at h
  simp only [Option.bind_eq_bind, Option.bind_eq_some_iff] at h
  obtain ⟨_, -, _, -, _, -, _, -, _, -, h⟩ := h
  cases h
  exact .easy

theorem clearForcesAll_mats (w : World F) : Mats w w.clearForcesAll := by
  unfold clearForcesAll; exact Mats.foldl _ (fun _ _ _ => .easy)

theorem destroyContacts_mats (hE : Muted env) {w w' : World F} {l : List (Nat × Nat)} (e : destroyContacts env l w = some w') : Mats w w' :=
  Mats.foldlM e (fun _ _ _ _ h => contactDestroy_mats hE h)

theorem destroyContactsOf_mats (hE : Muted env) {f : Nat} : ∀ (l : List (Nat × Nat)) {w w' : World F}, destroyContactsOf env f l w = some w' → Mats w w' := by
  intro l
  induction l with
  | nil => intro w w' e; cases e; exact .refl _
  | cons a l ih =>
    intro w w' e
    unfold destroyContactsOf at e
    simp only [Option.bind_eq_bind, Option.bind_eq_some_iff] at e
    obtain ⟨w1, e1, e2⟩ := e
    have h1 : Mats w w1 := by
      split at e1
      · exact contactDestroy_mats hE e1
      · cases e1; exact .refl _
    exact h1.trans (ih e2)

theorem resetMassData_mats {w w' : World F} {b : Nat} (e : w.resetMassData b = some w') : Mats w w' :=
  userOp_mats (op := .body b .resetMassData) trivial e

theorem createProxies_mats {w w' : World F} {f : Nat} {xf : Xf F} (e : w.createProxies f xf = some w') : Mats w w' := by
  unfold createProxies at e
  dsimp only at e
  split at e
  · cases e
  simp only [Option.bind_eq_bind, Option.bind_eq_some_iff] at e
  obtain ⟨n, -, e⟩ := e
  refine Mats.after (Mats.foldlM e fun v v' i _ h => ?_)
  unfold createProxy at h
  simp only [Option.bind_eq_bind, Option.bind_eq_some_iff] at h
  obtain ⟨_, -, _, -, _, -, h⟩ := h
  cases h
  exact Mats.easy

theorem destroyProxies_mats {w w' : World F} {f : Nat} (e : w.destroyProxies f = some w') : Mats w w' := by
  unfold destroyProxies at e
  simp only [Option.bind_eq_bind, Option.bind_eq_some_iff] at e
  obtain ⟨w1, e1, e2⟩ := e
  cases e2
  refine Mats.before (v := w1) (Mats.foldlM e1 fun v v' i _ h => ?_)
  unfold destroyProxy at h
  simp only [Option.bind_eq_bind, Option.bind_eq_some_iff] at h
  obtain ⟨_, -, _, -, _, -, h⟩ := h
  cases h
  exact Mats.easy

theorem touchProxies_mats {w w' : World F} {f : Nat} (e : w.touchProxies f = some w') : Mats w w' := by
  unfold touchProxies at e
  refine Mats.foldlM e fun v v' i _ h => ?_
  simp only [Option.bind_eq_bind, Option.bind_eq_some_iff] at h
  obtain ⟨_, -, _, -, _, -, h⟩ := h
  cases h
  exact Mats.easy

theorem flagContacts_mats (w : World F) (a b : Nat) : Mats w (w.flagContacts a b) := by
  unfold flagContacts
  refine Mats.foldl w (fun v e _ => ?_)
  split
  · exact .easy
  · exact .refl _

theorem destroyJoint_mats {w w' : World F} {j : Nat} (e : w.destroyJoint j = some w') : Mats w w' := by
  unfold destroyJoint at e
  split at e
  · cases e
  simp only [Option.bind_eq_bind, Option.bind_eq_some_iff] at e
  obtain ⟨jl, -, la, -, lb, -, e⟩ := e
  split at e
  · cases e
  have h1 : Mats w (({ w with g := { w.g with jointList := jl } } : World F).setAwake (w.g.joints j).a true |>.setAwake (w.g.joints j).b true) :=
    Mats.after (Mats.easy)
  cases e
  split
  · exact h1.trans (Mats.after (flagContacts_mats _ _ _))
  · exact h1.before

/-- After the new fixture is entered the rest of `create_fixture` changes nothing. -/
theorem createFixture_mats {w w' : World F} {b f : Nat} {d : FixDef F} (e : w.createFixture b d = some (w', f)) :
    ∃ v : World F, Mats v w' ∧ v.g.contacts = w.g.contacts ∧ v.g.contactList = w.g.contactList ∧ v.g.nextContact = w.g.nextContact ∧
      v.fattr = upd w.fattr w.g.nextFixture d.attr ∧ v.cst = w.cst := by
  unfold createFixture at e
  split at e
  · cases e
  simp only [Option.bind_eq_bind, Option.bind_eq_some_iff] at e
  obtain ⟨n, -, w1, e1, w2, e2, e3⟩ := e
  cases e3
  refine ⟨{ w with
      g := { w.g with fixtures := upd w.g.fixtures w.g.nextFixture ⟨some b, d.shape, List.replicate n ⟨none, 0, none⟩, 0⟩, nextFixture := w.g.nextFixture + 1 }
      fattr := upd w.fattr w.g.nextFixture d.attr }, ?_, rfl, rfl, rfl, rfl, rfl⟩
  have h2 : Mats w1 w2 := by
    split at e2
    · exact Mats.after (resetMassData_mats e2)
    · cases e2; exact Mats.easy
  refine Mats.trans ?_ (h2.before)
  split at e1
  · exact createProxies_mats e1
  · cases e1; exact .refl _

theorem destroyFixture_mats (hE : Muted env) {w w' : World F} {b f : Nat} (e : w.destroyFixture env b f = some w') : Mats w w' := by
  unfold destroyFixture at e
  split at e
  · cases e
  split at e
  · cases e
  split at e
  · cases e
  simp only [Option.bind_eq_bind, Option.bind_eq_some_iff] at e
  obtain ⟨fl, -, w1, e1, w2, e2, e3⟩ := e
  have h1 : Mats w w1 := Mats.after (destroyContactsOf_mats hE _ e1)
  have h2 : Mats w1 w2 := by
    split at e2
    · exact destroyProxies_mats e2
    · cases e2; exact .refl _
  exact (h1.trans h2).trans (Mats.after (resetMassData_mats e3))

theorem setType_mats (hE : Muted env) {w w' : World F} {b : Nat} {t : BodyType} (e : w.setType env b t = some w') : Mats w w' := by
  unfold setType at e
  split at e
  · cases e
  split at e
  · cases e; exact .refl _
  simp only [Option.bind_eq_bind, Option.bind_eq_some_iff] at e
  obtain ⟨w1, e1, w2, e2, w3, e3, e4⟩ := e
  have h1 : Mats w w1 := Mats.after (resetMassData_mats e1)
  have h2 : Mats w1 w2 := by
    split at e2
    · exact Mats.trans .easy (synchronizeFixtures_mats e2)
    · cases e2; exact .refl _
  have h3 : Mats w2 w3 := Mats.trans .easy (destroyContacts_mats hE e3)
  exact (h1.trans (h2.trans h3)).trans (Mats.after (Mats.foldlM e4 (fun _ _ _ _ h => touchProxies_mats h)))

theorem setEnabled_mats (hE : Muted env) {w w' : World F} {b : Nat} {flag : Bool} (e : w.setEnabled env b flag = some w') : Mats w w' := by
  unfold setEnabled at e
  split at e
  · cases e
  dsimp only at e
  split at e
  · simp only [Option.bind_eq_bind, Option.bind_eq_some_iff] at e
    obtain ⟨w1, e1, e2⟩ := e
    cases e2
    have h1 : Mats w w1 := Mats.after (Mats.foldlM e1 (fun _ _ _ _ h => createProxies_mats h))
    exact Mats.before h1
  · simp only [Option.bind_eq_bind, Option.bind_eq_some_iff] at e
    obtain ⟨w1, e1, w2, e2, e3⟩ := e
    cases e3
    have h1 : Mats w w1 := Mats.after (Mats.foldlM e1 (fun _ _ _ _ h => destroyProxies_mats h))
    exact (h1.trans (destroyContacts_mats hE e2)).before

theorem refilter_mats {w w' : World F} {f : Nat} (e : w.refilter f = some w') : Mats w w' := by
  unfold refilter at e
  split at e
  · cases e; exact .refl _
  split at e
  · cases e
  · exact touchProxies_mats e

theorem destroyBody_mats (hE : Muted env) {w w' : World F} {b : Nat} (e : w.destroyBody env b = some w') : Mats w w' := by
  unfold destroyBody at e
  split at e
  · cases e
  split at e
  · cases e
  simp only [Option.bind_eq_bind, Option.bind_eq_some_iff] at e
  obtain ⟨w1, e1, w2, e2, w3, e3, bl, e4, e5⟩ := e
  cases e5
  have h1 : Mats w w1 := Mats.foldlM e1 fun v v' x _ h => by
    simp only [Option.bind_eq_bind, Option.bind_eq_some_iff] at h
    obtain ⟨u, a, b⟩ := h
    exact (goodbye_mats hE a).trans (destroyJoint_mats b)
  have h2 : Mats w1 w2 := Mats.after (destroyContacts_mats hE e2)
  have h3 : Mats w2 w3 := Mats.after (Mats.foldlM e3 fun v v' x _ h => by
    simp only [Option.bind_eq_bind, Option.bind_eq_some_iff] at h
    obtain ⟨u, a, u', b, c⟩ := h
    cases c
    exact ((goodbye_mats hE a).trans (destroyProxies_mats b)).before)
  exact (h1.trans (h2.trans h3)).before

theorem call_mats (hE : Muted env) {w w' : World F} (c : Call F) (hc : ∀ b d, c ≠ .createFixture b d) (ho : ∀ op, c = .user op → SetsNone op) (e : c.run env w = some w') : Mats w w' := by
  cases c with
  | createBody d =>
    simp only [Call.run, Option.map_eq_some_iff] at e
    obtain ⟨⟨v, b⟩, e, rfl⟩ := e
    unfold createBody at e
    split at e
    · cases e
    simp only [Option.bind_eq_bind, Option.bind_eq_some_iff] at e
    obtain ⟨p, e1, e2⟩ := e
    cases e2
    exact (Mats.easy)
  | destroyBody b => exact (destroyBody_mats hE e)
  | createFixture b d => exact absurd rfl (hc b d)
  | destroyFixture b f => exact (destroyFixture_mats hE e)
  | createJoint d =>
    simp only [Call.run, Option.map_eq_some_iff] at e
    obtain ⟨⟨v, j⟩, e, rfl⟩ := e
    unfold createJoint at e
    split at e
    · cases e
    split at e
    · cases e
    dsimp only at e
    cases e
    skip
    split
    · exact Mats.after (flagContacts_mats _ _ _)
    · exact Mats.easy
  | destroyJoint j => exact (destroyJoint_mats e)
  | setType b t => exact (setType_mats hE e)
  | setEnabled b flag => exact (setEnabled_mats hE e)
  | setTransform b p a =>
    simp only [Call.run] at e
    unfold setTransform at e
    split at e
    · cases e
    simp only [Option.bind_eq_bind, Option.bind_eq_some_iff] at e
    obtain ⟨w1, e1, e2⟩ := e
    cases e2
    refine (Mats.before (v := w1) ?_)
    exact Mats.trans .easy (Mats.foldlM e1 (fun _ _ _ _ h => synchronize_mats h))
  | setMassData b m =>
    simp only [Call.run] at e
    unfold setMassData at e
    split at e
    · cases e
    simp only [Option.bind_eq_bind, Option.bind_eq_some_iff] at e
    obtain ⟨p, -, e⟩ := e
    cases e
    exact .easy
  | setFilterData f d =>
    simp only [Call.run] at e
    exact (Mats.trans (.easy) (refilter_mats e))
  | refilter f => exact (refilter_mats e)
  | user op => exact userOp_mats (ho op rfl) e
  | setAllowSleeping flag =>
    cases e
    skip
    unfold setAllowSleeping
    split
    · exact .refl _
    dsimp only
    split
    · exact Mats.after (Mats.foldl _ (fun v b _ => .easy))
    · exact Mats.easy
  | setGravity x => cases e; exact (Mats.easy)
  | setAutoClearForces x => cases e; exact (Mats.easy)
  | setWarmStarting x => cases e; exact (Mats.easy)
  | setContinuousPhysics x => cases e; exact (Mats.easy)
  | setSubStepping x => cases e; exact (Mats.easy)
  | clearForces => cases e; exact (clearForcesAll_mats w)
  | shiftOrigin o =>
    simp only [Call.run] at e
    unfold shiftOrigin at e
    split at e
    · cases e
    dsimp only at e
    cases e
    exact (Mats.before (Mats.foldl w (fun v b _ => .setPhys)))
  | step dt vi pi => exact step_mats hE e

end
end B2
