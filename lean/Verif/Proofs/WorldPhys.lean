import Verif.Proofs.WorldToi
import Verif.Proofs.WorldSleep
import Verif.Spec.World

/-! What a step does to the numbers of a body. -/
namespace B2
set_option linter.unusedSectionVars false
open World Spec

section
variable {F : Type} [Field F] [LinearOrder F] [IsStrictOrderedRing F] [Elem F]

/-- Every body has kept its type, and its numbers have changed as `R` says. -/
def Each (R : BodyType → Phys F → Phys F → Prop) (w w' : World F) : Prop :=
  ∀ b, w'.typeOf b = w.typeOf b ∧ R (w.typeOf b) (w.phys b) (w'.phys b)

/-- Relations that allow waking. -/
structure Wakes (R : BodyType → Phys F → Phys F → Prop) : Prop where
  refl : ∀ t p, R t p p
  trans : ∀ {t p q r}, R t p q → R t q r → R t p r
  wake : ∀ t p, R t p (p.setAwake t true)

/-- The transform is the one that belongs to the sweep. -/
def Posed (p : Phys F) : Prop := p.xf = ⟨p.sweep.c - (Rot.ofAngle p.sweep.a).mulV p.sweep.localCenter, Rot.ofAngle p.sweep.a⟩

/-- Relations that allow moving, flagging and falling asleep (the last if sleeping is allowed and the body permits). If `cc` holds, the
relation may assume that the centre of mass stays where it is in the body's frame. -/
structure Moves (al cc : Prop) (R : BodyType → Phys F → Phys F → Prop) : Prop extends Wakes R where
  move : ∀ (t : BodyType) (p q : Phys F),
    q = { p with island := q.island, islandIndex := q.islandIndex, awake := q.awake, sleepTime := q.sleepTime,
                 sweep := q.sweep, xf := q.xf, v := q.v, w := q.w } →
    (cc → q.sweep.localCenter = p.sweep.localCenter) →
    (Posed q ∨ (q.xf = p.xf ∧ q.sweep.c = p.sweep.c ∧ q.sweep.a = p.sweep.a ∧ q.sweep.localCenter = p.sweep.localCenter)) → R t p q
  sleep : al → ∀ t p, p.autoSleep = true → R t p (p.setAwake t false)

variable {R : BodyType → Phys F → Phys F → Prop} {al cc : Prop} {env : Env F}

theorem Wakes.same (hR : Wakes R) {w w' : World F} (h : w'.phys = w.phys) (ht : ∀ b, w'.typeOf b = w.typeOf b := by intro _; rfl) : Each R w w' :=
  fun b => ⟨ht b, by rw [h]; exact hR.refl _ _⟩
theorem Wakes.each_refl (hR : Wakes R) (w : World F) : Each R w w := fun _ => ⟨rfl, hR.refl _ _⟩
theorem Wakes.tr (hR : Wakes R) {w w' w'' : World F} (h : Each R w w') (h' : Each R w' w'') : Each R w w'' :=
  fun b => ⟨(h' b).1.trans (h b).1, hR.trans (h b).2 (by rw [← (h b).1]; exact (h' b).2)⟩
theorem Wakes.setPhys (hR : Wakes R) {w : World F} {b : Nat} {p : Phys F} (h : R (w.typeOf b) (w.phys b) p) : Each R w (w.setPhys b p) := by
  intro x
  refine ⟨rfl, ?_⟩
  unfold World.setPhys
  dsimp only
  by_cases hx : x = b
  · subst hx; rw [upd_same]; exact h
  · rw [upd_other _ _ hx]; exact hR.refl _ _
theorem Wakes.awaken (hR : Wakes R) (w : World F) (b : Nat) : Each R w (w.setAwake b true) := hR.setPhys (hR.wake _ _)
theorem Wakes.foldlM (hR : Wakes R) {α : Type} {f : World F → α → Option (World F)} {l : List α} {w w' : World F}
    (e : l.foldlM f w = some w') (hf : ∀ v v', ∀ x ∈ l, f v x = some v' → Each R v v') : Each R w w' :=
  foldlM_inv (fun x => Each R w x) e (hR.each_refl w) (fun x hx v v' h h' => hR.tr h (hf v v' x hx h'))
theorem Wakes.foldl (hR : Wakes R) {α : Type} {f : World F → α → World F} {l : List α} (w : World F)
    (hf : ∀ v, ∀ x ∈ l, Each R v (f v x)) : Each R w (l.foldl f w) :=
  foldl_inv (fun x => Each R w x) (hR.each_refl w) (fun x hx v h => hR.tr h (hf v x hx))

/-! ### Callbacks and contacts -/

theorem userOp_each (hR : Wakes R) {w w' : World F} {op : UserOp F} (ho : ∀ b o, op ≠ .body b o) (e : w.userOp op = some w') : Each R w w' := by
  cases op with
  | body b o => exact absurd rfl (ho b o)
  | fixtureSetSensor f flag =>
    unfold userOp setSensor at e
    dsimp only at e
    split at e
    · simp only [Option.bind_eq_bind, Option.bind_eq_some_iff] at e
      obtain ⟨b, -, e⟩ := e
      cases e
      exact hR.tr (hR.awaken w b) (hR.same rfl)
    · cases e; exact hR.each_refl _
  | fixtureSetDensity f x =>
    unfold userOp at e
    dsimp only at e
    split at e
    · cases e; exact hR.same rfl
    · cases e
  | _ => cases e; exact hR.same rfl

/-- What listeners do to bodies is within `R`. -/
def Polite (R : BodyType → Phys F → Phys F → Prop) (env : Env F) : Prop := ∀ (w w' : World F) (k : EventKind), w.listen env k = some w' → Each R w w'

theorem Spec.LeavesBodies.polite (hR : Wakes R) (hE : LeavesBodies env) : Polite R env := by
  intro w w' k e
  unfold listen at e
  split at e
  · unfold emit at e
    dsimp only at e
    refine hR.tr (hR.same (w' := { w with log := ⟨k, w.locked⟩ :: w.log, tick := w.tick + 1 }) rfl) ?_
    exact hR.foldlM e (fun v v' op ho he => userOp_each hR (hE _ _ op ho) he)
  · cases e; exact hR.each_refl _

theorem listenIf_each (hR : Wakes R) (hE : Polite R env) {w w' : World F} {k : EventKind} {c : Prop} [Decidable c]
    (e : (if c then w.listen env k else some w) = some w') : Each R w w' := by
  split at e
  · exact hE _ _ _ e
  · cases e; exact hR.each_refl _

theorem contactDestroy_each (hR : Wakes R) (hE : Polite R env) {w w' : World F} {c : Nat} (e : w.contactDestroy env c = some w') : Each R w w' := by
  unfold contactDestroy at e
  simp only [Option.bind_eq_bind, Option.bind_eq_some_iff] at e
  obtain ⟨bA, -, bB, -, w1, e1, w2, e2, e3⟩ := e
  have h2 : w2.phys = w1.phys := by
    unfold unlink at e2
    simp only [Option.bind_eq_bind, Option.bind_eq_some_iff] at e2
    obtain ⟨cl, -, la, -, lb, -, e2⟩ := e2
    split at e2
    · cases e2
    · cases e2; rfl
  have h3 : ∀ b, w2.typeOf b = w1.typeOf b := by
    unfold unlink at e2
    simp only [Option.bind_eq_bind, Option.bind_eq_some_iff] at e2
    obtain ⟨cl, -, la, -, lb, -, e2⟩ := e2
    split at e2
    · cases e2
    · cases e2
      intro b
      simp only [World.typeOf, World.setBody, upd]
      split_ifs <;> simp_all
  cases e3
  refine hR.tr (hR.tr (listenIf_each hR hE e1) (hR.same h2 h3)) ?_
  unfold wakeOnDestroy
  split
  · exact hR.tr (hR.awaken _ _) (hR.awaken _ _)
  · exact hR.each_refl _

theorem refresh_each (hR : Wakes R) {w w' : World F} {c : Nat} (e : w.refresh env c = some w') : Each R w w' := by
  unfold refresh at e
  simp only [Option.bind_eq_bind, Option.bind_eq_some_iff] at e
  obtain ⟨bA, -, bB, -, e⟩ := e
  split at e
  · rw [Option.bind_eq_some_iff] at e
    obtain ⟨t, -, e⟩ := e
    cases e; exact hR.same rfl
  · rw [Option.bind_eq_some_iff] at e
    obtain ⟨m, -, e⟩ := e
    cases e
    split
    · exact hR.tr (hR.tr (hR.same rfl) (hR.awaken _ _)) (hR.tr (hR.awaken _ _) (hR.same rfl))
    · exact hR.same rfl

theorem contactUpdate_each (hR : Wakes R) (hE : Polite R env) {w w' : World F} {c : Nat} (e : w.contactUpdate env c = some w') : Each R w w' := by
  unfold contactUpdate at e
  simp only [Option.bind_eq_bind, Option.bind_eq_some_iff] at e
  obtain ⟨w1, e1, w2, e2, w3, e3, e4⟩ := e
  exact hR.tr (hR.tr (refresh_each hR e1) (listenIf_each hR hE e2)) (hR.tr (listenIf_each hR hE e3) (listenIf_each hR hE e4))

theorem collideActive_each (hR : Wakes R) (hE : Polite R env) {w w' : World F} {c bA bB : Nat} {r : Bool}
    (e : w.collideActive env c bA bB = some (w', r)) : Each R w w' := by
  unfold collideActive at e
  dsimp only at e
  split at e
  · cases e; exact hR.each_refl _
  simp only [Option.bind_eq_bind, Option.bind_eq_some_iff] at e
  obtain ⟨_, -, _, -, _, -, _, -, _, -, e⟩ := e
  split at e
  · cases e; exact hR.each_refl _
  simp only [Option.bind_eq_some_iff] at e
  obtain ⟨w1, e1, e2⟩ := e
  cases e2
  exact contactUpdate_each hR hE e1

theorem filterCollide_phys {w : World F} {fA fB : Nat} : (w.filterCollide env fA fB).2.phys = w.phys := by
  unfold filterCollide
  split <;> rfl

theorem filterCollide_types {w : World F} {fA fB : Nat} (b : Nat) : (w.filterCollide env fA fB).2.typeOf b = w.typeOf b := by
  unfold filterCollide
  split <;> rfl

theorem collideOne_each (hR : Wakes R) (hE : Polite R env) {w w' : World F} {c : Nat} {r : Bool}
    (e : w.collideOne env c = some (w', r)) : Each R w w' := by
  unfold collideOne at e
  simp only [Option.bind_eq_bind, Option.bind_eq_some_iff] at e
  obtain ⟨bA, -, bB, -, e⟩ := e
  split at e
  · split at e
    · cases e; exact hR.each_refl _
    · split at e
      · cases e; exact hR.same filterCollide_phys filterCollide_types
      · exact hR.tr (hR.same (w' := ((w.filterCollide env _ _).2.setCst _ _)) filterCollide_phys filterCollide_types) (collideActive_each hR hE e)
  · exact collideActive_each hR hE e

theorem collideLoop_each (hR : Wakes R) (hE : Polite R env) : ∀ (l : List Nat) {w w' : World F} {ds ds' : List Nat},
    collideLoop env l w ds = some (w', ds') → Each R w w' := by
  intro l
  induction l with
  | nil => intro w w' ds ds' e; cases e; exact hR.each_refl _
  | cons c l ih =>
    intro w w' ds ds' e
    unfold collideLoop at e
    simp only [Option.bind_eq_bind, Option.bind_eq_some_iff] at e
    obtain ⟨⟨w1, k⟩, e1, e2⟩ := e
    exact hR.tr (collideOne_each hR hE e1) (ih e2)

theorem collide_each (hR : Wakes R) (hE : Polite R env) {w w' : World F} (e : w.collide env = some w') : Each R w w' := by
  unfold collide at e
  simp only [Option.bind_eq_bind, Option.bind_eq_some_iff] at e
  obtain ⟨⟨w1, ds⟩, e1, e2⟩ := e
  exact hR.tr (collideLoop_each hR hE _ e1) (hR.foldlM e2 (fun v v' x _ he => contactDestroy_each hR hE he))

/-! ### The broad-phase leaves bodies alone -/

theorem addPair_phys {w w' : World F} {pa pb : Option (Nat × Nat)} (e : w.addPair env pa pb = some w') : w'.phys = w.phys := by
  unfold addPair at e
  simp only [Option.bind_eq_bind, Option.bind_eq_some_iff] at e
  obtain ⟨_, -, _, -, _, -, _, -, _, -, _, -, _, -, _, -, e⟩ := e
  split at e
  · cases e; rfl
  split at e
  · cases e; rfl
  split at e
  · cases e; rfl
  split at e
  · cases e; exact filterCollide_phys
  simp only [Option.bind_eq_some_iff] at e
  obtain ⟨k, -, e⟩ := e
  unfold insertContact at e
  simp only [Option.bind_eq_bind, Option.bind_eq_some_iff] at e
  obtain ⟨_, -, _, -, e⟩ := e
  cases e
  exact filterCollide_phys

theorem findNewContacts_phys {w w' : World F} (e : w.findNewContacts env = some w') : w'.phys = w.phys := by
  unfold findNewContacts BroadPhase.updatePairs BroadPhase.sendPairs at e
  simp only [Option.bind_eq_bind, Option.bind_eq_some_iff] at e
  obtain ⟨⟨bp, r⟩, ⟨pairs, -, r', e1, tree, -, e2⟩, w1, e3, e4⟩ := e
  cases e2
  cases e4
  have := foldlM_inv (fun r : Option (World F) => ∀ v, r = some v → v.phys = w.phys) e1 (fun v hv => by cases hv; rfl) (by
    intro i _ c c' hc h v hv
    simp only [Option.bind_eq_some_iff] at h
    obtain ⟨p, -, a, -, b, -, h⟩ := h
    cases h
    rw [Option.bind_eq_some_iff] at hv
    obtain ⟨u, hu, hv⟩ := hv
    rw [addPair_phys hv, hc u hu])
  exact this w1 e3

theorem synchronizeFixtures_phys {w w' : World F} {b : Nat} (e : w.synchronizeFixtures b = some w') : w'.phys = w.phys := by
  have one : ∀ (xf1 xf2 : Xf F) (l : List Nat) (w' : World F), l.foldlM (synchronize xf1 xf2) w = some w' → w'.phys = w.phys := by
    intro xf1 xf2 l w' e
    refine foldlM_inv (fun x : World F => x.phys = w.phys) e rfl (fun f _ v v' h h' => ?_)
    unfold synchronize at h'
    refine foldlM_inv (fun x : World F => x.phys = w.phys) h' h (fun i _ u u' h h' => ?_)
    unfold synchronizeProxy at h'
    simp only [Option.bind_eq_bind, Option.bind_eq_some_iff] at h'
    obtain ⟨_, -, _, -, _, -, _, -, _, -, h'⟩ := h'
    cases h'
    exact h
  unfold synchronizeFixtures at e
  dsimp only at e
  split at e
  · exact one _ _ _ _ e
  · exact one _ _ _ _ e

theorem insertContact_types {w w' : World F} {k : ConS} (e : w.insertContact k = some w') (b : Nat) : w'.typeOf b = w.typeOf b := by
  unfold insertContact at e
  simp only [Option.bind_eq_bind, Option.bind_eq_some_iff] at e
  obtain ⟨_, -, _, -, e⟩ := e
  cases e
  simp only [World.typeOf, World.setBody, upd]
  split_ifs <;> simp_all

theorem addPair_types {w w' : World F} {pa pb : Option (Nat × Nat)} (e : w.addPair env pa pb = some w') : ∀ b, w'.typeOf b = w.typeOf b := by
  unfold addPair at e
  simp only [Option.bind_eq_bind, Option.bind_eq_some_iff] at e
  obtain ⟨_, -, _, -, _, -, _, -, _, -, _, -, _, -, _, -, e⟩ := e
  split at e
  · cases e; exact fun _ => rfl
  split at e
  · cases e; exact fun _ => rfl
  split at e
  · cases e; exact fun _ => rfl
  split at e
  · cases e; exact filterCollide_types
  simp only [Option.bind_eq_some_iff] at e
  obtain ⟨k, -, e⟩ := e
  exact fun b => (insertContact_types e b).trans (filterCollide_types b)

theorem findNewContacts_types {w w' : World F} (e : w.findNewContacts env = some w') : ∀ b, w'.typeOf b = w.typeOf b := by
  unfold findNewContacts BroadPhase.updatePairs BroadPhase.sendPairs at e
  simp only [Option.bind_eq_bind, Option.bind_eq_some_iff] at e
  obtain ⟨⟨bp, r⟩, ⟨pairs, -, r', e1, tree, -, e2⟩, w1, e3, e4⟩ := e
  cases e2
  cases e4
  have := foldlM_inv (fun r : Option (World F) => ∀ v, r = some v → ∀ b, v.typeOf b = w.typeOf b) e1 (fun v hv => by cases hv; exact fun _ => rfl) (by
    intro i _ c c' hc h v hv
    simp only [Option.bind_eq_some_iff] at h
    obtain ⟨p, -, a, -, b, -, h⟩ := h
    cases h
    rw [Option.bind_eq_some_iff] at hv
    obtain ⟨u, hu, hv⟩ := hv
    exact fun b => (addPair_types hv b).trans (hc u hu b))
  exact this w1 e3

theorem synchronizeFixtures_types {w w' : World F} {b : Nat} (e : w.synchronizeFixtures b = some w') : ∀ b, w'.typeOf b = w.typeOf b := by
  have one : ∀ (xf1 xf2 : Xf F) (l : List Nat) (w' : World F), l.foldlM (synchronize xf1 xf2) w = some w' → ∀ b, w'.typeOf b = w.typeOf b := by
    intro xf1 xf2 l w' e
    refine foldlM_inv (fun x : World F => ∀ b, x.typeOf b = w.typeOf b) e (fun _ => rfl) (fun f _ v v' h h' => ?_)
    unfold synchronize at h'
    refine foldlM_inv (fun x : World F => ∀ b, x.typeOf b = w.typeOf b) h' h (fun i _ u u' h h' => ?_)
    unfold synchronizeProxy at h'
    simp only [Option.bind_eq_bind, Option.bind_eq_some_iff] at h'
    obtain ⟨_, -, _, -, _, -, _, -, _, -, h'⟩ := h'
    cases h'
    exact h
  unfold synchronizeFixtures at e
  dsimp only at e
  split at e
  · exact one _ _ _ _ e
  · exact one _ _ _ _ e

/-! ### Islands -/

theorem Moves.set (hR : Moves al cc R) {w : World F} {b : Nat} {q : Phys F}
    (h : q = { w.phys b with island := q.island, islandIndex := q.islandIndex, awake := q.awake, sleepTime := q.sleepTime,
                              sweep := q.sweep, xf := q.xf, v := q.v, w := q.w })
    (h' : cc → q.sweep.localCenter = (w.phys b).sweep.localCenter)
    (h'' : Posed q ∨ (q.xf = (w.phys b).xf ∧ q.sweep.c = (w.phys b).sweep.c ∧ q.sweep.a = (w.phys b).sweep.a ∧
      q.sweep.localCenter = (w.phys b).sweep.localCenter)) : Each R w (w.setPhys b q) :=
  hR.setPhys (hR.move _ _ _ h h' h'')

theorem Moves.flag (hR : Moves al cc R) {w : World F} {b : Nat} {q : Phys F}
    (h : q = { w.phys b with island := q.island, islandIndex := q.islandIndex, awake := q.awake, sleepTime := q.sleepTime,
                              sweep := q.sweep, v := q.v, w := q.w })
    (h1 : q.sweep.localCenter = (w.phys b).sweep.localCenter) (h2 : q.sweep.c = (w.phys b).sweep.c) (h3 : q.sweep.a = (w.phys b).sweep.a) :
    Each R w (w.setPhys b q) :=
  hR.set (by rw [h]) (fun _ => h1) (Or.inr ⟨by rw [h], h2, h3, h1⟩)

/-- Where the centre of mass is in the body's frame does not change. -/
def SameCenter (_ : BodyType) (p q : Phys F) : Prop := q.sweep.localCenter = p.sweep.localCenter
theorem sameCenter_moves : Moves True True (SameCenter (F := F)) :=
  ⟨⟨fun _ _ => rfl, fun h h' => h'.trans h, fun t p => by unfold SameCenter Phys.setAwake; split <;> rfl⟩, fun _ _ _ _ h _ => h trivial,
    fun _ t p _ => by unfold SameCenter Phys.setAwake; split <;> rfl⟩

theorem advance_center {s s' : Sweep F} {a : F} (e : s.advance a = some s') : s'.localCenter = s.localCenter := by
  unfold Sweep.advance at e
  split at e
  · cases e; rfl
  · cases e

theorem advance_same {s s' : Sweep F} {a : F} (e : s.advance a = some s') : s'.c = s.c ∧ s'.a = s.a := by
  unfold Sweep.advance at e
  split at e
  · cases e; exact ⟨rfl, rfl⟩
  · cases e

theorem clearIslandFlags_each (hR : Moves al cc R) (w : World F) : Each R w w.clearIslandFlags := by
  unfold clearIslandFlags
  dsimp only
  refine hR.tr ?_ (hR.foldl _ (fun v j _ => hR.same rfl))
  refine hR.tr ?_ (hR.foldl _ (fun v j _ => hR.same rfl))
  exact hR.foldl _ (fun v j _ => hR.flag (by rfl) (by rfl) (by rfl) (by rfl))

theorem pushBody_each (hR : Moves al cc R) {b o : Nat} {s s' : Search F} (h : pushBody b s o = some s') : Each R s.w s'.w := by
  unfold pushBody at h
  split at h
  · cases h; exact hR.each_refl _
  · split at h
    · cases h
    · cases h; exact hR.flag (by rfl) (by rfl) (by rfl) (by rfl)

theorem visitContact_each (hR : Moves al cc R) {b : Nat} {s s' : Search F} {e : Nat × Nat} (h : visitContact b s e = some s') : Each R s.w s'.w := by
  unfold visitContact at h
  dsimp only at h
  split at h
  · cases h; exact hR.each_refl _
  split at h
  · cases h; exact hR.each_refl _
  split at h
  · cases h; exact hR.each_refl _
  have m := pushBody_each hR h
  exact hR.tr (hR.same rfl) m

theorem visitJoint_each (hR : Moves al cc R) {b : Nat} {s s' : Search F} {e : Nat × Nat} (h : visitJoint b s e = some s') : Each R s.w s'.w := by
  unfold visitJoint at h
  split at h
  · cases h; exact hR.each_refl _
  split at h
  · cases h; exact hR.each_refl _
  have m := pushBody_each hR h
  exact hR.tr (hR.same rfl) m

theorem visitBody_each (hR : Moves al cc R) {b : Nat} {s s' : Search F} (h : visitBody s b = some s') : Each R s.w s'.w := by
  unfold visitBody at h
  split at h
  · cases h
  dsimp only at h
  set w1 := s.w.setPhys b { s.w.phys b with islandIndex := s.island.bodies.length } with hw1
  have m1 : Each R s.w w1 := hR.flag (by rfl) (by rfl) (by rfl) (by rfl)
  split at h
  · cases h; exact m1
  have m2 : Each R w1 (w1.setPhys b { w1.phys b with awake := true }) := hR.flag (by rfl) (by rfl) (by rfl) (by rfl)
  simp only [Option.bind_eq_bind, Option.bind_eq_some_iff] at h
  obtain ⟨s1, h1, h2⟩ := h
  refine hR.tr (hR.tr m1 m2) (hR.tr (w' := s1.w) ?_ ?_)
  · exact foldlM_inv (fun x : Search F => Each R _ x.w) h1 (hR.each_refl _) (fun e _ x x' hx hv => hR.tr hx (visitContact_each hR hv))
  · exact foldlM_inv (fun x : Search F => Each R _ x.w) h2 (hR.each_refl _) (fun e _ x x' hx hv => hR.tr hx (visitJoint_each hR hv))

theorem search_each (hR : Moves al cc R) : ∀ {n : Nat} {s s' : Search F}, search n s = some s' → Each R s.w s'.w := by
  intro n
  induction n with
  | zero => intro s s' h; cases h
  | succ n ih =>
    intro s s' h
    unfold search at h
    split at h
    · cases h; exact hR.each_refl _
    · rename_i b st hst
      simp only [Option.bind_eq_bind, Option.bind_eq_some_iff] at h
      obtain ⟨s1, h1, h2⟩ := h
      have m := visitBody_each hR h1
      exact hR.tr m (ih h2)

theorem writeBack_each (hR : Moves al cc R) (w : World F) (bodies : List Nat) (states : List (BState F)) : Each R w (w.writeBack bodies states) := by
  unfold writeBack
  exact hR.foldl _ (fun _ _ _ => hR.set (by rfl) (fun _ => rfl) (Or.inl rfl))

theorem report_each (hR : Wakes R) (hE : Polite R env) {w w' : World F} {l : List Nat} (h : w.report env l = some w') : Each R w w' :=
  hR.foldlM h (fun _ _ _ _ he => hE _ _ _ he)

theorem sleepTimers_each (hR : Moves al cc R) (h : F) : ∀ (l : List Nat) (w : World F) (m : F), Each R w (sleepTimers h l w m).1 := by
  intro l
  induction l with
  | nil => intro w m; exact hR.each_refl _
  | cons b l ih =>
    intro w m
    unfold sleepTimers
    split
    · exact ih _ _
    · dsimp only
      split
      · exact hR.tr (hR.flag (by rfl) (by rfl) (by rfl) (by rfl)) (ih _ _)
      · exact hR.tr (hR.flag (by rfl) (by rfl) (by rfl) (by rfl)) (ih _ _)

/-- Only bodies that permit it are found quiet. -/
theorem sleepTimers_auto (h : F) {T : F} (hT : 0 < T) : ∀ (l : List Nat) (w : World F) (m : F), T ≤ (sleepTimers h l w m).2 →
    T ≤ m ∧ ∀ b ∈ l, w.typeOf b ≠ .static → (w.phys b).autoSleep = true := by
  intro l
  induction l with
  | nil => intro w m hm; exact ⟨hm, by simp⟩
  | cons b l ih =>
    intro w m hm
    have keep : ∀ (p : Phys F), p.autoSleep = (w.phys b).autoSleep → ∀ x, ((w.setPhys b p).phys x).autoSleep = (w.phys x).autoSleep :=
      fun p hp x => proj_upd (fun q : Phys F => q.autoSleep) hp x
    unfold sleepTimers at hm
    split at hm
    · rename_i hs
      obtain ⟨k1, k2⟩ := ih _ _ hm
      refine ⟨k1, fun x hx hxs => ?_⟩
      rcases List.mem_cons.mp hx with rfl | hx
      · exact absurd hs hxs
      · exact k2 x hx hxs
    · dsimp only at hm
      split at hm
      · exact absurd (ih _ _ hm).1 (not_le.mpr hT)
      · rename_i hr
        obtain ⟨k1, k2⟩ := ih _ _ hm
        refine ⟨(le_min_iff.mp k1).1, fun x hx hxs => ?_⟩
        rcases List.mem_cons.mp hx with rfl | hx
        · exact (restless_false.mp (by simpa using hr)).1
        · have := k2 x hx hxs
          rwa [keep { w.phys b with sleepTime := (w.phys b).sleepTime + h } rfl] at this

theorem sleepIsland_each (hR : Moves al cc R) (ha : al) (w : World F) (h : F) (l : List Nat) (ok : Bool) : Each R w (w.sleepIsland h l ok) := by
  unfold sleepIsland
  dsimp only
  have h0 := sleepTimers_each hR h l w maxFlt
  split
  · rename_i hc
    refine hR.tr h0 ?_
    have auto : ∀ b ∈ l, (sleepTimers h l w maxFlt).1.typeOf b ≠ .static → ((sleepTimers h l w maxFlt).1.phys b).autoSleep = true := by
      intro b hb hs
      have hE : Each (fun _ (p q : Phys F) => p.autoSleep = true → q.autoSleep = true) w (sleepTimers h l w maxFlt).1 :=
        sleepTimers_each (al := True) (cc := True) ⟨⟨fun _ _ h => h, fun h h' x => h' (h x), fun t p => by
          unfold Phys.setAwake; split <;> exact id⟩, fun t p q e _ _ hp => by rw [e]; exact hp, fun _ t p _ hp => by
          unfold Phys.setAwake; split <;> exact hp⟩ h l w maxFlt
      have hm := sleepTimers_mild h l w maxFlt
      rw [hm.typeOf] at hs
      exact (hE b).2 ((sleepTimers_auto h timeToSleep_pos l w maxFlt hc.1).2 b hb hs)
    refine (foldl_inv (fun x : World F => Each R (sleepTimers h l w maxFlt).1 x ∧ (∀ b, x.typeOf b = (sleepTimers h l w maxFlt).1.typeOf b) ∧
      ∀ b, (x.phys b).autoSleep = ((sleepTimers h l w maxFlt).1.phys b).autoSleep) ⟨hR.each_refl _, fun _ => rfl, fun _ => rfl⟩ ?_).1
    rintro b hb v ⟨v1, v2, v3⟩
    refine ⟨hR.tr v1 (hR.setPhys ?_), v2, fun x => ?_⟩
    · by_cases hs : v.typeOf b = .static
      · unfold Phys.setAwake; rw [if_pos hs]; exact hR.refl _ _
      · exact hR.sleep ha _ _ (by rw [v3]; exact auto b hb (by rw [← v2]; exact hs))
    · rw [← v3 x]
      exact proj_upd (fun q : Phys F => q.autoSleep) (by unfold Phys.setAwake; split; rfl; split <;> rfl) x
  · exact h0

theorem islandSolve_each (hR : Moves al cc R) (hE : Polite R env) {w w' : World F} {cap : Nat} {isl : Island} {step : TimeStep F}
    (ha : w.allowSleep = true → al) (e : w.islandSolve env cap isl step = some w') : Each R w w' := by
  obtain ⟨v, r, h1, rfl⟩ := islandSolve_inv e
  have hm := islandMove_mild h1
  have h0 : Each R w v := by
    unfold islandMove at h1
    split at h1
    · cases h1
    simp only [Option.bind_eq_bind, Option.bind_eq_some_iff] at h1
    obtain ⟨w1, h1, h2⟩ := h1
    cases h2
    refine hR.tr ?_ (report_each hR.toWakes hE h1)
    refine hR.tr ?_ (writeBack_each hR _ _ _)
    refine hR.tr ?_ (hR.foldl _ (fun v j _ => hR.same rfl))
    exact hR.foldl _ (fun v j _ => hR.flag (by rfl) (by rfl) (by rfl) (by rfl))
  split
  · rename_i hs
    exact hR.tr h0 (sleepIsland_each hR (ha (by rw [← hm.rest.allowSleep]; exact hs)) _ _ _ _)
  · exact h0

theorem releaseStatics_each (hR : Moves al cc R) (w : World F) (l : List Nat) : Each R w (w.releaseStatics l) := by
  refine hR.foldl _ (fun v b _ => ?_)
  split
  · exact hR.flag (by rfl) (by rfl) (by rfl) (by rfl)
  · exact hR.each_refl _

theorem solveSeed_each (hR : Moves al cc R) (hE : Polite R env) {step : TimeStep F} {x x' : World F × List Island} {seed : Nat}
    (ha : x.1.allowSleep = true → al) (h : solveSeed env step x seed = some x') : Each R x.1 x'.1 := by
  unfold solveSeed at h
  split at h
  · cases h; exact hR.each_refl _
  simp only [Option.bind_eq_bind, Option.bind_eq_some_iff] at h
  obtain ⟨s, h1, w1, h2, h3⟩ := h
  cases h3
  refine hR.tr ?_ (releaseStatics_each hR _ _)
  have m1 : Mild x.1 s.w := Mild.trans (setPhys_mild (by intro _; rfl)) (search_mild h1)
  refine hR.tr ?_ (islandSolve_each hR hE (fun hs => ha (by rw [← m1.rest.allowSleep]; exact hs)) h2)
  exact hR.tr (hR.flag (by rfl) (by rfl) (by rfl) (by rfl)) (search_each hR h1)

theorem solve_each (hR : Moves al cc R) (hE : Polite R env) {w w' : World F} {step : TimeStep F} (ha : w.allowSleep = true → al)
    (e : w.solve env step = some w') : Each R w w' := by
  unfold solve at e
  simp only [Option.bind_eq_bind, Option.bind_eq_some_iff] at e
  obtain ⟨⟨w1, isl⟩, e1, w2, e2, e3⟩ := e
  refine hR.tr (w' := w1) ?_ (hR.tr (w' := w2) ?_ (hR.same (findNewContacts_phys e3) (findNewContacts_types e3)))
  · unfold solveIslands at e1
    have := foldlM_inv (fun x : World F × List Island => Each R w x.1 ∧ Mild w x.1) e1 ⟨clearIslandFlags_each hR w, clearIslandFlags_mild w⟩
      (fun b _ x x' hx hv => ⟨hR.tr hx.1 (solveSeed_each hR hE (fun hs => ha (by rw [← hx.2.rest.allowSleep]; exact hs)) hv), hx.2.trans (solveSeed_mild hv)⟩)
    exact this.1
  · refine hR.foldlM e2 (fun v v' b _ hv => ?_)
    split at hv
    · cases hv; exact hR.each_refl _
    split at hv
    · cases hv; exact hR.each_refl _
    exact hR.same (synchronizeFixtures_phys hv) (synchronizeFixtures_types hv)

/-! ### The continuous phase -/

theorem toiReset_each (hR : Moves al cc R) (w : World F) : Each R w w.toiReset := by
  unfold toiReset
  split
  · refine hR.tr ?_ (hR.foldl _ (fun v j _ => hR.same rfl))
    exact hR.foldl _ (fun v j _ => hR.flag (by rfl) (by rfl) (by rfl) (by rfl))
  · exact hR.each_refl _

theorem alignSweeps_each (hR : Moves al cc R) {w w' : World F} {bA bB : Nat} {a : F} (e : w.alignSweeps bA bB = some (w', a)) : Each R w w' := by
  unfold alignSweeps at e
  dsimp only at e
  split at e
  · simp only [Option.bind_eq_bind, Option.bind_eq_some_iff] at e
    obtain ⟨s, es, e⟩ := e
    split at e
    · cases e; exact hR.flag (by rfl) (advance_center es) (advance_same es).1 (advance_same es).2
    · cases e
  split at e
  · simp only [Option.bind_eq_bind, Option.bind_eq_some_iff] at e
    obtain ⟨s, es, e⟩ := e
    split at e
    · cases e; exact hR.flag (by rfl) (advance_center es) (advance_same es).1 (advance_same es).2
    · cases e
  split at e
  · cases e; exact hR.each_refl _
  · cases e

theorem toiOf_each (hR : Moves al cc R) {w w' : World F} {c : Nat} {r : Option F} (e : w.toiOf env c = some (w', r)) : Each R w w' := by
  unfold toiOf at e
  dsimp only at e
  split at e
  · cases e; exact hR.each_refl _
  split at e
  · cases e; exact hR.each_refl _
  split at e
  · cases e; exact hR.each_refl _
  split at e
  · cases e; exact hR.each_refl _
  simp only [Option.bind_eq_bind, Option.bind_eq_some_iff] at e
  obtain ⟨bA, -, bB, -, e⟩ := e
  split at e
  · cases e
  split at e
  · cases e
  split at e
  · cases e; exact hR.each_refl _
  split at e
  · cases e; exact hR.each_refl _
  simp only [Option.bind_eq_some_iff] at e
  obtain ⟨⟨w1, a⟩, e1, r, -, e2⟩ := e
  cases e2
  exact hR.tr (alignSweeps_each hR e1) (hR.same rfl)

theorem toiScan_each (hR : Moves al cc R) : ∀ (l : List Nat) {w w' : World F} {b b' : Option Nat} {m m' : F},
    toiScan env l w b m = some (w', b', m') → Each R w w' := by
  intro l
  induction l with
  | nil => intro w w' b b' m m' e; cases e; exact hR.each_refl _
  | cons c l ih =>
    intro w w' b b' m m' e
    unfold toiScan at e
    simp only [Option.bind_eq_bind, Option.bind_eq_some_iff] at e
    obtain ⟨⟨w1, a⟩, e1, e2⟩ := e
    refine hR.tr (toiOf_each hR e1) ?_
    dsimp only at e2
    split at e2
    · split at e2
      · exact ih e2
      · exact ih e2
    · exact ih e2

theorem advance_each (hR : Moves al cc R) {w w' : World F} {b : Nat} {a : F} (e : w.advance b a = some w') : Each R w w' := by
  unfold World.advance Phys.advance at e
  simp only [Option.bind_eq_bind, Option.bind_eq_some_iff] at e
  obtain ⟨p, ⟨s, es, e1⟩, e2⟩ := e
  cases e1
  cases e2
  have h := advance_center es
  exact hR.set (by rfl) (fun _ => h) (Or.inl rfl)

theorem restore_each (hR : Moves al cc R) {w : World F} {b : Nat} {s : Sweep F} (h : cc → s.localCenter = (w.phys b).sweep.localCenter) :
    Each R w (w.restore b s) := hR.set (by rfl) h (Or.inl rfl)

theorem toiAddBody_each (hR : Moves al cc R) (x : World F × Island) (b : Nat) : Each R x.1 (toiAddBody x b).1 := hR.flag (by rfl) (by rfl) (by rfl) (by rfl)

theorem toiVisit_each (hR : Moves al cc R) (hE : Polite R env) (hC : cc → Polite SameCenter env) {alpha : F} {body : Nat} {x x' : World F × Island} {e : Nat × Nat}
    (h : toiVisit env alpha body x e = some x') : Each R x.1 x'.1 := by
  unfold toiVisit at h
  dsimp only at h
  split at h
  · cases h; exact hR.each_refl _
  split at h
  · cases h
  split at h
  · cases h; exact hR.each_refl _
  split at h
  · cases h; exact hR.each_refl _
  simp only [Option.bind_eq_bind, Option.bind_eq_some_iff] at h
  obtain ⟨w1, h1, w2, h2, h3⟩ := h
  have m : ∀ {al' cc' : Prop} {R' : BodyType → Phys F → Phys F → Prop}, Moves al' cc' R' → Polite R' env → Each R' x.1 w2 := by
    intro al' cc' R' hR' hE
    refine hR'.tr (w' := w1) ?_ (contactUpdate_each hR'.toWakes hE h2)
    split at h1
    · exact advance_each hR' h1
    · cases h1; exact hR'.each_refl _
  have m2 := m hR hE
  split at h3
  · cases h3
    exact hR.tr m2 (restore_each hR (fun hc => (m sameCenter_moves (hC hc) _).2.symm))
  · split at h3
    · cases h3; exact hR.tr m2 (hR.same rfl)
    · cases h3
      refine hR.tr m2 (hR.tr ?_ (toiAddBody_each hR _ _))
      dsimp only
      split
      · exact hR.tr (w' := w2.setCst e.1 { w2.cst e.1 with island := true }) (hR.same rfl) (hR.awaken _ _)
      · exact hR.same rfl

theorem toiVisits_each (hR : Moves al cc R) (hE : Polite R env) (hC : cc → Polite SameCenter env) {alpha : F} {body : Nat} {x x' : World F × Island}
    (h : toiVisits env alpha x body = some x') : Each R x.1 x'.1 := by
  unfold toiVisits at h
  split at h
  · exact foldlM_inv (fun y : World F × Island => Each R x.1 y.1) h (hR.each_refl _) (fun e _ y y' hy hv => hR.tr hy (toiVisit_each hR hE hC hv))
  · cases h; exact hR.each_refl _

theorem islandSolveToi_each (hR : Moves al cc R) (hE : Polite R env) {w w' : World F} {cap : Nat} {isl : Island} {step : TimeStep F} {iA iB : Int}
    (e : w.islandSolveToi env cap isl step iA iB = some w') : Each R w w' := by
  unfold islandSolveToi at e
  split at e
  · cases e
  simp only [Option.bind_eq_bind, Option.bind_eq_some_iff] at e
  obtain ⟨bA, -, bB, -, e⟩ := e
  refine hR.tr ?_ (report_each hR.toWakes hE e)
  refine hR.tr ?_ (writeBack_each hR _ _ _)
  exact hR.tr (hR.flag (by rfl) (by rfl) (by rfl) (by rfl)) (hR.flag (by rfl) (by rfl) (by rfl) (by rfl))

theorem toiRelease_each (hR : Moves al cc R) {w w' : World F} {b : Nat} (e : w.toiRelease b = some w') : Each R w w' := by
  unfold toiRelease at e
  dsimp only at e
  split at e
  · cases e; exact hR.flag (by rfl) (by rfl) (by rfl) (by rfl)
  simp only [Option.bind_eq_bind, Option.bind_eq_some_iff] at e
  obtain ⟨w1, e1, e2⟩ := e
  cases e2
  refine hR.tr (w' := w1) (hR.tr (hR.flag (by rfl) (by rfl) (by rfl) (by rfl)) (hR.same (synchronizeFixtures_phys e1) (synchronizeFixtures_types e1))) ?_
  exact hR.foldl _ (fun v j _ => hR.same rfl)

theorem toiSolid_each (hR : Moves al cc R) (hE : Polite R env) (hC : cc → Polite SameCenter env) {step : TimeStep F} {w w' : World F} {c bA bB : Nat} {alpha : F}
    (e : w.toiSolid env step c bA bB alpha = some w') : Each R w w' := by
  unfold toiSolid at e
  simp only [Option.bind_eq_bind, Option.bind_eq_some_iff] at e
  obtain ⟨x2, e0, w3, e3, w4, e4, e5⟩ := e
  unfold toiIsland at e0
  simp only [Option.bind_eq_bind, Option.bind_eq_some_iff] at e0
  obtain ⟨x1, e1, e2⟩ := e0
  refine hR.tr (w' := w4) ?_ (hR.same (findNewContacts_phys e5) (findNewContacts_types e5))
  refine hR.tr (w' := w3) ?_ (hR.foldlM e4 (fun _ _ _ _ h => toiRelease_each hR h))
  refine hR.tr (w' := x2.1) ?_ (islandSolveToi_each hR hE e3)
  refine hR.tr (w' := x1.1) ?_ (toiVisits_each hR hE hC e2)
  refine hR.tr ?_ (toiVisits_each hR hE hC e1)
  refine hR.tr (w' := (w.setAwake bA true).setAwake bB true) (hR.tr (hR.awaken _ _) (hR.awaken _ _)) ?_
  refine hR.tr (toiAddBody_each hR ((w.setAwake bA true).setAwake bB true, ⟨[], [c], []⟩) bA) ?_
  exact hR.tr (toiAddBody_each hR (toiAddBody ((w.setAwake bA true).setAwake bB true, ⟨[], [c], []⟩) bA) bB) (hR.same rfl)

theorem toiEvent_each (hR : Moves al cc R) (hE : Polite R env) (hC : cc → Polite SameCenter env) {step : TimeStep F} {w w' : World F} {c : Nat} {alpha : F} {solid : Bool}
    (e : w.toiEvent env step c alpha = some (w', solid)) : Each R w w' := by
  unfold toiEvent at e
  simp only [Option.bind_eq_bind, Option.bind_eq_some_iff] at e
  obtain ⟨bA, -, bB, -, w1, e1, w2, e2, w3, e3, e4⟩ := e
  have m : ∀ {al' cc' : Prop} {R' : BodyType → Phys F → Phys F → Prop}, Moves al' cc' R' → Polite R' env → Each R' w w3 := fun hR' hE =>
    hR'.tr (hR'.tr (advance_each hR' e1) (advance_each hR' e2)) (contactUpdate_each hR'.toWakes hE e3)
  have back : ∀ v : World F, v.phys = w3.phys → (∀ b, v.typeOf b = w3.typeOf b) → Each R w3 ((v.restore bA (w.phys bA).sweep).restore bB (w.phys bB).sweep) := by
    intro v hv ht
    have hA : cc → (w.phys bA).sweep.localCenter = (v.phys bA).sweep.localCenter := by
      intro hc; rw [hv]; exact (m sameCenter_moves (hC hc) bA).2.symm
    refine hR.tr (hR.tr (hR.same hv ht) (restore_each hR hA)) (restore_each hR fun hc => ?_)
    have r1 : Each SameCenter w3 (v.restore bA (w.phys bA).sweep) :=
      sameCenter_moves.tr (sameCenter_moves.same hv ht) (restore_each sameCenter_moves fun _ => hA hc)
    exact ((sameCenter_moves.tr (m sameCenter_moves (hC hc)) r1) bB).2.symm
  split at e4
  · cases e4
    exact hR.tr (m hR hE) (back _ rfl fun _ => rfl)
  · simp only [Option.bind_eq_some_iff] at e4
    obtain ⟨w4, e4, e5⟩ := e4
    cases e5
    have t := toiSolid_each hR hE hC e4
    exact hR.tr (m hR hE) (hR.tr (hR.same rfl) t)

theorem toiLoop_each (hR : Moves al cc R) (hE : Polite R env) (hC : cc → Polite SameCenter env) {step : TimeStep F} : ∀ (n : Nat) {w w' : World F},
    toiLoop env step n w = some w' → Each R w w' := by
  intro n
  induction n with
  | zero => intro w w' e; cases e
  | succ n ih =>
    intro w w' e
    unfold toiLoop at e
    simp only [Option.bind_eq_bind, Option.bind_eq_some_iff] at e
    obtain ⟨⟨w1, best, m⟩, e1, e2⟩ := e
    have m1 := toiScan_each hR _ e1
    dsimp only at e2
    split at e2
    · cases e2; exact hR.tr m1 (hR.same rfl)
    split at e2
    · cases e2; exact hR.tr m1 (hR.same rfl)
    simp only [Option.bind_eq_some_iff] at e2
    obtain ⟨⟨w2, solid⟩, e2, e3⟩ := e2
    have m2 := hR.tr m1 (toiEvent_each hR hE hC e2)
    split at e3
    · cases e3; exact hR.tr m2 (hR.same rfl)
    · exact hR.tr m2 (ih e3)

theorem stepBegin_phys {w w' : World F} (e : w.stepBegin env = some w') : w'.phys = w.phys := by
  unfold stepBegin at e
  split at e
  · simp only [Option.bind_eq_bind, Option.bind_eq_some_iff] at e
    obtain ⟨w1, e1, e2⟩ := e
    cases e2
    have h := findNewContacts_phys e1
    exact h
  · cases e; rfl

theorem clearForcesAll_spec (w : World F) :
    (∀ b ∈ w.g.bodyList, (w.clearForcesAll.phys b) = { w.phys b with force := ⟨0, 0⟩, torque := 0 }) ∧
    (∀ b ∉ w.g.bodyList, w.clearForcesAll.phys b = w.phys b) := by
  unfold clearForcesAll
  generalize w.g.bodyList = l
  induction l generalizing w with
  | nil => exact ⟨by simp, fun _ _ => rfl⟩
  | cons a l ih =>
    obtain ⟨k1, k2⟩ := ih (w.setPhys a { w.phys a with force := ⟨0, 0⟩, torque := 0 })
    have ha : (w.setPhys a { w.phys a with force := ⟨0, 0⟩, torque := 0 }).phys a = { w.phys a with force := ⟨0, 0⟩, torque := 0 } := upd_same _ _ _
    have ho : ∀ b, b ≠ a → (w.setPhys a { w.phys a with force := ⟨0, 0⟩, torque := 0 }).phys b = w.phys b := fun b hb => upd_other _ _ hb
    rw [List.foldl_cons]
    refine ⟨fun b hb => ?_, fun b hb => ?_⟩
    · by_cases hl : b ∈ l
      · rw [k1 b hl]
        by_cases hba : b = a
        · subst hba; rw [ha]
        · rw [ho b hba]
      · rw [k2 b hl]
        rcases List.mem_cons.mp hb with rfl | hb
        · exact ha
        · exact absurd hb hl
    · rw [List.mem_cons, not_or] at hb
      rw [k2 b hb.2, ho b hb.1]

theorem stepBegin_types {w w' : World F} (e : w.stepBegin env = some w') (b : Nat) : w'.typeOf b = w.typeOf b := by
  unfold stepBegin at e
  split at e
  · simp only [Option.bind_eq_bind, Option.bind_eq_some_iff] at e
    obtain ⟨w1, e1, e2⟩ := e
    cases e2
    exact findNewContacts_types e1 b
  · cases e; rfl

/-- A step in which time does not pass. -/
theorem step_still (hR : Wakes R) (hE : Polite R env) {w w' : World F} {dt : F} {vi pi : Nat} (hdt : ¬ dt > 0)
    (e : w.step env dt vi pi = some w') : ∃ v : World F, Each R w v ∧ w'.phys = (if v.clearForces then v.clearForcesAll else v).phys := by
  unfold step at e
  simp only [Option.bind_eq_bind, Option.bind_eq_some_iff] at e
  obtain ⟨w1, e1, w2, e2, e3⟩ := e
  unfold stepLocked at e2
  simp only [Option.bind_eq_bind, Option.bind_eq_some_iff] at e2
  obtain ⟨w3, e4, w4, e5, w5, e6, e7⟩ := e2
  rw [if_neg (fun h => hdt h.2)] at e5
  rw [if_neg (fun h => hdt h.2)] at e6
  cases e5
  cases e6
  have hd : ¬ (World.timeStep { w1 with locked := true } dt vi pi).dt > 0 := hdt
  rw [if_neg hd] at e7
  have k := collide_each hR hE e4
  have k0 := stepBegin_phys e1
  refine ⟨w3, hR.tr (hR.same (w' := { w1 with locked := true }) k0 (fun b => stepBegin_types e1 b)) k, ?_⟩
  cases e3
  cases e7
  rfl

/-- A step. -/
theorem step_each (hR : Moves al cc R) (hE : Polite R env) (hC : cc → Polite SameCenter env) {w w' : World F} {dt : F} {vi pi : Nat} (h : WInv w) (ha : w.allowSleep = true → al)
    (e : w.step env dt vi pi = some w') : ∃ v : World F, Each R w v ∧ v.clearForces = w.clearForces ∧ v.g.bodyList = w.g.bodyList ∧
      w'.g.bodyList = w.g.bodyList ∧ w'.phys = (if v.clearForces then v.clearForcesAll else v).phys := by
  have hst := step_good h e
  unfold step at e
  simp only [Option.bind_eq_bind, Option.bind_eq_some_iff] at e
  obtain ⟨w1, e1, w2, e2, e3⟩ := e
  unfold stepLocked at e2
  simp only [Option.bind_eq_bind, Option.bind_eq_some_iff] at e2
  obtain ⟨w3, e4, w4, e5, w5, e6, e7⟩ := e2
  obtain ⟨v, g1, rfl, -⟩ := stepBegin_good h e1
  have hw1 : WInv { v with newContacts := false, locked := true } := g1.winv.frame rfl rfl
  obtain ⟨g3, -⟩ := collide_good hw1 e4
  have b1 : ∀ g : World F, Good env { v with newContacts := false, locked := true } g → g.clearForces = w.clearForces ∧ g.allowSleep = w.allowSleep ∧ g.g.bodyList = w.g.bodyList :=
    fun g hg => ⟨hg.rest.clearForces.trans g1.rest.clearForces, hg.rest.allowSleep.trans g1.rest.allowSleep, hg.bodyList.trans g1.bodyList⟩
  have k0 := stepBegin_phys e1
  have k1 : Each R w w3 := hR.tr (hR.same (w' := { v with newContacts := false, locked := true }) k0 (fun b => stepBegin_types e1 b)) (collide_each hR.toWakes hE e4)
  have k2 : Each R w w4 ∧ Good env { v with newContacts := false, locked := true } w4 := by
    split at e5
    · exact ⟨hR.tr k1 (solve_each hR hE (fun hs => ha (by rw [← (b1 w3 g3).2.1]; exact hs)) e5), g3.trans (solve_good g3.winv e5)⟩
    · cases e5; exact ⟨k1, g3⟩
  have k3 : Each R w w5 ∧ w5.clearForces = w.clearForces ∧ w5.g.bodyList = w.g.bodyList := by
    obtain ⟨c1, -, c3⟩ := b1 w4 k2.2
    split at e6
    · unfold solveToi at e6
      have gs := solveToi_good k2.2.winv e6
      exact ⟨hR.tr k2.1 (hR.tr (toiReset_each hR w4) (toiLoop_each hR hE hC _ e6)), (gs.rest.clearForces).trans c1, (show w5.g.bodyList = w4.g.bodyList by rw [gs.eq]).trans c3⟩
    · cases e6; exact ⟨k2.1, c1, c3⟩
  obtain ⟨c1, c2, c3⟩ := k3
  have hb : w'.g.bodyList = w.g.bodyList := by rw [hst.eq]
  cases e3
  cases e7
  generalize hx : (if (World.timeStep { { v with newContacts := false } with locked := true } dt vi pi).dt > 0 then
    { w5 with invDt0 := (World.timeStep { { v with newContacts := false } with locked := true } dt vi pi).invDt } else w5) = x at *
  have hx' : x.phys = w5.phys ∧ x.clearForces = w5.clearForces ∧ x.g = w5.g := by
    rw [← hx]; split <;> exact ⟨rfl, rfl, rfl⟩
  exact ⟨x, hR.tr c1 (hR.same hx'.1 (fun b => by unfold World.typeOf; rw [hx'.2.2])), hx'.2.1.trans c2, by rw [hx'.2.2]; exact c3, hb, rfl⟩

/-- The last thing a step does, with auto-clear on. -/
theorem step_cleared {w w' : World F} {dt : F} {vi pi : Nat} (h : WInv w) (e : w.step env dt vi pi = some w') (hc : w.clearForces = true) :
    ∃ v : World F, v.g.bodyList = w.g.bodyList ∧ w'.g.bodyList = w.g.bodyList ∧ w'.phys = v.clearForcesAll.phys := by
  have hst := step_good h e
  have hb : w'.g.bodyList = w.g.bodyList := by rw [hst.eq]
  unfold step at e
  simp only [Option.bind_eq_bind, Option.bind_eq_some_iff] at e
  obtain ⟨w1, e1, w2, e2, e3⟩ := e
  unfold stepLocked at e2
  simp only [Option.bind_eq_bind, Option.bind_eq_some_iff] at e2
  obtain ⟨w3, e4, w4, e5, w5, e6, e7⟩ := e2
  obtain ⟨v, g1, rfl, -⟩ := stepBegin_good h e1
  have hw1 : WInv { v with newContacts := false, locked := true } := g1.winv.frame rfl rfl
  obtain ⟨g3, -⟩ := collide_good hw1 e4
  have k2 : Good env { v with newContacts := false, locked := true } w4 := by
    split at e5
    · exact g3.trans (solve_good g3.winv e5)
    · cases e5; exact g3
  have c1 : w4.clearForces = w.clearForces := k2.rest.clearForces.trans g1.rest.clearForces
  have c3 : w4.g.bodyList = w.g.bodyList := k2.bodyList.trans g1.bodyList
  have k3 : w5.clearForces = w.clearForces ∧ w5.g.bodyList = w.g.bodyList := by
    split at e6
    · have gs := solveToi_good k2.winv e6
      exact ⟨(gs.rest.clearForces).trans c1, (show w5.g.bodyList = w4.g.bodyList by rw [gs.eq]).trans c3⟩
    · cases e6; exact ⟨c1, c3⟩
  cases e3
  cases e7
  generalize hx : (if (World.timeStep { { v with newContacts := false } with locked := true } dt vi pi).dt > 0 then
    { w5 with invDt0 := (World.timeStep { { v with newContacts := false } with locked := true } dt vi pi).invDt } else w5) = x at *
  have hx' : x.clearForces = w5.clearForces ∧ x.g = w5.g := by
    rw [← hx]; split <;> exact ⟨rfl, rfl⟩
  refine ⟨x, by rw [hx'.2]; exact k3.2, hb, ?_⟩
  have : x.clearForces = true := by rw [hx'.1, k3.1, hc]
  simp only [this, if_true]

/-! ### The relations used -/

/-- Forces are kept or, on falling asleep, zeroed. -/
def KeepsForce (al : Prop) (_ : BodyType) (p q : Phys F) : Prop := q.autoSleep = p.autoSleep ∧
  ((q.force = p.force ∧ q.torque = p.torque) ∨ (q.force = ⟨0, 0⟩ ∧ q.torque = 0 ∧ al ∧ p.autoSleep = true))

theorem keepsForce_moves (al : Prop) : Moves al True (KeepsForce (F := F) al) := by
  refine ⟨⟨fun _ _ => ⟨rfl, Or.inl ⟨rfl, rfl⟩⟩, ?_, ?_⟩, ?_, ?_⟩
  · rintro t p q r ⟨h1, h2⟩ ⟨h3, h4⟩
    refine ⟨h3.trans h1, ?_⟩
    rcases h4 with ⟨a, b⟩ | ⟨a, b, c, d⟩
    · rw [a, b]; exact h2
    · exact Or.inr ⟨a, b, c, by rw [← h1]; exact d⟩
  · intro t p
    unfold Phys.setAwake
    split
    · exact ⟨rfl, Or.inl ⟨rfl, rfl⟩⟩
    · exact ⟨rfl, Or.inl ⟨rfl, rfl⟩⟩
  · intro t p q h _ _
    rw [h]; exact ⟨rfl, Or.inl ⟨rfl, rfl⟩⟩
  · intro ha t p hp
    unfold Phys.setAwake
    split
    · exact ⟨rfl, Or.inl ⟨rfl, rfl⟩⟩
    · exact ⟨rfl, Or.inr ⟨rfl, rfl, ha, hp⟩⟩

/-- Position, sweep and velocity are the same. -/
def Stays (_ : BodyType) (p q : Phys F) : Prop := q.xf = p.xf ∧ q.sweep = p.sweep ∧ q.v = p.v ∧ q.w = p.w

theorem stays_wakes : Wakes (Stays (F := F)) := by
  refine ⟨fun _ _ => ⟨rfl, rfl, rfl, rfl⟩, ?_, ?_⟩
  · rintro t p q r ⟨a, b, c, d⟩ ⟨a', b', c', d'⟩
    exact ⟨a'.trans a, b'.trans b, c'.trans c, d'.trans d⟩
  · intro t p
    unfold Phys.setAwake
    split <;> exact ⟨rfl, rfl, rfl, rfl⟩

/-- Only what a step may change has changed. -/
def SameConfig (_ : BodyType) (p q : Phys F) : Prop :=
  q = { p with island := q.island, islandIndex := q.islandIndex, awake := q.awake, sleepTime := q.sleepTime, sweep := q.sweep, xf := q.xf, v := q.v, w := q.w, force := q.force, torque := q.torque } ∧ q.sweep.localCenter = p.sweep.localCenter

theorem sameConfig_moves : Moves True True (SameConfig (F := F)) := by
  refine ⟨⟨fun _ _ => ⟨rfl, rfl⟩, ?_, ?_⟩, ?_, ?_⟩
  · rintro t p q r ⟨a, b⟩ ⟨a', b'⟩
    exact ⟨by rw [a', a], b'.trans b⟩
  · intro t p
    unfold Phys.setAwake
    split <;> exact ⟨rfl, rfl⟩
  · intro t p q h h' _
    exact ⟨by rw [h], h' trivial⟩
  · intro _ t p _
    unfold Phys.setAwake
    split <;> exact ⟨rfl, rfl⟩

end
end B2
