import Verif.Proofs.WorldHeld
import Verif.Spec.WorldBody

/-! What is true of the numbers of every body of a world, through every history of calls. -/
namespace B2
set_option linter.unusedSectionVars false
open World Spec

section
variable {F : Type} [Field F] [LinearOrder F] [IsStrictOrderedRing F] [Elem F]

/-- Statements about a body that survive everything the code does to it. -/
structure Stable (Q : BodyType → Phys F → Prop) : Prop where
  new : ∀ d p, Phys.new d = some p → Q d.type p
  run : ∀ t fs p p' (op : BodyOp F), op.run t fs p = some p' → Q t p → Q t p'
  retype : ∀ t t' fs p p', Phys.resetMassData t' fs p = some p' → Q t p → Q t' p'
  data : ∀ t m p p', Phys.setMassData t m p = some p' → Q t p → Q t p'
  move : ∀ (t : BodyType) (p q : Phys F),
    q = { p with island := q.island, islandIndex := q.islandIndex, awake := q.awake, sleepTime := q.sleepTime,
                 sweep := q.sweep, xf := q.xf, v := q.v, w := q.w } →
    (Posed q ∨ (q.xf = p.xf ∧ q.sweep.c = p.sweep.c ∧ q.sweep.a = p.sweep.a ∧ q.sweep.localCenter = p.sweep.localCenter)) → Q t p → Q t q
  clear : ∀ t p, Q t p → Q t { p with force := ⟨0, 0⟩, torque := 0 }
  shift : ∀ t (p : Phys F) o, Q t p → Q t { p with
    xf := ⟨p.xf.p - o, p.xf.q⟩, sweep := { p.sweep with c0 := p.sweep.c0 - o, c := p.sweep.c - o } }

/-- What `set_type` does to the numbers of a body once its mass has been computed. -/
def Phys.settle (t : BodyType) (p : Phys F) : Phys F :=
  if t = .static then { p with v := ⟨0, 0⟩, w := 0, sweep := { p.sweep with a0 := p.sweep.a, c0 := p.sweep.c }, awake := false } else p.setAwake t true

/-- What `set_transform` does to the numbers of a body. -/
def Phys.placeAt (p : Phys F) (pos : Vec2 F) (angle : F) : Phys F :=
  let xf : Xf F := ⟨pos, Rot.ofAngle angle⟩
  let c := xf.mulV p.sweep.localCenter
  { p with xf := xf, sweep := { p.sweep with c := c, a := angle, c0 := c, a0 := angle } }

/-- Statements about a body that survive every call except `step` and those that place it; `M` restricts the functions called by
users. -/
structure Unmoving (env : Env F) (M : BodyType → BodyOp F → Prop) (Q : BodyType → Phys F → Prop) : Prop where
  run : ∀ t fs p p' (op : BodyOp F), M t op → op.run t fs p = some p' → Q t p → Q t p'
  awake : ∀ t, M t (.setAwake true)
  reset : ∀ t, M t .resetMassData
  obeys : ∀ w k, ∀ op ∈ env.react w k, ∀ b o, op = .body b o → ∀ t, M t o
  retype : ∀ t t' fs p p', Phys.resetMassData t' fs p = some p' → Q t p → Q t' (p'.settle t')
  data : ∀ t m p p', Phys.setMassData t m p = some p' → Q t p → Q t p'
  clear : ∀ t p, Q t p → Q t { p with force := ⟨0, 0⟩, torque := 0 }

/-- Statements about a body that survive every call except `step`; `N` restricts the definitions of bodies. -/
structure Stable0 (env : Env F) (N : BodyDef F → Prop) (M : BodyType → BodyOp F → Prop) (Q : BodyType → Phys F → Prop) : Prop extends Unmoving env M Q where
  new : ∀ d p, N d → Phys.new d = some p → Q d.type p
  place : ∀ t (p : Phys F) pos angle, Q t p → Q t (p.placeAt pos angle)
  shift : ∀ t (p : Phys F) o, Q t p → Q t { p with
    xf := ⟨p.xf.p - o, p.xf.q⟩, sweep := { p.sweep with c0 := p.sweep.c0 - o, c := p.sweep.c - o } }

theorem Stable.base {env : Env F} {Q : BodyType → Phys F → Prop} (h : Stable Q) : Stable0 env (fun _ => True) (fun _ _ => True) Q where
  new d p _ := h.new d p
  run t fs p p' op _ := h.run t fs p p' op
  awake _ := trivial
  reset _ := trivial
  obeys _ _ _ _ _ _ _ _ := trivial
  retype t t' fs p p' e hq := by
    unfold Phys.settle
    split
    · exact h.move _ _ _ rfl (Or.inr ⟨rfl, rfl, rfl, rfl⟩) (h.retype _ _ _ _ _ e hq)
    · exact h.run t' fs p' _ (.setAwake true) rfl (h.retype _ _ _ _ _ e hq)
  data := h.data
  place t p pos angle hq := by
    refine h.move _ _ _ rfl (Or.inl ?_) hq
    unfold Posed Phys.placeAt
    dsimp only
    congr 1
    simp only [Xf.mulV, Rot.mulV, Vec2.ext_iff, Vec2.sub_x, Vec2.sub_y]
    constructor <;> ring
  clear := h.clear
  shift := h.shift

namespace World
variable {env : Env F} {N : BodyDef F → Prop} {M : BodyType → BodyOp F → Prop} {Q : BodyType → Phys F → Prop}

/-- The statement goes over from one world to the next. -/
def Keep (Q : BodyType → Phys F → Prop) (w w' : World F) : Prop := ∀ b, Q (w.typeOf b) (w.phys b) → Q (w'.typeOf b) (w'.phys b)

namespace Keep
variable {w w' w'' : World F}
theorem refl (w : World F) : Keep Q w w := fun _ => id
theorem trans (h : Keep Q w w') (h' : Keep Q w' w'') : Keep Q w w'' := fun b hb => h' b (h b hb)
theorem same (h : w'.phys = w.phys) (ht : ∀ b, w'.typeOf b = w.typeOf b := by intro _; rfl) : Keep Q w w' := fun b => by rw [h, ht]; exact id
theorem setPhys {b : Nat} {p : Phys F} (h : Q (w.typeOf b) (w.phys b) → Q (w.typeOf b) p) : Keep Q w (w.setPhys b p) := by
  intro x hx
  unfold World.setPhys
  dsimp only
  by_cases hb : x = b
  · subst hb; rw [upd_same]; exact h hx
  · rw [upd_other _ _ hb]; exact hx
theorem setBody {b : Nat} {x : BodyS} (h : x.type = w.typeOf b) : Keep Q w (w.setBody b x) :=
  same rfl (proj_upd (fun x : BodyS => x.type) h)
theorem foldlM {α : Type} {f : World F → α → Option (World F)} {l : List α} (e : l.foldlM f w = some w')
    (hf : ∀ x ∈ l, ∀ v v', f v x = some v' → Keep Q v v') : Keep Q w w' :=
  foldlM_inv (fun x => Keep Q w x) e (.refl w) (fun x hx v v' h e => h.trans (hf x hx v v' e))
theorem foldl {α : Type} {f : World F → α → World F} {l : List α} (w : World F) (hf : ∀ x ∈ l, ∀ v, Keep Q v (f v x)) : Keep Q w (l.foldl f w) :=
  foldl_inv (fun x => Keep Q w x) (.refl w) (fun x hx v h => h.trans (hf x hx v))
theorem each (h : Each (fun t p q => Q t p → Q t q) w w') : Keep Q w w' := fun b hb => by rw [(h b).1]; exact (h b).2 hb
end Keep

theorem _root_.B2.Stable.moves (hQ : Stable Q) : Moves True False (fun t (p q : Phys F) => Q t p → Q t q) :=
  ⟨⟨fun _ _ h => h, fun h h' x => h' (h x), fun t p => hQ.run t [] p _ (.setAwake true) rfl⟩, fun t p q e _ h => hQ.move t p q e h,
    fun _ t p _ => hQ.run t [] p _ (.setAwake false) rfl⟩

variable (hQ : Unmoving env M Q)
include hQ

theorem _root_.B2.Unmoving.wake (t : BodyType) (p : Phys F) : Q t p → Q t (p.setAwake t true) :=
  hQ.run t [] p _ (.setAwake true) (hQ.awake t) rfl

theorem _root_.B2.Unmoving.wakes : Wakes (fun t (p q : Phys F) => Q t p → Q t q) :=
  ⟨fun _ _ h => h, fun h h' x => h' (h x), fun t p => hQ.wake t p⟩

theorem userOp_keep {w w' : World F} {op : UserOp F} (hM : ∀ b o, op = .body b o → M (w.typeOf b) o) (e : w.userOp op = some w') : Each (fun t p q => Q t p → Q t q) w w' := by
  by_cases ho : ∀ b o, op ≠ .body b o
  · exact userOp_each hQ.wakes ho e
  · push Not at ho
    obtain ⟨b, o, rfl⟩ := ho
    unfold userOp bodyOp at e
    simp only [Option.bind_eq_bind, Option.bind_eq_some_iff] at e
    obtain ⟨p, e1, e2⟩ := e
    cases e2
    exact hQ.wakes.setPhys (hQ.run _ _ _ _ _ (hM b o rfl) e1)

theorem emit_keep {w w' : World F} {k : EventKind} (e : w.emit env k = some w') : Each (fun t p q => Q t p → Q t q) w w' := by
  unfold emit at e
  dsimp only at e
  refine hQ.wakes.tr (hQ.wakes.same (w' := { w with log := ⟨k, w.locked⟩ :: w.log, tick := w.tick + 1 }) rfl) ?_
  exact hQ.wakes.foldlM e (fun v v' op ho he => userOp_keep hQ (fun b o hbo => hQ.obeys _ _ op ho b o hbo _) he)

theorem _root_.B2.Unmoving.polite : Polite (fun t (p q : Phys F) => Q t p → Q t q) env := by
  intro w w' k e
  unfold listen at e
  split at e
  · exact emit_keep hQ e
  · cases e; exact hQ.wakes.each_refl _

theorem goodbye_keep {w w' : World F} {k : EventKind} (e : w.goodbye env k = some w') : Keep Q w w' := by
  unfold goodbye at e
  split at e
  · exact .each (emit_keep hQ e)
  · cases e; exact .refl _

theorem setAwake_keep (w : World F) (b : Nat) : Keep Q w (w.setAwake b true) := .setPhys (hQ.wake _ _)

theorem contactDestroy_keep {w w' : World F} {c : Nat} (e : w.contactDestroy env c = some w') : Keep Q w w' :=
  .each (contactDestroy_each hQ.wakes hQ.polite e)

theorem destroyContacts_keep {w w' : World F} {l : List (Nat × Nat)} (e : destroyContacts env l w = some w') : Keep Q w w' :=
  Keep.foldlM e (fun _ _ _ _ h => contactDestroy_keep hQ h)

theorem destroyContactsOf_keep {f : Nat} : ∀ (l : List (Nat × Nat)) {w w' : World F}, destroyContactsOf env f l w = some w' → Keep Q w w' := by
  intro l
  induction l with
  | nil => intro w w' e; cases e; exact .refl _
  | cons a l ih =>
    intro w w' e
    unfold destroyContactsOf at e
    simp only [Option.bind_eq_bind, Option.bind_eq_some_iff] at e
    obtain ⟨w1, e1, e2⟩ := e
    have h1 : Keep Q w w1 := by
      split at e1
      · exact contactDestroy_keep hQ e1
      · cases e1; exact .refl _
    exact h1.trans (ih e2)

theorem resetMassData_keep {w w' : World F} {b : Nat} (e : w.resetMassData b = some w') : Keep Q w w' :=
  .each (userOp_keep hQ (op := .body b .resetMassData) (by rintro _ _ ⟨⟩; exact hQ.reset _) e)

omit hQ in
theorem createProxies_keep {w w' : World F} {f : Nat} {xf : Xf F} (e : w.createProxies f xf = some w') : Keep Q w w' := by
  unfold createProxies at e
  dsimp only at e
  split at e
  · cases e
  simp only [Option.bind_eq_bind, Option.bind_eq_some_iff] at e
  obtain ⟨n, -, e⟩ := e
  refine Keep.trans (w' := w.setFix f _) (.same rfl) (Keep.foldlM e fun i _ v v' h => ?_)
  unfold createProxy at h
  simp only [Option.bind_eq_bind, Option.bind_eq_some_iff] at h
  obtain ⟨_, -, _, -, _, -, h⟩ := h
  cases h
  exact .same (by rfl)

omit hQ in
theorem destroyProxies_keep {w w' : World F} {f : Nat} (e : w.destroyProxies f = some w') : Keep Q w w' := by
  unfold destroyProxies at e
  simp only [Option.bind_eq_bind, Option.bind_eq_some_iff] at e
  obtain ⟨w1, e1, e2⟩ := e
  cases e2
  refine Keep.trans (w' := w1) (Keep.foldlM e1 fun i _ v v' h => ?_) (.same (by rfl))
  unfold destroyProxy at h
  simp only [Option.bind_eq_bind, Option.bind_eq_some_iff] at h
  obtain ⟨_, -, _, -, _, -, h⟩ := h
  cases h
  exact .same (by rfl)

omit hQ in
theorem synchronize_keep {xf1 xf2 : Xf F} {w w' : World F} {f : Nat} (e : synchronize xf1 xf2 w f = some w') : Keep Q w w' := by
  unfold synchronize at e
  refine Keep.foldlM e fun i _ v v' h => ?_
  unfold synchronizeProxy at h
  simp only [Option.bind_eq_bind, Option.bind_eq_some_iff] at h
  obtain ⟨_, -, _, -, _, -, _, -, _, -, h⟩ := h
  cases h
  exact .same (by rfl)

omit hQ in
theorem touchProxies_keep {w w' : World F} {f : Nat} (e : w.touchProxies f = some w') : Keep Q w w' := by
  unfold touchProxies at e
  refine Keep.foldlM e fun i _ v v' h => ?_
  simp only [Option.bind_eq_bind, Option.bind_eq_some_iff] at h
  obtain ⟨_, -, _, -, _, -, h⟩ := h
  cases h
  exact .same (by rfl)

omit hQ in
theorem flagContacts_keep (w : World F) (a b : Nat) : Keep Q w (w.flagContacts a b) := by
  unfold flagContacts
  refine Keep.foldl w fun e _ v => ?_
  split
  · exact .same (by rfl)
  · exact .refl _

theorem destroyJoint_keep {w w' : World F} {j : Nat} (e : w.destroyJoint j = some w') : Keep Q w w' := by
  unfold destroyJoint at e
  split at e
  · cases e
  simp only [Option.bind_eq_bind, Option.bind_eq_some_iff] at e
  obtain ⟨jl, -, la, -, lb, -, e⟩ := e
  split at e
  · cases e
  have h1 : Keep Q w (({ w with g := { w.g with jointList := jl } } : World F).setAwake (w.g.joints j).a true |>.setAwake (w.g.joints j).b true) :=
    Keep.trans (w' := ({ w with g := { w.g with jointList := jl } } : World F)) (.same rfl) ((setAwake_keep hQ _ _).trans (setAwake_keep hQ _ _))
  cases e
  have h2 : ∀ (v : World F) (a b : Nat) (la lb : List (Nat × Nat)) (n : Nat), Keep Q v
      (let v := v.setBody a { v.g.bodies a with joints := la }
       let v := v.setBody b { v.g.bodies b with joints := lb }
       { v with g := { v.g with jointCount := n } }) := fun v a b la lb n =>
    (Keep.setBody (w := v) (b := a) (x := { v.g.bodies a with joints := la }) rfl).trans
      ((Keep.setBody (w := v.setBody a { v.g.bodies a with joints := la }) (b := b)
        (x := { (v.setBody a { v.g.bodies a with joints := la }).g.bodies b with joints := lb }) rfl).trans (.same rfl))
  have h3 := h1.trans (h2 _ (w.g.joints j).a (w.g.joints j).b la lb (w.g.jointCount - 1))
  split
  · exact h3.trans (flagContacts_keep _ _ _)
  · exact h3

omit hQ in
theorem createJoint_keep {w w' : World F} {d : JointS} {j : Nat} (e : w.createJoint d = some (w', j)) : Keep Q w w' := by
  unfold createJoint at e
  split at e
  · cases e
  split at e
  · cases e
  cases e
  have h3 : ∀ (v : World F) (a b : Nat) (f g : BodyS → List (Nat × Nat)), Keep Q v
      (let v := v.setBody a { v.g.bodies a with joints := f (v.g.bodies a) }
       v.setBody b { v.g.bodies b with joints := g (v.g.bodies b) }) := fun v a b f g =>
    (Keep.setBody (by rfl)).trans (Keep.setBody (by rfl))
  have h1 : Keep Q w ({ w with
      g := { w.g with joints := upd w.g.joints w.g.nextJoint d, nextJoint := w.g.nextJoint + 1
                      jointList := w.g.nextJoint :: w.g.jointList, jointCount := w.g.jointCount + 1 }
      jIsland := upd w.jIsland w.g.nextJoint false } : World F) := .same rfl
  have h4 := h1.trans (h3 _ d.a d.b (fun x => (w.g.nextJoint, d.b) :: x.joints) (fun x => (w.g.nextJoint, d.a) :: x.joints))
  split
  · exact h4.trans (flagContacts_keep _ _ _)
  · exact h4

omit hQ in
theorem createJoint_list {w w' : World F} {d : JointS} {j : Nat} (e : w.createJoint d = some (w', j)) : ∀ b ∈ w'.g.bodyList, b ∈ w.g.bodyList := by
  unfold createJoint at e
  split at e
  · cases e
  split at e
  · cases e
  cases e
  have h1 : ∀ v : World F, (v.flagContacts d.a d.b).g.bodyList = v.g.bodyList := fun v =>
    foldl_inv (fun x : World F => x.g.bodyList = v.g.bodyList) rfl (fun e _ x h => by dsimp only; split <;> exact h)
  split
  · rw [h1]; exact fun _ => id
  · exact fun _ => id

theorem createFixture_keep {w w' : World F} {b f : Nat} {d : FixDef F} (e : w.createFixture b d = some (w', f)) : Keep Q w w' := by
  unfold createFixture at e
  split at e
  · cases e
  simp only [Option.bind_eq_bind, Option.bind_eq_some_iff] at e
  obtain ⟨n, -, w1, e1, w2, e2, e3⟩ := e
  cases e3
  have h1 : Keep Q w w1 := by
    refine Keep.trans (w' := { w with
      g := { w.g with fixtures := upd w.g.fixtures w.g.nextFixture ⟨some b, d.shape, List.replicate n ⟨none, 0, none⟩, 0⟩
                      nextFixture := w.g.nextFixture + 1 }
      fattr := upd w.fattr w.g.nextFixture d.attr }) (.same rfl) ?_
    split at e1
    · exact createProxies_keep e1
    · cases e1; exact .refl _
  have h2 : Keep Q w1 w2 := by
    refine Keep.trans (w' := w1.setBody b { w1.g.bodies b with
      fixtures := w.g.nextFixture :: (w1.g.bodies b).fixtures, fixtureCount := (w1.g.bodies b).fixtureCount + 1 }) (.setBody (by rfl)) ?_
    split at e2
    · exact resetMassData_keep hQ e2
    · cases e2; exact .refl _
  exact h1.trans (h2.trans (.same (by rfl)))

theorem destroyFixture_keep {w w' : World F} {b f : Nat} (e : w.destroyFixture env b f = some w') : Keep Q w w' := by
  unfold destroyFixture at e
  split at e
  · cases e
  split at e
  · cases e
  split at e
  · cases e
  simp only [Option.bind_eq_bind, Option.bind_eq_some_iff] at e
  obtain ⟨fl, -, w1, e1, w2, e2, e3⟩ := e
  have h1 : Keep Q w w1 := Keep.trans (w' := w.setBody b { w.g.bodies b with fixtures := fl }) (.setBody (by rfl)) (destroyContactsOf_keep hQ _ e1)
  have h2 : Keep Q w1 w2 := by
    split at e2
    · exact destroyProxies_keep e2
    · cases e2; exact .refl _
  refine (h1.trans h2).trans ?_
  refine Keep.trans (w' := w2.setFix f { w2.g.fixtures f with body := none }) (.same rfl) ?_
  exact Keep.trans (.setBody (by rfl)) (resetMassData_keep hQ e3)

theorem setType_keep {w w' : World F} {b : Nat} {t : BodyType} (e : w.setType env b t = some w') : Keep Q w w' := by
  unfold setType at e
  split at e
  · cases e
  split at e
  · cases e; exact .refl _
  simp only [Option.bind_eq_bind, Option.bind_eq_some_iff] at e
  obtain ⟨w1, e1, w2, e2, w3, e3, e4⟩ := e
  have h1 : Keep Q w (w1.setPhys b ((w1.phys b).settle t)) ∧ w1.typeOf b = t := by
    unfold resetMassData bodyOp at e1
    simp only [Option.bind_eq_bind, Option.bind_eq_some_iff] at e1
    obtain ⟨p, e1, e5⟩ := e1
    cases e5
    have ht : ((w.setBody b { w.g.bodies b with type := t }).setPhys b p).typeOf b = t := by
      unfold World.typeOf World.setPhys World.setBody; dsimp only; rw [upd_same]
    refine ⟨?_, ht⟩
    have hp : ((w.setBody b { w.g.bodies b with type := t }).setPhys b p).phys b = p := by
      unfold World.setPhys; dsimp only; rw [upd_same]
    rw [hp]
    intro x hx
    by_cases hb : x = b
    · subst hb
      have hp : (((w.setBody x { w.g.bodies x with type := t }).setPhys x p).setPhys x (p.settle t)).phys x = p.settle t := by
        unfold World.setPhys; dsimp only; rw [upd_same]
      have ht2 : (((w.setBody x { w.g.bodies x with type := t }).setPhys x p).setPhys x (p.settle t)).typeOf x = t := ht
      rw [ht2, hp]
      have ht' : (w.setBody x { w.g.bodies x with type := t }).typeOf x = t := ht
      rw [ht'] at e1
      exact hQ.retype _ _ _ _ _ e1 hx
    · have ht : (((w.setBody b { w.g.bodies b with type := t }).setPhys b p).setPhys b (p.settle t)).typeOf x = w.typeOf x := by
        unfold World.typeOf World.setPhys World.setBody; dsimp only; rw [upd_other _ _ hb]
      have hp : (((w.setBody b { w.g.bodies b with type := t }).setPhys b p).setPhys b (p.settle t)).phys x = w.phys x := by
        unfold World.setPhys World.setBody; dsimp only; rw [upd_other _ _ hb, upd_other _ _ hb]
      rw [ht, hp]; exact hx
  obtain ⟨h1, ht1⟩ := h1
  have h2 : Keep Q w (w2.setAwake b true) := by
    unfold Phys.settle at h1
    split at e2
    · rename_i hs
      rw [if_pos (hs)] at h1
      exact (h1.trans (.same (synchronizeFixtures_phys e2) (synchronizeFixtures_types e2))).trans (setAwake_keep hQ _ _)
    · rename_i hs
      rw [if_neg (hs)] at h1
      cases e2
      unfold World.setAwake
      rw [ht1]
      exact h1
  have h3 : Keep Q (w2.setAwake b true) w3 := (Keep.setPhys (hQ.clear _ _)).trans (destroyContacts_keep hQ e3)
  exact (h2.trans h3).trans (Keep.trans (.setBody (by rfl)) (Keep.foldlM e4 (fun _ _ _ _ h => touchProxies_keep h)))

theorem setEnabled_keep {w w' : World F} {b : Nat} {flag : Bool} (e : w.setEnabled env b flag = some w') : Keep Q w w' := by
  unfold setEnabled at e
  split at e
  · cases e
  dsimp only at e
  have h0 : Keep Q w (w.setBody b { w.g.bodies b with enabled := flag }) := .setBody (by rfl)
  split at e
  · simp only [Option.bind_eq_bind, Option.bind_eq_some_iff] at e
    obtain ⟨w1, e1, e2⟩ := e
    cases e2
    exact (h0.trans (Keep.foldlM e1 (fun _ _ _ _ h => createProxies_keep h))).trans (.same (by rfl))
  · simp only [Option.bind_eq_bind, Option.bind_eq_some_iff] at e
    obtain ⟨w1, e1, w2, e2, e3⟩ := e
    cases e3
    exact (h0.trans (Keep.foldlM e1 (fun _ _ _ _ h => destroyProxies_keep h))).trans ((destroyContacts_keep hQ e2).trans (.setBody (by rfl)))

omit hQ in
theorem refilter_keep {w w' : World F} {f : Nat} (e : w.refilter f = some w') : Keep Q w w' := by
  unfold refilter at e
  split at e
  · cases e; exact .refl _
  split at e
  · cases e
  · exact touchProxies_keep e

theorem destroyBody_keep {w w' : World F} {b : Nat} (e : w.destroyBody env b = some w') : Keep Q w w' := by
  unfold destroyBody at e
  split at e
  · cases e
  split at e
  · cases e
  simp only [Option.bind_eq_bind, Option.bind_eq_some_iff] at e
  obtain ⟨w1, e1, w2, e2, w3, e3, bl, e4, e5⟩ := e
  cases e5
  have h1 : Keep Q w w1 := Keep.foldlM e1 fun x _ v v' h => by
    simp only [Option.bind_eq_bind, Option.bind_eq_some_iff] at h
    obtain ⟨u, a, b⟩ := h
    exact (goodbye_keep hQ a).trans (destroyJoint_keep hQ b)
  have h2 : Keep Q w1 w2 := Keep.trans (.setBody (by rfl)) (destroyContacts_keep hQ e2)
  have h3 : Keep Q w2 w3 := Keep.trans (.setBody (by rfl)) (Keep.foldlM e3 fun x _ v v' h => by
    simp only [Option.bind_eq_bind, Option.bind_eq_some_iff] at h
    obtain ⟨u, a, u', b, c⟩ := h
    cases c
    exact ((goodbye_keep hQ a).trans (destroyProxies_keep b)).trans (.setBody (by rfl)))
  exact (h1.trans (h2.trans h3)).trans (Keep.trans (.setBody (b := b) (x := { w3.g.bodies b with fixtures := [], fixtureCount := 0 }) (by rfl)) (.same (by rfl)))

omit hQ in
theorem clearForcesAll_graph (w : World F) : w.clearForcesAll.g = w.g :=
  foldl_inv (fun x : World F => x.g = w.g) rfl (fun _ _ _ h => h)

theorem clearForcesAll_keep (w : World F) : Keep Q w w.clearForcesAll :=
  Keep.foldl w (fun _ _ _ => .setPhys (hQ.clear _ _))

omit hQ in
theorem step_keep (hQ : Stable Q) {env : Env F} {w w' : World F} {dt : F} {vi pi : Nat} (h : WInv w) (e : w.step env dt vi pi = some w') : Keep Q w w' := by
  have hb := (step_good h e).body
  obtain ⟨v, h1, -, -, -, h2⟩ := step_each hQ.moves hQ.base.polite (fun h => h.elim) h (fun _ => trivial) e
  refine (Keep.each h1).trans ?_
  have ht : ∀ b, w'.typeOf b = v.typeOf b := fun b => by
    rw [(h1 b).1]; unfold World.typeOf; rw [hb]
  refine Keep.trans (w' := (if v.clearForces then v.clearForcesAll else v)) ?_ (.same h2 fun b => ?_)
  · split
    · exact clearForcesAll_keep (env := env) hQ.base.toUnmoving _
    · exact .refl _
  · rw [ht b]
    split
    · unfold World.typeOf; rw [clearForcesAll_graph]
    · rfl

/-- Every call except `step` and those that place bodies keeps the statement. -/
theorem call_kept {w w' : World F} (c : Call F) (hM : ∀ b o, c = .user (.body b o) → M (w.typeOf b) o) (hs : ∀ dt vi pi, c ≠ .step dt vi pi)
    (h1 : ∀ d, c ≠ .createBody d) (h2 : ∀ b p a, c ≠ .setTransform b p a) (h3 : ∀ o, c ≠ .shiftOrigin o)
    (e : c.run env w = some w') : Keep Q w w' ∧ ∀ b ∈ w'.g.bodyList, b ∈ w.g.bodyList := by
    have go : Keep Q w w' → (∀ b ∈ w'.g.bodyList, b ∈ w.g.bodyList) → Keep Q w w' ∧ ∀ b ∈ w'.g.bodyList, b ∈ w.g.bodyList :=
      fun k l => ⟨k, l⟩
    cases c with
    | createBody d => exact absurd rfl (h1 d)
    | setTransform b p a => exact absurd rfl (h2 b p a)
    | shiftOrigin o => exact absurd rfl (h3 o)
    | destroyBody b => exact go (destroyBody_keep hQ e) (destroyBody_held e).list
    | createFixture b d =>
      simp only [Call.run, Option.map_eq_some_iff, Prod.exists] at e
      obtain ⟨w1, f, e, rfl⟩ := e
      exact go (createFixture_keep hQ e) (createFixture_held e).list
    | destroyFixture b f => exact go (destroyFixture_keep hQ e) (destroyFixture_held e).list
    | createJoint d =>
      simp only [Call.run, Option.map_eq_some_iff, Prod.exists] at e
      obtain ⟨w1, j, e, rfl⟩ := e
      exact go (createJoint_keep e) (createJoint_list e)
    | destroyJoint j => exact go (destroyJoint_keep hQ e) (destroyJoint_held e).list
    | setType b t => exact go (setType_keep hQ e) (setType_held e).list
    | setEnabled b flag => exact go (setEnabled_keep hQ e) (setEnabled_held e).list
    | setMassData b m =>
      simp only [Call.run] at e
      unfold World.setMassData at e
      split at e
      · cases e
      simp only [Option.bind_eq_bind, Option.bind_eq_some_iff] at e
      obtain ⟨p, e1, e2⟩ := e
      cases e2
      exact go (.setPhys (hQ.data _ _ _ _ e1)) (fun _ => id)
    | setFilterData f d =>
      have e' : (w.setFattr f { w.fattr f with filter := d }).refilter f = some w' := e
      have k : Keep Q w (w.setFattr f { w.fattr f with filter := d }) := .same rfl
      exact go (k.trans (refilter_keep e')) (refilter_held e').list
    | refilter f => exact go (refilter_keep e) (refilter_held e).list
    | user op => exact go (.each (userOp_keep hQ (fun b o h => hM b o (by rw [h])) e)) (Held.quiet (userOp_quiet e).1).list
    | setAllowSleeping flag =>
      cases e
      unfold setAllowSleeping
      split
      · exact ⟨.refl _, fun _ => id⟩
      dsimp only
      split
      · refine ⟨Keep.trans (w' := ({ w with allowSleep := flag } : World F)) (.same rfl) (Keep.foldl _ (fun _ _ _ => setAwake_keep hQ _ _)), fun b hb => ?_⟩
        rw [show (List.foldl (fun (w : World F) b => w.setAwake b true) ({ w with allowSleep := flag } : World F) w.g.bodyList).g = w.g from
          foldl_inv (fun x : World F => x.g = w.g) rfl (fun _ _ _ h => h)] at hb
        exact hb
      · exact ⟨.same rfl, fun _ => id⟩
    | clearForces => cases e; exact go (clearForcesAll_keep hQ _) (by rw [clearForcesAll_graph]; exact fun _ => id)
    | step dt vi pi => exact absurd rfl (hs dt vi pi)
    | _ => cases e; exact go (.same rfl) (fun _ => id)

omit hQ in
/-- Every call except `step` keeps the statement. -/
theorem call_stable (hQ : Stable0 env N M Q) {w w' : World F} (c : Call F) (hN : ∀ d, c = .createBody d → N d) (hM : ∀ b o, c = .user (.body b o) → M (w.typeOf b) o) (hs : ∀ dt vi pi, c ≠ .step dt vi pi)
    (e : c.run env w = some w') (ih : ∀ b ∈ w.g.bodyList, Q (w.typeOf b) (w.phys b)) : ∀ b ∈ w'.g.bodyList, Q (w'.typeOf b) (w'.phys b) := by
    have go : Keep Q w w' → (∀ b ∈ w'.g.bodyList, b ∈ w.g.bodyList) → ∀ b ∈ w'.g.bodyList, Q (w'.typeOf b) (w'.phys b) :=
      fun k l b hb => k b (ih b (l b hb))
    by_cases h1 : ∃ d, c = .createBody d
    · obtain ⟨d, rfl⟩ := h1
      simp only [Call.run, Option.map_eq_some_iff, Prod.exists] at e
      obtain ⟨w1, b1, e, rfl⟩ := e
      unfold createBody at e
      split at e
      · cases e
      simp only [Option.bind_eq_bind, Option.bind_eq_some_iff] at e
      obtain ⟨p, e1, e2⟩ := e
      cases e2
      intro b hb
      unfold World.typeOf
      dsimp only
      by_cases hx : b = w.g.nextBody
      · subst hx; rw [upd_same, upd_same]; exact hQ.new d p (hN d rfl) e1
      · rw [upd_other _ _ hx, upd_other _ _ hx]
        rcases List.mem_cons.mp hb with h | h
        · exact absurd h hx
        · exact ih b h
    by_cases h2 : ∃ b p a, c = .setTransform b p a
    · obtain ⟨b, p, a, rfl⟩ := h2
      simp only [Call.run] at e
      unfold setTransform at e
      split at e
      · cases e
      simp only [Option.bind_eq_bind, Option.bind_eq_some_iff] at e
      obtain ⟨w1, e1, e2⟩ := e
      cases e2
      have k1 := Held.foldlM e1 (fun _ _ _ _ h => synchronize_held h)
      have k2 : Keep Q _ w1 := Keep.foldlM e1 (fun _ _ _ _ h => synchronize_keep h)
      exact go (Keep.trans (Keep.trans (.setPhys (hQ.place _ _ p a)) k2) (.same rfl)) k1.list
    by_cases h3 : ∃ o, c = .shiftOrigin o
    · obtain ⟨o, rfl⟩ := h3
      simp only [Call.run] at e
      unfold shiftOrigin at e
      split at e
      · cases e
      cases e
      refine go (Keep.trans (Keep.foldl w (fun _ _ _ => .setPhys (hQ.shift _ _ o))) (.same (by rfl))) ?_
      intro b hb
      dsimp only at hb
      have hg := foldl_inv (l := w.g.bodyList) (f := fun (w : World F) b => w.setPhys b { w.phys b with
        xf := ⟨(w.phys b).xf.p - o, (w.phys b).xf.q⟩, sweep := { (w.phys b).sweep with c0 := (w.phys b).sweep.c0 - o, c := (w.phys b).sweep.c - o } })
        (fun x : World F => x.g = w.g) rfl (fun _ _ _ h => h)
      rw [hg] at hb
      exact hb
    obtain ⟨k, l⟩ := call_kept hQ.toUnmoving c hM hs (fun d h => h1 ⟨d, h⟩) (fun b p a h => h2 ⟨b, p, a, h⟩) (fun o h => h3 ⟨o, h⟩) e
    exact go k l
omit hQ in
/-- A stable statement holds of every body of a reachable world. -/
theorem whist_stable (hQ : Stable Q) {env : Env F} {w : World F} (h : WHist env w) : ∀ b ∈ w.g.bodyList, Q (w.typeOf b) (w.phys b) := by
  induction h with
  | new => intro b hb; cases hb
  | @call w w' c hw ok e ih =>
    have hi := (whist_inv hw).toWInv
    by_cases hs : ∃ dt vi pi, c = .step dt vi pi
    · obtain ⟨dt, vi, pi, rfl⟩ := hs
      intro b hb
      have hb' : b ∈ w.g.bodyList := by rw [(step_good hi e).eq] at hb; exact hb
      exact step_keep hQ hi e b (ih b hb')
    · exact call_stable hQ.base c (fun _ _ => trivial) (fun _ _ _ => trivial) (fun dt vi pi hc => hs ⟨dt, vi, pi, hc⟩) e ih

end World

/-! ### The numbers agree -/

theorem posed_iff {p : Phys F} : Posed p ↔ p.xf.q = Rot.ofAngle p.sweep.a ∧ p.sweep.c = p.xf.mulV p.sweep.localCenter := by
  unfold Posed
  constructor
  · intro h
    rw [h]
    refine ⟨rfl, ?_⟩
    simp only [Xf.mulV, Rot.mulV, Vec2.ext_iff, Vec2.sub_x, Vec2.sub_y]
    constructor <;> ring
  · rintro ⟨h1, h2⟩
    rw [h2, ← h1]
    generalize p.xf = x
    cases x
    simp only [Xf.mk.injEq, and_true]
    simp only [Xf.mulV, Rot.mulV, Vec2.ext_iff, Vec2.sub_x, Vec2.sub_y]
    constructor <;> ring

/-- Nothing but velocities, forces, flags and damping differ. -/
theorem Spec.Consistent.congr {t : BodyType} {p q : Phys F} (h : Consistent t p) (h1 : q.xf = p.xf) (h2 : q.sweep = p.sweep) (h3 : q.mass = p.mass)
    (h4 : q.invMass = p.invMass) (h5 : q.i = p.i) (h6 : q.invI = p.invI) (h7 : q.fixedRotation = p.fixedRotation) : Consistent t q :=
  ⟨by rw [h1, h2]; exact h.rotation, by rw [h1, h2]; exact h.center, by rw [h3, h4]; exact h.mass, by rw [h5, h6]; exact h.inertia,
    by rw [h6, h7]; exact h.fixed, by rw [h3, h4, h5, h6]; exact h.heavy⟩

theorem setAwake_consistent {t t' : BodyType} {p : Phys F} {flag : Bool} (h : Consistent t p) : Consistent t (p.setAwake t' flag) := by
  unfold Phys.setAwake
  split
  · exact h
  split <;> exact h.congr rfl rfl rfl rfl rfl rfl rfl

theorem applyGate_consistent {t t' : BodyType} {p : Phys F} {wake : Bool} (h : Consistent t p) : Consistent t (p.applyGate t' wake).1 := by
  unfold Phys.applyGate
  split
  · exact h
  dsimp only
  split
  · exact setAwake_consistent h
  · exact h

theorem resetMassData_consistent {t' : BodyType} {fs : List (F × Shape F)} {p p' : Phys F} (h : Phys.resetMassData t' fs p = some p')
    (hr : p.xf.q = Rot.ofAngle p.sweep.a) : Consistent t' p' := by
  unfold Phys.resetMassData at h
  dsimp only at h
  split at h
  · rename_i ht
    cases h
    refine ⟨hr, ?_, Or.inl rfl, Or.inl rfl, fun _ => rfl, fun _ => ⟨rfl, rfl, rfl, rfl⟩⟩
    simp [Xf.mulV, Vec2.ext_iff]
  rename_i ht
  have hd : t' = .dynamic := by cases t' <;> simp_all
  simp only [Option.bind_eq_bind, Option.bind_eq_some_iff] at h
  obtain ⟨acc, -, h⟩ := h
  have hm : Inverses acc.mass (if acc.mass > 0 then 1 / acc.mass else 0) := by
    split
    · rename_i hp
      exact Or.inr ⟨hp, by field_simp⟩
    · exact Or.inl rfl
  generalize hc : (if acc.mass > 0 then (if acc.mass > 0 then 1 / acc.mass else 0) * acc.center else acc.center) = ctr at h
  generalize (if acc.mass > 0 then 1 / acc.mass else 0) = im at h hm
  split at h
  · rename_i hi
    split at h
    · rename_i hp
      cases h
      refine ⟨hr, rfl, hm, Or.inr ⟨hp, ?_⟩, fun hf => ?_, fun hn => absurd hd hn⟩
      · exact one_div_mul_cancel (ne_of_gt hp)
      · have hf' : p.fixedRotation = true := hf
        rw [hi.2] at hf'
        cases hf'
    · cases h
  · cases h
    exact ⟨hr, rfl, hm, Or.inl rfl, fun _ => rfl, fun hn => absurd hd hn⟩

theorem setMassData_consistent {t : BodyType} {m : MassData F} {p p' : Phys F} (h : Phys.setMassData t m p = some p')
    (hc : Consistent t p) : Consistent t p' := by
  unfold Phys.setMassData at h
  split at h
  · cases h; exact hc
  rename_i ht
  have hd : t = .dynamic := by cases t <;> simp_all
  dsimp only at h
  have hm : Inverses (if m.mass ≤ 0 then 1 else m.mass) (1 / (if m.mass ≤ 0 then 1 else m.mass)) := by
    have hp : (0 : F) < (if m.mass ≤ 0 then 1 else m.mass) := by
      split
      · exact one_pos
      · exact not_le.mp ‹_›
    exact Or.inr ⟨hp, one_div_mul_cancel (ne_of_gt hp)⟩
  generalize (if m.mass ≤ 0 then 1 else m.mass) = ms at h hm
  split at h
  · rename_i hi
    split at h
    · rename_i hp
      cases h
      refine ⟨hc.rotation, rfl, hm, Or.inr ⟨hp, one_div_mul_cancel (ne_of_gt hp)⟩, fun hf => ?_, fun hn => absurd hd hn⟩
      have hf' : p.fixedRotation = true := hf
      rw [hi.2] at hf'
      cases hf'
    · cases h
  · cases h
    exact ⟨hc.rotation, rfl, hm, Or.inl rfl, fun _ => rfl, fun hn => absurd hd hn⟩

theorem run_consistent {t : BodyType} {fs : List (F × Shape F)} {p p' : Phys F} {op : BodyOp F} (h : op.run t fs p = some p')
    (hc : Consistent t p) : Consistent t p' := by
  cases op <;> simp only [BodyOp.run, Option.some.injEq] at h
  case setFixedRotation flag =>
    unfold Phys.setFixedRotation at h
    split at h
    · cases h; exact hc
    · exact resetMassData_consistent h hc.rotation
  case resetMassData => exact resetMassData_consistent h hc.rotation
  all_goals subst h
  case setAwake => exact setAwake_consistent hc
  case setLinearVelocity =>
    unfold Phys.setLinearVelocity
    split
    · exact hc
    dsimp only
    split
    · exact (setAwake_consistent (t' := t) (flag := true) hc).congr rfl rfl rfl rfl rfl rfl rfl
    · exact hc.congr rfl rfl rfl rfl rfl rfl rfl
  case setAngularVelocity =>
    unfold Phys.setAngularVelocity
    split
    · exact hc
    dsimp only
    split
    · exact (setAwake_consistent (t' := t) (flag := true) hc).congr rfl rfl rfl rfl rfl rfl rfl
    · exact hc.congr rfl rfl rfl rfl rfl rfl rfl
  case setSleepingAllowed flag =>
    unfold Phys.setSleepingAllowed
    dsimp only
    split
    · exact hc.congr rfl rfl rfl rfl rfl rfl rfl
    · exact setAwake_consistent (hc.congr rfl rfl rfl rfl rfl rfl rfl)
  all_goals first
    | exact hc.congr rfl rfl rfl rfl rfl rfl rfl
    | (simp only [Phys.applyForce, Phys.applyForceToCenter, Phys.applyTorque, Phys.applyLinearImpulse, Phys.applyLinearImpulseToCenter, Phys.applyAngularImpulse]
       split
       · exact (applyGate_consistent hc).congr rfl rfl rfl rfl rfl rfl rfl
       · exact applyGate_consistent hc)

theorem consistent_stable : Stable (Consistent (F := F)) where
  new d p h := by
    unfold Phys.new at h
    split at h
    · cases h
      refine ⟨rfl, ?_, Or.inl rfl, Or.inl rfl, fun _ => rfl, fun _ => ⟨rfl, rfl, rfl, rfl⟩⟩
      simp [Xf.mulV, Vec2.ext_iff]
    · cases h
  run _ _ _ _ _ h hc := run_consistent h hc
  retype _ _ _ _ _ h hc := resetMassData_consistent h hc.rotation
  data _ _ _ _ h hc := setMassData_consistent h hc
  move t p q h hp hc := by
    have key : Posed q := by
      rcases hp with hp | ⟨h1, h2, h3, h4⟩
      · exact hp
      · rw [posed_iff, h1, h2, h3, h4]
        exact ⟨hc.rotation, hc.center⟩
    obtain ⟨h1, h2⟩ := posed_iff.mp key
    refine ⟨h1, h2, ?_, ?_, ?_, ?_⟩
    · rw [h]; exact hc.mass
    · rw [h]; exact hc.inertia
    · rw [h]; exact hc.fixed
    · rw [h]; exact hc.heavy
  clear _ _ hc := hc.congr rfl rfl rfl rfl rfl rfl rfl
  shift t p o hc := by
    refine ⟨hc.rotation, ?_, hc.mass, hc.inertia, hc.fixed, hc.heavy⟩
    have := hc.center
    dsimp only
    rw [this]
    simp only [Xf.mulV, Vec2.ext_iff, Vec2.sub_x, Vec2.sub_y]
    constructor <;> ring

end
end B2
