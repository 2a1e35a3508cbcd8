import Verif.Spec.World
import Verif.Proofs.WorldGood

/-! Contacts passed to the solver have points: what keeps the touching flags and the points of solid contacts together. -/
namespace B2
set_option linter.unusedSectionVars false
open World Spec

section
variable {F : Type} [Field F] [LinearOrder F] [IsStrictOrderedRing F] [Elem F]

namespace World

/-- No contact pulls, and the last time step was not negative. -/
def Pressing (w : World F) : Prop := (∀ c, Pushing (w.cst c).manifold) ∧ 0 ≤ w.invDt0

/-- The fixtures are the same ones, with the same shapes; no density becomes negative. -/
structure FixSame (w w' : World F) : Prop where
  next : w'.g.nextFixture = w.g.nextFixture
  shape : ∀ f, (w'.g.fixtures f).shape = (w.g.fixtures f).shape
  density : ∀ f, 0 ≤ (w.fattr f).density → 0 ≤ (w'.fattr f).density

theorem FixSame.refl (w : World F) : FixSame w w := ⟨rfl, fun _ => rfl, fun _ => id⟩
theorem FixSame.trans {w w' w'' : World F} (h : FixSame w w') (h' : FixSame w' w'') : FixSame w w'' :=
  ⟨h'.next.trans h.next, fun f => (h'.shape f).trans (h.shape f), fun f x => h'.density f (h.density f x)⟩
theorem FixSame.of_eq {w w' : World F} (hg : w'.g = w.g) (hf : w'.fattr = w.fattr) : FixSame w w' :=
  ⟨by rw [hg], fun f => by rw [hg], fun f => by rw [hf]; exact id⟩

/-- No contact is added; touching flags and sensors are the same; no contact loses its points or gains a time of impact. -/
structure Firm (w w' : World F) : Prop where
  list : ∀ c ∈ w'.g.contactList, c ∈ w.g.contactList
  sensor : ∀ c ∈ w'.g.contactList, w'.sensorContact c = w.sensorContact c
  touching : ∀ c, (w'.cst c).touching = (w.cst c).touching
  points : ∀ c, OneOrTwo (w.cst c).manifold → OneOrTwo (w'.cst c).manifold
  toi : ∀ c, (w'.cst c).toiFlag = true → (w.cst c).toiFlag = true
  complete : w'.stepComplete = w.stepComplete
  push : Pressing w → Pressing w'
  fix : FixSame w w'

namespace Firm
variable {w w' w'' : World F}
theorem refl (w : World F) : Firm w w := ⟨fun _ => id, fun _ _ => rfl, fun _ => rfl, fun _ => id, fun _ => id, rfl, id, .refl w⟩
theorem trans (h : Firm w w') (h' : Firm w' w'') : Firm w w'' :=
  ⟨fun c hc => h.list c (h'.list c hc), fun c hc => (h'.sensor c hc).trans (h.sensor c (h'.list c hc)),
    fun c => (h'.touching c).trans (h.touching c), fun c hc => h'.points c (h.points c hc), fun c hc => h.toi c (h'.toi c hc),
    h'.complete.trans h.complete, fun x => h'.push (h.push x), h.fix.trans h'.fix⟩
theorem same (hc : w'.g.contacts = w.g.contacts) (hl : ∀ c ∈ w'.g.contactList, c ∈ w.g.contactList) (hf : w'.fattr = w.fattr) (hs : w'.cst = w.cst)
    (hd : w'.stepComplete = w.stepComplete) (hr : w'.invDt0 = w.invDt0 := by rfl) (hn : w'.g.nextFixture = w.g.nextFixture := by rfl)
    (hx : ∀ f, (w'.g.fixtures f).shape = (w.g.fixtures f).shape := by first | exact fun _ => rfl | exact proj_upd (fun q : FixS F => q.shape) rfl) : Firm w w' :=
  ⟨hl, fun c _ => by unfold sensorContact; rw [hc, hf], fun c => by rw [hs], fun c => by rw [hs]; exact id, fun c => by rw [hs]; exact id, hd,
    fun h => ⟨by rw [hs]; exact h.1, by rw [hr]; exact h.2⟩, hn, hx, fun f => by rw [hf]; exact id⟩
theorem setPhys {b : Nat} {p : Phys F} : Firm w (w.setPhys b p) := .same rfl (fun _ => id) rfl rfl rfl
theorem setAwake {b : Nat} {flag : Bool} : Firm w (w.setAwake b flag) := .setPhys
theorem setBody {b : Nat} {p : BodyS} : Firm w (w.setBody b p) := .same rfl (fun _ => id) rfl rfl rfl
theorem setFix {f : Nat} {p : FixS F} (h : p.shape = (w.g.fixtures f).shape := by rfl) : Firm w (w.setFix f p) :=
  .same rfl (fun _ => id) rfl rfl rfl rfl rfl (proj_upd (fun q : FixS F => q.shape) h)
theorem setCst {c : Nat} {s : CState F} (ht : s.touching = (w.cst c).touching) (hp : OneOrTwo (w.cst c).manifold → OneOrTwo s.manifold)
    (hf : s.toiFlag = true → (w.cst c).toiFlag = true) (hq : Pushing (w.cst c).manifold → Pushing s.manifold := by exact id) : Firm w (w.setCst c s) := by
  have key : ∀ x, (w.setCst c s).cst x = if x = c then s else w.cst x := fun x => by
    show upd w.cst c s x = _
    split
    · rename_i h; subst h; rw [upd_same]
    · rename_i h; rw [upd_other _ _ h]
  refine ⟨fun _ => id, fun _ _ => rfl, fun x => ?_, fun x => ?_, fun x => ?_, rfl, fun h => ⟨fun x => ?_, h.2⟩, rfl, fun _ => rfl, fun _ => id⟩
  on_goal 4 =>
    rw [key]
    split
    · exact hq (h.1 c)
    · exact h.1 x
  all_goals
    rw [key]
    split
    · rename_i h; subst h; assumption
    · first | rfl | exact id
theorem setFattr {f : Nat} {s : FAttr F} (h : s.sensor = (w.fattr f).sensor) (hd : 0 ≤ (w.fattr f).density → 0 ≤ s.density := by exact id) : Firm w (w.setFattr f s) := by
  refine ⟨fun _ => id, fun c _ => ?_, fun _ => rfl, fun _ => id, fun _ => id, rfl, id, rfl, fun _ => rfl, fun x => ?_⟩
  on_goal 2 =>
    show _ → 0 ≤ (upd w.fattr f s x).density
    by_cases hx : x = f
    · subst hx; rw [upd_same]; exact hd
    · rw [upd_other _ _ hx]; exact id
  have key : ∀ x, ((w.setFattr f s).fattr x).sensor = (w.fattr x).sensor := proj_upd (fun q : FAttr F => q.sensor) h
  unfold sensorContact
  rw [key, key]
  rfl
theorem foldlM {α : Type} {f : World F → α → Option (World F)} {l : List α} (e : l.foldlM f w = some w')
    (hf : ∀ x ∈ l, ∀ v v', f v x = some v' → Firm v v') : Firm w w' :=
  foldlM_inv (fun x => Firm w x) e (.refl w) (fun x hx v v' h e => h.trans (hf x hx v v' e))
theorem foldl {α : Type} {f : World F → α → World F} {l : List α} (hf : ∀ x ∈ l, ∀ v, Firm v (f v x)) (w : World F) : Firm w (l.foldl f w) :=
  foldl_inv (fun x => Firm w x) (.refl w) (fun x hx v h => h.trans (hf x hx v))
end Firm

/-! ### Callbacks -/

theorem userOp_firm {w w' : World F} {op : UserOp F} (ht : TameOp op) (e : w.userOp op = some w') : Firm w w' := by
  cases op with
  | body b op =>
    unfold userOp bodyOp at e
    simp only [Option.bind_eq_bind, Option.bind_eq_some_iff] at e
    obtain ⟨p, -, e⟩ := e
    cases e
    exact .setPhys
  | fixtureSetSensor f x => exact absurd ht (by simp [TameOp])
  | fixtureSetDensity f x =>
    simp only [userOp] at e
    split at e
    · rename_i hx; cases e; exact .setFattr (by rfl) (fun _ => hx)
    · cases e
  | fixtureSetFriction f x => cases e; exact .setFattr (by rfl)
  | fixtureSetRestitution f x => cases e; exact .setFattr (by rfl)
  | fixtureSetRestitutionThreshold f x => cases e; exact .setFattr (by rfl)
  | contactSetEnabled c x => cases e; exact .setCst (by rfl) id id
  | contactSetManifold c m => cases e; exact .setCst (by rfl) (fun _ => ht.1) id (fun _ => ht.2)
  | contactSetFriction c x => cases e; exact .setCst (by rfl) id id
  | contactSetRestitution c x => cases e; exact .setCst (by rfl) id id
  | contactSetRestitutionThreshold c x => cases e; exact .setCst (by rfl) id id
  | contactSetTangentSpeed c x => cases e; exact .setCst (by rfl) id id

variable {env : Env F}

theorem emit_firm (hE : CallbacksTame env) {w w' : World F} {k : EventKind} (e : w.emit env k = some w') : Firm w w' := by
  unfold emit at e
  refine Firm.trans (Firm.same (w' := { w with log := ⟨k, w.locked⟩ :: w.log, tick := w.tick + 1 }) rfl (fun _ => id) rfl rfl rfl) ?_
  exact Firm.foldlM e (fun op hop v v' h => userOp_firm (hE _ _ op hop) h)

theorem listen_firm (hE : CallbacksTame env) {w w' : World F} {k : EventKind} (e : w.listen env k = some w') : Firm w w' := by
  unfold listen at e
  split at e
  · exact emit_firm hE e
  · cases e; exact .refl _

theorem goodbye_firm (hE : CallbacksTame env) {w w' : World F} {k : EventKind} (e : w.goodbye env k = some w') : Firm w w' := by
  unfold goodbye at e
  split at e
  · exact emit_firm hE e
  · cases e; exact .refl _

theorem filterCollide_firm (env : Env F) (w : World F) (fA fB : Nat) : Firm w (w.filterCollide env fA fB).2 := by
  unfold filterCollide
  split
  · exact .refl _
  · exact .same rfl (fun _ => id) rfl rfl rfl

/-! ### The invariant -/

/-- A solid contact that touches has points. -/
def Solid (w : World F) : Prop := ∀ c ∈ w.g.contactList, w.sensorContact c = false → (w.cst c).touching = true → OneOrTwo (w.cst c).manifold

/-- A contact with a time of impact is solid. -/
def Cached (w : World F) : Prop := ∀ c ∈ w.g.contactList, (w.cst c).toiFlag = true → w.sensorContact c = false

/-- Both are kept. -/
structure Keep2 (w w' : World F) : Prop where
  solid : Solid w → Solid w'
  cached : Cached w → Cached w'
  complete : w'.stepComplete = w.stepComplete
  push : Pressing w → Pressing w'
  fix : FixSame w w'

namespace Keep2
variable {w w' w'' : World F}
theorem refl (w : World F) : Keep2 w w := ⟨id, id, rfl, id, .refl w⟩
theorem trans (h : Keep2 w w') (h' : Keep2 w' w'') : Keep2 w w'' :=
  ⟨fun x => h'.solid (h.solid x), fun x => h'.cached (h.cached x), h'.complete.trans h.complete, fun x => h'.push (h.push x), h.fix.trans h'.fix⟩
theorem firm (h : Firm w w') : Keep2 w w' := by
  refine ⟨fun hs c hc h1 h2 => ?_, fun hs c hc h1 => ?_, h.complete, h.push, h.fix⟩
  · exact h.points c (hs c (h.list c hc) ((h.sensor c hc).symm.trans h1) ((h.touching c).symm.trans h2))
  · exact (h.sensor c hc).trans (hs c (h.list c hc) (h.toi c h1))
theorem foldlM {α : Type} {f : World F → α → Option (World F)} {l : List α} (e : l.foldlM f w = some w')
    (hf : ∀ x ∈ l, ∀ v v', f v x = some v' → Keep2 v v') : Keep2 w w' :=
  foldlM_inv (fun x => Keep2 w x) e (.refl w) (fun x hx v v' h e => h.trans (hf x hx v v' e))
end Keep2

/-! ### Contacts -/

/-- What an update of contact `c` does to the points. -/
theorem refresh_points {w w' : World F} {c : Nat} (e : w.refresh env c = some w') :
    w'.g = w.g ∧ w'.fattr = w.fattr ∧ w'.stepComplete = w.stepComplete ∧ (∀ x, x ≠ c → w'.cst x = w.cst x) ∧ (w'.cst c).toiFlag = (w.cst c).toiFlag ∧
    (w.sensorContact c = false → (w'.cst c).touching = true → OneOrTwo (w'.cst c).manifold) ∧ (Pressing w → Pressing w') := by
  unfold refresh at e
  simp only [Option.bind_eq_bind, Option.bind_eq_some_iff] at e
  obtain ⟨bA, -, bB, -, e⟩ := e
  have other : ∀ {x : Nat} (v : World F) (s : CState F), x ≠ c → (v.setCst c s).cst x = v.cst x := fun v s h => upd_other _ _ h
  have at' : ∀ (v : World F) (s : CState F), (v.setCst c s).cst c = s := fun v s => upd_same _ _ _
  split at e
  · rename_i hs
    rw [Option.bind_eq_some_iff] at e
    obtain ⟨t, -, e⟩ := e
    cases e
    refine ⟨rfl, rfl, rfl, fun x hx => by rw [other _ _ hx, other _ _ hx], by rw [at', at'], fun h => ?_, fun h => ⟨fun x => ?_, h.2⟩⟩
    on_goal 2 =>
      by_cases hx : x = c
      · subst hx; rw [at', at']; intro p hp; cases hp
      · rw [other _ _ hx, other _ _ hx]; exact h.1 x
    exfalso
    rw [show w.sensorContact c = true from hs] at h
    cases h
  · rw [Option.bind_eq_some_iff] at e
    obtain ⟨m, hm2, e⟩ := e
    rw [Option.filter_eq_some_iff, decide_eq_true_eq] at hm2
    cases e
    have key : ∀ v : World F, v.g = w.g → v.fattr = w.fattr → v.stepComplete = w.stepComplete → (∀ x, x ≠ c → v.cst x = w.cst x) → (v.cst c).toiFlag = (w.cst c).toiFlag →
        (Pressing w → Pressing v) → ∀ b, (b = true → OneOrTwo (v.cst c).manifold) →
        (v.setCst c { v.cst c with touching := b }).g = w.g ∧ (v.setCst c { v.cst c with touching := b }).fattr = w.fattr ∧
        (v.setCst c { v.cst c with touching := b }).stepComplete = w.stepComplete ∧
        (∀ x, x ≠ c → (v.setCst c { v.cst c with touching := b }).cst x = w.cst x) ∧ ((v.setCst c { v.cst c with touching := b }).cst c).toiFlag = (w.cst c).toiFlag ∧
        (w.sensorContact c = false → ((v.setCst c { v.cst c with touching := b }).cst c).touching = true → OneOrTwo ((v.setCst c { v.cst c with touching := b }).cst c).manifold) ∧
        (Pressing w → Pressing (v.setCst c { v.cst c with touching := b })) := by
      intro v h1 h2 h3 h4 h5 h6 b hb
      refine ⟨h1, h2, h3, fun x hx => by rw [other _ _ hx]; exact h4 x hx, by rw [at']; exact h5, fun _ ht => ?_, fun h => ⟨fun x => ?_, (h6 h).2⟩⟩
      on_goal 2 =>
        by_cases hx : x = c
        · subst hx; rw [at']; exact (h6 h).1 x
        · rw [other _ _ hx]; exact (h6 h).1 x
      rw [at'] at ht ⊢
      exact hb ht
    refine key _ ?_ ?_ ?_ ?_ ?_ ?_ _ ?_
    · split <;> rfl
    · split <;> rfl
    · split <;> rfl
    · intro x hx
      split
      · exact (other _ _ hx).trans (other _ _ hx)
      · exact (other _ _ hx).trans (other _ _ hx)
    · split
      · simp only [World.setCst, World.setAwake, World.setPhys, upd_same]
      · simp only [World.setCst, World.setAwake, World.setPhys, upd_same]
    · intro h
      have hm : Pushing { m with points := m.points.map (matchImpulse ((w.setCst c { w.cst c with enabled := true }).cst c).manifold.points) } := by
        intro p hp
        obtain ⟨q, -, rfl⟩ := List.mem_map.mp hp
        unfold matchImpulse
        split
        · rename_i r hr
          have := List.mem_of_find?_eq_some hr
          rw [at'] at this
          exact h.1 c r this
        · exact le_rfl
      have g : ∀ v : World F, v.cst = upd (upd w.cst c { w.cst c with enabled := true }) c { (w.setCst c { w.cst c with enabled := true }).cst c with
          manifold := { m with points := m.points.map (matchImpulse ((w.setCst c { w.cst c with enabled := true }).cst c).manifold.points) } } →
          v.invDt0 = w.invDt0 → Pressing v := by
        intro v e1 e2
        refine ⟨fun x => ?_, by rw [e2]; exact h.2⟩
        rw [e1]
        by_cases hx : x = c
        · subst hx; rw [upd_same]; exact hm
        · rw [upd_other _ _ hx, upd_other _ _ hx]; exact h.1 x
      split
      · exact g _ rfl rfl
      · exact g _ rfl rfl
    · intro hb
      rw [decide_eq_true_eq] at hb
      have hm : OneOrTwo { m with points := m.points.map (matchImpulse ((w.setCst c { w.cst c with enabled := true }).cst c).manifold.points) } :=
        ⟨hb, by rw [List.length_map]; exact hm2.2⟩
      split
      · exact (congrArg (fun s : CState F => OneOrTwo s.manifold) (at' _ _)).mpr hm
      · exact (congrArg (fun s : CState F => OneOrTwo s.manifold) (at' _ _)).mpr hm

theorem listens_firm (hE : CallbacksTame env) {w w' : World F} {p : Prop} [Decidable p] {k : EventKind} (e : (if p then w.listen env k else some w) = some w') : Firm w w' := by
  split at e
  · exact listen_firm hE e
  · cases e; exact .refl _

/-- After the update of a solid contact it has points if it touches; the other contacts keep theirs. -/
theorem contactUpdate_points (hE : CallbacksTame env) {w w' : World F} {c : Nat} (e : w.contactUpdate env c = some w') :
    Keep2 w w' ∧ (∀ x, w'.sensorContact x = w.sensorContact x) ∧ (∀ x, x ≠ c → OneOrTwo (w.cst x).manifold → OneOrTwo (w'.cst x).manifold) ∧
    (w.sensorContact c = false → (w'.cst c).touching = true → OneOrTwo (w'.cst c).manifold) := by
  have fr := (contactUpdate_spec e).1
  unfold contactUpdate at e
  simp only [Option.bind_eq_bind, Option.bind_eq_some_iff] at e
  obtain ⟨w1, h1, w2, h2, w3, h3, h4⟩ := e
  obtain ⟨r1, r2, r3, r4, r5, r6, r7⟩ := refresh_points h1
  have f : Firm w1 w' := ((listens_firm hE h2).trans (listens_firm hE h3)).trans (listens_firm hE h4)
  have sg : ∀ {v v' : World F} {p : Prop} [Decidable p] {k : EventKind}, (if p then v.listen env k else some v) = some v' → ∀ x, (v'.fattr x).sensor = (v.fattr x).sensor := by
    intro v v' p _ k h x
    have opS : ∀ {u u' : World F} {op : UserOp F}, TameOp op → u.userOp op = some u' → ∀ x, (u'.fattr x).sensor = (u.fattr x).sensor := by
      intro u u' op ht h x
      cases op with
      | body b op =>
        unfold userOp bodyOp at h
        simp only [Option.bind_eq_bind, Option.bind_eq_some_iff] at h
        obtain ⟨p, -, h⟩ := h
        cases h
        rfl
      | fixtureSetSensor f x => exact absurd ht (by simp [TameOp])
      | fixtureSetDensity f y =>
        simp only [userOp] at h
        split at h
        · cases h; exact proj_upd (fun q : FAttr F => q.sensor) (by rfl) x
        · cases h
      | fixtureSetFriction f y => cases h; exact proj_upd (fun q : FAttr F => q.sensor) (by rfl) x
      | fixtureSetRestitution f y => cases h; exact proj_upd (fun q : FAttr F => q.sensor) (by rfl) x
      | fixtureSetRestitutionThreshold f y => cases h; exact proj_upd (fun q : FAttr F => q.sensor) (by rfl) x
      | contactSetEnabled c x => cases h; rfl
      | contactSetManifold c m => cases h; rfl
      | contactSetFriction c x => cases h; rfl
      | contactSetRestitution c x => cases h; rfl
      | contactSetRestitutionThreshold c x => cases h; rfl
      | contactSetTangentSpeed c x => cases h; rfl
    split at h
    · unfold listen at h
      split at h
      · unfold emit at h
        exact foldlM_inv (fun u : World F => (u.fattr x).sensor = (v.fattr x).sensor) h rfl (fun op hop u u' hu e => (opS (hE _ _ op hop) e x).trans hu)
      · cases h; rfl
    · cases h; rfl
  have hsens : ∀ x, w'.sensorContact x = w.sensorContact x := fun x => by
    unfold sensorContact
    rw [sg h4, sg h3, sg h2, sg h4, sg h3, sg h2, r2, fr.g]
  have hpts : ∀ x, x ≠ c → OneOrTwo (w.cst x).manifold → OneOrTwo (w'.cst x).manifold := fun x hx hp => by
    rw [← r4 x hx] at hp; exact f.points x hp
  have hc : w.sensorContact c = false → (w'.cst c).touching = true → OneOrTwo (w'.cst c).manifold := fun hs ht =>
    f.points c (r6 hs ((f.touching c).symm.trans ht))
  refine ⟨⟨fun hs x hx i1 i2 => ?_, fun hs x hx i1 => ?_, f.complete.trans r3, fun h => f.push (r7 h), (FixSame.of_eq r1 r2).trans f.fix⟩, hsens, hpts, hc⟩
  · by_cases hxc : x = c
    · subst hxc
      exact hc (by rw [← hsens]; exact i1) i2
    · refine hpts x hxc (hs x (by rw [← fr.g]; exact hx) ((hsens x).symm.trans i1) ?_)
      rw [← r4 x hxc, ← f.touching]; exact i2
  · rw [hsens]
    refine hs x (by rw [← fr.g]; exact hx) ?_
    have := f.toi x i1
    by_cases hxc : x = c
    · subst hxc; rw [← r5]; exact this
    · rw [← r4 x hxc]; exact this

theorem unlink_firm {w w' : World F} {c bA bB : Nat} (e : w.unlink c bA bB = some w') : Firm w w' := by
  unfold unlink at e
  simp only [Option.bind_eq_bind, Option.bind_eq_some_iff] at e
  obtain ⟨cl, hcl, _, -, _, -, e⟩ := e
  unfold removeOne at hcl
  split at hcl
  on_goal 2 => cases hcl
  cases hcl
  split at e
  · cases e
  · cases e; exact .same rfl (fun x hx => List.mem_of_mem_erase hx) rfl rfl rfl

theorem contactDestroy_firm (hE : CallbacksTame env) {w w' : World F} {c : Nat} (e : w.contactDestroy env c = some w') : Firm w w' := by
  unfold contactDestroy at e
  simp only [Option.bind_eq_bind, Option.bind_eq_some_iff] at e
  obtain ⟨bA, -, bB, -, w1, e1, w2, e2, e3⟩ := e
  cases e3
  refine ((listens_firm hE e1).trans (unlink_firm e2)).trans ?_
  unfold wakeOnDestroy
  split
  · exact Firm.setAwake.trans .setAwake
  · exact .refl _

theorem collide_keep2 (hE : CallbacksTame env) {w w' : World F} (e : w.collide env = some w') : Keep2 w w' := by
  unfold collide at e
  simp only [Option.bind_eq_bind, Option.bind_eq_some_iff] at e
  obtain ⟨⟨w1, ds⟩, e1, e2⟩ := e
  have act : ∀ {v v' : World F} {c bA bB : Nat} {r : Bool}, v.collideActive env c bA bB = some (v', r) → Keep2 v v' := by
    intro v v' c bA bB r e
    unfold collideActive at e
    dsimp only at e
    split at e
    · cases e; exact .refl _
    simp only [Option.bind_eq_bind, Option.bind_eq_some_iff] at e
    obtain ⟨_, -, _, -, _, -, _, -, _, -, e⟩ := e
    split at e
    · cases e; exact .refl _
    simp only [Option.bind_eq_some_iff] at e
    obtain ⟨u, e, e'⟩ := e
    cases e'
    exact (contactUpdate_points hE e).1
  have one : ∀ {v v' : World F} {c : Nat} {r : Bool}, v.collideOne env c = some (v', r) → Keep2 v v' := by
    intro v v' c r e
    unfold collideOne at e
    simp only [Option.bind_eq_bind, Option.bind_eq_some_iff] at e
    obtain ⟨_, -, _, -, e⟩ := e
    have hq := Keep2.firm (filterCollide_firm env v (v.g.contacts c).fA (v.g.contacts c).fB)
    split at e
    · split at e
      · cases e; exact .refl _
      split at e
      · cases e; exact hq
      · refine hq.trans (Keep2.trans (.firm (.setCst ?_ ?_ ?_)) (act e))
        · rfl
        · exact id
        · exact id
    · exact act e
  have loop : ∀ (l : List Nat) {v v' : World F} {a a' : List Nat}, collideLoop env l v a = some (v', a') → Keep2 v v' := by
    intro l
    induction l with
    | nil => intro v v' a a' e; cases e; exact .refl _
    | cons c l ih =>
      intro v v' a a' e
      unfold collideLoop at e
      simp only [Option.bind_eq_bind, Option.bind_eq_some_iff] at e
      obtain ⟨⟨u, k⟩, e1, e2⟩ := e
      exact (one e1).trans (ih e2)
  exact (loop _ e1).trans (.firm (Firm.foldlM e2 (fun _ _ _ _ h => contactDestroy_firm hE h)))

theorem insertContact_keep2 {w w' : World F} {k : ConS} (e : w.insertContact k = some w') : Keep2 w w' := by
  unfold insertContact at e
  simp only [Option.bind_eq_bind, Option.bind_eq_some_iff] at e
  obtain ⟨bA, -, bB, -, e⟩ := e
  cases e
  have hcst : ∀ x, upd w.cst w.g.nextContact (w.newCst k) x = if x = w.g.nextContact then w.newCst k else w.cst x := fun x => by
    split
    · rename_i h; subst h; rw [upd_same]
    · rename_i h; rw [upd_other _ _ h]
  have hs : ∀ x, x ≠ w.g.nextContact → ((w.fattr (upd w.g.contacts w.g.nextContact k x).fA).sensor || (w.fattr (upd w.g.contacts w.g.nextContact k x).fB).sensor) = w.sensorContact x := by
    intro x hx
    rw [upd_other _ _ hx]
    rfl
  refine ⟨fun h c hc h1 h2 => ?_, fun h c hc h1 => ?_, rfl, fun h => ⟨fun c => ?_, h.2⟩, rfl, fun _ => rfl, fun _ => id⟩
  on_goal 3 =>
    show Pushing (upd w.cst w.g.nextContact (w.newCst k) c).manifold
    rw [hcst]
    split
    · intro p hp; cases hp
    · exact h.1 c
  · replace hc : c ∈ w.g.nextContact :: w.g.contactList := hc
    replace h2 : (upd w.cst w.g.nextContact (w.newCst k) c).touching = true := h2
    show OneOrTwo (upd w.cst w.g.nextContact (w.newCst k) c).manifold
    rw [hcst] at h2 ⊢
    split at h2
    · cases h2
    · rename_i hne
      rw [if_neg hne]
      exact h c ((List.mem_cons.mp hc).resolve_left hne) ((hs c hne).symm.trans h1) h2
  · replace hc : c ∈ w.g.nextContact :: w.g.contactList := hc
    replace h1 : (upd w.cst w.g.nextContact (w.newCst k) c).toiFlag = true := h1
    rw [hcst] at h1
    split at h1
    · cases h1
    · rename_i hne
      exact (hs c hne).trans (h c ((List.mem_cons.mp hc).resolve_left hne) h1)

theorem addPair_keep2 {w w' : World F} {pa pb : Option (Nat × Nat)} (e : w.addPair env pa pb = some w') : Keep2 w w' := by
  unfold addPair at e
  simp only [Option.bind_eq_bind, Option.bind_eq_some_iff] at e
  obtain ⟨pa, -, pb, -, xa, -, xb, -, fA, -, fB, -, bA, -, bB, -, e⟩ := e
  split at e
  · cases e; exact .refl _
  split at e
  · cases e; exact .refl _
  split at e
  · cases e; exact .refl _
  have hq := Keep2.firm (filterCollide_firm env w fA fB)
  split at e
  · cases e; exact hq
  · simp only [Option.bind_eq_some_iff] at e
    obtain ⟨k, -, e⟩ := e
    exact hq.trans (insertContact_keep2 e)

theorem findNewContacts_keep2 {w w' : World F} (e : w.findNewContacts env = some w') : Keep2 w w' := by
  unfold findNewContacts BroadPhase.updatePairs BroadPhase.sendPairs at e
  simp only [Option.bind_eq_bind, Option.bind_eq_some_iff] at e
  obtain ⟨⟨bp, r⟩, ⟨pairs, -, r', e1, tree, -, e2⟩, w1, e3, e4⟩ := e
  cases e2
  cases e4
  have := foldlM_inv (fun r : Option (World F) => ∀ v, r = some v → Keep2 w v) e1 (fun v hv => by cases hv; exact .refl _) (by
    intro i _ c c' hc h v hv
    simp only [Option.bind_eq_some_iff] at h
    obtain ⟨p, -, a, -, b, -, h⟩ := h
    cases h
    rw [Option.bind_eq_some_iff] at hv
    obtain ⟨u, hu, hv⟩ := hv
    exact (hc u hu).trans (addPair_keep2 hv))
  exact (this w1 e3).trans (.firm (.same rfl (fun _ => id) rfl rfl rfl))

/-! ### Islands -/

theorem report_firm (hE : CallbacksTame env) {w w' : World F} {l : List Nat} (e : w.report env l = some w') : Firm w w' :=
  Firm.foldlM e (fun _ _ _ _ h => listen_firm hE h)

theorem writeBack_firm (w : World F) (bodies : List Nat) (states : List (BState F)) : Firm w (w.writeBack bodies states) := by
  unfold writeBack
  exact Firm.foldl (fun _ _ _ => .setPhys) _

theorem storeImpulses_push {m : Manifold F} {l : List (F × F)} (h : Pushing m) (hl : ∀ x ∈ l, 0 ≤ x.1) : Pushing (storeImpulses m l) := by
  intro p hp
  unfold storeImpulses at hp
  obtain ⟨i, hi, rfl⟩ := List.mem_mapIdx.mp hp
  split
  · rename_i x hx
    exact hl _ (List.mem_of_getElem? hx)
  · exact h _ (List.getElem_mem hi)

theorem storeImpulses_points {m : Manifold F} {l : List (F × F)} (h : OneOrTwo m) : OneOrTwo (storeImpulses m l) := by
  unfold storeImpulses OneOrTwo
  dsimp only
  rwa [List.length_mapIdx]

theorem sleepTimers_firm (h : F) : ∀ (l : List Nat) (w : World F) (m : F), Firm w (sleepTimers h l w m).1 := by
  intro l
  induction l with
  | nil => intro w m; exact .refl _
  | cons b l ih =>
    intro w m
    unfold sleepTimers
    split
    · exact ih _ _
    · dsimp only
      split
      · exact Firm.trans .setPhys (ih _ _)
      · exact Firm.trans .setPhys (ih _ _)

theorem islandSolve_firm (hE : CallbacksTame env) (hI : ImpulsesPush env) {w w' : World F} {cap : Nat} {isl : Island} {step : TimeStep F}
    (hw : Pressing w) (hd : 0 ≤ step.dtRatio) (e : w.islandSolve env cap isl step = some w') : Firm w w' := by
  obtain ⟨v, r, h1, rfl⟩ := islandSolve_inv e
  have m0 : Firm w v := by
    unfold islandMove at h1
    split at h1
    · cases h1
    simp only [Option.bind_eq_bind, Option.bind_eq_some_iff] at h1
    obtain ⟨w1, h1, h2⟩ := h1
    cases h2
    refine Firm.trans ?_ (report_firm hE h1)
    refine Firm.trans ?_ (writeBack_firm _ _ _)
    have f1 : Firm w (isl.bodies.foldl (fun w b => w.setPhys b { w.phys b with sweep := { (w.phys b).sweep with c0 := (w.phys b).sweep.c, a0 := (w.phys b).sweep.a } }) w) :=
      Firm.foldl (fun _ _ _ => .setPhys) _
    refine Firm.trans f1 (Firm.foldl (fun _ _ _ => ?_) _)
    exact .setCst (by rfl) storeImpulses_points id (fun h => storeImpulses_push h (hI _ _ _ (fun c _ => (f1.push hw).1 c) hd _))
  split
  · refine m0.trans ?_
    unfold sleepIsland
    dsimp only
    split
    · exact (sleepTimers_firm _ _ _ _).trans (Firm.foldl (fun _ _ _ => .setAwake) _)
    · exact sleepTimers_firm _ _ _ _
  · exact m0

theorem jIsland_firm (w : World F) (x : Nat → Bool) : Firm w { w with jIsland := x } := .same rfl (fun _ => id) rfl rfl rfl

theorem clearIslandFlags_firm (w : World F) : Firm w w.clearIslandFlags := by
  unfold clearIslandFlags
  dsimp only
  refine Firm.trans ?_ (Firm.foldl (fun j _ v => jIsland_firm v _) _)
  refine Firm.trans ?_ (Firm.foldl (fun _ _ _ => ?_) _)
  on_goal 2 => exact .setCst (by rfl) id id
  exact Firm.foldl (fun _ _ _ => .setPhys) _

theorem pushBody_firm {b o : Nat} {s s' : Search F} (h : pushBody b s o = some s') : Firm s.w s'.w := by
  unfold pushBody at h
  split at h
  · cases h; exact .refl _
  · split at h
    · cases h
    · cases h; exact .setPhys

theorem visitContact_firm {b : Nat} {s s' : Search F} {e : Nat × Nat} (h : visitContact b s e = some s') : Firm s.w s'.w := by
  unfold visitContact at h
  dsimp only at h
  split at h
  · cases h; exact .refl _
  split at h
  · cases h; exact .refl _
  split at h
  · cases h; exact .refl _
  refine Firm.trans (.setCst ?_ ?_ ?_) (pushBody_firm h)
  · rfl
  · exact id
  · exact id

theorem visitJoint_firm {b : Nat} {s s' : Search F} {e : Nat × Nat} (h : visitJoint b s e = some s') : Firm s.w s'.w := by
  unfold visitJoint at h
  split at h
  · cases h; exact .refl _
  split at h
  · cases h; exact .refl _
  have := pushBody_firm h
  exact Firm.trans (jIsland_firm s.w (upd s.w.jIsland e.1 true)) this

theorem visitBody_firm {b : Nat} {s s' : Search F} (h : visitBody s b = some s') : Firm s.w s'.w := by
  unfold visitBody at h
  split at h
  · cases h
  dsimp only at h
  split at h
  · cases h; exact .setPhys
  simp only [Option.bind_eq_bind, Option.bind_eq_some_iff] at h
  obtain ⟨s1, h1, h2⟩ := h
  refine Firm.trans (w' := s1.w) ?_ ?_
  · exact foldlM_inv (fun x : Search F => Firm s.w x.w) h1 (Firm.trans .setPhys .setPhys) (fun e _ x x' hx hv => hx.trans (visitContact_firm hv))
  · exact foldlM_inv (fun x : Search F => Firm _ x.w) h2 (.refl _) (fun e _ x x' hx hv => hx.trans (visitJoint_firm hv))

theorem search_firm : ∀ {n : Nat} {s s' : Search F}, search n s = some s' → Firm s.w s'.w := by
  intro n
  induction n with
  | zero => intro s s' h; cases h
  | succ n ih =>
    intro s s' h
    unfold search at h
    split at h
    · cases h; exact .refl _
    · simp only [Option.bind_eq_bind, Option.bind_eq_some_iff] at h
      obtain ⟨s1, h1, h2⟩ := h
      exact (visitBody_firm h1).trans (ih h2)

theorem buildIsland_firm {w : World F} {seed : Nat} {s : Search F} (h : w.buildIsland seed = some s) : Firm w s.w := by
  unfold buildIsland at h
  exact Firm.trans .setPhys (search_firm h)

theorem releaseStatics_firm (w : World F) (l : List Nat) : Firm w (w.releaseStatics l) := by
  refine Firm.foldl (fun b _ v => ?_) _
  split
  · exact .setPhys
  · exact .refl _

theorem solveIslands_firm (hE : CallbacksTame env) (hI : ImpulsesPush env) {w : World F} {step : TimeStep F} {x' : World F × List Island}
    (hw : Pressing w) (hd : 0 ≤ step.dtRatio) (h : w.solveIslands env step = some x') : Firm w x'.1 := by
  unfold solveIslands at h
  refine foldlM_inv (fun x : World F × List Island => Firm w x.1) h (clearIslandFlags_firm w) (fun b _ x x' hx hv => hx.trans ?_)
  unfold solveSeed at hv
  split at hv
  · cases hv; exact .refl _
  simp only [Option.bind_eq_bind, Option.bind_eq_some_iff] at hv
  obtain ⟨s, h1, w1, h2, h3⟩ := hv
  cases h3
  exact ((buildIsland_firm h1).trans (islandSolve_firm hE hI ((buildIsland_firm h1).push (hx.push hw)) hd h2)).trans (releaseStatics_firm _ _)

/-- A search gives the solver contacts that transmit, so with points. -/
theorem pointed_of {w : World F} {isl : Island} (hs : Solid w) (h : ∀ c ∈ isl.contacts, Transmits w c) : w.pointed isl = true := by
  unfold pointed
  rw [List.all_eq_true]
  intro c hc
  have t := h c hc
  have : w.sensorContact c = false := by
    unfold sensorContact
    rw [t.solidA, t.solidB]; rfl
  have := hs c t.mem this t.touching
  exact decide_eq_true this

end World
end
end B2
