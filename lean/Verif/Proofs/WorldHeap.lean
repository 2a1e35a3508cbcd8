import Verif.Spec.Heap
import Verif.Proofs.WorldAsleep

/-! A sleeping heap in a world in which other things go on. -/
namespace B2
set_option linter.unusedSectionVars false
open World Spec

section
variable {F : Type} [Field F] [LinearOrder F] [IsStrictOrderedRing F] [Elem F] {env : Env F} {S : Nat → Prop}

/-- Nothing has happened to the bodies of `S`. -/
structure HeapRests (S : Nat → Prop) (w w' : World F) : Prop where
  bl : w'.g.bodyList = w.g.bodyList
  type : ∀ b, w'.typeOf b = w.typeOf b
  bullet : ∀ b, (w'.phys b).bullet = (w.phys b).bullet
  still : ∀ b, S b → Unmoved (w.phys b) (w'.phys b)

theorem HeapRests.refl (w : World F) : HeapRests S w w := ⟨rfl, fun _ => rfl, fun _ => rfl, fun _ _ => .refl _⟩
theorem HeapRests.trans {w v w' : World F} (h : HeapRests S w v) (h' : HeapRests S v w') : HeapRests S w w' :=
  ⟨h'.bl.trans h.bl, fun b => (h'.type b).trans (h.type b), fun b => (h'.bullet b).trans (h.bullet b), fun b hb => (h.still b hb).trans (h'.still b hb)⟩

/-- Nothing has happened to the bodies of `S`, and they have no new contacts and joints. -/
structure Zz (S : Nat → Prop) (w w' : World F) : Prop extends HeapRests S w w' where
  sub : ∀ c ∈ w'.g.contactList, c ∈ w.g.contactList
  contacts : w'.g.contacts = w.g.contacts
  owner : ∀ f, (w'.g.fixtures f).body = (w.g.fixtures f).body
  jl : w'.g.jointList = w.g.jointList
  joints : w'.g.joints = w.g.joints
  filter : ∀ c, (w.cst c).filter = false → (w'.cst c).filter = false
  toi : ∀ c b o, Across w c b o → S b → (w.cst c).toiFlag = false → (w'.cst c).toiFlag = false

namespace Zz
variable {w w' v : World F}
theorem refl (w : World F) : Zz S w w := ⟨.refl w, fun _ => id, rfl, fun _ => rfl, rfl, rfl, fun _ => id, fun _ _ _ _ _ => id⟩
theorem trans (h : Zz S w v) (h' : Zz S v w') : Zz S w w' := by
  refine ⟨h.toHeapRests.trans h'.toHeapRests, fun c hc => h.sub c (h'.sub c hc), h'.contacts.trans h.contacts, fun f => (h'.owner f).trans (h.owner f), h'.jl.trans h.jl,
    h'.joints.trans h.joints, fun c hc => h'.filter c (h.filter c hc), fun c b o ha hb hf => h'.toi c b o ?_ hb (h.toi c b o ha hb hf)⟩
  unfold Across at ha ⊢
  rw [h.contacts, h.owner, h.owner]; exact ha
theorem foldlM {α : Type} {f : World F → α → Option (World F)} {l : List α}
    (e : l.foldlM f w = some w') (hf : ∀ v v', ∀ x ∈ l, f v x = some v' → Zz S v v') : Zz S w w' :=
  foldlM_inv (fun x => Zz S w x) e (.refl w) (fun x hx v v' h h' => h.trans (hf v v' x hx h'))
theorem foldl {α : Type} {f : World F → α → World F} {l : List α} (w : World F)
    (hf : ∀ v, ∀ x ∈ l, Zz S v (f v x)) : Zz S w (l.foldl f w) :=
  foldl_inv (fun x => Zz S w x) (.refl w) (fun x hx v h => h.trans (hf v x hx))
theorem same (hg : w'.g = w.g := by rfl) (hc : w'.cst = w.cst := by rfl) (hp : w'.phys = w.phys := by rfl) : Zz S w w' :=
  ⟨⟨by rw [hg], fun b => by unfold World.typeOf; rw [hg], fun b => by rw [hp], fun b _ => by rw [hp]; exact .refl _⟩,
    by rw [hg]; exact fun _ => id, by rw [hg], fun f => by rw [hg], by rw [hg], by rw [hg], fun c h => by rw [hc]; exact h, fun c _ _ _ _ h => by rw [hc]; exact h⟩
theorem setPhys {b : Nat} {p : Phys F} (h : S b → Unmoved (w.phys b) p) (hb : p.bullet = (w.phys b).bullet := by rfl) : Zz S w (w.setPhys b p) := by
  refine ⟨⟨rfl, fun _ => rfl, proj_upd (fun q : Phys F => q.bullet) hb, fun x hx => ?_⟩, fun _ => id, rfl, fun _ => rfl, rfl, rfl, fun _ => id, fun _ _ _ _ _ => id⟩
  unfold World.setPhys
  dsimp only
  by_cases hxb : x = b
  · subst hxb; rw [upd_same]; exact h hx
  · rw [upd_other _ _ hxb]; exact .refl _
theorem setAwake {b : Nat} {x : Bool} (h : ¬ S b) : Zz S w (w.setAwake b x) := by
  refine .setPhys (fun hb => absurd hb h) ?_
  unfold Phys.setAwake
  split
  · rfl
  · split <;> rfl
theorem setCst {c : Nat} {s : CState F} (h : (w.cst c).filter = false → s.filter = false)
    (ht : (∀ b o, Across w c b o → ¬ S b) ∨ ((w.cst c).toiFlag = false → s.toiFlag = false) := by exact .inr (fun h => h)) : Zz S w (w.setCst c s) := by
  refine ⟨⟨rfl, fun _ => rfl, fun _ => rfl, fun _ _ => .refl _⟩, fun _ => id, rfl, fun _ => rfl, rfl, rfl, fun x hx => ?_, fun x b o ha hb hx => ?_⟩
  · unfold World.setCst
    dsimp only
    by_cases hxc : x = c
    · subst hxc; rw [upd_same]; exact h hx
    · rw [upd_other _ _ hxc]; exact hx
  · unfold World.setCst
    dsimp only
    by_cases hxc : x = c
    · subst hxc; rw [upd_same]; exact ht.elim (fun k => absurd hb (k b o ha)) (fun k => k hx)
    · rw [upd_other _ _ hxc]; exact hx

theorem across (h : Zz S w w') (c b o : Nat) : Across w' c b o ↔ Across w c b o := by
  unfold Across; rw [h.contacts, h.owner, h.owner]
theorem heap (h : Zz S w w') (k : Heap S w) : Heap S w' := by
  refine ⟨fun b hb => ?_, fun c hc b o hj hb => ?_, fun j hj b o hjo hb => ?_⟩
  · rw [h.type, (h.still b hb).awake]; exact k.asleep b hb
  · obtain ⟨k1, k2⟩ := k.contacts c (h.sub c hc) b o ((h.across c b o).mp hj) hb
    rw [h.type]; exact ⟨k1, h.filter c k2⟩
  · rw [h.type]; unfold JoinedBy at hjo; rw [h.joints] at hjo; rw [h.jl] at hj; exact k.joints j hj b o hjo hb
end Zz

/-! ### Callbacks and contacts -/

theorem listen_zz (hE : Hush env) {w w' : World F} {k : EventKind} (e : w.listen env k = some w') : Zz S w w' := by
  unfold listen at e
  split at e
  · unfold emit at e
    dsimp only at e
    refine Zz.trans (v := { w with log := ⟨k, w.locked⟩ :: w.log, tick := w.tick + 1 }) .same (Zz.foldlM e (fun v v' op ho h => ?_))
    obtain ⟨h1, h2⟩ := hE _ _ op ho
    cases op with
    | body b o => exact absurd rfl (h1 b o)
    | fixtureSetSensor f x => exact absurd rfl (h2 f x)
    | fixtureSetDensity f x =>
      unfold userOp at h
      dsimp only at h
      split at h
      · cases h; exact .same
      · cases h
    | contactSetEnabled c x => cases h; exact .setCst id
    | contactSetManifold c x => cases h; exact .setCst id
    | contactSetFriction c x => cases h; exact .setCst id
    | contactSetRestitution c x => cases h; exact .setCst id
    | contactSetRestitutionThreshold c x => cases h; exact .setCst id
    | contactSetTangentSpeed c x => cases h; exact .setCst id
    | fixtureSetFriction f x => cases h; exact .same
    | fixtureSetRestitution f x => cases h; exact .same
    | fixtureSetRestitutionThreshold f x => cases h; exact .same
  · cases e; exact .refl _

theorem listenIf_zz (hE : Hush env) {w w' : World F} {k : EventKind} {c : Prop} [Decidable c]
    (e : (if c then w.listen env k else some w) = some w') : Zz S w w' := by
  split at e
  · exact listen_zz hE e
  · cases e; exact .refl _

theorem filterCollide_zz (w : World F) (fA fB : Nat) : Zz S w (w.filterCollide env fA fB).2 := by
  unfold filterCollide
  split
  · exact .refl _
  · exact .same

theorem synchronizeFixtures_zz {w w' : World F} {b : Nat} (e : w.synchronizeFixtures b = some w') : Zz S w w' := by
  have hp := synchronizeFixtures_phys e
  have one : ∀ (xf1 xf2 : Xf F) (l : List Nat) (w' : World F), l.foldlM (synchronize xf1 xf2) w = some w' → Zz S w w' := by
    intro xf1 xf2 l w' e
    refine Zz.foldlM e (fun v v' f _ h' => ?_)
    unfold synchronize at h'
    refine Zz.foldlM h' (fun u u' i _ h' => ?_)
    unfold synchronizeProxy at h'
    simp only [Option.bind_eq_bind, Option.bind_eq_some_iff] at h'
    obtain ⟨_, -, _, -, _, -, _, -, _, -, h'⟩ := h'
    cases h'
    exact .same
  unfold synchronizeFixtures at e
  dsimp only at e
  split at e
  · exact one _ _ _ _ e
  · exact one _ _ _ _ e

theorem contactDestroy_zz (hE : Hush env) {w w' : World F} {c : Nat} (hc : ∀ b o, Across w c b o → ¬ S b) (e : w.contactDestroy env c = some w') : Zz S w w' := by
  unfold contactDestroy at e
  simp only [Option.bind_eq_bind, Option.bind_eq_some_iff] at e
  obtain ⟨bA, hA, bB, hB, w1, e1, w2, e2, e3⟩ := e
  have nA := hc bA bB (.inl ⟨hA, hB⟩)
  have nB := hc bB bA (.inr ⟨hB, hA⟩)
  have h2 : Zz S w1 w2 := by
    unfold unlink at e2
    simp only [Option.bind_eq_bind, Option.bind_eq_some_iff] at e2
    obtain ⟨cl, hcl, la, -, lb, -, e2⟩ := e2
    split at e2
    · cases e2
    · cases e2
      refine ⟨⟨rfl, fun x => ?_, fun _ => rfl, fun _ _ => .refl _⟩, fun c hc => ?_, rfl, fun _ => rfl, rfl, rfl, fun _ => id, fun _ _ _ _ _ => id⟩
      rotate_left
      · unfold removeOne at hcl
        split at hcl
        · cases hcl; exact List.mem_of_mem_erase hc
        · cases hcl
      · unfold World.typeOf
        dsimp only [World.setBody]
        refine (proj_upd (fun q : BodyS => q.type) (by rfl) x).trans ?_
        exact proj_upd (fun q : BodyS => q.type) (by rfl) x
  cases e3
  refine Zz.trans (Zz.trans (listenIf_zz hE e1) h2) ?_
  unfold wakeOnDestroy
  split
  · exact Zz.trans (Zz.setAwake nA) (Zz.setAwake nB)
  · exact Zz.refl _

theorem refresh_zz {w w' : World F} {c : Nat} (hc : ∀ b o, Across w c b o → ¬ S b) (e : w.refresh env c = some w') : Zz S w w' := by
  unfold refresh at e
  simp only [Option.bind_eq_bind, Option.bind_eq_some_iff] at e
  obtain ⟨bA, hA, bB, hB, e⟩ := e
  have nA := hc bA bB (.inl ⟨hA, hB⟩)
  have nB := hc bB bA (.inr ⟨hB, hA⟩)
  split at e
  · rw [Option.bind_eq_some_iff] at e
    obtain ⟨t, -, e⟩ := e
    cases e; exact Zz.trans (Zz.setCst (by exact fun h => h)) (Zz.setCst (by exact fun h => h))
  · rw [Option.bind_eq_some_iff] at e
    obtain ⟨m, -, e⟩ := e
    cases e
    split
    · exact Zz.trans (Zz.trans (Zz.setCst (by exact fun h => h)) (Zz.setCst (by exact fun h => h))) (Zz.trans (Zz.trans (Zz.setAwake nA) (Zz.setAwake nB)) (Zz.setCst (by exact fun h => h)))
    · exact Zz.trans (Zz.trans (Zz.setCst (by exact fun h => h)) (Zz.setCst (by exact fun h => h))) (Zz.setCst (by exact fun h => h))

theorem contactUpdate_zz (hE : Hush env) {w w' : World F} {c : Nat} (hc : ∀ b o, Across w c b o → ¬ S b) (e : w.contactUpdate env c = some w') : Zz S w w' := by
  unfold contactUpdate at e
  simp only [Option.bind_eq_bind, Option.bind_eq_some_iff] at e
  obtain ⟨w1, e1, w2, e2, w3, e3, e4⟩ := e
  exact Zz.trans (Zz.trans (refresh_zz hc e1) (listenIf_zz hE e2)) (Zz.trans (listenIf_zz hE e3) (listenIf_zz hE e4))

theorem collideActive_zz (hE : Hush env) {w w' : World F} {c bA bB : Nat} {r : Bool} (hc : ∀ b o, Across w c b o → ¬ S b)
    (e : w.collideActive env c bA bB = some (w', r)) : Zz S w w' := by
  unfold collideActive at e
  dsimp only at e
  split at e
  · cases e; exact Zz.refl _
  simp only [Option.bind_eq_bind, Option.bind_eq_some_iff] at e
  obtain ⟨_, -, _, -, _, -, _, -, _, -, e⟩ := e
  split at e
  · cases e; exact Zz.refl _
  simp only [Option.bind_eq_some_iff] at e
  obtain ⟨w1, e1, e2⟩ := e
  cases e2
  exact contactUpdate_zz hE hc e1

theorem across_symm {w : World F} {c b o : Nat} (h : Across w c b o) : Across w c o b := h.elim (fun h => .inr ⟨h.2, h.1⟩) (fun h => .inl ⟨h.2, h.1⟩)

/-- Contacts of the heap are passed over. -/
theorem collideOne_zz (hE : Hush env) {w w' : World F} {c : Nat} {r : Bool} (hH : Heap S w) (hm : c ∈ w.g.contactList)
    (e : w.collideOne env c = some (w', r)) : Zz S w w' ∧ (r = false → ∀ b o, Across w c b o → ¬ S b) := by
  unfold collideOne at e
  simp only [Option.bind_eq_bind, Option.bind_eq_some_iff] at e
  obtain ⟨bA, hA, bB, hB, e⟩ := e
  by_cases hc : ∀ b o, Across w c b o → ¬ S b
  · refine ⟨?_, fun _ => hc⟩
    split at e
    · split at e
      · cases e; exact Zz.refl _
      · split at e
        · cases e; exact filterCollide_zz _ _ _
        · have z : Zz S w ((w.filterCollide env (w.g.contacts c).fA (w.g.contacts c).fB).2.setCst c { (w.filterCollide env (w.g.contacts c).fA (w.g.contacts c).fB).2.cst c with filter := false }) :=
            Zz.trans (filterCollide_zz (env := env) w _ _) (Zz.setCst (fun _ => rfl))
          exact Zz.trans z (collideActive_zz hE (fun b o h => hc b o ((z.across c b o).mp h)) e)
    · exact collideActive_zz hE hc e
  · simp only [not_forall, not_not] at hc
    obtain ⟨b, o, hj, hb⟩ := hc
    obtain ⟨ho, hf⟩ := hH.contacts c hm b o hj hb
    have hib : (w.isAwake b && decide (w.typeOf b ≠ .static)) = false := by
      unfold isAwake; rw [(hH.asleep b hb).2]; rfl
    have hio : (w.isAwake o && decide (w.typeOf o ≠ .static)) = false := by
      rcases ho with ho | ho
      · unfold isAwake; rw [(hH.asleep o ho).2]; rfl
      · simp [ho]
    have hab : (w.isAwake bA && decide (w.typeOf bA ≠ .static)) = false ∧ (w.isAwake bB && decide (w.typeOf bB ≠ .static)) = false := by
      rcases hj with ⟨h1, h2⟩ | ⟨h1, h2⟩
      · have e1 : bA = b := Option.some.inj (hA.symm.trans h1)
        have e2 : bB = o := Option.some.inj (hB.symm.trans h2)
        subst e1 e2; exact ⟨hib, hio⟩
      · have e1 : bB = b := Option.some.inj (hB.symm.trans h1)
        have e2 : bA = o := Option.some.inj (hA.symm.trans h2)
        subst e1 e2; exact ⟨hio, hib⟩
    rw [if_neg (by rw [hf]; simp)] at e
    unfold collideActive at e
    dsimp only at e
    rw [if_pos hab] at e
    cases e
    exact ⟨.refl _, fun h => by cases h⟩

theorem collideLoop_zz (hE : Hush env) : ∀ (l : List Nat) {w0 w w' : World F} {ds ds' : List Nat}, Heap S w0 → WInv w → Zz S w0 w → w.g = w0.g →
    (∀ c ∈ l, c ∈ w0.g.contactList) → (∀ c ∈ ds, ∀ b o, Across w0 c b o → ¬ S b) →
    collideLoop env l w ds = some (w', ds') → Zz S w0 w' ∧ (∀ c ∈ ds', ∀ b o, Across w0 c b o → ¬ S b) := by
  intro l
  induction l with
  | nil => intro w0 w w' ds ds' _ _ hz _ _ hd e; cases e; exact ⟨hz, hd⟩
  | cons c l ih =>
    intro w0 w w' ds ds' hH hw hz hg hl hd e
    unfold collideLoop at e
    simp only [Option.bind_eq_bind, Option.bind_eq_some_iff] at e
    obtain ⟨⟨w1, k⟩, e1, e2⟩ := e
    have z := collideOne_zz hE (hz.heap hH) (by rw [hg]; exact hl c (by simp)) e1
    have gd := collideOne_good hw (by rw [hg]; exact hl c (by simp)) e1
    have hg1 : w1.g = w.g := gd.2.1.g
    refine ih hH gd.1 (hz.trans z.1) (hg1.trans hg) (fun x hx => hl x (by simp [hx])) (fun x hx => ?_) e2
    dsimp only at hx
    split at hx
    · exact hd x hx
    · rename_i hk
      rcases List.mem_append.mp hx with hx | hx
      · exact hd x hx
      · rw [List.mem_singleton] at hx
        subst hx
        exact fun b o hj => z.2 (by simpa using hk) b o ((hz.across x b o).mpr hj)

theorem collide_zz (hE : Hush env) {w w' : World F} (hw : WInv w) (hH : Heap S w) (e : w.collide env = some w') : Zz S w w' := by
  unfold collide at e
  simp only [Option.bind_eq_bind, Option.bind_eq_some_iff] at e
  obtain ⟨⟨w1, ds⟩, e1, e2⟩ := e
  obtain ⟨z, hd⟩ := collideLoop_zz hE _ hH hw (.refl w) rfl (fun _ => id) (fun c hc => by cases hc) e1
  refine foldlM_inv (fun v => Zz S w v) e2 z (fun c hc v v' hz he => ?_)
  exact hz.trans (contactDestroy_zz hE (fun b o hj => hd c hc b o ((hz.across c b o).mp hj)) he)

/-! ### Islands -/

theorem clearIslandFlags_zz (w : World F) : Zz S w w.clearIslandFlags := by
  unfold clearIslandFlags
  dsimp only
  refine Zz.trans ?_ (.foldl _ (fun v j _ => .same))
  refine Zz.trans ?_ (.foldl _ (fun _ _ _ => .setCst (by exact fun h => h)))
  exact .foldl _ (fun _ _ _ => .setPhys (fun _ => ⟨rfl, rfl, rfl, rfl, rfl, rfl, rfl⟩))

/-- What is known during the search for an island. -/
structure Away (S : Nat → Prop) (w : World F) (s : Search F) : Prop where
  g : s.w.g = w.g
  zz : Zz S w s.w
  stack : ∀ b ∈ s.stack, ¬ S b
  bodies : ∀ b ∈ s.island.bodies, ¬ S b

theorem pushBody_away {w : World F} {b o : Nat} {s s' : Search F} (hs : Away S w s) (ho : ¬ S o) (h : pushBody b s o = some s') : Away S w s' := by
  unfold pushBody at h
  split at h
  · cases h; exact hs
  · split at h
    · cases h
    · cases h
      refine ⟨hs.g, hs.zz.trans (.setPhys (fun hb => absurd hb ho)), fun x hx => ?_, hs.bodies⟩
      rcases List.mem_cons.mp hx with rfl | hx
      · exact ho
      · exact hs.stack x hx

theorem visitContact_away {w : World F} {b : Nat} {s s' : Search F} {e : Nat × Nat} (hs : Away S w s) (ho : ¬ S e.2) (h : visitContact b s e = some s') : Away S w s' := by
  unfold visitContact at h
  dsimp only at h
  split at h
  · cases h; exact hs
  split at h
  · cases h; exact hs
  split at h
  · cases h; exact hs
  refine pushBody_away ?_ ho h
  exact ⟨hs.g, hs.zz.trans (.setCst (by exact fun h => h)), hs.stack, hs.bodies⟩

theorem visitJoint_away {w : World F} {b : Nat} {s s' : Search F} {e : Nat × Nat} (hs : Away S w s) (ho : ¬ S e.2) (h : visitJoint b s e = some s') : Away S w s' := by
  unfold visitJoint at h
  split at h
  · cases h; exact hs
  split at h
  · cases h; exact hs
  refine pushBody_away ?_ ho h
  exact ⟨hs.g, hs.zz.trans .same, hs.stack, hs.bodies⟩

theorem visitBody_away {w : World F} (hi : GInv w.g) (hH : Heap S w) {b : Nat} {s s' : Search F} (hs : Away S w s) (hb : ¬ S b) (h : visitBody s b = some s') : Away S w s' := by
  unfold visitBody at h
  split at h
  · cases h
  dsimp only at h
  have a1 : Away S w { s with w := s.w.setPhys b { s.w.phys b with islandIndex := s.island.bodies.length }, island := { s.island with bodies := s.island.bodies ++ [b] } } := by
    refine ⟨hs.g, hs.zz.trans (.setPhys (fun h => absurd h hb)), hs.stack, fun x hx => ?_⟩
    rcases List.mem_append.mp hx with hx | hx
    · exact hs.bodies x hx
    · rw [List.mem_singleton] at hx; subst hx; exact hb
  split at h
  · cases h; exact a1
  rename_i hn
  have hn' : w.typeOf b ≠ .static := by rw [← hs.zz.type b]; exact hn
  simp only [Option.bind_eq_bind, Option.bind_eq_some_iff] at h
  obtain ⟨s1, h1, h2⟩ := h
  have a2 : Away S w s1 := by
    refine foldlM_inv (fun x : Search F => Away S w x) h1 ⟨a1.g, a1.zz.trans (.setPhys (fun h => absurd h hb)), a1.stack, a1.bodies⟩ (fun e he x x' hx hv => ?_)
    refine visitContact_away hx (fun ho => ?_) hv
    have hm : e ∈ (w.g.bodies b).contacts := by rw [← hs.g]; exact he
    obtain ⟨h3, h4⟩ := (hi.link.edges b e.1 e.2).mp hm
    rcases (hH.contacts e.1 h3 e.2 b (across_symm h4) ho).1 with h5 | h5
    · exact hb h5
    · exact hn' h5
  refine foldlM_inv (fun x : Search F => Away S w x) h2 a2 (fun e he x x' hx hv => ?_)
  refine visitJoint_away hx (fun ho => ?_) hv
  have hm : e ∈ (w.g.bodies b).joints := by rw [← a2.g]; exact he
  obtain ⟨h3, h4⟩ := (hi.joint.edges b e.1 e.2).mp hm
  rcases hH.joints e.1 h3 e.2 b (h4.elim (fun h => .inr ⟨h.2, h.1⟩) (fun h => .inl ⟨h.2, h.1⟩)) ho with h5 | h5
  · exact hb h5
  · exact hn' h5

theorem search_away {w : World F} (hi : GInv w.g) (hH : Heap S w) : ∀ {n : Nat} {s s' : Search F}, Away S w s → search n s = some s' → Away S w s' := by
  intro n
  induction n with
  | zero => intro s s' _ h; cases h
  | succ n ih =>
    intro s s' hs h
    unfold search at h
    split at h
    · cases h; exact hs
    · rename_i b st hst
      simp only [Option.bind_eq_bind, Option.bind_eq_some_iff] at h
      obtain ⟨s1, h1, h2⟩ := h
      refine ih (visitBody_away hi hH ?_ (hs.stack b (by rw [hst]; simp)) h1) h2
      exact ⟨hs.g, hs.zz, fun x hx => hs.stack x (by rw [hst]; exact List.mem_cons_of_mem _ hx), hs.bodies⟩

theorem sleepTimers_zz (h : F) : ∀ (l : List Nat) (w : World F) (m : F), (∀ b ∈ l, ¬ S b) → Zz S w (sleepTimers h l w m).1 := by
  intro l
  induction l with
  | nil => intro w m _; exact Zz.refl _
  | cons b l ih =>
    intro w m hl
    have hb := hl b (by simp)
    have hl' : ∀ x ∈ l, ¬ S x := fun x hx => hl x (by simp [hx])
    unfold sleepTimers
    split
    · exact ih _ _ hl'
    · dsimp only
      split
      · exact Zz.trans (Zz.setPhys (fun h => absurd h hb)) (ih _ _ hl')
      · exact Zz.trans (Zz.setPhys (fun h => absurd h hb)) (ih _ _ hl')

theorem islandSolve_zz (hE : Hush env) {w w' : World F} {cap : Nat} {isl : Island} {step : TimeStep F} (hl : ∀ b ∈ isl.bodies, ¬ S b)
    (e : w.islandSolve env cap isl step = some w') : Zz S w w' := by
  obtain ⟨v, r, h1, rfl⟩ := islandSolve_inv e
  have h0 : Zz S w v := by
    unfold islandMove at h1
    split at h1
    · cases h1
    simp only [Option.bind_eq_bind, Option.bind_eq_some_iff] at h1
    obtain ⟨w1, h1, h2⟩ := h1
    cases h2
    refine Zz.trans ?_ (Zz.foldlM h1 (fun _ _ _ _ he => listen_zz hE he))
    refine Zz.trans ?_ (Zz.foldl _ (fun v x hx => Zz.setPhys (fun h => absurd h (hl x.1 (List.of_mem_zip hx).1))))
    refine Zz.trans ?_ (Zz.foldl _ (fun v j _ => Zz.setCst (by exact fun h => h)))
    exact Zz.foldl _ (fun v j hj => Zz.setPhys (fun h => absurd h (hl j hj)))
  split
  · refine h0.trans ?_
    unfold sleepIsland
    dsimp only
    have h2 := sleepTimers_zz (S := S) step.dt isl.bodies v maxFlt hl
    split
    · exact h2.trans (Zz.foldl _ (fun _ b hb => .setAwake (hl b hb)))
    · exact h2
  · exact h0

theorem solveSeed_zz (hE : Hush env) {step : TimeStep F} {x x' : World F × List Island} {seed : Nat} (hi : GInv x.1.g) (hH : Heap S x.1)
    (h : solveSeed env step x seed = some x') : Zz S x.1 x'.1 := by
  unfold solveSeed at h
  split at h
  · cases h; exact Zz.refl _
  rename_i hs
  rw [Bool.not_eq_false] at hs
  simp only [Option.bind_eq_bind, Option.bind_eq_some_iff] at h
  obtain ⟨s, h1, w1, h2, h3⟩ := h
  cases h3
  have hb : ¬ S seed := by
    intro hb
    have := (isSeed_iff.mp hs).2.1
    rw [(hH.asleep seed hb).2] at this
    cases this
  unfold buildIsland at h1
  have a : Away S x.1 s := by
    refine search_away hi hH ?_ h1
    exact ⟨rfl, .setPhys (fun h => absurd h hb), fun y hy => by rw [List.mem_singleton] at hy; subst hy; exact hb, fun y hy => by cases hy⟩
  refine (a.zz.trans (islandSolve_zz hE a.bodies h2)).trans (Zz.foldl _ (fun v b hb => ?_))
  split
  · exact .setPhys (fun h => absurd h (a.bodies b hb))
  · exact .refl _

theorem find_rests {w w' : World F} (hw : WInv w) (e : w.findNewContacts env = some w') : HeapRests S w w' := by
  have hp := findNewContacts_phys e
  exact ⟨by rw [(findNewContacts_good hw e).eq], findNewContacts_types e, fun b => by rw [hp], fun b _ => by rw [hp]; exact .refl _⟩

theorem solve_zz (hE : Hush env) {w w' : World F} {step : TimeStep F} (hw : WInv w) (hH : Heap S w)
    (e : w.solve env step = some w') : HeapRests S w w' := by
  unfold solve at e
  simp only [Option.bind_eq_bind, Option.bind_eq_some_iff] at e
  obtain ⟨⟨w1, isl⟩, e1, w2, e2, e3⟩ := e
  have z1 : Zz S w w1 := by
    unfold solveIslands at e1
    have := foldlM_inv (fun x : World F × List Island => x.1.g = w.g ∧ Zz S w x.1) e1 ⟨(clearIslandFlags_flagged w).g, clearIslandFlags_zz w⟩
      (fun b _ x x' hx hv => ⟨(solveSeed_mild hv).toWFrame.g.trans hx.1, hx.2.trans (solveSeed_zz hE (by rw [hx.1]; exact hw.toGInv) (hx.2.heap hH) hv)⟩)
    exact this.2
  have z2 : Zz S w1 w2 := by
    refine Zz.foldlM e2 (fun v v' b _ hv => ?_)
    split at hv
    · cases hv; exact .refl _
    split at hv
    · cases hv; exact .refl _
    exact synchronizeFixtures_zz hv
  have g1 : Good env w w1 := .mild hw (solveIslands_mild e1)
  exact (z1.trans z2).toHeapRests.trans (find_rests (syncBodies_good (env := env) g1.winv e2).winv e3)

/-! ### Times of impact -/

/-- What keeps the bodies of `S` out of the continuous phase. -/
structure HeapSnug (S : Nat → Prop) (w : World F) : Prop where
  asleep : ∀ b, S b → w.typeOf b ≠ .static ∧ (w.phys b).awake = false
  tame : ∀ b ∈ w.g.bodyList, (w.phys b).bullet = false ∧ w.typeOf b ≠ .kinematic
  flag : ∀ c ∈ w.g.contactList, ∀ b o, Across w c b o → S b → (w.cst c).toiFlag = false

theorem Zz.snug {w w' : World F} (h : Zz S w w') (k : HeapSnug S w) : HeapSnug S w' := by
  refine ⟨fun b hb => ?_, fun b hb => ?_, fun c hc b o ha hb => ?_⟩
  · rw [h.type, (h.still b hb).awake]; exact k.asleep b hb
  · rw [h.bullet, h.type]; rw [h.bl] at hb; exact k.tame b hb
  · have ha' := (h.across c b o).mp ha
    exact h.toi c b o ha' hb (k.flag c (h.sub c hc) b o ha' hb)

theorem find_snug {w w' : World F} (hw : WInv w) (k : HeapSnug S w) (e : w.findNewContacts env = some w') : HeapSnug S w' := by
  have r := find_rests (S := S) hw e
  refine ⟨fun b hb => ?_, fun b hb => ?_, fun c hc b o ha hb => ?_⟩
  · rw [r.type, (r.still b hb).awake]; exact k.asleep b hb
  · rw [r.bullet, r.type]; rw [r.bl] at hb; exact k.tame b hb
  · obtain ⟨w1, x, e1, -⟩ := findNewContacts_spec hw e
    have hg : w'.g = w1.g := by rw [e1]
    have hs : w'.cst = w1.cst := by rw [e1]
    have hf : w1.g.fixtures = w.g.fixtures := by rw [x.eq]
    rw [hs]
    rw [hg] at hc
    by_cases hn : c < w.g.nextContact
    · obtain ⟨a1, a2, a3⟩ := x.old c hn
      rw [a2]
      refine k.flag c (a3.mp hc) b o ?_ hb
      unfold Across at ha ⊢
      rw [hg, a1, hf] at ha
      exact ha
    · exact (x.new c hc (by omega)).2.2.2.1

theorem across_mem {w : World F} (hw : WInv w) {c b o : Nat} (hc : c ∈ w.g.contactList) (ha : Across w c b o) : b ∈ w.g.bodyList ∧ o ∈ w.g.bodyList := by
  obtain ⟨_, _, -, -, -, ⟨x, hx, ex, ox, -⟩, ⟨y, hy, ey, oy, -⟩, -⟩ := hw.ok c hc
  rcases ha with ⟨h1, h2⟩ | ⟨h1, h2⟩
  · have e1 : x = b := Option.some.inj (ox.symm.trans h1)
    have e2 : y = o := Option.some.inj (oy.symm.trans h2)
    subst e1 e2; exact ⟨hx, hy⟩
  · have e1 : y = b := Option.some.inj (oy.symm.trans h1)
    have e2 : x = o := Option.some.inj (ox.symm.trans h2)
    subst e1 e2; exact ⟨hy, hx⟩

theorem advanced_bullet {p q : Phys F} {a : F} (e : p.advance a = some q) : q.bullet = p.bullet := by
  unfold Phys.advance at e
  simp only [Option.bind_eq_bind, Option.bind_eq_some_iff] at e
  obtain ⟨s, -, e⟩ := e
  cases e; rfl

theorem advance_zz {w w' : World F} {b : Nat} {a : F} (hb : ¬ S b) (e : w.advance b a = some w') : Zz S w w' := by
  unfold advance at e
  simp only [Option.bind_eq_bind, Option.bind_eq_some_iff] at e
  obtain ⟨p, h, e⟩ := e
  cases e
  exact .setPhys (fun h => absurd h hb) (advanced_bullet h)

theorem alignSweeps_zz {w w' : World F} {bA bB : Nat} {a : F} (hA : ¬ S bA) (hB : ¬ S bB) (e : w.alignSweeps bA bB = some (w', a)) : Zz S w w' := by
  unfold alignSweeps at e
  dsimp only at e
  split at e
  · simp only [Option.bind_eq_bind, Option.bind_eq_some_iff] at e
    obtain ⟨s, es, e⟩ := e
    split at e
    · cases e; exact .setPhys (fun h => absurd h hA)
    · cases e
  split at e
  · simp only [Option.bind_eq_bind, Option.bind_eq_some_iff] at e
    obtain ⟨s, es, e⟩ := e
    split at e
    · cases e; exact .setPhys (fun h => absurd h hB)
    · cases e
  split at e
  · cases e; exact .refl _
  · cases e

theorem asleep_inactive {w : World F} (k : HeapSnug S w) {b : Nat} (hb : S b) : w.active b = false := by
  unfold active isAwake; rw [(k.asleep b hb).2]; rfl

/-- Contacts of the heap have no time of impact. -/
theorem toiOf_zz {w w' : World F} {c : Nat} {a : Option F} (hw : WInv w) (k : HeapSnug S w) (hc : c ∈ w.g.contactList) (e : w.toiOf env c = some (w', a)) :
    Zz S w w' ∧ (a ≠ none → ∀ b o, Across w c b o → ¬ S b) := by
  by_cases hn : ∀ b o, Across w c b o → ¬ S b
  · refine ⟨?_, fun _ => hn⟩
    unfold toiOf at e
    dsimp only at e
    split at e
    · cases e; exact .refl _
    split at e
    · cases e; exact .refl _
    split at e
    · cases e; exact .refl _
    split at e
    · cases e; exact .refl _
    simp only [Option.bind_eq_bind, Option.bind_eq_some_iff] at e
    obtain ⟨bA, hA, bB, hB, e⟩ := e
    split at e
    · cases e
    split at e
    · cases e
    split at e
    · cases e; exact .refl _
    split at e
    · cases e; exact .refl _
    simp only [Option.bind_eq_some_iff] at e
    obtain ⟨⟨w1, al⟩, e1, r, -, e⟩ := e
    cases e
    have z := alignSweeps_zz (hn bA bB (.inl ⟨hA, hB⟩)) (hn bB bA (.inr ⟨hB, hA⟩)) e1
    exact z.trans (.setCst (by exact fun h => h) (.inl (fun b o h => hn b o ((z.across c b o).mp h))))
  · simp only [not_forall, not_not] at hn
    obtain ⟨b, o, ha, hb⟩ := hn
    have hf := k.flag c hc b o ha hb
    obtain ⟨mb, mo⟩ := across_mem hw hc ha
    have ib := asleep_inactive k hb
    have cb : w.collides b = false := by
      unfold collides
      rw [(k.tame b mb).1]
      have h1 := (k.tame b mb).2
      have h2 := (k.asleep b hb).1
      cases ht : w.typeOf b
      · exact absurd ht h2
      · exact absurd ht h1
      · rfl
    have io : w.active o = false ∨ w.collides o = false := by
      have h1 := (k.tame o mo).2
      cases ht : w.typeOf o
      · exact .inl (by unfold active; simp [ht])
      · exact absurd ht h1
      · exact .inr (by unfold collides; rw [(k.tame o mo).1, ht]; rfl)
    have none_of : ∀ bA bB, w.bodyOf (w.g.contacts c).fA = some bA → w.bodyOf (w.g.contacts c).fB = some bB →
        (w.active bA = false ∧ w.active bB = false) ∨ (w.collides bA = false ∧ w.collides bB = false) := by
      intro bA bB hA hB
      rcases ha with ⟨h1, h2⟩ | ⟨h1, h2⟩
      · have e1 : bA = b := Option.some.inj (hA.symm.trans h1)
        have e2 : bB = o := Option.some.inj (hB.symm.trans h2)
        subst e1 e2; exact io.elim (fun h => .inl ⟨ib, h⟩) (fun h => .inr ⟨cb, h⟩)
      · have e1 : bB = b := Option.some.inj (hB.symm.trans h1)
        have e2 : bA = o := Option.some.inj (hA.symm.trans h2)
        subst e1 e2; exact io.elim (fun h => .inl ⟨h, ib⟩) (fun h => .inr ⟨h, cb⟩)
    suffices h : (w', a) = (w, none) by cases h; exact ⟨.refl _, fun h => absurd rfl h⟩
    unfold toiOf at e
    dsimp only at e
    split at e
    · cases e; rfl
    split at e
    · cases e; rfl
    split at e
    · rename_i ht; rw [hf] at ht; cases ht
    split at e
    · cases e; rfl
    simp only [Option.bind_eq_bind, Option.bind_eq_some_iff] at e
    obtain ⟨bA, hA, bB, hB, e⟩ := e
    split at e
    · cases e
    split at e
    · cases e
    split at e
    · cases e; rfl
    rename_i n1
    split at e
    · cases e; rfl
    rename_i n2
    exact ((none_of bA bB hA hB).elim n1 n2).elim

theorem toiScan_zz : ∀ (l : List Nat) {w0 w w' : World F} {best best' : Option Nat} {m m' : F}, WInv w → HeapSnug S w → Zz S w0 w → w.g = w0.g → (∀ c ∈ l, c ∈ w0.g.contactList) →
    (∀ c, best = some c → c ∈ w0.g.contactList ∧ ∀ b o, Across w0 c b o → ¬ S b) → toiScan env l w best m = some (w', best', m') →
    Zz S w0 w' ∧ w'.g = w0.g ∧ WInv w' ∧ (∀ c, best' = some c → c ∈ w0.g.contactList ∧ ∀ b o, Across w0 c b o → ¬ S b) := by
  intro l
  induction l with
  | nil => intro w0 w w' best best' m m' hw _ hz hg _ hb e; cases e; exact ⟨hz, hg, hw, hb⟩
  | cons c l ih =>
    intro w0 w w' best best' m m' hw hk hz hg hl hb e
    unfold toiScan at e
    simp only [Option.bind_eq_bind, Option.bind_eq_some_iff] at e
    obtain ⟨⟨w1, a⟩, e1, e2⟩ := e
    have hc : c ∈ w.g.contactList := by rw [hg]; exact hl c (by simp)
    obtain ⟨z, hn⟩ := toiOf_zz hw hk hc e1
    have f := (toiOf_mild e1).1.toWFrame
    have hl' : ∀ x ∈ l, x ∈ w0.g.contactList := fun x hx => hl x (by simp [hx])
    have hw1 := hw.frame f.g f.bp
    cases a with
    | none => exact ih hw1 (z.snug hk) (hz.trans z) (f.g.trans hg) hl' hb e2
    | some al =>
      dsimp only at e2
      split at e2
      · refine ih hw1 (z.snug hk) (hz.trans z) (f.g.trans hg) hl' (fun x hx => ?_) e2
        cases hx
        exact ⟨hl c (by simp), fun b o h => hn (by simp) b o ((hz.across c b o).mpr h)⟩
      · exact ih hw1 (z.snug hk) (hz.trans z) (f.g.trans hg) hl' hb e2

theorem toiAddBody_zz {x : World F × Island} {b : Nat} (hb : ¬ S b) : Zz S x.1 (toiAddBody x b).1 := .setPhys (fun h => absurd h hb)

theorem toiVisit_zz (hE : Hush env) {alpha : F} {body : Nat} {w0 : World F} {x x' : World F × Island} {ed : Nat × Nat} (hw : WInv w0) (hk : HeapSnug S w0) (hz : Zz S w0 x.1)
    (hg : x.1.g = w0.g) (hs : ∀ b ∈ x.2.bodies, ¬ S b) (hm : ed ∈ (w0.g.bodies body).contacts) (hb : ¬ S body)
    (e : toiVisit env alpha body x ed = some x') : Zz S w0 x'.1 ∧ ∀ b ∈ x'.2.bodies, ¬ S b := by
  unfold toiVisit at e
  dsimp only at e
  obtain ⟨h3, h4⟩ := (hw.link.edges body ed.1 ed.2).mp hm
  have h4' : Across w0 ed.1 body ed.2 := h4
  obtain ⟨mb, mo⟩ := across_mem hw h3 h4'
  split at e
  · cases e; exact ⟨hz, hs⟩
  split at e
  · cases e
  split at e
  · cases e; exact ⟨hz, hs⟩
  rename_i hd
  split at e
  · cases e; exact ⟨hz, hs⟩
  have ho : ¬ S ed.2 := by
    intro ho
    refine hd ⟨?_, ?_, ?_⟩
    · rw [hz.type]
      have h1 := (hk.tame _ mo).2
      have h2 := (hk.asleep _ ho).1
      cases ht : w0.typeOf ed.2
      · exact absurd ht h2
      · exact absurd ht h1
      · rfl
    · rw [hz.bullet]; exact (hk.tame _ mb).1
    · rw [hz.bullet]; exact (hk.tame _ mo).1
  have hn : ∀ b o, Across w0 ed.1 b o → ¬ S b := by
    intro b o h
    rcases h with ⟨a1, a2⟩ | ⟨a1, a2⟩ <;> rcases h4' with ⟨b1, b2⟩ | ⟨b1, b2⟩
    · have := Option.some.inj (a1.symm.trans b1); subst this; exact hb
    · have := Option.some.inj (a1.symm.trans b2); subst this; exact ho
    · have := Option.some.inj (a1.symm.trans b2); subst this; exact ho
    · have := Option.some.inj (a1.symm.trans b1); subst this; exact hb
  simp only [Option.bind_eq_bind, Option.bind_eq_some_iff] at e
  obtain ⟨w1, e1, w2, e2, e⟩ := e
  have z1 : Zz S w0 w1 := by
    split at e1
    · exact hz.trans (advance_zz ho e1)
    · cases e1; exact hz
  have z2 : Zz S w0 w2 := z1.trans (contactUpdate_zz hE (fun b o h => hn b o ((z1.across _ b o).mp h)) e2)
  split at e
  · cases e
    exact ⟨z2.trans (.setPhys (fun h => absurd h ho)), hs⟩
  have z3 : Zz S w0 (w2.setCst ed.1 { w2.cst ed.1 with island := true }) := z2.trans (.setCst (by exact fun h => h))
  split at e
  · cases e; exact ⟨z3, hs⟩
  · cases e
    refine ⟨?_, fun b hb => ?_⟩
    · refine Zz.trans (Zz.trans z3 ?_) (toiAddBody_zz ho)
      split
      · exact .setAwake ho
      · exact .refl _
    · rcases List.mem_append.mp hb with hb | hb
      · exact hs b hb
      · rw [List.mem_singleton] at hb; subst hb; exact ho

theorem toiVisits_zz (hE : Hush env) {alpha : F} {body : Nat} {w0 : World F} {x x' : World F × Island} (hw : WInv w0) (hk : HeapSnug S w0) (hz : Zz S w0 x.1)
    (hg : x.1.g = w0.g) (hx : WInv x.1) (hs : ∀ b ∈ x.2.bodies, ¬ S b) (hb : ¬ S body)
    (e : toiVisits env alpha x body = some x') : Zz S w0 x'.1 ∧ (∀ b ∈ x'.2.bodies, ¬ S b) ∧ x'.1.g = w0.g ∧ WInv x'.1 := by
  have gd := toiVisits_good (env := env) hx e
  refine (fun h : _ ∧ _ => ⟨h.1, h.2, gd.2.g.trans hg, gd.1.winv⟩) ?_
  unfold toiVisits at e
  split at e
  · have := foldlM_inv (fun y : World F × Island => Zz S w0 y.1 ∧ (∀ b ∈ y.2.bodies, ¬ S b) ∧ y.1.g = w0.g ∧ WInv y.1) e ⟨hz, hs, hg, hx⟩ (by
      rintro ed hed y y' ⟨q1, q2, q3, q4⟩ hv
      have hm : ed ∈ (w0.g.bodies body).contacts := by rw [← hg]; exact hed
      have := toiVisit_zz hE hw hk q1 q3 q2 hm hb hv
      have gd := toiVisit_good (env := env) q4 (by rw [q3]; exact ((hw.link.edges body ed.1 ed.2).mp hm).1) hv
      exact ⟨this.1, this.2, gd.2.g.trans q3, gd.1.winv⟩)
    exact ⟨this.1, this.2.1⟩
  · cases e; exact ⟨hz, hs⟩

theorem islandSolveToi_zz (hE : Hush env) {w w' : World F} {cap : Nat} {isl : Island} {step : TimeStep F} {iA iB : Int} (hl : ∀ b ∈ isl.bodies, ¬ S b)
    (e : w.islandSolveToi env cap isl step iA iB = some w') : Zz S w w' := by
  unfold islandSolveToi at e
  split at e
  · cases e
  simp only [Option.bind_eq_bind, Option.bind_eq_some_iff] at e
  obtain ⟨bA, hA, bB, hB, e⟩ := e
  have nA := hl bA (List.mem_of_getElem? hA)
  have nB := hl bB (List.mem_of_getElem? hB)
  refine Zz.trans ?_ (Zz.foldlM e (fun _ _ _ _ he => listen_zz hE he))
  refine Zz.trans ?_ (Zz.foldl _ (fun v x hx => Zz.setPhys (fun h => absurd h (hl x.1 (List.of_mem_zip hx).1))))
  exact Zz.trans (Zz.setPhys (fun h => absurd h nA)) (Zz.setPhys (fun h => absurd h nB))

theorem toiRelease_zz {w w' : World F} {b : Nat} (e : w.toiRelease b = some w') : Zz S w w' := by
  unfold toiRelease at e
  dsimp only at e
  have z1 : Zz S w (w.setPhys b { w.phys b with island := false }) := .setPhys (fun _ => ⟨rfl, rfl, rfl, rfl, rfl, rfl, rfl⟩)
  split at e
  · cases e; exact z1
  simp only [Option.bind_eq_bind, Option.bind_eq_some_iff] at e
  obtain ⟨w1, e1, e2⟩ := e
  cases e2
  refine (z1.trans (synchronizeFixtures_zz e1)).trans (.foldl _ (fun _ _ _ => .setCst (by exact fun h => h) (.inr (fun _ => rfl))))

theorem restore_zz {w : World F} {b : Nat} {s : Sweep F} (hb : ¬ S b) : Zz S w (w.restore b s) := .setPhys (fun h => absurd h hb)

theorem toiSolid_zz (hE : Hush env) {step : TimeStep F} {w w' : World F} {c bA bB : Nat} {alpha : F} (hw : WInv w) (hk : HeapSnug S w) (hA : ¬ S bA) (hB : ¬ S bB)
    (e : w.toiSolid env step c bA bB alpha = some w') : HeapRests S w w' ∧ HeapSnug S w' := by
  unfold toiSolid at e
  simp only [Option.bind_eq_bind, Option.bind_eq_some_iff] at e
  obtain ⟨x2, e0, w3, e3, w4, e4, e5⟩ := e
  unfold toiIsland at e0
  simp only [Option.bind_eq_bind, Option.bind_eq_some_iff] at e0
  obtain ⟨x1, e1, e2⟩ := e0
  have m0 : Mild w (toiAddBody (toiAddBody ((w.setAwake bA true).setAwake bB true, ⟨[], [c], []⟩) bA) bB).1 :=
    ((setAwake_mild w bA true).trans (setAwake_mild _ bB true)).trans ((toiAddBody_mild (_, ⟨[], [c], []⟩) bA).trans (toiAddBody_mild _ bB))
  have z0 : Zz S w (toiAddBody (toiAddBody ((w.setAwake bA true).setAwake bB true, ⟨[], [c], []⟩) bA) bB).1 :=
    ((Zz.setAwake hA).trans (Zz.setAwake hB)).trans ((toiAddBody_zz (x := (_, ⟨[], [c], []⟩)) hA).trans (toiAddBody_zz hB))
  have l0 : ∀ b ∈ (toiAddBody (toiAddBody ((w.setAwake bA true).setAwake bB true, ⟨[], [c], []⟩) bA) bB).2.bodies, ¬ S b := by
    intro b hb
    change b ∈ ([] ++ [bA]) ++ [bB] at hb
    simp only [List.nil_append, List.cons_append, List.mem_cons, List.not_mem_nil, or_false] at hb
    rcases hb with rfl | rfl
    · exact hA
    · exact hB
  generalize toiAddBody (toiAddBody ((w.setAwake bA true).setAwake bB true, ⟨[], [c], []⟩) bA) bB = x0 at m0 z0 l0 e1
  have m1 : Mild x0.1 (x0.1.setCst c { x0.1.cst c with island := true }) := setCst_mild (by rfl) (by rfl) (by rfl)
  have z1 : Zz S w (x0.1.setCst c { x0.1.cst c with island := true }) := z0.trans (.setCst (by exact fun h => h))
  have f1 := (m0.trans m1).toWFrame
  obtain ⟨a1, a2, a3, a4⟩ := toiVisits_zz (x := (_, x0.2)) hE hw hk z1 f1.g (hw.frame f1.g f1.bp) l0 hA e1
  obtain ⟨b1, b2, b3, b4⟩ := toiVisits_zz hE hw hk a1 a3 a4 a2 hB e2
  have f3 := (islandSolveToi_mild e3).toWFrame
  have z3 : Zz S w w3 := b1.trans (islandSolveToi_zz hE b2 e3)
  have k4 : Zz S w w4 ∧ WInv w4 := foldlM_inv (fun y : World F => Zz S w y ∧ WInv y) e4 ⟨z3, b4.frame f3.g f3.bp⟩
    (fun b _ y y' hy hv => ⟨hy.1.trans (toiRelease_zz hv), (toiRelease_good (env := env) hy.2 hv).winv⟩)
  exact ⟨k4.1.toHeapRests.trans (find_rests k4.2 e5), find_snug k4.2 (k4.1.snug hk) e5⟩

theorem toiEvent_zz (hE : Hush env) {step : TimeStep F} {w w' : World F} {c : Nat} {alpha : F} {solid : Bool} (hw : WInv w) (hk : HeapSnug S w) (hc : c ∈ w.g.contactList)
    (hn : ∀ b o, Across w c b o → ¬ S b) (e : w.toiEvent env step c alpha = some (w', solid)) : HeapRests S w w' ∧ HeapSnug S w' := by
  unfold toiEvent at e
  simp only [Option.bind_eq_bind, Option.bind_eq_some_iff] at e
  obtain ⟨bA, hA, bB, hB, w1, e1, w2, e2, w3, e3, e⟩ := e
  have nA := hn bA bB (.inl ⟨hA, hB⟩)
  have nB := hn bB bA (.inr ⟨hB, hA⟩)
  have z2 : Zz S w w2 := (advance_zz nA e1).trans (advance_zz nB e2)
  have f2 := ((advance_mild e1).trans (advance_mild e2)).toWFrame
  have w2i := hw.frame f2.g f2.bp
  have z3 : Zz S w w3 := z2.trans (contactUpdate_zz hE (fun b o h => hn b o ((z2.across c b o).mp h)) e3)
  have w3i := (contactUpdate_good w2i (by rw [f2.g]; exact hc) e3).winv
  have z4 : Zz S w (w3.setCst c { w3.cst c with toiFlag := false, toiCount := (w3.cst c).toiCount + 1 }) := z3.trans (.setCst (by exact fun h => h) (.inr (fun _ => rfl)))
  have w4i : WInv (w3.setCst c { w3.cst c with toiFlag := false, toiCount := (w3.cst c).toiCount + 1 }) := w3i.frame rfl rfl
  generalize w3.setCst c { w3.cst c with toiFlag := false, toiCount := (w3.cst c).toiCount + 1 } = w4 at e z4 w4i
  split at e
  · cases e
    have z5 : Zz S w4 (((w4.setCst c { w4.cst c with enabled := false }).restore bA (w.phys bA).sweep).restore bB (w.phys bB).sweep) :=
      ((Zz.setCst (by exact fun h => h)).trans (restore_zz nA)).trans (restore_zz nB)
    exact ⟨(z4.trans z5).toHeapRests, (z4.trans z5).snug hk⟩
  · simp only [Option.bind_eq_some_iff] at e
    obtain ⟨w5, e5, e6⟩ := e
    cases e6
    obtain ⟨r, k⟩ := toiSolid_zz hE w4i (z4.snug hk) nA nB e5
    exact ⟨z4.toHeapRests.trans r, k⟩

theorem toiLoop_zz (hE : Hush env) {step : TimeStep F} : ∀ (n : Nat) {w w' : World F}, WInv w → HeapSnug S w → toiLoop env step n w = some w' → HeapRests S w w' := by
  intro n
  induction n with
  | zero => intro w w' _ _ e; cases e
  | succ n ih =>
    intro w w' hw hk e
    unfold toiLoop at e
    simp only [Option.bind_eq_bind, Option.bind_eq_some_iff] at e
    obtain ⟨⟨w1, best, m⟩, e1, e⟩ := e
    obtain ⟨z, hg, hw1, hb⟩ := toiScan_zz _ hw hk (.refl w) rfl (fun _ => id) (fun c hc => by cases hc) e1
    cases best with
    | none => cases e; exact z.toHeapRests.trans (Zz.same (S := S)).toHeapRests
    | some c =>
      dsimp only at e
      split at e
      · cases e; exact z.toHeapRests.trans (Zz.same (S := S)).toHeapRests
      simp only [Option.bind_eq_some_iff] at e
      obtain ⟨⟨w2, solid⟩, e2, e⟩ := e
      obtain ⟨hc, hn⟩ := hb c rfl
      have hc1 : c ∈ w1.g.contactList := by rw [hg]; exact hc
      obtain ⟨r, k⟩ := toiEvent_zz hE hw1 (z.snug hk) hc1 (fun b o h => hn b o ((z.across c b o).mp h)) e2
      split at e
      · cases e; exact (z.toHeapRests.trans r).trans (Zz.same (S := S)).toHeapRests
      · exact (z.toHeapRests.trans r).trans (ih (toiEvent_good hw1 hc1 e2).1.winv k e)

theorem toiReset_zz (w : World F) : Zz S w w.toiReset := by
  unfold toiReset
  split
  · refine Zz.trans ?_ (.foldl _ (fun _ _ _ => .setCst (by exact fun h => h) (.inr (fun _ => rfl))))
    exact .foldl _ (fun _ _ _ => .setPhys (fun _ => ⟨rfl, rfl, rfl, rfl, rfl, rfl, rfl⟩))
  · exact .refl _

theorem solveToi_zz (hE : Hush env) {w w' : World F} {step : TimeStep F} (hw : WInv w) (hs : w.stepComplete = true) (h1 : ∀ b, S b → w.typeOf b ≠ .static ∧ (w.phys b).awake = false)
    (h2 : ∀ b ∈ w.g.bodyList, (w.phys b).bullet = false ∧ w.typeOf b ≠ .kinematic) (e : w.solveToi env step = some w') : HeapRests S w w' := by
  unfold solveToi at e
  have z := toiReset_zz (S := S) w
  have f := (toiReset_flagged w).g
  refine z.toHeapRests.trans (toiLoop_zz hE _ (hw.frame (toiReset_soft w).g (toiReset_soft w).bp) ⟨fun b hb => ?_, fun b hb => ?_, fun c hc _ _ _ _ => ?_⟩ e)
  · rw [z.type, (z.still b hb).awake]; exact h1 b hb
  · rw [z.bullet, z.type]; rw [f] at hb; exact h2 b hb
  · rw [f] at hc; exact toiReset_unflagged hs c hc

theorem step_zz (hE : Hush env) {w w' : World F} (hw : WInv w) (hn : w.newContacts = false)
    (hc : w.continuous = false ∨ (w.stepComplete = true ∧ ∀ b ∈ w.g.bodyList, (w.phys b).bullet = false ∧ w.typeOf b ≠ .kinematic)) (hH : Heap S w) {dt : F} {vi pi : Nat}
    (e : w.step env dt vi pi = some w') : ∀ b, S b → Unmoved (w.phys b) (w'.phys b) := by
  unfold World.step stepBegin stepLocked at e
  rw [if_neg (by rw [hn]; simp)] at e
  simp only [Option.bind_eq_bind, Option.bind_eq_some_iff, Option.some.injEq, exists_eq_left'] at e
  obtain ⟨u, ⟨w1, e1, w2, e2, w3, e3, e4⟩, e5⟩ := e
  cases e5
  have hwl : WInv ({ w with locked := true } : World F) := hw.frame rfl rfl
  have z0 : Zz S w { w with locked := true } := .same
  have z1 := z0.trans (collide_zz hE hwl (z0.heap hH) e1)
  have g1 := (collide_good hwl e1).1
  have k2 : HeapRests S w1 w2 ∧ WInv w2 ∧ w2.continuous = w1.continuous ∧ w2.stepComplete = w1.stepComplete := by
    split at e2
    · have g2 := solve_good g1.winv e2
      exact ⟨solve_zz hE g1.winv (z1.heap hH) e2, g2.winv, g2.rest.continuous, g2.rest.stepComplete⟩
    · cases e2; exact ⟨.refl _, g1.winv, rfl, rfl⟩
  have r2 : HeapRests S w w2 := z1.toHeapRests.trans k2.1
  have r3 : HeapRests S w w3 := by
    split at e3
    · rename_i hcc
      rcases hc with hc | ⟨hs, ht⟩
      · have : w2.continuous = false := k2.2.2.1.trans (g1.rest.continuous.trans hc)
        rw [this] at hcc; cases hcc.1
      · refine r2.trans (solveToi_zz hE k2.2.1 (k2.2.2.2.trans (g1.rest.stepComplete.trans hs)) (fun b hb => ?_) (fun b hb => ?_) e3)
        · rw [r2.type, (r2.still b hb).awake]; exact hH.asleep b hb
        · rw [r2.bullet, r2.type]; rw [r2.bl] at hb; exact ht b hb
    · cases e3; exact r2
  intro b hb
  refine (r3.still b hb).trans ?_
  have key : ∀ v : World F, v.phys = w3.phys → Unmoved (w3.phys b) ((if v.clearForces then v.clearForcesAll else v).phys b) := by
    intro v hv
    rw [← hv]
    split
    · exact (clearForcesAll_flagged v).phys b
    · exact .refl _
  cases e4
  refine key _ ?_
  split <;> rfl

end
end B2
