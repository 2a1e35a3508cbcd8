import Verif.Proofs.WorldToi
import Verif.Spec.World

/-! The invariants hold in every reachable world. -/
namespace B2
set_option linter.unusedSectionVars false
open Spec World

section
variable {F : Type} [Field F] [LinearOrder F] [IsStrictOrderedRing F] [Elem F]

structure HInv (env : Env F) (w : World F) : Prop extends WInv w where
  unlocked : w.locked = false
  static : StaticInv w
  filt : FiltInv w
  ev : EvInv env w

theorem HInv.next {env : Env F} {w w' : World F} (h : HInv env w) (hw : WInv w') (ht : Tr env w w') (hl : w'.locked = w.locked) : HInv env w' :=
  ⟨hw, hl.trans h.unlocked, ht.static h.static, ht.filt h.filt, ht.ev h.ev⟩

theorem HInv.same {env : Env F} {w w' : World F} (h : HInv env w) (h1 : w'.g = w.g) (h2 : w'.bp = w.bp) (h3 : w'.cst = w.cst) (h4 : w'.phys = w.phys)
    (h5 : w'.log = w.log) (h6 : w'.locked = w.locked) : HInv env w' := by
  refine ⟨h.toWInv.frame h1 h2, h6.trans h.unlocked, ?_, ?_, ?_⟩
  · have := h.static
    unfold StaticInv typeOf at this ⊢
    rw [h1, h4]; exact this
  · have := h.filt
    unfold FiltInv at this ⊢
    rw [h1, h3]; exact this
  · have := h.ev
    unfold EvInv at this ⊢
    rw [h1, h3, h5]; exact this

theorem new_winv (g : Vec2 F) (dp : Phys F) (ds : Shape F) (da : FAttr F) (dc : CState F) (db : AABB F) :
    WInv (World.new g dp ds da dc db) := by
  have hlive : ∀ f i, ¬ Live (World.new g dp ds da dc db).g f i := by
    rintro f i ⟨b, hb, -⟩
    cases hb
  refine ⟨⟨⟨?_, rfl, ?_, ?_, ?_, ?_⟩, ⟨?_, rfl, ?_, ?_, ?_, ?_⟩, ⟨?_, rfl, ?_, ?_, ?_, ?_, ?_, ?_, ?_⟩, ?_, ?_⟩, fun _ => none, [], ∅, .new, ?_, ?_⟩
  · exact List.nodup_nil
  · intro c hc; cases hc
  · intro c hc; cases hc
  · intro b c o
    constructor
    · intro h; cases h
    · rintro ⟨h, -⟩; cases h
  · intro b; exact List.nodup_nil
  · exact List.nodup_nil
  · intro c hc; cases hc
  · intro c hc; cases hc
  · intro b c o
    constructor
    · intro h; cases h
    · rintro ⟨h, -⟩; cases h
  · intro b; exact List.nodup_nil
  · exact List.nodup_nil
  · intro c hc; cases hc
  · intro f b h; cases h
  · intro b f
    constructor
    · intro h; cases h
    · rintro ⟨h, -⟩; cases h
  · intro b; exact List.nodup_nil
  · intro b; rfl
  · intro f b h; cases h
  · intro f b h; cases h
  · intro c hc; cases hc
  · intro c hc; cases hc
  · intro f i h; exact absurd h (hlive f i)
  · intro id p h; cases h

theorem new_hinv (env : Env F) (g : Vec2 F) (dp : Phys F) (ds : Shape F) (da : FAttr F) (dc : CState F) (db : AABB F) :
    HInv env (World.new g dp ds da dc db) := by
  refine ⟨new_winv g dp ds da dc db, rfl, ?_, ?_, ?_⟩
  · intro b hb; exact absurd hb (Nat.not_lt_zero b)
  · intro c hc; cases hc
  · intro _ c
    refine ⟨trivial, ?_⟩
    constructor
    · intro h; cases h
    · rintro ⟨h, -⟩; cases h

theorem call_hinv {env : Env F} {w w' : World F} (c : Call F) (h : HInv env w) (hok : c.Ok w) (e : c.run env w = some w') : HInv env w' := by
  cases c with
  | createBody d =>
    simp only [Call.run, Option.map_eq_some_iff] at e
    obtain ⟨⟨v, b⟩, e, rfl⟩ := e
    obtain ⟨-, -, h1, h2, h3, -⟩ := createBody_spec (env := env) h.toWInv e
    exact h.next h1 h2 h3.locked
  | destroyBody b =>
    obtain ⟨-, d⟩ := destroyBody_spec h.toWInv hok e
    exact h.next d.winv d.tr d.rest.locked
  | createFixture b d =>
    simp only [Call.run, Option.map_eq_some_iff] at e
    obtain ⟨⟨v, f⟩, e, rfl⟩ := e
    obtain ⟨-, -, h1, h2, h3, -⟩ := createFixture_spec (env := env) h.toWInv hok e
    exact h.next h1 h2 h3.locked
  | destroyFixture b f =>
    obtain ⟨-, h1, h2, h3, -⟩ := destroyFixture_spec h.toWInv hok e
    exact h.next h1 h2 h3.locked
  | createJoint d =>
    simp only [Call.run, Option.map_eq_some_iff] at e
    obtain ⟨⟨v, j⟩, e, rfl⟩ := e
    have ht := createJoint_tr (env := env) h.toGInv hok.1 hok.2 e
    obtain ⟨-, -, -, jf, ji, hr, hb, -⟩ := createJoint_spec h.toGInv hok.1 hok.2 e
    exact h.next (jf.winv hb h.toWInv ji) ht hr.locked
  | destroyJoint j =>
    have ht := destroyJoint_tr (env := env) h.toGInv h.unlocked hok e
    obtain ⟨v, e', jf, ji, hr, hb, -⟩ := destroyJoint_spec h.toGInv h.unlocked hok
    have : w' = v := Option.some.inj (e.symm.trans e')
    subst this
    exact h.next (jf.winv hb h.toWInv ji) ht hr.locked
  | setType b t =>
    obtain ⟨-, h1, h2, h3, -⟩ := setType_spec h.toWInv e
    exact h.next h1 h2 h3.locked
  | setEnabled b flag =>
    cases flag with
    | true =>
      obtain ⟨-, h1, h2, h3, -⟩ := setEnabled_true_spec h.toWInv hok e
      exact h.next h1 h2 h3.locked
    | false =>
      obtain ⟨-, h1, h2, h3, -⟩ := setEnabled_false_spec h.toWInv hok e
      exact h.next h1 h2 h3.locked
  | setTransform b p a =>
    obtain ⟨v, e', h1, h2, h3, -⟩ := setTransform_spec (env := env) b p a h.toWInv h.unlocked
    have : w' = v := Option.some.inj (e.symm.trans e')
    subst this
    exact h.next h1 h2 h3.locked
  | setMassData b m =>
    obtain ⟨-, h1, h2⟩ := setMassData_spec (env := env) e
    exact h.next (h.toWInv.frame h1.g h1.bp) h2 h1.locked
  | setFilterData f d =>
    obtain ⟨b, hb, hf⟩ := hok
    obtain ⟨h1, h2, h3, -⟩ := setFilterData_spec (env := env) h.toWInv hb hf e
    exact h.next h1 h2 h3.locked
  | refilter f =>
    obtain ⟨b, hb, hf⟩ := hok
    obtain ⟨h1, h2, h3, -⟩ := refilter_spec (env := env) h.toWInv hb hf e
    exact h.next h1 h2 h3.locked
  | user op =>
    obtain ⟨q, hl⟩ := userOp_quiet e
    exact h.next (h.toWInv.frame q.g q.bp) (.quiet q (ev := []) hl (by simp)) q.locked
  | setAllowSleeping flag =>
    cases e
    obtain ⟨h1, h2, h3, -⟩ := setAllowSleeping_spec (env := env) flag h.toWInv
    exact h.next h1 h2 h3.locked
  | setGravity x => cases e; exact h.same rfl rfl rfl rfl rfl rfl
  | setAutoClearForces x => cases e; exact h.same rfl rfl rfl rfl rfl rfl
  | setWarmStarting x => cases e; exact h.same rfl rfl rfl rfl rfl rfl
  | setContinuousPhysics x => cases e; exact h.same rfl rfl rfl rfl rfl rfl
  | setSubStepping x => cases e; exact h.same rfl rfl rfl rfl rfl rfl
  | clearForces =>
    cases e
    obtain ⟨h1, h2, h3⟩ := clearForcesAll_spec (env := env) h.toWInv
    exact h.next h1 h2 h3.locked
  | shiftOrigin o =>
    obtain ⟨v, e', h1, h2, h3, -⟩ := shiftOrigin_spec' (env := env) o h.toWInv h.unlocked
    have : w' = v := Option.some.inj (e.symm.trans e')
    subst this
    exact h.next h1 h2 h3.locked
  | step dt vi pi =>
    have s := step_good h.toWInv e
    refine ⟨s.winv, ?_, s.tr.static h.static, s.tr.filt h.filt, s.tr.ev h.ev⟩
    exact s.rest.locked

theorem whist_inv {env : Env F} {w : World F} (h : WHist env w) : HInv env w := by
  induction h with
  | new => exact new_hinv ..
  | call c _ hok e ih => exact call_hinv c ih hok e

/-! ### Reading the invariants -/

theorem touchLog_eq (c : Nat) (log : List Event) : touchLog c log = (contactCalls c log).reverse := by
  unfold contactCalls
  rw [List.filterMap_reverse, List.reverse_reverse]
  induction log with
  | nil => rfl
  | cons e l ih =>
    obtain ⟨k, lk⟩ := e
    cases k <;> simp only [touchLog, List.filterMap_cons, ih] <;> (try split <;> rfl)

theorem alt_iff (l : List Bool) : Alt l → Alternating l.reverse ∧ (l.headD false = true ↔ l.length % 2 = 1) := by
  induction l with
  | nil => intro _; exact ⟨fun i h => absurd h (by simp), by simp⟩
  | cons x l ih =>
    rintro ⟨h1, h2⟩
    obtain ⟨ih1, ih2⟩ := ih h2
    refine ⟨fun i hi => ?_, ?_⟩
    · simp only [List.length_reverse, List.length_cons] at hi
      simp only [List.reverse_cons]
      rcases Nat.lt_or_ge i l.length with hlt | hge
      · rw [List.getElem_append_left (by simpa using hlt)]
        exact ih1 i (by simpa using hlt)
      · obtain rfl : i = l.length := by omega
        rw [List.getElem_append_right (by simp)]
        simp only [List.length_reverse, Nat.sub_self, List.getElem_cons_zero, h1]
        cases hh : l.headD false
        · have : ¬ (l.length % 2 = 1) := fun h => by rw [ih2.mpr h] at hh; cases hh
          simp; omega
        · have := ih2.mp hh
          simp; omega
    · simp only [List.headD_cons, List.length_cons, h1]
      cases hh : l.headD false
      · have : ¬ (l.length % 2 = 1) := fun h => by rw [ih2.mpr h] at hh; cases hh
        simp; omega
      · have := ih2.mp hh
        simp; omega

theorem connects_iff (w : World F) (c x y : Nat) : Connects w c x y ↔ w.g.joins c x y := by
  unfold Connects Graph.joins; tauto

/-- The live children as a finite set. -/
theorem live_finset {g : Graph F} (h : BodyInv g) : ∃ S : Finset (Nat × Nat), (∀ f i, (f, i) ∈ S ↔ Live g f i) ∧ S.card =
    ((g.bodyList.filter fun b => (g.bodies b).enabled).map fun b =>
      ((g.bodies b).fixtures.map fun f => (g.fixtures f).shape.childCount.getD 0).sum).sum := by
  classical
  refine ⟨((g.bodyList.filter fun b => (g.bodies b).enabled).flatMap fun b =>
        (g.bodies b).fixtures.flatMap fun f => (List.range (g.fixtures f).proxies.length).map fun i => (f, i)).toFinset, fun f i => ?_, ?_⟩
  · simp only [List.mem_toFinset, List.mem_flatMap, List.mem_filter, List.mem_map, List.mem_range, Prod.mk.injEq]
    constructor
    · rintro ⟨b, ⟨h1, h2⟩, f', h3, i', h4, rfl, rfl⟩
      exact ⟨b, h1, h2, ((h.fixtures b f').mp h3).2, h4⟩
    · rintro ⟨b, h1, h2, h3, h4⟩
      exact ⟨b, ⟨h1, h2⟩, f, (h.fixtures b f).mpr ⟨h1, h3⟩, i, h4, rfl, rfl⟩
  rw [List.toFinset_card_of_nodup, List.length_flatMap]
  · congr 1
    refine List.map_congr_left fun b hb => ?_
    rw [List.length_flatMap]
    congr 1
    refine List.map_congr_left fun f hf => ?_
    have := (h.fixtures b f).mp hf
    rw [h.children f b this.1 this.2]
    simp
  · rw [List.nodup_flatMap]
    refine ⟨fun b _ => ?_, ?_⟩
    · rw [List.nodup_flatMap]
      refine ⟨fun f _ => ?_, ?_⟩
      · refine List.Nodup.map (fun a b hab => ?_) List.nodup_range
        simpa using hab
      · refine (h.fixNodup b).imp ?_
        intro f f' hne x hx hx'
        simp only [List.mem_map] at hx hx'
        obtain ⟨_, -, rfl⟩ := hx
        obtain ⟨_, -, hx'⟩ := hx'
        exact hne (by simpa using (congrArg Prod.fst hx').symm)
    · refine (h.nodup.filter _).imp ?_
      intro b b' hne x hx hx'
      simp only [List.mem_flatMap, List.mem_map] at hx hx'
      obtain ⟨f, h1, _, -, rfl⟩ := hx
      obtain ⟨f', h2, _, -, h3⟩ := hx'
      have : f' = f := by simpa using congrArg Prod.fst h3
      subst this
      have e1 := ((h.fixtures b f').mp h1).2
      have e2 := ((h.fixtures b' f').mp h2).2
      rw [e1] at e2
      exact hne (Option.some.inj e2)

/-- The number of proxies is the number of children of fixtures of enabled bodies. -/
theorem live_count {g : Graph F} (h : BodyInv g) : Set.ncard {x : Nat × Nat | Live g x.1 x.2} =
    ((g.bodyList.filter fun b => (g.bodies b).enabled).map fun b =>
      ((g.bodies b).fixtures.map fun f => (g.fixtures f).shape.childCount.getD 0).sum).sum := by
  obtain ⟨S, h1, h2⟩ := live_finset h
  rw [← h2, ← Set.ncard_coe_finset]
  congr 1
  ext ⟨f, i⟩
  simp [h1]

/-- There are at most as many contacts as ordered pairs of live children. -/
theorem contacts_bound {g : Graph F} (h : GInv g) {S : Finset (Nat × Nat)} (hS : ∀ f i, (f, i) ∈ S ↔ Live g f i) :
    g.contactList.length ≤ S.card * S.card := by
  classical
  rw [← List.toFinset_card_of_nodup h.link.nodup, ← Finset.card_product]
  refine Finset.card_le_card_of_injOn (fun c => (((g.contacts c).fA, (g.contacts c).iA), ((g.contacts c).fB, (g.contacts c).iB))) ?_ ?_
  · intro c hc
    simp only [List.coe_toFinset, Set.mem_setOf_eq] at hc
    obtain ⟨_, _, -, -, -, h1, h2, -⟩ := h.ok c hc
    simp only [Finset.coe_product, Set.mem_prod, Finset.mem_coe, hS]
    exact ⟨h1, h2⟩
  · intro c hc c' hc' he
    simp only [List.coe_toFinset, Set.mem_setOf_eq] at hc hc'
    simp only [Prod.mk.injEq] at he
    exact h.uniq c hc c' hc' (Or.inl ⟨he.1.1, he.1.2, he.2.1, he.2.2⟩)

end
end B2
