import Verif.Proofs.WorldHist
import Verif.Proofs.WorldExample

/-!
# Properties C25-C36 and C39: objects of a world, through every history of calls
-/
namespace B2.Props
open Spec World
set_option linter.unusedSectionVars false
attribute [local instance] exElem

section
variable {F : Type} [Field F] [LinearOrder F] [IsStrictOrderedRing F] [Elem F]

/-! ## C25 -/

/-- The routine for the pair is chosen, with the ends in the order it requires. -/
theorem c25_dispatch (tA tB : ShapeType) (fA iA fB iB : Nat) :
    contactCreate tA tB fA iA fB iB =
      match routine tA tB, routine tB tA with
      | some k, _ => some ⟨k, fA, iA, fB, iB⟩
      | none, some k => some ⟨k, fB, iB, fA, iA⟩
      | none, none => none := by
  cases tA <;> cases tB <;> rfl

/-- Only pairs of edges and chains have no routine. -/
theorem c25_panics (tA tB : ShapeType) (fA iA fB iB : Nat) :
    contactCreate tA tB fA iA fB iB = none ↔ (tA = .edge ∨ tA = .chain) ∧ (tB = .edge ∨ tB = .chain) := by
  cases tA <;> cases tB <;> simp [c25_dispatch, routine]

/-- In every reachable world each contact has the routine of its two shapes, and its child indices are in range. -/
theorem c25_contacts {env : Env F} {w : World F} (h : WHist env w) (c : Nat) (hc : c ∈ w.g.contactList) :
    routine (w.g.fixtures (w.g.contacts c).fA).shape.type (w.g.fixtures (w.g.contacts c).fB).shape.type = some (w.g.contacts c).kind ∧
    ∃ nA nB, (w.g.fixtures (w.g.contacts c).fA).shape.childCount = some nA ∧ (w.g.contacts c).iA < nA ∧
      (w.g.fixtures (w.g.contacts c).fB).shape.childCount = some nB ∧ (w.g.contacts c).iB < nB := by
  have hi := whist_inv h
  obtain ⟨bA, bB, -, -, -, ⟨x, hx, -, hfx, hix⟩, ⟨y, hy, -, hfy, hiy⟩, -, hr⟩ := hi.ok c hc
  refine ⟨?_, _, _, hi.body.children _ x hx hfx, hix, hi.body.children _ y hy hfy, hiy⟩
  generalize (w.g.fixtures (w.g.contacts c).fA).shape.type = tA at hr
  generalize (w.g.fixtures (w.g.contacts c).fB).shape.type = tB at hr
  generalize (w.g.contacts c).kind = k at hr
  revert hr
  cases tA <;> cases tB <;> cases k <;> decide

example : (Ex.w1.g.contacts 0).kind = .circle ∧ Ex.w1.g.contactList = [1, 0] := by decide +kernel

/-! ## C26 -/

theorem c26_counts {env : Env F} {w : World F} (h : WHist env w) :
    w.g.bodyCount = w.g.bodyList.length ∧ w.g.bodyList.Nodup ∧
    w.g.jointCount = w.g.jointList.length ∧ w.g.jointList.Nodup ∧
    w.g.contactCount = w.g.contactList.length ∧ w.g.contactList.Nodup ∧
    (∀ b, (w.g.bodies b).fixtureCount = (w.g.bodies b).fixtures.length ∧ (w.g.bodies b).fixtures.Nodup) ∧
    w.bp.proxyCount = childTotal w := by
  have hi := whist_inv h
  refine ⟨hi.body.count, hi.body.nodup, hi.joint.count, hi.joint.nodup, hi.link.count, hi.link.nodup,
    fun b => ⟨hi.body.fixCount b, hi.body.fixNodup b⟩, ?_⟩
  obtain ⟨gh, buf, rep, hp⟩ := hi.prox
  rw [hp.count, live_count hi.body]
  rfl

example : WHist Ex.env Ex.w1 ∧ Ex.w1.g.bodyCount = 3 ∧ Ex.w1.g.jointCount = 1 ∧ Ex.w1.g.contactCount = 2 ∧ Ex.w1.bp.proxyCount = 3 :=
  ⟨Ex.w1_hist, by decide +kernel⟩

/-! ## C27 -/

/-- A contact is in exactly the lists of its two bodies, which are different bodies of the world; each edge names the
opposite body. -/
theorem c27_graph {env : Env F} {w : World F} (h : WHist env w) :
    (∀ c ∈ w.g.contactList, ∃ x y, x ≠ y ∧ x ∈ w.g.bodyList ∧ y ∈ w.g.bodyList ∧ Connects w c x y) ∧
    (∀ b c o, (c, o) ∈ (w.g.bodies b).contacts ↔ c ∈ w.g.contactList ∧ Connects w c b o) ∧
    (∀ b, ((w.g.bodies b).contacts.map Prod.fst).Nodup) := by
  have hi := whist_inv h
  refine ⟨fun c hc => ?_, fun b c o => ?_, hi.link.edgeNodup⟩
  · obtain ⟨bA, bB, e1, e2, e3, ⟨x, hx, -, hfx, -⟩, ⟨y, hy, -, hfy, -⟩, -⟩ := hi.ok c hc
    rw [e1] at hfx
    rw [e2] at hfy
    cases hfx
    cases hfy
    exact ⟨bA, bB, e3, hx, hy, Or.inl ⟨e1, e2⟩⟩
  · rw [connects_iff]
    exact hi.link.edges b c o

example : WHist Ex.env Ex.w1 ∧ (Ex.w1.g.bodies 1).contacts = [(1, 2), (0, 0)] ∧ (Ex.w1.g.bodies 0).contacts = [(0, 1)] ∧
    (Ex.w1.g.bodies 2).contacts = [(1, 1)] := ⟨Ex.w1_hist, by decide +kernel⟩

/-! ## C28 -/

theorem c28_unique {env : Env F} {w : World F} (h : WHist env w) {c c' : Nat} (hc : c ∈ w.g.contactList) (hc' : c' ∈ w.g.contactList)
    (hs : ((w.g.contacts c).fA = (w.g.contacts c').fA ∧ (w.g.contacts c).iA = (w.g.contacts c').iA ∧
            (w.g.contacts c).fB = (w.g.contacts c').fB ∧ (w.g.contacts c).iB = (w.g.contacts c').iB) ∨
          ((w.g.contacts c).fA = (w.g.contacts c').fB ∧ (w.g.contacts c).iA = (w.g.contacts c').iB ∧
            (w.g.contacts c).fB = (w.g.contacts c').fA ∧ (w.g.contacts c).iB = (w.g.contacts c').iA)) : c = c' :=
  (whist_inv h).uniq c hc c' hc' hs

theorem c28_different_bodies {env : Env F} {w : World F} (h : WHist env w) {c : Nat} (hc : c ∈ w.g.contactList) :
    (w.g.fixtures (w.g.contacts c).fA).body ≠ (w.g.fixtures (w.g.contacts c).fB).body := by
  obtain ⟨bA, bB, e1, e2, e3, -⟩ := (whist_inv h).ok c hc
  rw [e1, e2]
  exact fun he => e3 (Option.some.inj he)

example : WHist Ex.env Ex.w1 ∧ 0 ∈ Ex.w1.g.contactList ∧ 1 ∈ Ex.w1.g.contactList := ⟨Ex.w1_hist, by decide +kernel⟩

/-! ## C29 -/

theorem c29_dynamic {env : Env F} {w : World F} (h : WHist env w) {c : Nat} (hc : c ∈ w.g.contactList) {x y : Nat} (hx : Connects w c x y) :
    (w.g.bodies x).type = .dynamic ∨ (w.g.bodies y).type = .dynamic := by
  obtain ⟨bA, bB, e1, e2, -, -, -, e4, -⟩ := (whist_inv h).ok c hc
  unfold Connects at hx
  rw [e1, e2] at hx
  rcases hx with ⟨h1, h2⟩ | ⟨h1, h2⟩ <;> cases h1 <;> cases h2
  · exact e4
  · exact e4.symm

example : WHist Ex.env Ex.w1 ∧ Connects Ex.w1 0 0 1 ∧ (Ex.w1.g.bodies 1).type = .static :=
  ⟨Ex.w1_hist, by unfold Connects; decide +kernel⟩

/-! ## C30 -/

private theorem goodbyes_count {env : Env F} {lk : Bool} {k : Nat → EventKind} (hk : Function.Injective k) (l : List Nat) (hn : l.Nodup) (x : Nat) :
    (((goodbyes env lk k l).map Event.kind).count (k x)) = if env.destruction = true ∧ x ∈ l then 1 else 0 := by
  unfold goodbyes
  by_cases hd : env.destruction = true
  · rw [if_pos hd, List.map_reverse, List.count_reverse, List.map_map]
    show (l.map k).count (k x) = _
    rw [List.count_map_of_injective _ _ hk, hn.count]
    simp [hd]
  · simp [hd]

private theorem count_zero {l : List Event} {k : EventKind} (h : ∀ e ∈ l, e.kind ≠ k) : (l.map Event.kind).count k = 0 := by
  rw [List.count_eq_zero]
  simp only [List.mem_map, not_exists, not_and]
  exact fun e he => h e he

private theorem endEvents_kind {env : Env F} {w : World F} : ∀ {l : List Nat}, ∀ e ∈ endEvents env w l, ∃ c, e.kind = .endContact c := by
  intro l
  induction l with
  | nil => intro e he; simp [endEvents] at he
  | cons c l ih =>
    intro e he
    unfold endEvents at he
    rcases List.mem_append.mp he with he | he
    · exact ih e he
    · unfold endEvent at he
      split at he
      · simp only [List.mem_singleton] at he; subst he; exact ⟨c, rfl⟩
      · simp at he

private theorem perm_filter_length {l l' : List Nat} (p : Nat → Bool) (hn : l.Nodup) (hn' : l'.Nodup) (h : ∀ x, x ∈ l' ↔ x ∈ l ∧ p x = false) :
    l'.length + (l.filter p).length = l.length := by
  have hp : l'.Perm (l.filter fun x => !p x) := by
    rw [List.perm_ext_iff_of_nodup hn' (hn.filter _)]
    intro x
    rw [h, List.mem_filter]
    simp
  rw [hp.length_eq]
  have := List.length_eq_length_filter_add (l := l) p
  omega

/-- After `destroy_body(b)` nothing in the world mentions `b`. -/
theorem c30_nothing_dangles {env : Env F} {w w' : World F} {b : Nat} (h : WHist env w) (hb : b ∈ w.g.bodyList) (e : w.destroyBody env b = some w') :
    b ∉ w'.g.bodyList ∧ (∀ x, x ≠ b → (x ∈ w'.g.bodyList ↔ x ∈ w.g.bodyList)) ∧
    (∀ j ∈ w'.g.jointList, (w'.g.joints j).a ≠ b ∧ (w'.g.joints j).b ≠ b) ∧
    (∀ c ∈ w'.g.contactList, ∀ y, ¬ Connects w' c b y) ∧
    (∀ x, (∀ ed ∈ (w'.g.bodies x).contacts, x ≠ b ∧ ed.2 ≠ b) ∧ (∀ ed ∈ (w'.g.bodies x).joints, x ≠ b ∧ ed.2 ≠ b)) ∧
    (∃ g buf rep, BHist w'.bp g buf rep ∧ ∀ id p, g id = some p → (w'.g.fixtures p.data.1).body ≠ some b) := by
  have hi := whist_inv h
  obtain ⟨-, d⟩ := destroyBody_spec hi.toWInv hb e
  have hj : ∀ j ∈ w'.g.jointList, (w'.g.joints j).a ≠ b ∧ (w'.g.joints j).b ≠ b := by
    intro j hj
    have := ((d.joint j).mp hj).2
    rw [d.joints]
    exact ⟨fun hx => this ⟨_, Or.inl ⟨hx, rfl⟩⟩, fun hx => this ⟨_, Or.inr ⟨hx, rfl⟩⟩⟩
  have hc : ∀ c ∈ w'.g.contactList, ∀ y, ¬ Connects w' c b y := by
    intro c hc y hcy
    rw [connects_iff, Graph.joins_congr (g := w.g) (by rw [d.contacts]) d.fbody] at hcy
    exact ((d.contact c).mp hc).2 ⟨y, hcy⟩
  refine ⟨by rw [d.bodyList]; exact fun hm => (hi.body.nodup.mem_erase_iff.mp hm).1 rfl, fun x hx => ?_, hj, hc, fun x => ⟨?_, ?_⟩, ?_⟩
  · rw [d.bodyList, hi.body.nodup.mem_erase_iff]
    exact ⟨fun h => h.2, fun h => ⟨hx, h⟩⟩
  · rintro ⟨c, o⟩ hm
    obtain ⟨h1, h2⟩ := (d.winv.link.edges x c o).mp hm
    refine ⟨fun hx => ?_, fun ho => ?_⟩
    · subst hx; exact hc c h1 o ((connects_iff ..).mpr h2)
    · have ho' : o = b := ho
      subst ho'
      refine hc c h1 x ?_
      rw [connects_iff]
      unfold Graph.joins at h2 ⊢
      tauto
  · rintro ⟨j, o⟩ hm
    obtain ⟨h1, h2⟩ := (d.winv.joint.edges x j o).mp hm
    obtain ⟨k1, k2⟩ := hj j h1
    rcases h2 with ⟨h2, h3⟩ | ⟨h2, h3⟩
    · exact ⟨h2 ▸ k1, h3 ▸ k2⟩
    · exact ⟨h2 ▸ k2, h3 ▸ k1⟩
  · obtain ⟨gh, buf, rep, hp⟩ := d.winv.prox
    refine ⟨gh, buf, rep, hp.hist, fun id p hid hbd => ?_⟩
    obtain ⟨⟨y, hy, -, hfy, -⟩, -⟩ := hp.only id p hid
    rw [hbd] at hfy
    cases hfy
    rw [d.bodyList] at hy
    exact (hi.body.nodup.mem_erase_iff.mp hy).1 rfl

/-- The destruction listener, if there is one, has been told about each joint and fixture of the body exactly once, and
about nothing else. -/
theorem c30_listener {env : Env F} {w w' : World F} {b : Nat} (h : WHist env w) (hb : b ∈ w.g.bodyList) (e : w.destroyBody env b = some w') :
    ∃ ev, w'.log = ev ++ w.log ∧
      (∀ j, (ev.map Event.kind).count (.goodbyeJoint j) =
        if env.destruction = true ∧ j ∈ w.g.jointList ∧ ((w.g.joints j).a = b ∨ (w.g.joints j).b = b) then 1 else 0) ∧
      (∀ f, (ev.map Event.kind).count (.goodbyeFixture f) =
        if env.destruction = true ∧ (w.g.fixtures f).body = some b then 1 else 0) := by
  have hi := whist_inv h
  obtain ⟨-, d⟩ := destroyBody_spec hi.toWInv hb e
  refine ⟨_, d.log, fun j => ?_, fun f => ?_⟩
  · rw [List.map_append, List.map_append, List.count_append, List.count_append, goodbyes_count (fun a b h => by injection h) _ (hi.joint.edgeNodup b),
      count_zero, count_zero]
    · simp only [Nat.zero_add, Nat.add_zero]
      congr 1
      have : j ∈ (w.g.bodies b).joints.map Prod.fst ↔ j ∈ w.g.jointList ∧ ((w.g.joints j).a = b ∨ (w.g.joints j).b = b) := by
        simp only [List.mem_map, Prod.exists, exists_and_right, exists_eq_right]
        constructor
        · rintro ⟨o, ho⟩
          obtain ⟨h1, h2⟩ := (hi.joint.edges b j o).mp ho
          refine ⟨h1, ?_⟩
          rcases h2 with ⟨h2, -⟩ | ⟨h2, -⟩
          · exact Or.inl h2
          · exact Or.inr h2
        · rintro ⟨h1, h2 | h2⟩
          · exact ⟨_, (hi.joint.edges b j _).mpr ⟨h1, Or.inl ⟨h2, rfl⟩⟩⟩
          · exact ⟨_, (hi.joint.edges b j _).mpr ⟨h1, Or.inr ⟨h2, rfl⟩⟩⟩
      rw [this]
    · intro e he hk
      obtain ⟨c, hc⟩ := endEvents_kind e he
      rw [hc] at hk; cases hk
    · intro e he hk
      unfold goodbyes at he
      split at he
      · simp only [List.mem_reverse, List.mem_map] at he
        obtain ⟨x, -, rfl⟩ := he
        cases hk
      · simp at he
  · rw [List.map_append, List.map_append, List.count_append, List.count_append, goodbyes_count (fun a b h => by injection h) _ (hi.body.fixNodup b),
      count_zero, count_zero]
    · simp only [Nat.zero_add, Nat.add_zero]
      congr 1
      rw [hi.body.fixtures b f]
      simp [hb]
    · intro e he hk
      unfold goodbyes at he
      split at he
      · simp only [List.mem_reverse, List.mem_map] at he
        obtain ⟨x, -, rfl⟩ := he
        cases hk
      · simp at he
    · intro e he hk
      obtain ⟨c, hc⟩ := endEvents_kind e he
      rw [hc] at hk; cases hk

/-- The counters decrease by the numbers of objects destroyed. -/
theorem c30_counters {env : Env F} {w w' : World F} {b : Nat} (h : WHist env w) (hb : b ∈ w.g.bodyList) (e : w.destroyBody env b = some w') :
    w'.g.bodyCount + 1 = w.g.bodyCount ∧
    w'.g.jointCount + (w.g.jointList.filter fun j => decide ((w.g.joints j).a = b ∨ (w.g.joints j).b = b)).length = w.g.jointCount ∧
    w'.g.contactCount + (w.g.bodies b).contacts.length = w.g.contactCount ∧
    w'.bp.proxyCount = childTotal w' := by
  have hi := whist_inv h
  obtain ⟨-, d⟩ := destroyBody_spec hi.toWInv hb e
  have hi' := d.winv
  refine ⟨?_, ?_, ?_, (c26_counts (h.call (.destroyBody b) hb e)).2.2.2.2.2.2.2⟩
  · rw [hi'.body.count, hi.body.count, d.bodyList, List.length_erase_of_mem hb]
    have := List.length_pos_of_mem hb
    omega
  · rw [hi'.joint.count, hi.joint.count]
    refine perm_filter_length _ hi.joint.nodup hi'.joint.nodup (fun j => ?_)
    rw [d.joint, decide_eq_false_iff_not]
    refine and_congr_right fun hj => not_congr ?_
    constructor
    · rintro ⟨o, ⟨h1, -⟩ | ⟨h1, -⟩⟩
      · exact Or.inl h1
      · exact Or.inr h1
    · rintro (h1 | h1)
      · exact ⟨_, Or.inl ⟨h1, rfl⟩⟩
      · exact ⟨_, Or.inr ⟨h1, rfl⟩⟩
  · rw [hi'.link.count, hi.link.count]
    have := perm_filter_length (fun c => decide (c ∈ (w.g.bodies b).contacts.map Prod.fst)) hi.link.nodup hi'.link.nodup (l' := w'.g.contactList) (fun c => by
      rw [d.contact, decide_eq_false_iff_not]
      refine and_congr_right fun hc => not_congr ?_
      simp only [List.mem_map, Prod.exists, exists_and_right, exists_eq_right]
      exact exists_congr fun o => ⟨fun h => (hi.link.edges b c o).mpr ⟨hc, h⟩, fun h => ((hi.link.edges b c o).mp h).2⟩)
    rw [← this]
    congr 1
    have hp : (w.g.contactList.filter fun c => decide (c ∈ (w.g.bodies b).contacts.map Prod.fst)).Perm ((w.g.bodies b).contacts.map Prod.fst) := by
      rw [List.perm_ext_iff_of_nodup (hi.link.nodup.filter _) (hi.link.edgeNodup b)]
      intro c
      rw [List.mem_filter, decide_eq_true_iff]
      refine ⟨fun h => h.2, fun h => ⟨?_, h⟩⟩
      obtain ⟨⟨c', o⟩, h1, rfl⟩ := List.mem_map.mp h
      exact ((hi.link.edges b c' o).mp h1).1
    rw [hp.length_eq, List.length_map]

/-- Destroying a body of the world never panics, unless user code does. -/
theorem c30_total {env : Env F} {w : World F} {b : Nat} (h : WHist env w) (hb : b ∈ w.g.bodyList)
    (hu : ∀ v k, ∃ v', (env.react v k).foldlM World.userOp v = some v') : ∃ w', w.destroyBody env b = some w' :=
  destroyBody_total hu (whist_inv h).toWInv hb (whist_inv h).unlocked

example : WHist Ex.env Ex.w1 ∧ 0 ∈ Ex.w1.g.bodyList ∧ (Ex.w1.g.bodies 0).joints ≠ [] ∧ (Ex.w1.g.bodies 0).contacts ≠ [] ∧
    (Ex.w1.g.bodies 0).fixtures ≠ [] ∧
    ((Ex.w1.destroyBody Ex.env 0).map fun w => (w.g.bodyList, w.g.jointList, w.g.contactList, (w.log.take 3).map Event.kind)) =
      some ([2, 1], [], [1], [.goodbyeFixture 0, .endContact 0, .goodbyeJoint 0]) :=
  ⟨Ex.w1_hist, by decide +kernel⟩

/-! ## C31 -/

theorem c31_disabled {env : Env F} {w : World F} (h : WHist env w) {b : Nat} (hb : b ∈ w.g.bodyList) (hd : (w.g.bodies b).enabled = false) :
    (w.g.bodies b).contacts = [] ∧ (∀ c ∈ w.g.contactList, ∀ y, ¬ Connects w c b y) ∧ ∀ f ∈ (w.g.bodies b).fixtures, (w.g.fixtures f).proxyCount = 0 := by
  have hi := whist_inv h
  have hc : ∀ c ∈ w.g.contactList, ∀ y, ¬ Connects w c b y := by
    intro c hc y hcy
    obtain ⟨bA, bB, e1, e2, -, ⟨x, -, hx, hfx, -⟩, ⟨z, -, hz, hfz, -⟩, -⟩ := hi.ok c hc
    rw [e1] at hfx
    rw [e2] at hfz
    cases hfx
    cases hfz
    unfold Connects at hcy
    rw [e1, e2] at hcy
    rcases hcy with ⟨h1, h2⟩ | ⟨h1, h2⟩ <;> cases h1 <;> cases h2
    · rw [hd] at hx; cases hx
    · rw [hd] at hz; cases hz
  refine ⟨?_, hc, fun f hf => ?_⟩
  · rw [List.eq_nil_iff_forall_not_mem]
    rintro ⟨c, o⟩ hm
    obtain ⟨h1, h2⟩ := (hi.link.edges b c o).mp hm
    exact hc c h1 o ((connects_iff ..).mpr h2)
  · obtain ⟨-, h2⟩ := (hi.body.fixtures b f).mp hf
    rw [hi.body.proxyCount f b hb h2, hd]
    rfl

/-- The proxies of the broad-phase are exactly the children of fixtures of enabled bodies, each one once. -/
theorem c31_proxies {env : Env F} {w : World F} (h : WHist env w) :
    ∃ g buf rep, BHist w.bp g buf rep ∧
      (∀ b ∈ w.g.bodyList, (w.g.bodies b).enabled = true → ∀ f ∈ (w.g.bodies b).fixtures, ∃ n, (w.g.fixtures f).shape.childCount = some n ∧
        (w.g.fixtures f).proxyCount = n ∧ ∀ i < n, ∃! id, ∃ p, g id = some p ∧ p.data = (f, i)) ∧
      (∀ id p, g id = some p → ∃ b ∈ w.g.bodyList, (w.g.bodies b).enabled = true ∧ p.data.1 ∈ (w.g.bodies b).fixtures) := by
  have hi := whist_inv h
  obtain ⟨gh, buf, rep, hp⟩ := hi.prox
  refine ⟨gh, buf, rep, hp.hist, fun b hb he f hf => ?_, fun id p hid => ?_⟩
  · obtain ⟨-, h2⟩ := (hi.body.fixtures b f).mp hf
    refine ⟨_, hi.body.children f b hb h2, by rw [hi.body.proxyCount f b hb h2, he]; rfl, fun i hlt => ?_⟩
    obtain ⟨id, p, a1, a2, a3⟩ := hp.has f i ⟨b, hb, he, h2, hlt⟩
    refine ⟨id, ⟨p, a2, a3⟩, ?_⟩
    rintro id' ⟨p', b2, b3⟩
    have := (hp.only id' p' b2).2
    rw [b3] at this
    rw [show (w.g.fixtures (f, i).1).proxies[(f, i).2]? = (w.g.fixtures f).proxies[i]? from rfl, a1] at this
    injection this with this
    injection this with _ _ this
    injection this with this
    exact this.symm
  · obtain ⟨⟨b, hb, he, hf, -⟩, -⟩ := hp.only id p hid
    exact ⟨b, hb, he, (hi.body.fixtures b _).mpr ⟨hb, hf⟩⟩

example : ((runAll Ex.env (Ex.calls ++ [.setEnabled 0 false]) Ex.w0).map fun w => (w.bp.proxyCount, w.g.contactList)) = some (2, [1]) ∧
    ((runAll Ex.env (Ex.calls ++ [.setEnabled 0 false, .setEnabled 0 true]) Ex.w0).map fun w => (w.bp.proxyCount, w.g.contactList)) = some (3, [1]) := by
  decide +kernel

/-! ## C33 -/

theorem c33_static_asleep {env : Env F} {w : World F} (h : WHist env w) {b : Nat} (hb : b ∈ w.g.bodyList) (ht : (w.g.bodies b).type = .static) :
    w.isAwake b = false :=
  (whist_inv h).static b ((whist_inv h).body.lt b hb) ht

example : WHist Ex.env Ex.w1 ∧ 1 ∈ Ex.w1.g.bodyList ∧ (Ex.w1.g.bodies 1).type = .static ∧ Ex.w1.isAwake 0 = true :=
  ⟨Ex.w1_hist, by decide +kernel⟩

/-! ## C34 -/

/-- Begin and end callbacks alternate, starting with begin; a begin is not yet matched exactly if the contact exists and
touches. -/
theorem c34_alternate {env : Env F} {w : World F} (h : WHist env w) (hl : env.listener = true) (c : Nat) :
    Alternating (contactCalls c w.log) ∧
    ((contactCalls c w.log).length % 2 = 1 ↔ c ∈ w.g.contactList ∧ (w.cst c).touching = true) := by
  obtain ⟨h1, h2⟩ := (whist_inv h).ev hl c
  rw [touchLog_eq] at h1 h2
  obtain ⟨h3, h4⟩ := alt_iff _ h1
  rw [List.reverse_reverse] at h3
  rw [h4, List.length_reverse] at h2
  exact ⟨h3, h2⟩

example : WHist Ex.env Ex.w1 ∧ contactCalls 0 Ex.w1.log = [true] ∧
    ((runAll Ex.env (Ex.calls ++ [.destroyFixture 1 1]) Ex.w0).map fun w => contactCalls 0 w.log) = some [true, false] :=
  ⟨Ex.w1_hist, by decide +kernel⟩

/-! ## C36 -/

/-- After a step there is no contact between bodies joined by a joint that forbids collision. -/
theorem c36_no_contact {env : Env F} {w w' : World F} {dt : F} {vi pi : Nat} (h : WHist env w) (e : w.step env dt vi pi = some w')
    (j : Nat) (hj : j ∈ w'.g.jointList) (hcc : (w'.g.joints j).collideConnected = false) (c : Nat) (hc : c ∈ w'.g.contactList) :
    ¬ Connects w' c (w'.g.joints j).a (w'.g.joints j).b := by
  have hi := whist_inv h
  rw [connects_iff]
  exact (step_good hi.toWInv e).unjoined hi.filt c hc j hj hcc

/-- A step keeps all joints, so the joints above are those there were before it. -/
theorem c36_joints_stay {env : Env F} {w w' : World F} {dt : F} {vi pi : Nat} (h : WHist env w) (e : w.step env dt vi pi = some w') :
    w'.g.jointList = w.g.jointList ∧ w'.g.joints = w.g.joints := by
  have := (step_good (whist_inv h).toWInv e).eq
  rw [this]
  exact ⟨rfl, rfl⟩

/-- Two dynamic balls in contact; a joint is created between them; the next step destroys the contact. -/
example : ((runAll Ex.env [.createBody (Ex.body .dynamic 0 1), .createFixture 0 Ex.ball, .createBody (Ex.body .dynamic 0 0), .createFixture 1 Ex.ball,
      .step (1/60) 8 3, .createJoint ⟨0, 1, false⟩] Ex.w0).map fun w => w.g.contactList) = some [0] ∧
    ((runAll Ex.env [.createBody (Ex.body .dynamic 0 1), .createFixture 0 Ex.ball, .createBody (Ex.body .dynamic 0 0), .createFixture 1 Ex.ball,
      .step (1/60) 8 3, .createJoint ⟨0, 1, false⟩, .step (1/60) 8 3] Ex.w0).map fun w => w.g.contactList) = some [] := by
  decide +kernel

/-! ## C39 -/

/-- The world is not locked between calls. During a step every callback sees it locked, except calls of the filter for
new pairs of proxies right at its beginning. -/
theorem c39_locked {env : Env F} {w w' : World F} {dt : F} {vi pi : Nat} (h : WHist env w) (e : w.step env dt vi pi = some w') :
    w.locked = false ∧ w'.locked = false ∧
    ∃ early late, w'.log = late ++ early ++ w.log ∧ (∀ ev ∈ late, ev.locked = true) ∧ ∀ ev ∈ early, ∃ fA fB, ev.kind = .filter fA fB := by
  have hi := whist_inv h
  have s := step_good hi.toWInv e
  refine ⟨hi.unlocked, s.rest.locked, ?_⟩
  obtain ⟨early, late, h1, h2, h3⟩ := s.log
  refine ⟨early, late, h1, h2, fun ev hev => ?_⟩
  obtain ⟨fA, fB, rfl⟩ := h3 ev hev
  exact ⟨fA, fB, rfl⟩

/-- While the world is locked these calls are refused. -/
theorem c39_refused (env : Env F) (w : World F) (hl : w.locked = true) (b f j : Nat) :
    (∀ d, w.createBody d = none) ∧ w.destroyBody env b = none ∧ (∀ d, w.createFixture b d = none) ∧ w.destroyFixture env b f = none ∧
    (∀ d, w.createJoint d = none) ∧ w.destroyJoint j = none ∧ (∀ t, w.setType env b t = none) ∧ (∀ x, w.setEnabled env b x = none) ∧
    (∀ p a, w.setTransform b p a = none) ∧ (∀ m, w.setMassData b m = none) ∧ (∀ o, w.shiftOrigin o = none) := by
  refine ⟨fun d => by simp [createBody, hl], ?_, fun d => by simp [createFixture, hl], by simp [destroyFixture, hl],
    fun d => by simp [createJoint, hl], by simp [destroyJoint, hl], fun d => by simp [setType, hl], fun d => by simp [setEnabled, hl],
    fun p a => by simp [setTransform, hl], fun m => by simp [setMassData, hl], fun o => by simp [shiftOrigin, hl]⟩
  unfold destroyBody
  split
  · rfl
  · simp only [if_pos hl]

example : (Ex.w1.log.map Event.locked) = [true, true, true, true, true, true] ∧ Ex.w1.locked = false := by decide +kernel

/-! ## C32, C35: false of the code -/

private theorem createProxy_other {f : Nat} {xf : Xf F} {w w' : World F} {i : Nat} (e : createProxy f xf w i = some w') {x : Nat} (hx : x ≠ f) :
    w'.g.fixtures x = w.g.fixtures x := by
  unfold createProxy at e
  simp only [Option.bind_eq_bind, Option.bind_eq_some_iff] at e
  obtain ⟨_, -, _, -, ⟨bp, id⟩, -, e⟩ := e
  cases e
  exact upd_other _ _ hx

private theorem createProxies_other {f : Nat} {xf : Xf F} {w w' : World F} (e : w.createProxies f xf = some w') :
    (w.g.fixtures f).proxyCount = 0 ∧ ∀ x, x ≠ f → w'.g.fixtures x = w.g.fixtures x := by
  unfold createProxies at e
  dsimp only at e
  split at e
  · cases e
  rename_i h0
  refine ⟨by simpa using h0, fun x hx => ?_⟩
  simp only [Option.bind_eq_bind, Option.bind_eq_some_iff] at e
  obtain ⟨n, -, e⟩ := e
  refine foldlM_inv (fun v : World F => v.g.fixtures x = w.g.fixtures x) e (upd_other _ _ hx) ?_
  intro i _ v v' hv hv'
  rw [createProxy_other hv' hx, hv]

private theorem createAll_zero {xf : Xf F} {f : Nat} : ∀ (l : List Nat) {w w' : World F}, f ∈ l →
    l.foldlM (fun w f => w.createProxies f xf) w = some w' → (w.g.fixtures f).proxyCount = 0 := by
  intro l
  induction l with
  | nil => intro w w' h _; cases h
  | cons x l ih =>
    intro w w' h e
    rw [List.foldlM_cons, Option.bind_eq_bind, Option.bind_eq_some_iff] at e
    obtain ⟨w1, e1, e2⟩ := e
    obtain ⟨h0, ho⟩ := createProxies_other e1
    by_cases hx : f = x
    · subst hx; exact h0
    · rw [← ho f hx]
      exact ih ((List.mem_cons.mp h).resolve_left hx) e2

/-- `set_enabled(true)` on an enabled body that has a fixture with a child panics. -/
theorem c32_panics {env : Env F} {w : World F} (h : WHist env w) {b f n : Nat} (hb : b ∈ w.g.bodyList) (he : (w.g.bodies b).enabled = true)
    (hf : f ∈ (w.g.bodies b).fixtures) (hn : (w.g.fixtures f).shape.childCount = some n) (h0 : 0 < n) : w.setEnabled env b true = none := by
  have hi := whist_inv h
  unfold setEnabled
  rw [if_neg (by rw [hi.unlocked]; simp)]
  have hid : w.setBody b { w.g.bodies b with enabled := true } = w := setBody_id (by rw [← he])
  rw [hid]
  dsimp only
  rw [if_pos rfl]
  cases h1 : (w.g.bodies b).fixtures.foldlM (fun w' f => w'.createProxies f (w.phys b).xf) w with
  | none => rfl
  | some v =>
    exfalso
    have := createAll_zero _ hf h1
    obtain ⟨-, h2⟩ := (hi.body.fixtures b f).mp hf
    rw [hi.body.proxyCount f b hb h2, he] at this
    have h3 := hi.body.children f b hb h2
    rw [hn] at h3
    injection h3 with h3
    simp only [if_true] at this
    omega

/-- The claim that enabling an enabled body has no effect is false. -/
theorem c32_false : ∃ w : World ℚ, WHist Ex.env w ∧ ∃ b ∈ w.g.bodyList, (w.g.bodies b).enabled = true ∧ w.setEnabled Ex.env b true = none :=
  ⟨Ex.w1, Ex.w1_hist, 0, by decide +kernel, by decide +kernel,
    c32_panics Ex.w1_hist (f := 0) (n := 1) (by decide +kernel) (by decide +kernel) (by decide +kernel) (by decide +kernel) (by decide)⟩

/-- What is true of C32: without fixtures the call only asks for a search for new contacts. -/
theorem c32_partial {env : Env F} {w : World F} (h : WHist env w) {b : Nat} (he : (w.g.bodies b).enabled = true)
    (hf : (w.g.bodies b).fixtures = []) : w.setEnabled env b true = some { w with newContacts := true } := by
  unfold setEnabled
  rw [if_neg (by rw [(whist_inv h).unlocked]; simp)]
  have hid : w.setBody b { w.g.bodies b with enabled := true } = w := by
    exact setBody_id (by rw [← he])
  rw [hid]
  simp [hf]

example : ((runAll Ex.env [.createBody (Ex.body .dynamic 0 1)] Ex.w0).map fun w => ((w.g.bodies 0).enabled, (w.g.bodies 0).fixtures)) = some (true, []) := by
  decide +kernel

/-- `refilter` and `set_filter_data` panic on a fixture that has a contact. -/
theorem c35_panics {env : Env F} {w : World F} (h : WHist env w) {c f : Nat} (hc : c ∈ w.g.contactList)
    (hf : (w.g.contacts c).fA = f ∨ (w.g.contacts c).fB = f) : w.refilter f = none ∧ ∀ d, w.setFilterData f d = none := by
  have hi := whist_inv h
  obtain ⟨bA, bB, e1, e2, -⟩ := hi.link.bodies c hc
  have key : ∀ v : World F, v.g = w.g → v.refilter f = none := by
    intro v hv
    unfold refilter bodyOf
    rw [hv]
    rcases hf with hf | hf
    · rw [hf] at e1
      rw [e1]
      dsimp only
      rw [if_pos]
      rw [List.any_eq_true]
      refine ⟨(c, bB), (hi.link.edges bA c bB).mpr ⟨hc, Or.inl ⟨by rw [hf]; exact e1, e2⟩⟩, ?_⟩
      simp [hf]
    · rw [hf] at e2
      rw [e2]
      dsimp only
      rw [if_pos]
      rw [List.any_eq_true]
      refine ⟨(c, bA), (hi.link.edges bB c bA).mpr ⟨hc, Or.inr ⟨by rw [hf]; exact e2, e1⟩⟩, ?_⟩
      simp [hf]
  exact ⟨key w rfl, fun d => key _ rfl⟩

/-- The claim that refiltering works on a fixture with contacts is false. -/
theorem c35_false : ∃ w : World ℚ, WHist Ex.env w ∧ ∃ f, (w.g.fixtures f).body = some 0 ∧ w.refilter f = none :=
  ⟨Ex.w1, Ex.w1_hist, 0, by decide +kernel, (c35_panics Ex.w1_hist (c := 0) (by decide +kernel) (by decide +kernel)).1⟩

/-- What is true of C35: on a fixture without contacts the calls succeed (flagging no contact: there is none), keep all
bodies, fixtures, contacts and joints, and put every proxy of the fixture into the buffer of proxies to be looked at for
new pairs. -/
theorem c35_partial {env : Env F} {w : World F} (h : WHist env w) {b f : Nat} (hb : b ∈ w.g.bodyList) (hf : (w.g.fixtures f).body = some b)
    (hc : ∀ c ∈ w.g.contactList, (w.g.contacts c).fA ≠ f ∧ (w.g.contacts c).fB ≠ f) :
    ∃ w', w.refilter f = some w' ∧ w'.g = w.g ∧ w'.cst = w.cst ∧
      ∃ g buf rep, BHist w'.bp g buf rep ∧ ∀ id p, g id = some p → p.data.1 = f → id ∈ buf := by
  have hi := whist_inv h
  obtain ⟨gh, buf, rep, hp⟩ := hi.prox
  have hlive : ∀ i, Live w.g f i → i < (w.g.fixtures f).proxyCount := by
    rintro i ⟨x, hx, he, hfx, hlt⟩
    rw [hi.body.proxyCount f x hx hfx, he]
    exact hlt
  obtain ⟨w', e, fr, buf', h1, -, h2⟩ := touchProxies_buf (N := fun _ _ => True) hp (f := f) (by
    intro i hlt
    rw [hi.body.proxyCount f b hb hf] at hlt
    split at hlt
    · rename_i he; exact ⟨b, hb, he, hf, hlt⟩
    · omega)
  refine ⟨w', ?_, fr.g, fr.cst, gh, buf', rep, h1.hist, fun id p g1 g2 => ?_⟩
  · unfold refilter bodyOf
    rw [hf]
    dsimp only
    rw [if_neg]
    · exact e
    · rw [List.any_eq_true]
      rintro ⟨⟨c, o⟩, h1, h2⟩
      have := hc c ((hi.link.edges b c o).mp h1).1
      simp only [Bool.or_eq_true, beq_iff_eq] at h2
      rcases h2 with h2 | h2
      · exact this.1 h2
      · exact this.2 h2
  · have := (hp.only id p g1).1
    rw [g2] at this
    exact h2 _ (hlive _ this) id p g1 (by rw [← g2])

example : ((runAll Ex.env [.createBody (Ex.body .dynamic 0 1), .createFixture 0 Ex.ball, .step (1/60) 8 3, .refilter 0] Ex.w0).map fun w =>
    (w.g.contactList, w.bp.moves.count)) = some ([], 1) := by
  decide +kernel
end
end B2.Props
