import Verif.Proofs.WorldIsland

/-! The island around a time of impact. -/
namespace B2
set_option linter.unusedSectionVars false
open World Spec

section
variable {F : Type} [Field F] [LinearOrder F] [IsStrictOrderedRing F] [Elem F]

namespace World

/-- Contact `c` is flagged, the bodies of the island are flagged and know their places. -/
structure Placed (w0 : World F) (c : Nat) (x : World F × Island) : Prop where
  g : x.1.g = w0.g
  flag : (x.1.cst c).island = true
  index : ∀ (i b : Nat), x.2.bodies[i]? = some b → (x.1.phys b).island = true ∧ (x.1.phys b).islandIndex = i

theorem Placed.calm {w0 : World F} {c : Nat} {x : World F × Island} (h : Placed w0 c x) {w : World F} (hg : w.g = x.1.g) (hc : Calm0 x.1 w) {isl : Island}
    (hb : isl.bodies = x.2.bodies) : Placed w0 c (w, isl) := by
  refine ⟨hg.trans h.g, (hc.cisland c).trans h.flag, fun i b hi => ?_⟩
  replace hi : isl.bodies[i]? = some b := hi
  rw [hb] at hi
  obtain ⟨p, q⟩ := h.index i b hi
  exact ⟨(hc.island b).trans p, (hc.islandIndex b).trans q⟩

theorem Placed.add {w0 : World F} {c : Nat} {x : World F × Island} (h : Placed w0 c x) {b : Nat} (hb : (x.1.phys b).island = false) :
    Placed w0 c (toiAddBody x b) := by
  refine ⟨h.g, h.flag, fun i a hi => ?_⟩
  replace hi : (x.2.bodies ++ [b])[i]? = some a := hi
  show ((upd x.1.phys b _ a)).island = true ∧ (upd x.1.phys b _ a).islandIndex = i
  rw [List.getElem?_append] at hi
  by_cases ha : a = b
  · subst ha
    rw [upd_same]
    split at hi
    · rw [(h.index i a hi).1] at hb; cases hb
    · refine ⟨rfl, ?_⟩
      have : i - x.2.bodies.length = 0 := by
        by_contra hne
        rw [List.getElem?_eq_none (by simp; omega)] at hi
        cases hi
      show (x.2.bodies.length : Int) = i
      omega
  · rw [upd_other _ _ ha]
    split at hi
    · exact h.index i a hi
    · have := List.mem_of_getElem? hi
      rw [List.mem_singleton] at this
      exact absurd this ha

theorem advance_calm0 {w w' : World F} {b : Nat} {alpha : F} (e : w.advance b alpha = some w') : w'.g = w.g ∧ w'.cst = w.cst ∧
    ∀ x, (w'.phys x).island = (w.phys x).island ∧ (w'.phys x).islandIndex = (w.phys x).islandIndex := by
  unfold advance at e
  simp only [Option.bind_eq_bind, Option.bind_eq_some_iff] at e
  obtain ⟨p, h1, h2⟩ := e
  cases h2
  unfold Phys.advance at h1
  simp only [Option.bind_eq_bind, Option.bind_eq_some_iff] at h1
  obtain ⟨s, -, h1⟩ := h1
  cases h1
  exact ⟨rfl, rfl, fun x => ⟨proj_upd (fun q : Phys F => q.island) (by rfl) x, proj_upd (fun q : Phys F => q.islandIndex) (by rfl) x⟩⟩

theorem Placed.same {w0 : World F} {c : Nat} {x : World F × Island} (h : Placed w0 c x) {w : World F} (hg : w.g = x.1.g) (hc : (x.1.cst c).island = true → (w.cst c).island = true)
    (hp : ∀ b, (w.phys b).island = (x.1.phys b).island ∧ (w.phys b).islandIndex = (x.1.phys b).islandIndex) {isl : Island}
    (hb : isl.bodies = x.2.bodies) : Placed w0 c (w, isl) := by
  refine ⟨hg.trans h.g, hc h.flag, fun i b hi => ?_⟩
  replace hi : isl.bodies[i]? = some b := hi
  rw [hb] at hi
  obtain ⟨p, q⟩ := h.index i b hi
  exact ⟨(hp b).1.trans p, (hp b).2.trans q⟩

theorem toiVisit_placed {env : Env F} {alpha : F} {body : Nat} {w0 : World F} {c : Nat} {x x' : World F × Island} {ed : Nat × Nat} (h : Placed w0 c x)
    (e : toiVisit env alpha body x ed = some x') : Placed w0 c x' ∧ x.2.bodies <+: x'.2.bodies ∧
      x'.2.bodies.length ≤ x.2.bodies.length + (if ed.1 = c then 0 else 1) := by
  unfold toiVisit at e
  dsimp only at e
  split at e
  · cases e; exact ⟨h, List.prefix_rfl, by omega⟩
  rename_i hf
  have hec : ed.1 ≠ c := by
    rintro rfl
    exact hf h.flag
  rw [if_neg hec]
  split at e
  · cases e
  split at e
  · cases e; exact ⟨h, List.prefix_rfl, by omega⟩
  split at e
  · cases e; exact ⟨h, List.prefix_rfl, by omega⟩
  simp only [Option.bind_eq_bind, Option.bind_eq_some_iff] at e
  obtain ⟨w1, e1, w2, e2, e⟩ := e
  have p1 : Placed w0 c (w1, x.2) := by
    split at e1
    · obtain ⟨a, b, d⟩ := advance_calm0 e1
      exact h.same a (by rw [b]; exact id) d rfl
    · cases e1; exact h
  obtain ⟨f2, c2, -, -⟩ := contactUpdate_spec e2
  have p2 : Placed w0 c (w2, x.2) := p1.calm f2.g c2 rfl
  split at e
  · cases e
    exact ⟨Placed.same (w := w2.restore ed.2 (x.1.phys ed.2).sweep) (isl := x.2) p2 rfl id
      (fun b => ⟨proj_upd (fun q : Phys F => q.island) (by rfl) b, proj_upd (fun q : Phys F => q.islandIndex) (by rfl) b⟩) rfl,
      List.prefix_rfl, by dsimp only; omega⟩
  · have p3 : Placed w0 c (w2.setCst ed.1 { w2.cst ed.1 with island := true }, { x.2 with contacts := x.2.contacts ++ [ed.1] }) := by
      refine Placed.same (w := w2.setCst ed.1 { w2.cst ed.1 with island := true }) (isl := { x.2 with contacts := x.2.contacts ++ [ed.1] }) p2 rfl
        (fun hc => ?_) (fun _ => ⟨rfl, rfl⟩) rfl
      show (upd w2.cst ed.1 _ c).island = true
      rw [upd_other _ _ (Ne.symm hec)]
      exact hc
    split at e
    · cases e; exact ⟨p3, List.prefix_rfl, by dsimp only; omega⟩
    · rename_i hfl
      rw [Bool.not_eq_true] at hfl
      cases e
      refine ⟨?_, List.prefix_append _ _, ?_⟩
      · split
        · refine Placed.add (x := (_, _)) ?_ ?_
          · exact Placed.calm (w := (w2.setCst ed.1 { w2.cst ed.1 with island := true }).setAwake ed.2 true) p3 (setAwake_quiet _ _ _).g (setAwake_quiet _ _ _).toCalm0 rfl
          · exact ((setAwake_quiet _ _ _).toCalm0.island _).trans hfl
        · exact p3.add hfl
      · show (x.2.bodies ++ [ed.2]).length ≤ _
        simp

theorem toiVisit_prefix {env : Env F} {alpha : F} {body : Nat} {x x' : World F × Island} {ed : Nat × Nat} (e : toiVisit env alpha body x ed = some x') :
    x.2.bodies <+: x'.2.bodies := by
  unfold toiVisit at e
  dsimp only at e
  split at e
  · cases e; exact List.prefix_rfl
  split at e
  · cases e
  split at e
  · cases e; exact List.prefix_rfl
  split at e
  · cases e; exact List.prefix_rfl
  simp only [Option.bind_eq_bind, Option.bind_eq_some_iff] at e
  obtain ⟨w1, e1, w2, e2, e⟩ := e
  split at e
  · cases e; exact List.prefix_rfl
  split at e
  · cases e; exact List.prefix_rfl
  · cases e; exact List.prefix_append _ _

theorem toiVisitL_placed {env : Env F} {alpha : F} {body : Nat} {w0 : World F} {c : Nat} (l : List (Nat × Nat)) {x x' : World F × Island} (h : Placed w0 c x)
    (e : l.foldlM (toiVisit env alpha body) x = some x') : Placed w0 c x' ∧ x.2.bodies <+: x'.2.bodies ∧
      x'.2.bodies.length ≤ x.2.bodies.length + (l.filter fun e => e.1 ≠ c).length := by
  induction l generalizing x with
  | nil => cases e; exact ⟨h, List.prefix_rfl, by simp⟩
  | cons a l ih =>
    rw [List.foldlM_cons] at e
    simp only [Option.bind_eq_bind, Option.bind_eq_some_iff] at e
    obtain ⟨y, e1, e2⟩ := e
    obtain ⟨a1, a2, a3⟩ := toiVisit_placed h e1
    obtain ⟨b1, b2, b3⟩ := ih a1 e2
    refine ⟨b1, a2.trans b2, ?_⟩
    by_cases hac : a.1 = c
    · simp only [hac, if_true] at a3
      rw [List.filter_cons_of_neg (by simpa using hac)]
      omega
    · simp only [hac, if_false] at a3
      rw [List.filter_cons_of_pos (by simpa using hac), List.length_cons]
      omega

theorem toiVisits_placed {env : Env F} {alpha : F} {body o : Nat} {w0 : World F} {c : Nat} {x x' : World F × Island} (h : Placed w0 c x)
    (he : (c, o) ∈ (w0.g.bodies body).contacts) (e : toiVisits env alpha x body = some x') : Placed w0 c x' ∧ x.2.bodies <+: x'.2.bodies ∧
      x'.2.bodies.length + 1 ≤ x.2.bodies.length + (w0.g.bodies body).contacts.length := by
  have hlt : ((w0.g.bodies body).contacts.filter fun e => e.1 ≠ c).length + 1 ≤ (w0.g.bodies body).contacts.length := by
    have := List.length_filter_lt_length_iff_exists (l := (w0.g.bodies body).contacts) (p := fun e => decide (e.1 ≠ c))
    exact this.mpr ⟨(c, o), he, by simp⟩
  unfold toiVisits at e
  split at e
  · rw [h.g] at e
    obtain ⟨a1, a2, a3⟩ := toiVisitL_placed _ h e
    exact ⟨a1, a2, by omega⟩
  · cases e
    exact ⟨h, List.prefix_rfl, by omega⟩

/-- The island around a time of impact: the two bodies come first, every body knows its place, and there are at most as many
bodies as the two bodies have contacts. -/
theorem toiIsland_placed {env : Env F} {w : World F} {c bA bB : Nat} {alpha : F} {x : World F × Island} (hi : GInv w.g) (hc : c ∈ w.g.contactList)
    (hj : w.g.joins c bA bB) (hA : (w.phys bA).island = false) (hB : (w.phys bB).island = false) (hne : bA ≠ bB)
    (e : w.toiIsland env c bA bB alpha = some x) :
    (∀ (i b : Nat), x.2.bodies[i]? = some b → (x.1.phys b).islandIndex = i) ∧ x.2.bodies[0]? = some bA ∧ x.2.bodies[1]? = some bB ∧
    x.2.bodies.length ≤ (w.g.bodies bA).contacts.length + (w.g.bodies bB).contacts.length := by
  unfold toiIsland at e
  simp only [Option.bind_eq_bind, Option.bind_eq_some_iff] at e
  obtain ⟨x1, e1, e2⟩ := e
  have hj' : w.g.joins c bB bA := by unfold Graph.joins at *; tauto
  have q0 : Quiet w ((w.setAwake bA true).setAwake bB true) := (setAwake_quiet _ _ _).trans (setAwake_quiet _ _ _)
  have p0 : Placed w c (toiAddBody (toiAddBody ((w.setAwake bA true).setAwake bB true, ⟨[], [c], []⟩) bA) bB |>.1.setCst c
      { (toiAddBody (toiAddBody ((w.setAwake bA true).setAwake bB true, ⟨[], [c], []⟩) bA) bB).1.cst c with island := true },
      (toiAddBody (toiAddBody ((w.setAwake bA true).setAwake bB true, ⟨[], [c], []⟩) bA) bB).2) := by
    refine ⟨q0.g, ?_, ?_⟩
    · exact congrArg CState.island (upd_same _ _ _)
    · intro i b hb
      replace hb : [bA, bB][i]? = some b := hb
      show Phys.island (upd (upd _ bA _) bB _ b) = true ∧ Phys.islandIndex (upd (upd _ bA _) bB _ b) = i
      match i, hb with
      | 0, hb =>
        have : bA = b := by simpa using hb
        subst this
        rw [upd_other _ _ hne, upd_same]
        exact ⟨rfl, rfl⟩
      | 1, hb =>
        have : bB = b := by simpa using hb
        subst this
        rw [upd_same]
        exact ⟨rfl, rfl⟩
      | n + 2, hb => simp at hb
  obtain ⟨a1, a2, a3⟩ := toiVisits_placed p0 ((hi.link.edges bA c bB).mpr ⟨hc, hj⟩) e1
  obtain ⟨b1, b2, b3⟩ := toiVisits_placed a1 ((hi.link.edges bB c bA).mpr ⟨hc, hj'⟩) e2
  have hp : [bA, bB] <+: x.2.bodies := List.IsPrefix.trans a2 b2
  replace a3 : x1.2.bodies.length + 1 ≤ [bA, bB].length + (w.g.bodies bA).contacts.length := a3
  obtain ⟨t, ht⟩ := hp
  refine ⟨fun i b hb => (b1.index i b hb).2, by rw [← ht]; rfl, by rw [← ht]; rfl, ?_⟩
  simp only [List.length_cons, List.length_nil] at a3
  omega

/-- The flagged bodies are those of the island, and the bodies of its contacts are among them. -/
structure Gathers (w0 : World F) (x : World F × Island) : Prop where
  g : x.1.g = w0.g
  flag : ∀ y, (x.1.phys y).island = true → (w0.phys y).island = true ∨ y ∈ x.2.bodies
  ends : ∀ k ∈ x.2.contacts, ∃ bA ∈ x.2.bodies, ∃ bB ∈ x.2.bodies, bA ≠ bB ∧
    (w0.g.fixtures (w0.g.contacts k).fA).body = some bA ∧ (w0.g.fixtures (w0.g.contacts k).fB).body = some bB
  joints : x.2.joints = []

theorem Gathers.same {w0 : World F} {x : World F × Island} (h : Gathers w0 x) {w : World F} (hg : w.g = x.1.g)
    (hp : ∀ b, (w.phys b).island = (x.1.phys b).island) : Gathers w0 (w, x.2) :=
  ⟨hg.trans h.g, fun y hy => h.flag y (by rw [← hp y]; exact hy), h.ends, h.joints⟩

theorem Gathers.add {w0 : World F} {x : World F × Island} (h : Gathers w0 x) (b : Nat) : Gathers w0 (toiAddBody x b) := by
  refine ⟨h.g, fun y hy => ?_, fun k hk => ?_, h.joints⟩
  · show _ ∨ y ∈ x.2.bodies ++ [b]
    by_cases hyb : y = b
    · subst hyb; simp
    · replace hy : (upd x.1.phys b _ y).island = true := hy
      rw [upd_other _ _ hyb] at hy
      rcases h.flag y hy with h | h
      · exact .inl h
      · exact .inr (by simp [h])
  · obtain ⟨bA, h1, bB, h2, h3⟩ := h.ends k hk
    exact ⟨bA, List.mem_append.mpr (.inl h1), bB, List.mem_append.mpr (.inl h2), h3⟩

theorem toiVisit_held {env : Env F} {alpha : F} {body : Nat} {w0 : World F} (hi : GInv w0.g) (hcl : ∀ y ∈ w0.g.bodyList, (w0.phys y).island = false)
    {x x' : World F × Island} {ed : Nat × Nat} (h : Gathers w0 x) (hb : body ∈ x.2.bodies) (he : ed ∈ (w0.g.bodies body).contacts)
    (e : toiVisit env alpha body x ed = some x') : Gathers w0 x' ∧ body ∈ x'.2.bodies := by
  unfold toiVisit at e
  dsimp only at e
  split at e
  · cases e; exact ⟨h, hb⟩
  split at e
  · cases e
  split at e
  · cases e; exact ⟨h, hb⟩
  split at e
  · cases e; exact ⟨h, hb⟩
  simp only [Option.bind_eq_bind, Option.bind_eq_some_iff] at e
  obtain ⟨w1, e1, w2, e2, e⟩ := e
  have p1 : Gathers w0 (w1, x.2) := by
    split at e1
    · obtain ⟨a, -, d⟩ := advance_calm0 e1
      exact h.same a (fun y => (d y).1)
    · cases e1; exact h
  obtain ⟨f2, c2, -, -⟩ := contactUpdate_spec e2
  have p2 : Gathers w0 (w2, x.2) := p1.same f2.g c2.island
  split at e
  · cases e
    exact ⟨p2.same (w := w2.restore ed.2 (x.1.phys ed.2).sweep) rfl (fun b => proj_upd (fun q : Phys F => q.island) (by rfl) b), hb⟩
  -- the contact is added
  obtain ⟨c1, j1⟩ := (hi.link.edges body ed.1 ed.2).mp he
  obtain ⟨bA, bB, hA, hB, hne, ⟨_, lA, -, hA2, -⟩, ⟨_, lB, -, hB2, -⟩, -⟩ := hi.ok ed.1 c1
  rw [hA] at hA2; cases hA2
  rw [hB] at hB2; cases hB2
  have key : ∀ (w : World F) (bs : List Nat), w.g = w2.g → (∀ y, (w.phys y).island = true → (w2.phys y).island = true ∨ y ∈ bs) → (∀ y ∈ x.2.bodies, y ∈ bs) → ed.2 ∈ bs →
      Gathers w0 (w, { x.2 with contacts := x.2.contacts ++ [ed.1], bodies := bs }) := by
    intro w bs hg hf hbs ho
    have hbb := hbs body hb
    refine ⟨hg.trans p2.g, fun y hy => ?_, fun k hk => ?_, h.joints⟩
    · rcases hf y hy with hy | hy
      · rcases p2.flag y hy with hy | hy
        · exact .inl hy
        · exact .inr (hbs y hy)
      · exact .inr hy
    · rcases List.mem_append.mp hk with hk | hk
      · obtain ⟨uA, h1, uB, h2, h3⟩ := h.ends k hk
        exact ⟨uA, hbs _ h1, uB, hbs _ h2, h3⟩
      · rw [List.mem_singleton] at hk
        subst hk
        unfold Graph.joins at j1
        rw [hA, hB] at j1
        rcases j1 with ⟨y1, y2⟩ | ⟨y1, y2⟩
        · cases y1; cases y2
          exact ⟨_, hbb, _, ho, hne, hA, hB⟩
        · cases y1; cases y2
          exact ⟨_, ho, _, hbb, hne, hA, hB⟩
  have ho : ed.2 ∈ w0.g.bodyList := by
    unfold Graph.joins at j1
    rw [hA, hB] at j1
    rcases j1 with ⟨y1, y2⟩ | ⟨y1, y2⟩
    · cases y2; exact lB
    · cases y2; exact lA
  split at e
  · rename_i hfl
    cases e
    refine ⟨key _ x.2.bodies rfl (fun y hy => .inl hy) (fun _ h => h) ?_, hb⟩
    rcases p2.flag ed.2 hfl with hf | hf
    · rw [hcl _ ho] at hf; cases hf
    · exact hf
  · cases e
    refine ⟨key _ (x.2.bodies ++ [ed.2]) ?_ (fun y hy => ?_) (fun y hy => by simp [hy]) (by simp), ?_⟩
    · show World.g (if _ then _ else _) = _
      split <;> rfl
    · by_cases hyo : y = ed.2
      · exact .inr (by simp [hyo])
      · refine .inl ?_
        replace hy : (upd (World.phys (if _ then _ else _)) ed.2 _ y).island = true := hy
        rw [upd_other _ _ hyo] at hy
        split at hy
        · rw [((setAwake_quiet _ _ _).toCalm0.island _)] at hy; exact hy
        · exact hy
    · show body ∈ x.2.bodies ++ [ed.2]
      simp [hb]

theorem toiVisits_held {env : Env F} {alpha : F} {body : Nat} {w0 : World F} (hi : GInv w0.g) (hcl : ∀ y ∈ w0.g.bodyList, (w0.phys y).island = false)
    {x x' : World F × Island} (h : Gathers w0 x) (hb : body ∈ x.2.bodies) (e : toiVisits env alpha x body = some x') : Gathers w0 x' := by
  unfold toiVisits at e
  split at e
  · rw [h.g] at e
    refine (foldlM_inv (fun y => Gathers w0 y ∧ body ∈ y.2.bodies) e ⟨h, hb⟩ (fun ed hed y y' hy e => toiVisit_held hi hcl hy.1 hy.2 hed e)).1
  · cases e; exact h

/-- The island around a time of impact is fit for the solvers. -/
theorem toiIsland_fitted {env : Env F} {w : World F} {c bA bB : Nat} {alpha : F} {x : World F × Island} (hi : GInv w.g) (hc : c ∈ w.g.contactList)
    (hj : w.g.joins c bA bB) (hcl : ∀ y ∈ w.g.bodyList, (w.phys y).island = false) (hA : bA ∈ w.g.bodyList) (hB : bB ∈ w.g.bodyList) (hne : bA ≠ bB)
    (e : w.toiIsland env c bA bB alpha = some x) : Fitted x.1 x.2 ∧ 2 ≤ x.2.bodies.length := by
  obtain ⟨i1, i2, i3, -⟩ := toiIsland_placed hi hc hj (hcl bA hA) (hcl bB hB) hne e
  unfold toiIsland at e
  simp only [Option.bind_eq_bind, Option.bind_eq_some_iff] at e
  obtain ⟨x1, e1, e2⟩ := e
  have q0 : Quiet w ((w.setAwake bA true).setAwake bB true) := (setAwake_quiet _ _ _).trans (setAwake_quiet _ _ _)
  have p0 : Gathers w (toiAddBody (toiAddBody ((w.setAwake bA true).setAwake bB true, ⟨[], [c], []⟩) bA) bB |>.1.setCst c
      { (toiAddBody (toiAddBody ((w.setAwake bA true).setAwake bB true, ⟨[], [c], []⟩) bA) bB).1.cst c with island := true },
      (toiAddBody (toiAddBody ((w.setAwake bA true).setAwake bB true, ⟨[], [c], []⟩) bA) bB).2) := by
    refine ⟨q0.g, fun y hy => ?_, fun k hk => ?_, rfl⟩
    · show _ ∨ y ∈ [bA, bB]
      by_cases h1 : y = bA
      · simp [h1]
      by_cases h2 : y = bB
      · simp [h2]
      replace hy : (upd (upd ((w.setAwake bA true).setAwake bB true).phys bA _) bB _ y).island = true := hy
      rw [upd_other _ _ h2, upd_other _ _ h1, q0.toCalm0.island] at hy
      exact .inl hy
    · replace hk : k ∈ [c] := hk
      rw [List.mem_singleton] at hk
      subst hk
      show ∃ uA ∈ [bA, bB], ∃ uB ∈ [bA, bB], _
      rcases hj with ⟨y1, y2⟩ | ⟨y1, y2⟩
      · exact ⟨bA, by simp, bB, by simp, hne, y1, y2⟩
      · exact ⟨bB, by simp, bA, by simp, hne.symm, y2, y1⟩
  have m1 := toiVisits_held hi hcl p0 (show bA ∈ [bA, bB] by simp) e1
  have hbs : [bA, bB] <+: x1.2.bodies := by
    have pp : ∀ {body : Nat} {y y' : World F × Island}, toiVisits env alpha y body = some y' → y.2.bodies <+: y'.2.bodies := by
      intro body y y' h
      unfold toiVisits at h
      split at h
      · refine foldlM_inv (fun z => y.2.bodies <+: z.2.bodies) h List.prefix_rfl (fun ed _ z z' hz hv => hz.trans ?_)
        exact toiVisit_prefix hv
      · cases h; exact List.prefix_rfl
    exact pp e1
  have m2 := toiVisits_held hi hcl m1 (hbs.subset (by simp)) e2
  refine ⟨⟨i1, fun k hk => ?_, fun j hj => ?_⟩, ?_⟩
  · rw [m2.g]; exact m2.ends k hk
  · rw [m2.joints] at hj; cases hj
  · have := (List.getElem?_eq_some_iff.mp i3).1
    omega

theorem islandSolveToi_total {env : Env F} (hT : ∀ (v : World F) c, v.listen env (.postSolve c) ≠ none) (w : World F) {isl : Island} {cap : Nat}
    (h : isl.bodies.length ≤ cap) (hp : w.pointed isl = true) (step : TimeStep F) (hs : env.toiSolvable w isl step = true) {iA iB : Int} {bA bB : Nat} (hA : isl.bodies[iA.toNat]? = some bA) (hB : isl.bodies[iB.toNat]? = some bB) :
    ∃ v, w.islandSolveToi env cap isl step iA iB = some v := by
  have hrep : ∀ v : World F, ∃ v', v.report env isl.contacts = some v' := by
    intro v
    unfold report
    generalize isl.contacts = cs
    induction cs generalizing v with
    | nil => exact ⟨v, rfl⟩
    | cons c cs ihc =>
      rw [List.foldlM_cons]
      cases hh : v.listen env (.postSolve c) with
      | none => exact absurd hh (hT v c)
      | some v1 => exact ihc v1
  unfold islandSolveToi
  rw [if_neg (by rw [hp, hs]; simpa using h)]
  simp only [hA, hB, Option.bind_eq_bind, Option.bind_some]
  exact hrep _

end World
end
end B2
