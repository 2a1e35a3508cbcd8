import Verif.Proofs.TreeRebuild
import Verif.Proofs.GrowableStack

/-! Queries, and the invariant along every history. -/
namespace B2
set_option linter.unusedSectionVars false
open Spec
variable {F D : Type} [LinearOrder F] [Add F] [Sub F] [Mul F] [Lit F]

theorem overlap_iff [RoundLaws F] (a b : AABB F) : AABB.overlap a b = true ↔ Meets a b := by
  simp only [AABB.overlap, Meets, Vec2.sub_x, Vec2.sub_y, gt_iff_lt, RoundLaws.sub_pos]
  split
  · rename_i h
    simp only [Bool.false_eq_true, false_iff, not_and, not_le]
    intro h1 h2 h3
    rcases h with h | h
    · exact absurd h2 (not_le.mpr h)
    · exact h
  · rename_i h
    push Not at h
    split
    · rename_i h'
      simp only [Bool.false_eq_true, false_iff]
      rintro ⟨h1, h2, h3, h4⟩
      rcases h' with h' | h'
      · exact absurd h1 (not_le.mpr h')
      · exact absurd h3 (not_le.mpr h')
    · rename_i h'
      push Not at h'
      simp only [true_iff]
      exact ⟨h'.1, h.1, h'.2, h.2⟩

theorem meets_combine {a b q : AABB F} : Meets a q ∨ Meets b q → Meets (AABB.combine a b) q := by
  simp only [Meets, AABB.combine, minV, maxV, b2min_eq, b2max_eq]
  rintro (⟨h1, h2, h3, h4⟩ | ⟨h1, h2, h3, h4⟩)
  · exact ⟨(min_le_left _ _).trans h1, h2.trans (le_max_left _ _), (min_le_left _ _).trans h3, h4.trans (le_max_left _ _)⟩
  · exact ⟨(min_le_right _ _).trans h1, h2.trans (le_max_right _ _), (min_le_right _ _).trans h3, h4.trans (le_max_right _ _)⟩

/-- Leaves in the order the query meets them. -/
def visit (m : Nat → Node F D) (q : AABB F) : T → List Nat
  | .leaf i => if AABB.overlap (m i).aabb q then [i] else []
  | .node i l r => if AABB.overlap (m i).aabb q then visit m q r ++ visit m q l else []

theorem visit_mem [RoundLaws F] {m : Nat → Node F D} {q : AABB F} {s : T} : ∀ {p : Ref}, Rep m p s →
    (∀ i, i ∈ visit m q s ↔ i ∈ s.leaves ∧ Meets (m i).aabb q) ∧
    (∀ i ∈ s.leaves, Meets (m i).aabb q → Meets (m s.id).aabb q) := by
  induction s with
  | leaf j =>
    intro p _
    constructor
    · intro i
      unfold visit
      by_cases h : AABB.overlap (m j).aabb q = true
      · rw [if_pos h, List.mem_singleton, T.leaves, List.mem_singleton]
        constructor
        · rintro rfl; exact ⟨rfl, (overlap_iff _ _).mp h⟩
        · exact fun h => h.1
      · rw [if_neg h, T.leaves, List.mem_singleton]
        simp only [List.not_mem_nil, false_iff, not_and]
        rintro rfl h'
        exact h ((overlap_iff _ _).mpr h')
    · intro i hi h
      simp only [T.leaves, List.mem_singleton] at hi
      subst hi; exact h
  | node j l r hl hr =>
    rintro p ⟨-, -, -, -, b5, b6, b7⟩
    obtain ⟨l1, l2⟩ := hl b6
    obtain ⟨r1, r2⟩ := hr b7
    have hup : ∀ i ∈ (T.node j l r).leaves, Meets (m i).aabb q → Meets (m j).aabb q := by
      intro i hi h
      rw [b5]
      simp only [T.leaves, List.mem_append] at hi
      rcases hi with hi | hi
      · exact meets_combine (Or.inl (l2 i hi h))
      · exact meets_combine (Or.inr (r2 i hi h))
    refine ⟨fun i => ?_, hup⟩
    unfold visit
    by_cases h : AABB.overlap (m j).aabb q = true
    · rw [if_pos h, List.mem_append, l1, r1, T.leaves, List.mem_append]; tauto
    · rw [if_neg h]
      simp only [List.not_mem_nil, false_iff, not_and]
      intro hi h'
      exact h ((overlap_iff _ _).mpr (hup i hi h'))

theorem visit_sublist (m : Nat → Node F D) (q : AABB F) (s : T) (h : s.leaves.Nodup) : (visit m q s).Nodup ∧
    ∀ i ∈ visit m q s, i ∈ s.leaves := by
  induction s with
  | leaf j => unfold visit; split <;> simp [T.leaves]
  | node j l r hl hr =>
    simp only [T.leaves, List.nodup_append] at h
    obtain ⟨h1, h2, h3⟩ := h
    obtain ⟨l1, l2⟩ := hl h1
    obtain ⟨r1, r2⟩ := hr h2
    unfold visit
    split
    · rw [List.nodup_append]
      refine ⟨⟨r1, l1, fun a ha b hb e => ?_⟩, ?_⟩
      · subst e; exact h3 _ (l2 _ hb) _ (r2 _ ha) rfl
      · intro i hi
        rw [T.leaves, List.mem_append]
        rcases List.mem_append.mp hi with hi | hi
        · exact Or.inr (r2 i hi)
        · exact Or.inl (l2 i hi)
    · simp

theorem queryLoop_pop {S : Type} {t : Tree F D} (cb : S → Nat → S × Bool) (q : AABB F) (fuel : Nat)
    {stack stack' : GStack.State Ref} (s : S) (hc : GStack.getCount stack > 0) (id : Nat)
    (hp : GStack.pop 256 stack = some (some id, stack')) (hlt : id < t.cap) :
    Tree.queryLoop t cb q (fuel + 1) stack s =
      if AABB.overlap (t.nodes id).aabb q then
        if (t.nodes id).isLeaf then
          if (cb s id).2 then Tree.queryLoop t cb q fuel stack' (cb s id).1 else some (cb s id).1
        else
          (GStack.push 256 stack' (t.nodes id).child1).bind fun st =>
          (GStack.push 256 st (t.nodes id).child2).bind fun st => Tree.queryLoop t cb q fuel st s
      else Tree.queryLoop t cb q fuel stack' s := by
  rw [Tree.queryLoop, if_pos hc, hp]
  simp only [Option.bind_eq_bind, Option.bind_some, Tree.get_of_lt hlt]
  rfl

/-- The nodes still to be looked at, top of the stack first. -/
theorem queryLoop_spec {S : Type} {t : Tree F D} (cb : S → Nat → S × Bool) (q : AABB F) : ∀ (fuel : Nat)
    (ts : List T) (stack : GStack.State Ref) (s : S), GStack.Rep 256 stack (ts.reverse.map fun x => some x.id) →
    (∀ x ∈ ts, (∃ p, Rep t.nodes p x) ∧ ∀ j ∈ x.ids, j < t.cap) → (ts.flatMap T.ids).length < fuel →
    Tree.queryLoop t cb q fuel stack s = some (callUntil cb s (ts.flatMap (visit t.nodes q))) := by
  intro fuel
  induction fuel with
  | zero => intro ts stack s _ _ h; omega
  | succ fuel ih =>
    intro ts stack s hst hts hf
    cases ts with
    | nil =>
      have hc := hst.count
      simp only [List.reverse_nil, List.map_nil, List.length_nil] at hc
      rw [Tree.queryLoop, if_neg (by omega)]
      rfl
    | cons x ts =>
      have hc := hst.count
      have hst' : GStack.Rep 256 stack ((ts.reverse.map fun x => some x.id) ++ [some x.id]) := by
        simpa using hst
      obtain ⟨stack', hp, hst2⟩ := hst'.pop_append
      have hc' : GStack.getCount stack > 0 := by rw [hc]; simp
      obtain ⟨⟨p, hrep⟩, hlt⟩ := hts x (by simp)
      have hts' : ∀ y ∈ ts, (∃ p, Rep t.nodes p y) ∧ ∀ j ∈ y.ids, j < t.cap := fun y hy => hts y (by simp [hy])
      have hf' : x.ids.length + (ts.flatMap T.ids).length < fuel + 1 := by
        simpa using hf
      rw [List.flatMap_cons]
      cases x with
      | leaf i =>
        obtain ⟨-, b2, -, -⟩ := hrep
        simp only [T.ids, List.length_singleton] at hf'
        have hnext := fun s => ih ts stack' s hst2 hts' (by omega)
        rw [queryLoop_pop cb q fuel s hc' i hp (hlt i (by simp [T.ids]))]
        simp only [visit]
        by_cases ho : AABB.overlap (t.nodes i).aabb q = true
        · rw [if_pos ho, if_pos ho]
          simp only [Node.isLeaf, b2, Option.isNone_none, if_true, List.singleton_append, callUntil]
          split
          · exact hnext _
          · rfl
        · rw [if_neg ho, if_neg ho]
          exact hnext s
      | node i l r =>
        obtain ⟨b1, b2, b3, b4, b5, b6, b7⟩ := hrep
        simp only [T.ids, List.length_cons, List.length_append] at hf'
        rw [queryLoop_pop cb q fuel s hc' i hp (hlt i (by simp [T.ids]))]
        simp only [visit]
        by_cases ho : AABB.overlap (t.nodes i).aabb q = true
        · rw [if_pos ho, if_pos ho]
          simp only [Node.isLeaf, b2, b3, Option.isNone_some, Bool.false_eq_true, if_false]
          obtain ⟨s1, e1, h1⟩ := hst2.push (some l.id)
          obtain ⟨s2, e2, h2⟩ := h1.push (some r.id)
          have h3 := ih (r :: l :: ts) s2 s (by simpa using h2) (by
            intro y hy
            simp only [List.mem_cons] at hy
            rcases hy with rfl | rfl | hy
            · exact ⟨⟨_, b7⟩, fun j hj => hlt j (by simp [T.ids, hj])⟩
            · exact ⟨⟨_, b6⟩, fun j hj => hlt j (by simp [T.ids, hj])⟩
            · exact hts' y hy) (by
            simp only [List.flatMap_cons, List.length_append]; omega)
          rw [e1, Option.bind_some, e2, Option.bind_some, h3]
          simp [List.append_assoc]
        · rw [if_neg ho, if_neg ho]
          exact ih ts stack' s hst2 hts' (by omega)

theorem new_rep : GStack.Rep 256 (GStack.new (none : Ref)) [] := ⟨by decide, rfl⟩

theorem query_spec [RoundLaws F] {t : Tree F D} {g : Nat → Option (Proxy F D)} (h : TInv t g) (q : AABB F) :
    ∃ ids : List Nat, ids.Nodup ∧ (∀ i, i ∈ ids ↔ ∃ p, g i = some p ∧ Meets p.fat q) ∧
      ∀ (S : Type) (cb : S → Nat → S × Bool) (s : S), t.query cb q s = some (callUntil cb s ids) := by
  obtain ⟨o, h⟩ := h
  have hlive : ∀ i, i ∈ oleaves o ∧ Meets (t.nodes i).aabb q ↔ ∃ p, g i = some p ∧ Meets p.fat q := by
    intro i
    rw [h.live i]
    constructor
    · rintro ⟨h1, h2⟩
      obtain ⟨p, hp⟩ := Option.ne_none_iff_exists'.mp h1
      exact ⟨p, hp, by rwa [← (h.pay i p hp).1]⟩
    · rintro ⟨p, hp, h2⟩
      exact ⟨by rw [hp]; simp, by rwa [(h.pay i p hp).1]⟩
  cases o with
  | none =>
    have hr : t.root = none := h.root
    refine ⟨[], List.nodup_nil, fun i => ?_, fun S cb s => ?_⟩
    · rw [← hlive]; simp [oleaves]
    · obtain ⟨s1, e1, h1⟩ := new_rep.push (none : Ref)
      obtain ⟨s2, e2, h2⟩ := GStack.Rep.pop_append (l := []) h1
      have c1 := h1.count
      have c2 := h2.count
      simp only [List.nil_append, List.length_singleton, List.length_nil] at c1 c2
      unfold Tree.query
      rw [hr, e1]
      simp only [Option.bind_eq_bind, Option.bind_some]
      rw [Tree.queryLoop, if_pos (by omega), e2]
      simp only [Option.bind_eq_bind, Option.bind_some]
      rw [Tree.queryLoop, if_neg (by omega)]
      rfl
  | some X =>
    obtain ⟨hr, hrep⟩ := h.root
    have hv := visit_mem (q := q) hrep
    refine ⟨visit t.nodes q X, (visit_sublist _ _ _ (h.counts.1)).1, fun i => ?_, fun S cb s => ?_⟩
    · rw [hv.1 i]; exact hlive i
    · obtain ⟨s1, e1, h1⟩ := new_rep.push (some X.id)
      unfold Tree.query
      rw [hr]
      change Option.bind (GStack.push 256 (GStack.new none) (some X.id)) _ = _
      rw [e1, Option.bind_some, queryLoop_spec cb q _ [X] s1 s (by simpa using h1)]
      · simp
      · intro x hx
        simp only [List.mem_singleton] at hx; subst hx
        exact ⟨⟨_, hrep⟩, h.pool.lt⟩
      · have : X.ids.length ≤ t.cap := h.pool.length_le
        simp; omega

/-! ### Covering -/

theorem contains_iff (a b : AABB F) : a.contains b = true ↔ Covers a b := by
  simp [AABB.contains, Covers]
  tauto

theorem covers_fatten [RoundLaws F] (b : AABB F) : Covers (Tree.fatten b) b := by
  have h := RoundLaws.ext_nonneg (F := F)
  exact ⟨RoundLaws.sub_le _ _ h, RoundLaws.sub_le _ _ h, RoundLaws.le_add _ _ h, RoundLaws.le_add _ _ h⟩

theorem covers_fatMoved [RoundLaws F] (b : AABB F) (d : Vec2 F) : Covers (Tree.fatMoved b d) b := by
  obtain ⟨h1, h2, h3, h4⟩ := covers_fatten b
  unfold Tree.fatMoved
  dsimp only
  have hx : ∀ x r : F, r < lit 0 → x + r ≤ x := RoundLaws.add_le
  have hy : ∀ x r : F, ¬ r < lit 0 → x ≤ x + r := fun x r h => RoundLaws.le_add x r (not_lt.mp h)
  split
  · rename_i c2
    split
    · rename_i c1
      exact ⟨(hx _ _ c1).trans h1, (hx _ _ c2).trans h2, h3, h4⟩
    · rename_i c1
      exact ⟨h1, (hx _ _ c2).trans h2, h3.trans (hy _ _ c1), h4⟩
  · rename_i c2
    split
    · rename_i c1
      exact ⟨(hx _ _ c1).trans h1, h2, h3, h4.trans (hy _ _ c2)⟩
    · rename_i c1
      exact ⟨h1, h2, h3.trans (hy _ _ c1), h4.trans (hy _ _ c2)⟩

theorem getFatAabb_of {t : Tree F D} {g : Nat → Option (Proxy F D)} (h : TInv t g) {i : Nat} {p : Proxy F D}
    (hp : g i = some p) : t.getFatAabb i = some p.fat := by
  obtain ⟨o, h⟩ := h
  simp [Tree.getFatAabb, Tree.get_of_lt (h.lt (by rw [hp]; simp)), (h.pay i p hp).1]

theorem covers_shift [RoundLaws F] {a b : AABB F} (o : Vec2 F) (h : Covers a b) : Covers (shift o a) (shift o b) :=
  ⟨RoundLaws.sub_mono _ _ _ h.1, RoundLaws.sub_mono _ _ _ h.2.1, RoundLaws.sub_mono _ _ _ h.2.2.1,
    RoundLaws.sub_mono _ _ _ h.2.2.2⟩

/-- What holds after every history. -/
structure HistInv (t : Tree F D) (g : Nat → Option (Proxy F D)) (peak : Nat) : Prop where
  inv : TInv t g
  cap_lo : 16 ≤ t.cap
  cap_hi : t.cap ≤ max 16 (4 * peak - 2)
  peak : nLive g ≤ peak
  covers : ∀ i p, g i = some p → Covers p.fat p.box

theorem nLive_upd {g : Nat → Option (Proxy F D)} {id : Nat} {p p' : Proxy F D} (h : g id = some p) :
    nLive (upd g id (some p')) = nLive g := by
  unfold nLive
  congr 1
  ext i
  simp only [Set.mem_setOf_eq, mem_upd_some]
  constructor
  · rintro (rfl | h')
    · rw [h]; simp
    · exact h'
  · exact Or.inr

theorem histInv [RoundLaws F] {t : Tree F D} {g : Nat → Option (Proxy F D)} {peak : Nat} (h : Hist t g peak) :
    HistInv t g peak := by
  induction h with
  | new =>
    refine ⟨new_inv.1, by rw [new_inv.2], by rw [new_inv.2]; exact le_max_left _ _, ?_, fun i p hp => by cases hp⟩
    unfold nLive; simp
  | @create t t' g peak box d id fat _ e1 e2 ih =>
    obtain ⟨t1, id1, a1, a2, a3, a4, hcap, a5⟩ := createProxy_spec ih.inv box d
    rw [e1] at a1
    obtain ⟨rfl, rfl⟩ := Prod.mk.inj (Option.some.inj a1)
    rw [a3] at e2
    obtain rfl := Option.some.inj e2
    refine ⟨a4, by have := ih.cap_lo; omega, ?_, le_max_right _ _, ?_⟩
    · have := ih.cap_hi
      rcases a5 with h | h
      · rw [h]; omega
      · omega
    · intro i p hp
      by_cases hi : i = id
      · subst hi
        simp only [upd_same, Option.some.injEq] at hp
        subst hp; exact covers_fatten _
      · rw [upd_other _ _ hi] at hp; exact ih.covers i p hp
  | @destroy t t' g peak id _ hid e ih =>
    obtain ⟨t1, a1, a2, a3⟩ := destroyProxy_spec ih.inv hid
    rw [e] at a1
    obtain rfl := Option.some.inj a1
    have hle : nLive (upd g id none) ≤ nLive g := by
      unfold nLive
      apply Set.ncard_le_ncard
      · intro i hi
        exact (mem_upd_none.mp hi).2
      · obtain ⟨o, hi⟩ := ih.inv
        have : {i | g i ≠ none} = {i | i ∈ oleaves o} := by
          ext i; exact (hi.live i).symm
        rw [this]; exact List.finite_toSet _
    refine ⟨a2, by rw [a3]; exact ih.cap_lo, by rw [a3]; exact ih.cap_hi, hle.trans ih.peak, ?_⟩
    intro i p hp
    have hi : i ≠ id := by rintro rfl; simp at hp
    rw [upd_other _ _ hi] at hp; exact ih.covers i p hp
  | @move t t' g peak id p box disp b fat _ hid e1 e2 ih =>
    obtain ⟨t1, b1, a1, a2, a3, a4⟩ := moveProxy_spec ih.inv hid box disp (by have := ih.cap_lo; omega)
    rw [e1] at a1
    obtain ⟨rfl, rfl⟩ := Prod.mk.inj (Option.some.inj a1)
    have hmain : TInv t' (upd g id (some { p with box := box, fat := fat, moved := p.moved || b })) ∧ Covers fat box := by
      cases b with
      | false =>
        obtain ⟨rfl, hcon⟩ := a3 rfl
        rw [getFatAabb_of ih.inv hid] at e2
        obtain rfl := Option.some.inj e2
        refine ⟨?_, (contains_iff _ _).mp hcon⟩
        obtain ⟨o, hi⟩ := ih.inv
        refine ⟨o, hi.root, hi.pool, ?_, ?_⟩
        · intro i
          rw [mem_upd_some, hi.live i]
          constructor
          · exact Or.inr
          · rintro (rfl | h')
            · rw [hid]; simp
            · exact h'
        · intro i q hq
          by_cases hi' : i = id
          · subst hi'
            simp only [upd_same, Option.some.injEq] at hq
            subst hq
            obtain ⟨k1, k2, k3⟩ := hi.pay i p hid
            exact ⟨k1, k2, by simpa using k3⟩
          · rw [upd_other _ _ hi'] at hq; exact hi.pay i q hq
      | true =>
        have h4 := a4 rfl
        rw [getFatAabb_of h4 (upd_same ..)] at e2
        obtain rfl := Option.some.inj e2
        refine ⟨by simpa using h4, covers_fatMoved _ _⟩
    refine ⟨hmain.1, by rw [a2]; exact ih.cap_lo, by rw [a2]; exact ih.cap_hi, by rw [nLive_upd hid]; exact ih.peak, ?_⟩
    intro i q hq
    by_cases hi' : i = id
    · subst hi'
      simp only [upd_same, Option.some.injEq] at hq
      subst hq; exact hmain.2
    · rw [upd_other _ _ hi'] at hq; exact ih.covers i q hq
  | @clearMoved t t' g peak id p _ hid e ih =>
    obtain ⟨t1, a1, a2, a3⟩ := clearMoved_spec ih.inv hid
    rw [e] at a1
    obtain rfl := Option.some.inj a1
    refine ⟨a3, by rw [a2]; exact ih.cap_lo, by rw [a2]; exact ih.cap_hi, by rw [nLive_upd hid]; exact ih.peak, ?_⟩
    intro i q hq
    by_cases hi' : i = id
    · subst hi'
      simp only [upd_same, Option.some.injEq] at hq
      subst hq; exact ih.covers i p hid
    · rw [upd_other _ _ hi'] at hq; exact ih.covers i q hq
  | @rebuild t t' g peak _ e ih =>
    rcases rebuild_spec ih.inv with ⟨h1, -⟩ | ⟨t1, a1, a2, a3, -⟩
    · rw [e] at h1; cases h1
    · rw [e] at a1
      obtain rfl := Option.some.inj a1
      exact ⟨a2, by rw [a3]; exact ih.cap_lo, by rw [a3]; exact ih.cap_hi, ih.peak, ih.covers⟩
  | @shift t g peak o _ ih =>
    have hn : nLive (fun i => (g i).map fun p : Proxy F D => { p with box := shift o p.box, fat := shift o p.fat }) = nLive g := by
      unfold nLive
      congr 1
      ext i
      simp
    refine ⟨shiftOrigin_spec ih.inv o, ih.cap_lo, ih.cap_hi, by rw [hn]; exact ih.peak, ?_⟩
    intro i q hq
    cases hg : g i with
    | none => simp only [hg] at hq; cases hq
    | some p =>
      simp only [hg, Option.map_some, Option.some.injEq] at hq
      subst hq
      exact covers_shift o (ih.covers i p hg)

end B2
