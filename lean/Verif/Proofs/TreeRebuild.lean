import Verif.Proofs.TreeProxy

/-! `rebuild_bottom_up`. -/
namespace B2
set_option linter.unusedSectionVars false
open Spec
variable {F D : Type} [LinearOrder F] [Add F] [Sub F] [Mul F] [Lit F]

/-- State after the first `k` turns of the collecting loop. -/
structure Collected (t : Tree F D) (S : T) (k : Nat) (s : Tree F D × List Nat) : Prop where
  cap : s.1.cap = t.cap
  nodes : s.2 = (List.range k).filter (· ∈ S.leaves)
  pool : PoolInv s.1 (S.ids.filter fun j => j ∈ S.leaves ∨ k ≤ j)
  leaves : ∀ j ∈ S.leaves, s.1.nodes j = if j < k then { t.nodes j with parent := none } else t.nodes j
  inner : ∀ j ∈ S.ids, j ∉ S.leaves → k ≤ j → s.1.nodes j = t.nodes j

theorem filter_step_perm {l : List Nat} (hnd : l.Nodup) {k : Nat} (hk : k ∈ l) (q : Nat → Prop) [DecidablePred q]
    (hq : ¬ q k) : (k :: l.filter fun j => q j ∨ k + 1 ≤ j).Perm (l.filter fun j => q j ∨ k ≤ j) := by
  rw [List.perm_ext_iff_of_nodup]
  · intro a
    simp only [List.mem_cons, List.mem_filter, decide_eq_true_eq]
    constructor
    · rintro (rfl | ⟨h1, h2 | h2⟩)
      · exact ⟨hk, Or.inr le_rfl⟩
      · exact ⟨h1, Or.inl h2⟩
      · exact ⟨h1, Or.inr (by omega)⟩
    · rintro ⟨h1, h2 | h2⟩
      · exact Or.inr ⟨h1, Or.inl h2⟩
      · rcases Nat.eq_or_lt_of_le h2 with h | h
        · exact Or.inl h.symm
        · exact Or.inr ⟨h1, Or.inr h⟩
  · rw [List.nodup_cons]
    refine ⟨?_, hnd.filter _⟩
    simp only [List.mem_filter, decide_eq_true_eq]
    rintro ⟨-, h | h⟩
    · exact hq h
    · omega
  · exact hnd.filter _

theorem collect_step {t : Tree F D} {S : T} (hrep : Rep t.nodes none S) (hpool : PoolInv t S.ids) {k : Nat}
    (hk : k < t.cap) {s : Tree F D × List Nat} (h : Collected t S k s) :
    ∃ s', Tree.collectStep t.count s k = some s' ∧ Collected t S (k + 1) s' := by
  have hks : k < s.1.cap := by rw [h.cap]; exact hk
  have hnd := hpool.nodup
  have hlvnd := S.leaves_nodup hnd
  unfold Tree.collectStep
  simp only [Tree.get_of_lt hks, Option.bind_eq_bind, Option.bind_some]
  by_cases hin : k ∈ S.ids
  · by_cases hlf : k ∈ S.leaves
    · have hnode : s.1.nodes k = t.nodes k := by rw [h.leaves k hlf, if_neg (by omega)]
      obtain ⟨c1, c2, c3⟩ := hrep.leaf_node k hlf
      rw [hnode, if_neg (by rw [c3]; omega)]
      simp only [Node.isLeaf, c1, Option.isNone_none, if_true]
      have hlen : s.2.length < t.count := by
        have h1 : (k :: s.2).length ≤ S.leaves.length := by
          apply List.Subperm.length_le
          apply List.subperm_of_subset
          · rw [List.nodup_cons, h.nodes]
            refine ⟨?_, List.nodup_range.filter _⟩
            simp
          · intro a ha
            rcases List.mem_cons.mp ha with rfl | ha
            · exact hlf
            · rw [h.nodes] at ha
              simpa using (List.mem_filter.mp ha).2
        obtain ⟨fl, -, -, -, -, h5, -⟩ := hpool
        have h6 := S.ids_length
        simp only [List.length_cons] at h1
        omega
      rw [Tree.modify, if_pos hks, Option.bind_some, if_pos hlen]
      refine ⟨_, rfl, h.cap, ?_, ?_, ?_, ?_⟩
      · rw [List.range_succ, List.filter_append, h.nodes]
        simp [hlf]
      · have hperm : (S.ids.filter fun j => j ∈ S.leaves ∨ k + 1 ≤ j).Perm
            (S.ids.filter fun j => j ∈ S.leaves ∨ k ≤ j) := by
          apply List.Perm.of_eq
          apply List.filter_congr
          intro x _
          by_cases hx : x = k
          · subst hx; simp [hlf]
          · have : k + 1 ≤ x ↔ k ≤ x := by omega
            simp [this]
        refine PoolInv.perm ?_ hperm
        refine h.pool.congr ⟨rfl, rfl, rfl⟩ fun j hj => ?_
        refine upd_other _ _ ?_
        rintro rfl
        exact hj (by simp [hin, hlf])
      · intro j hj
        by_cases hjk : j = k
        · subst hjk
          show upd _ _ _ _ = _
          rw [upd_same, if_pos (by omega), hnode]
        · show upd _ _ _ _ = _
          rw [upd_other _ _ hjk, h.leaves j hj]
          by_cases hlt : j < k
          · rw [if_pos hlt, if_pos (by omega)]
          · rw [if_neg hlt, if_neg (by omega)]
      · intro j hj1 hj2 hj3
        show upd _ _ _ _ = _
        rw [upd_other _ _ (by omega)]
        exact h.inner j hj1 hj2 (by omega)
    · have hnode : s.1.nodes k = t.nodes k := h.inner k hin hlf le_rfl
      obtain ⟨u1, u2⟩ := hrep.used k hin
      have hc1 : (t.nodes k).child1.isNone = false := by
        cases hcc : (t.nodes k).child1 with
        | none => exact absurd (u2 hcc) hlf
        | some _ => rfl
      rw [hnode, if_neg (by omega)]
      simp only [Node.isLeaf, hc1, Bool.false_eq_true, if_false]
      have hperm := filter_step_perm hnd hin (fun j => j ∈ S.leaves) hlf
      obtain ⟨t', b1, b2, b3, b4, b5⟩ := free_spec (h.pool.perm hperm)
      rw [b1]
      refine ⟨_, rfl, b4.trans h.cap, ?_, b2, ?_, ?_⟩
      · rw [List.range_succ, List.filter_append, ← h.nodes]
        simp [hlf]
      · intro j hj
        have hjk : j ≠ k := by rintro rfl; exact hlf hj
        show t'.nodes j = _
        rw [b5 j hjk, h.leaves j hj]
        by_cases hlt : j < k
        · rw [if_pos hlt, if_pos (by omega)]
        · rw [if_neg hlt, if_neg (by omega)]
      · intro j hj1 hj2 hj3
        show t'.nodes j = _
        rw [b5 j (by omega)]
        exact h.inner j hj1 hj2 (by omega)
  · have hh : (s.1.nodes k).height = -1 := by
      refine h.pool.free_height k hks ?_
      simp [hin]
    have hlf : k ∉ S.leaves := fun hc => hin (T.leaves_subset _ _ hc)
    rw [if_pos (by omega)]
    refine ⟨_, rfl, h.cap, ?_, ?_, ?_, ?_⟩
    · rw [List.range_succ, List.filter_append, ← h.nodes]
      simp [hlf]
    · refine h.pool.perm (List.Perm.of_eq (List.filter_congr ?_))
      intro x hx
      have hxk : x ≠ k := by rintro rfl; exact hin hx
      have : k + 1 ≤ x ↔ k ≤ x := by omega
      simp [this]
    · intro j hj
      have hjk : j ≠ k := by rintro rfl; exact hlf hj
      rw [h.leaves j hj]
      by_cases hlt : j < k
      · rw [if_pos hlt, if_pos (by omega)]
      · rw [if_neg hlt, if_neg (by omega)]
    · intro j hj1 hj2 hj3
      exact h.inner j hj1 hj2 (by omega)

theorem collect_spec {t : Tree F D} {S : T} (hrep : Rep t.nodes none S) (hpool : PoolInv t S.ids) :
    ∀ k ≤ t.cap, ∃ s, (List.range k).foldlM (Tree.collectStep t.count) (t, []) = some s ∧ Collected t S k s
  | 0, _ => by
    refine ⟨(t, []), rfl, rfl, rfl, ?_, ?_, ?_⟩
    · refine hpool.perm (List.Perm.of_eq ?_)
      simp
    · intro j _; simp
    · intro j _ _ _; rfl
  | k + 1, hk => by
    obtain ⟨s, h1, h2⟩ := collect_spec hrep hpool k (by omega)
    obtain ⟨s', h3, h4⟩ := collect_step hrep hpool (by omega) h2
    refine ⟨s', ?_, h4⟩
    rw [List.range_succ, List.foldlM_append, h1]
    show (do let s ← some s; _) = _
    simp only [List.foldlM_cons, List.foldlM_nil, Option.bind_eq_bind, Option.bind_some, h3]
    rfl

/-! ### Merging -/

theorem mem_pairs {n i j : Nat} : (i, j) ∈ Tree.pairs n ↔ i < j ∧ j < n := by
  unfold Tree.pairs
  simp only [List.mem_flatMap, List.mem_range, List.mem_map, List.mem_range'_1, Prod.mk.injEq]
  constructor
  · rintro ⟨a, h1, b, ⟨h2, h3⟩, rfl, rfl⟩; omega
  · rintro ⟨h1, h2⟩; exact ⟨i, by omega, j, ⟨by omega, by omega⟩, rfl, rfl⟩

theorem pairFold {t : Tree F D} {nodes : List Nat} (hb : ∀ j ∈ nodes, j < t.cap) : ∀ (ps : List (Nat × Nat))
    (s : F × Option (Nat × Nat)), (∀ p ∈ ps, p.1 < p.2 ∧ p.2 < nodes.length) →
    ∃ r, ps.foldlM (Tree.pairStep t nodes) s = some r ∧ (r.2 = s.2 ∨ ∃ p ∈ ps, r.2 = some p) ∧
      (s.2 ≠ none → r.2 ≠ none)
  | [], s, _ => ⟨s, rfl, Or.inl rfl, id⟩
  | p :: ps, s, hp => by
    obtain ⟨h1, h2⟩ := hp p (by simp)
    have g : ∀ k, (hk : k < nodes.length) → t.getR nodes[k]? = some (t.nodes nodes[k]) := by
      intro k hk
      simp [Tree.getR, List.getElem?_eq_getElem hk, Tree.get_of_lt (hb _ (List.getElem_mem hk))]
    have hstep : ∃ s', Tree.pairStep t nodes s p = some s' ∧ (s' = s ∨ s'.2 = some p) := by
      unfold Tree.pairStep
      rw [g p.1 (by omega), g p.2 h2]
      simp only [Option.bind_eq_bind, Option.bind_some]
      refine ⟨_, rfl, ?_⟩
      split
      · exact Or.inr rfl
      · exact Or.inl rfl
    obtain ⟨s', e, hs'⟩ := hstep
    obtain ⟨r, e2, h3, h4⟩ := pairFold hb ps s' fun q hq => hp q (by simp [hq])
    refine ⟨r, ?_, ?_, ?_⟩
    · rw [List.foldlM_cons, e]; exact e2
    · rcases h3 with h3 | ⟨q, hq, h3⟩
      · rcases hs' with rfl | hs'
        · exact Or.inl h3
        · exact Or.inr ⟨p, by simp, by rw [h3, hs']⟩
      · exact Or.inr ⟨q, by simp [hq], h3⟩
    · intro hs
      apply h4
      rcases hs' with rfl | hs'
      · exact hs
      · rw [hs']; simp

/-- Replacing two entries of a list by one, as `rebuild_bottom_up` does. -/
theorem list_merge {α : Type} (l : List α) (i j : Nat) (hij : i < j) (hj : j < l.length) (x last : α)
    (hl : l.getLast? = some last) :
    ∃ r, l.Perm (l[i] :: l[j] :: r) ∧ (((l.set j last).set i x).dropLast).Perm (x :: r) := by
  obtain ⟨a, l1, rfl, ha⟩ : ∃ a l1, l = a ++ l1 ∧ a.length = i :=
    ⟨l.take i, l.drop i, (List.take_append_drop i l).symm, by simp; omega⟩
  obtain ⟨u, l2, rfl⟩ : ∃ u l2, l1 = u :: l2 := by
    cases l1 with
    | nil => simp at hj; omega
    | cons u l2 => exact ⟨u, l2, rfl⟩
  obtain ⟨b, l3, rfl, hb⟩ : ∃ b l3, l2 = b ++ l3 ∧ b.length = j - i - 1 :=
    ⟨l2.take (j - i - 1), l2.drop (j - i - 1), (List.take_append_drop _ l2).symm, by
      simp at hj ⊢; omega⟩
  obtain ⟨v, c, rfl⟩ : ∃ v c, l3 = v :: c := by
    cases l3 with
    | nil => simp at hj; omega
    | cons v c => exact ⟨v, c, rfl⟩
  have hgi : (a ++ u :: (b ++ v :: c))[i]'(by omega) = u := by
    subst ha; simp
  have e1 : a ++ u :: (b ++ v :: c) = (a ++ u :: b) ++ v :: c := by simp
  have hlen1 : (a ++ u :: b).length = j := by simp; omega
  have hgj : (a ++ u :: (b ++ v :: c))[j]'hj = v := by
    simp only [e1]; subst hlen1; simp
  have hset : ((a ++ u :: (b ++ v :: c)).set j last).set i x = a ++ x :: (b ++ last :: c) := by
    rw [e1, List.set_append_right _ _ (by omega), hlen1, Nat.sub_self, List.set_cons_zero]
    rw [show a ++ u :: b ++ last :: c = a ++ u :: (b ++ last :: c) by simp]
    rw [List.set_append_right _ _ (by omega), ha, Nat.sub_self, List.set_cons_zero]
  rw [hgi, hgj, hset]
  have hperm : (a ++ u :: (b ++ v :: c)).Perm (u :: v :: (a ++ (b ++ c))) := by
    refine List.perm_middle.trans (List.Perm.cons _ ?_)
    rw [← List.append_assoc, ← List.append_assoc]
    exact List.perm_middle
  refine ⟨a ++ (b ++ c), hperm, ?_⟩
  rcases List.eq_nil_or_concat c with rfl | ⟨c', w, rfl⟩
  · have : (a ++ x :: (b ++ [last])).dropLast = a ++ x :: b := by
      rw [show a ++ x :: (b ++ [last]) = (a ++ x :: b) ++ [last] by simp, List.dropLast_concat]
    rw [this, List.append_nil]
    exact List.perm_middle
  · have hw : last = w := by
      rw [show a ++ u :: (b ++ v :: c'.concat w) = (a ++ u :: (b ++ v :: c')) ++ [w] by simp,
        List.getLast?_concat] at hl
      exact (Option.some.inj hl).symm
    subst hw
    have : (a ++ x :: (b ++ last :: c'.concat last)).dropLast = a ++ x :: (b ++ last :: c') := by
      rw [show a ++ x :: (b ++ last :: c'.concat last) = (a ++ x :: (b ++ last :: c')) ++ [last] by simp,
        List.dropLast_concat]
    rw [this, List.concat_eq_append]
    refine List.perm_middle.trans (List.Perm.cons _ ?_)
    refine List.Perm.append_left _ (List.Perm.append_left _ ?_)
    exact (List.perm_append_singleton _ _).symm

/-- A forest stored in the pool. -/
structure Forest (t : Tree F D) (Ts : List T) (n : Nat) : Prop where
  rep : ∀ s ∈ Ts, Rep t.nodes none s
  pool : PoolInv t (Ts.flatMap T.ids)
  size : (Ts.flatMap T.ids).length + Ts.length = 2 * n
  fits : 2 * n ≤ t.cap + 1

theorem Covers.combine {B a b : AABB F} (ha : Covers B a) (hb : Covers B b) : Covers B (AABB.combine a b) := by
  obtain ⟨a1, a2, a3, a4⟩ := ha
  obtain ⟨b1, b2, b3, b4⟩ := hb
  simp only [Covers, AABB.combine, minV, maxV, b2min_eq, b2max_eq]
  exact ⟨le_min a1 b1, le_min a2 b2, max_le a3 b3, max_le a4 b4⟩

/-- A box covering all leaves covers every node. -/
theorem Rep.covered {m : Nat → Node F D} {B : AABB F} {s : T} : ∀ {p : Ref}, Rep m p s →
    (∀ j ∈ s.leaves, Covers B (m j).aabb) → Covers B (m s.id).aabb := by
  induction s with
  | leaf i => intro p _ h; exact h i (by simp [T.leaves])
  | node i l r hl hr =>
    rintro p ⟨-, -, -, -, b5, b6, b7⟩ h
    show Covers B (m i).aabb
    rw [b5]
    exact Covers.combine (hl b6 fun j hj => h j (by simp [T.leaves, hj])) (hr b7 fun j hj => h j (by simp [T.leaves, hj]))

theorem merge_at {t : Tree F D} {Ts : List T} {n : Nat} (h : Forest t Ts n) {i j : Nat} (hij : i < j)
    (hj : j < Ts.length) {c : F}
    (hbest : (Tree.pairs (Ts.map T.id).length).foldlM (Tree.pairStep t (Ts.map T.id)) (Tree.maxFloat, none)
      = some (c, some (i, j))) :
    ∃ t' Ts', t.mergeStep (Ts.map T.id) = some (t', Ts'.map T.id) ∧ Forest t' Ts' n ∧ t'.cap = t.cap ∧
      Ts'.length + 1 = Ts.length ∧ (Ts'.flatMap T.leaves).Perm (Ts.flatMap T.leaves) ∧
      (∀ j ∈ Ts.flatMap T.leaves, SamePay t.nodes t'.nodes j) := by
  have hi : i < Ts.length := by omega
  obtain ⟨last, hlast⟩ : ∃ last, Ts.getLast? = some last := by
    cases hg : Ts.getLast? with
    | none => rw [List.getLast?_eq_none_iff] at hg; subst hg; simp at hj
    | some x => exact ⟨x, rfl⟩
  obtain ⟨t1, p, a1, a2, a3, a4, a5, a6, ⟨b1, b2, b3, b4, b5, b6⟩, a7⟩ := allocate_spec h.pool
  have hcap1 : t1.cap = t.cap := by
    rcases a7 with a7 | ⟨a7, -⟩
    · exact a7
    · exfalso
      have := h.size; have := h.fits; omega
  obtain ⟨rest, hp1, hp2⟩ := list_merge Ts i j hij hj (.node p Ts[i] Ts[j]) last hlast
  set L := Ts[i] with hL
  set R := Ts[j] with hR
  have hids : (Ts.flatMap T.ids).Perm (L.ids ++ (R.ids ++ rest.flatMap T.ids)) := by
    simpa using hp1.flatMap_right T.ids
  have hlvs : (Ts.flatMap T.leaves).Perm (L.leaves ++ (R.leaves ++ rest.flatMap T.leaves)) := by
    simpa using hp1.flatMap_right T.leaves
  have hnd := hids.nodup_iff.mp h.pool.nodup
  have hpn : p ∉ L.ids ∧ p ∉ R.ids ∧ p ∉ rest.flatMap T.ids := by
    have := a2
    rw [hids.mem_iff] at this
    simpa only [List.mem_append, not_or] using this
  rw [List.nodup_append, List.nodup_append] at hnd
  obtain ⟨ndL, ⟨ndR, ndr, dRr⟩, dL⟩ := hnd
  have hLR : L.id ≠ R.id := fun e => dL _ L.id_mem _ (by simp [R.id_mem]) e
  have repL : Rep t.nodes none L := h.rep L (List.getElem_mem hi)
  have repR : Rep t.nodes none R := h.rep R (List.getElem_mem hj)
  have eL : ∀ k ∈ L.ids, t1.nodes k = t.nodes k := fun k hk => a6 k (hids.mem_iff.mpr (by simp [hk]))
  have eR : ∀ k ∈ R.ids, t1.nodes k = t.nodes k := fun k hk => a6 k (hids.mem_iff.mpr (by simp only [List.mem_append, hk]; tauto))
  have bp : p < t1.cap := a3.lt p (by simp)
  have bL : L.id < t.cap := h.pool.lt _ (hids.mem_iff.mpr (by simp [L.id_mem]))
  have bR : R.id < t.cap := h.pool.lt _ (hids.mem_iff.mpr (by simp [R.id_mem]))
  have hpL : L.id ≠ p := fun e => hpn.1 (e ▸ L.id_mem)
  have hpR : R.id ≠ p := fun e => hpn.2.1 (e ▸ R.id_mem)
  let P : Node F D := { t1.nodes p with
    child1 := some L.id, child2 := some R.id,
    height := 1 + max (t.nodes L.id).height (t.nodes R.id).height,
    aabb := AABB.combine (t.nodes L.id).aabb (t.nodes R.id).aabb, parent := none }
  let m1 := upd t1.nodes p P
  let m2 := upd m1 L.id { t.nodes L.id with parent := some p }
  let m3 := upd m2 R.id { t.nodes R.id with parent := some p }
  let t' : Tree F D := { t1 with nodes := m3 }
  have n3p : t'.nodes p = P := by
    show upd m2 _ _ p = _
    rw [upd_other _ _ hpR.symm]
    show upd m1 _ _ p = _
    rw [upd_other _ _ hpL.symm]
    exact upd_same ..
  have n3L : t'.nodes L.id = { t.nodes L.id with parent := some p } := by
    show upd m2 _ _ L.id = _
    rw [upd_other _ _ hLR]
    exact upd_same ..
  have n3R : t'.nodes R.id = { t.nodes R.id with parent := some p } := upd_same ..
  have n3o : ∀ k, k ≠ p → k ≠ L.id → k ≠ R.id → t'.nodes k = t1.nodes k := by
    intro k k1 k2 k3
    show upd m2 _ _ k = _
    rw [upd_other _ _ k3]
    show upd m1 _ _ k = _
    rw [upd_other _ _ k2]
    exact upd_other _ _ k1
  have hnew : Rep t'.nodes none (.node p L R) := by
    refine ⟨by rw [n3p], by rw [n3p], by rw [n3p], ?_, ?_, ?_, ?_⟩
    · rw [n3p]
      show 1 + max (t.nodes L.id).height (t.nodes R.id).height = _
      rw [repL.height, repR.height]; simp only [T.ht]; omega
    · rw [n3p, n3L, n3R]
    · refine repL.reparent ndL ?_ n3L
      intro k hk hkn
      rw [n3o k (by rintro rfl; exact hpn.1 hk) hkn (by rintro rfl; exact dL _ hk _ (by simp [R.id_mem]) rfl), eL k hk]
    · refine repR.reparent ndR ?_ n3R
      intro k hk hkn
      rw [n3o k (by rintro rfl; exact hpn.2.1 hk) (by rintro rfl; exact dL _ L.id_mem _ (by simp [hk]) rfl) hkn, eR k hk]
  let Ts' := ((Ts.set j last).set i (.node p L R)).dropLast
  have hTs' : Ts'.Perm (.node p L R :: rest) := hp2
  have hids' : (Ts'.flatMap T.ids).Perm (p :: Ts.flatMap T.ids) := by
    refine (hTs'.flatMap_right T.ids).trans ?_
    simp only [List.flatMap_cons, T.ids, List.cons_append]
    refine List.Perm.cons _ ?_
    rw [List.append_assoc]
    exact hids.symm
  have hlv' : (Ts'.flatMap T.leaves).Perm (Ts.flatMap T.leaves) := by
    refine (hTs'.flatMap_right T.leaves).trans ?_
    simp only [List.flatMap_cons, T.leaves]
    rw [List.append_assoc]
    exact hlvs.symm
  have hlen' : Ts'.length + 1 = Ts.length := by
    have := hp1.length_eq; have := hTs'.length_eq
    simp only [List.length_cons] at *; omega
  refine ⟨t', Ts', ?_, ⟨?_, ?_, ?_, ?_⟩, hcap1, hlen', hlv', ?_⟩
  · have g1 : (Ts.map T.id)[i]? = some L.id := by rw [List.getElem?_map, List.getElem?_eq_getElem hi]; rfl
    have g2 : (Ts.map T.id)[j]? = some R.id := by rw [List.getElem?_map, List.getElem?_eq_getElem hj]; rfl
    unfold Tree.mergeStep
    rw [hbest]
    simp only [Option.bind_eq_bind, Option.bind_some]
    rw [g1, Option.bind_some, g2, Option.bind_some, Tree.get_of_lt bL, Option.bind_some, Tree.get_of_lt bR, Option.bind_some,
      a1, Option.bind_some, Tree.modify, if_pos bp, Option.bind_some, Tree.modify, if_pos (by show L.id < t1.cap; omega), Option.bind_some,
      Tree.modify, if_pos (by show R.id < t1.cap; omega), Option.bind_some, List.getLast?_map, hlast]
    simp only [Option.map_some, Option.bind_some, Option.pure_def]
    congr 2
    show _ = Ts'.map T.id
    simp only [Ts', List.map_dropLast, List.map_set]
    rfl
  · intro s hs
    rcases List.mem_cons.mp (hTs'.mem_iff.mp hs) with rfl | hs
    · exact hnew
    · have hsTs : s ∈ Ts := hp1.mem_iff.mpr (by simp [hs])
      refine (h.rep s hsTs).congr fun k hk => ?_
      have hkr : k ∈ rest.flatMap T.ids := List.mem_flatMap.mpr ⟨s, hs, hk⟩
      rw [n3o k (by rintro rfl; exact hpn.2.2 hkr)
        (by rintro rfl; exact dL _ L.id_mem _ (List.mem_append.mpr (Or.inr hkr)) rfl)
        (by rintro rfl; exact dRr _ R.id_mem _ hkr rfl)]
      exact a6 k (List.mem_flatMap.mpr ⟨s, hsTs, hk⟩)
  · refine PoolInv.perm ?_ hids'
    refine a3.congr ⟨rfl, rfl, rfl⟩ fun k hk => ?_
    simp only [List.mem_cons, not_or] at hk
    refine n3o k hk.1 ?_ ?_
    · rintro rfl; exact hk.2 (hids.mem_iff.mpr (by simp [L.id_mem]))
    · rintro rfl; exact hk.2 (hids.mem_iff.mpr (by simp [R.id_mem]))
  · have := hids'.length_eq
    have := h.size
    simp only [List.length_cons] at *
    omega
  · show 2 * n ≤ t1.cap + 1
    rw [hcap1]; exact h.fits
  · intro k hk
    have hkids : k ∈ Ts.flatMap T.ids := by
      obtain ⟨s, hs, hks⟩ := List.mem_flatMap.mp hk
      exact List.mem_flatMap.mpr ⟨s, hs, T.leaves_subset _ _ hks⟩
    by_cases hkL : k = L.id
    · subst hkL; rw [SamePay, n3L]; exact ⟨rfl, rfl, rfl⟩
    by_cases hkR : k = R.id
    · subst hkR; rw [SamePay, n3R]; exact ⟨rfl, rfl, rfl⟩
    rw [SamePay, n3o k (by rintro rfl; exact a2 hkids) hkL hkR, a6 k hkids]
    exact ⟨rfl, rfl, rfl⟩

/-- All leaves lie in a box within which every perimeter is below `B2_MAX_FLOAT`. -/
def Cheap (t : Tree F D) (lv : List Nat) : Prop :=
  ∃ B : AABB F, (∀ j ∈ lv, Covers B (t.nodes j).aabb) ∧ ∀ b : AABB F, Covers B b → b.perimeter < Tree.maxFloat

theorem mergeLoop_spec : ∀ (fuel : Nat) {t : Tree F D} {Ts : List T} {n : Nat}, Forest t Ts n → Ts ≠ [] →
    Ts.length ≤ fuel + 1 →
    (Tree.mergeLoop fuel t (Ts.map T.id) = none ∧ ¬ Cheap t (Ts.flatMap T.leaves)) ∨
    ∃ t' s', Tree.mergeLoop fuel t (Ts.map T.id) = some (t', [s'.id]) ∧ Forest t' [s'] n ∧ t'.cap = t.cap ∧
      (s'.leaves).Perm (Ts.flatMap T.leaves) ∧ (∀ j ∈ Ts.flatMap T.leaves, SamePay t.nodes t'.nodes j) := by
  intro fuel
  induction fuel with
  | zero =>
    intro t Ts n h hne hlen
    right
    match Ts, hne, hlen with
    | [s], _, _ =>
      exact ⟨t, s, rfl, h, rfl, by simp, fun _ _ => ⟨rfl, rfl, rfl⟩⟩
  | succ fuel ih =>
    intro t Ts n h hne hlen
    by_cases h1 : Ts.length = 1
    · right
      match Ts, h1 with
      | [s], _ => exact ⟨t, s, rfl, h, rfl, by simp, fun _ _ => ⟨rfl, rfl, rfl⟩⟩
    have h2 : 1 < Ts.length := by
      have : Ts.length ≠ 0 := by simpa using hne
      omega
    have hb : ∀ j ∈ Ts.map T.id, j < t.cap := by
      intro j hj
      obtain ⟨s, hs, rfl⟩ := List.mem_map.mp hj
      exact h.pool.lt _ (List.mem_flatMap.mpr ⟨s, hs, s.id_mem⟩)
    have hps : ∀ p ∈ Tree.pairs (Ts.map T.id).length, p.1 < p.2 ∧ p.2 < (Ts.map T.id).length :=
      fun p hp => mem_pairs.mp hp
    have hred : Tree.mergeLoop (fuel + 1) t (Ts.map T.id) =
        (t.mergeStep (Ts.map T.id)).bind fun r => Tree.mergeLoop fuel r.1 r.2 := by
      rw [Tree.mergeLoop, if_pos (by simpa using h2)]; rfl
    obtain ⟨⟨c, best⟩, e1, e2, -⟩ := pairFold hb _ (Tree.maxFloat, none) hps
    cases best with
    | none =>
      left
      have hms : t.mergeStep (Ts.map T.id) = none := by
        unfold Tree.mergeStep
        rw [e1]; rfl
      refine ⟨by rw [hred, hms]; rfl, ?_⟩
      rintro ⟨B, hB1, hB2⟩
      -- the first pair has a cost below the initial minimum
      have hmem : (0, 1) ∈ Tree.pairs (Ts.map T.id).length := mem_pairs.mpr ⟨by omega, by simpa using h2⟩
      have hcost : ∀ s ∈ Ts, ∀ s' ∈ Ts,
          (AABB.combine (t.nodes s.id).aabb (t.nodes s'.id).aabb).perimeter < Tree.maxFloat := by
        intro s hs s' hs'
        refine hB2 _ (Covers.combine ?_ ?_)
        · exact (h.rep s hs).covered fun j hj => hB1 j (List.mem_flatMap.mpr ⟨s, hs, hj⟩)
        · exact (h.rep s' hs').covered fun j hj => hB1 j (List.mem_flatMap.mpr ⟨s', hs', hj⟩)
      cases hp : Tree.pairs (Ts.map T.id).length with
      | nil => rw [hp] at hmem; cases hmem
      | cons p ps =>
        rw [hp] at e1 hps
        obtain ⟨k1, k2⟩ := hps p (by simp)
        rw [List.length_map] at k2
        have hk1 : p.1 < Ts.length := by omega
        have g : ∀ k, (hk : k < Ts.length) → t.getR (Ts.map T.id)[k]? = some (t.nodes Ts[k].id) := by
          intro k hk
          simp only [Tree.getR, List.getElem?_map, List.getElem?_eq_getElem hk, Option.map_some, Option.bind_some]
          exact Tree.get_of_lt (hb _ (List.mem_map.mpr ⟨_, List.getElem_mem hk, rfl⟩))
        have hstep : ∃ cst, Tree.pairStep t (Ts.map T.id) (Tree.maxFloat, none) p = some (cst, some p) := by
          unfold Tree.pairStep
          rw [g p.1 hk1, g p.2 k2]
          simp only [Option.bind_eq_bind, Option.bind_some]
          rw [if_pos (hcost _ (List.getElem_mem hk1) _ (List.getElem_mem k2))]
          exact ⟨_, rfl⟩
        obtain ⟨cst, hst⟩ := hstep
        obtain ⟨r, f1, -, f3⟩ := pairFold hb ps (cst, some p) fun q hq => hps q (by simp [hq])
        rw [List.foldlM_cons, hst] at e1
        have e1' : ps.foldlM (Tree.pairStep t (Ts.map T.id)) (cst, some p) = some (c, none) := e1
        rw [f1] at e1'
        have := Option.some.inj e1'
        subst this
        exact f3 (by simp) rfl
    | some ij =>
      obtain ⟨i, j⟩ := ij
      have hij : i < j ∧ j < Ts.length := by
        rcases e2 with e2 | ⟨p, hp, e2⟩
        · cases e2
        · have := hps p hp
          simp only [Option.some.injEq] at e2
          subst e2
          simpa using this
      obtain ⟨t1, Ts1, m1, m2, m3, m4, m5, m6⟩ := merge_at h hij.1 hij.2 e1
      have hne1 : Ts1 ≠ [] := by
        intro e; subst e; simp at m4; omega
      have hcheap : Cheap t (Ts.flatMap T.leaves) → Cheap t1 (Ts1.flatMap T.leaves) := by
        rintro ⟨B, hB1, hB2⟩
        refine ⟨B, fun j hj => ?_, hB2⟩
        have hj' := m5.mem_iff.mp hj
        rw [(m6 j hj').1]; exact hB1 j hj'
      rcases ih m2 hne1 (by omega) with ⟨k1, k2⟩ | ⟨t2, s2, k1, k2, k3, k4, k5⟩
      · left
        refine ⟨by rw [hred, m1]; exact k1, fun hc => k2 (hcheap hc)⟩
      · right
        refine ⟨t2, s2, by rw [hred, m1]; exact k1, k2, by rw [k3, m3], k4.trans m5, ?_⟩
        intro q hq
        exact (m6 q hq).trans (k5 q (m5.mem_iff.mpr hq))

theorem collect_empty {t : Tree F D} (hpool : PoolInv t []) :
    ∀ k ≤ t.cap, (List.range k).foldlM (Tree.collectStep t.count) (t, []) = some (t, [])
  | 0, _ => rfl
  | k + 1, hk => by
    rw [List.range_succ, List.foldlM_append, collect_empty hpool k (by omega)]
    have hh := hpool.free_height k (by omega) (by simp)
    show (do let s ← some (t, []); _) = _
    simp only [List.foldlM_cons, List.foldlM_nil, Option.bind_eq_bind, Option.bind_some, Tree.collectStep,
      Tree.get_of_lt (show k < t.cap by omega)]
    rw [if_pos (by omega)]
    rfl

theorem flatMap_leaf_ids (l : List Nat) : (l.map T.leaf).flatMap T.ids = l := by
  induction l with
  | nil => rfl
  | cons a l ih => simp only [List.map_cons, List.flatMap_cons, ih, T.ids]; rfl

theorem flatMap_leaf_leaves (l : List Nat) : (l.map T.leaf).flatMap T.leaves = l := by
  induction l with
  | nil => rfl
  | cons a l ih => simp only [List.map_cons, List.flatMap_cons, ih, T.leaves]; rfl

theorem map_leaf_id (l : List Nat) : (l.map T.leaf).map T.id = l := by
  induction l with
  | nil => rfl
  | cons a l ih => simp only [List.map_cons, ih, T.id]

theorem rebuild_spec {t : Tree F D} {g : Nat → Option (Proxy F D)} (h : TInv t g) :
    (t.rebuildBottomUp = none ∧ ((∀ i, g i = none) ∨
      ¬ ∃ B : AABB F, (∀ i p, g i = some p → Covers B p.fat) ∧ ∀ b : AABB F, Covers B b → b.perimeter < Tree.maxFloat)) ∨
    ∃ t', t.rebuildBottomUp = some t' ∧ TInv t' g ∧ t'.cap = t.cap ∧ t'.root ≠ none := by
  obtain ⟨o, h⟩ := h
  cases o with
  | none =>
    left
    refine ⟨?_, Or.inl fun i => ?_⟩
    · unfold Tree.rebuildBottomUp
      rw [collect_empty h.pool t.cap le_rfl]
      rfl
    · by_contra hc
      have := (h.live i).mpr hc
      cases this
  | some S =>
    obtain ⟨⟨t1, nodes⟩, c1, c2⟩ := collect_spec h.root.2 h.pool t.cap le_rfl
    have hnodes : nodes = (List.range t.cap).filter (· ∈ S.leaves) := c2.nodes
    have hlnd := S.leaves_nodup h.pool.nodup
    have hltl : ∀ j ∈ S.leaves, j < t.cap := fun j hj => h.pool.lt j (T.leaves_subset _ _ hj)
    have hperm : nodes.Perm S.leaves := by
      rw [hnodes, List.perm_ext_iff_of_nodup (List.nodup_range.filter _) hlnd]
      intro a
      simp only [List.mem_filter, List.mem_range, decide_eq_true_eq]
      exact ⟨fun h => h.2, fun h => ⟨hltl a h, h⟩⟩
    have hperm2 : nodes.Perm (S.ids.filter fun j => j ∈ S.leaves ∨ t.cap ≤ j) := by
      have hndS : S.ids.Nodup := h.pool.nodup
      rw [List.perm_ext_iff_of_nodup (hperm.nodup_iff.mpr hlnd) (hndS.filter _)]
      intro a
      rw [hperm.mem_iff]
      simp only [List.mem_filter, decide_eq_true_eq]
      constructor
      · exact fun h => ⟨T.leaves_subset _ _ h, Or.inl h⟩
      · rintro ⟨h1, h2 | h2⟩
        · exact h2
        · have := h.pool.lt a h1; omega
    have hn1 : ∀ j ∈ S.leaves, t1.nodes j = { t.nodes j with parent := none } := by
      intro j hj
      have := c2.leaves j hj
      rwa [if_pos (hltl j hj)] at this
    have hpos : 0 < S.leaves.length := by
      have := S.ids_length; omega
    have hforest : Forest t1 (nodes.map T.leaf) S.leaves.length := by
      refine ⟨?_, ?_, ?_, ?_⟩
      · intro s hs
        obtain ⟨j, hj, rfl⟩ := List.mem_map.mp hs
        have hj' := hperm.mem_iff.mp hj
        obtain ⟨d1, d2, d3⟩ := h.root.2.leaf_node j hj'
        rw [Rep, hn1 j hj']
        exact ⟨rfl, d1, d2, d3⟩
      · rw [flatMap_leaf_ids]; exact c2.pool.perm hperm2
      · rw [flatMap_leaf_ids, List.length_map, hperm.length_eq]; omega
      · have h1 := S.ids_length
        have h2 : S.ids.length ≤ t.cap := h.pool.length_le
        have h3 : t1.cap = t.cap := c2.cap
        omega
    have hne : nodes.map T.leaf ≠ [] := by
      intro e
      have e1 : nodes = [] := by simpa using e
      have e2 := hperm.length_eq
      rw [e1] at e2; simp only [List.length_nil] at e2; omega
    have hred : t.rebuildBottomUp = (Tree.mergeLoop nodes.length t1 nodes).bind fun r =>
        (r.2[0]?).bind fun root => (Tree.validate { r.1 with root := some root }).bind fun _ =>
          some { r.1 with root := some root } := by
      unfold Tree.rebuildBottomUp
      rw [c1]; rfl
    have hspec := mergeLoop_spec nodes.length hforest hne (by simp)
    rw [map_leaf_id, flatMap_leaf_leaves] at hspec
    rcases hspec with ⟨k1, k2⟩ | ⟨t2, s2, k1, k2, k3, k4, k5⟩
    · left
      refine ⟨by rw [hred, k1]; rfl, Or.inr ?_⟩
      rintro ⟨B, hB1, hB2⟩
      refine k2 ⟨B, fun j hj => ?_, hB2⟩
      have hj' := hperm.mem_iff.mp hj
      have hlive := (h.live j).mp hj'
      obtain ⟨p, hp⟩ := Option.ne_none_iff_exists'.mp hlive
      rw [hn1 j hj']
      show Covers B (t.nodes j).aabb
      rw [(h.pay j p hp).1]
      exact hB1 j p hp
    · right
      have hp2 : PoolInv t2 s2.ids := by simpa using k2.pool
      have hr2 : Rep t2.nodes none s2 := k2.rep s2 (by simp)
      let t3 : Tree F D := { t2 with root := some s2.id }
      have hroot3 : RootRep t3 (some s2) := ⟨rfl, hr2⟩
      have hpool3 : PoolInv t3 s2.ids := hp2.congr ⟨rfl, rfl, rfl⟩ fun _ _ => rfl
      have hv := validate_spec' hroot3 hpool3
      refine ⟨t3, ?_, ⟨some s2, hroot3, hpool3, ?_, ?_⟩, k3.trans c2.cap, by simp [t3]⟩
      · rw [hred, k1]
        show (Tree.validate t3).bind _ = _
        rw [hv]; rfl
      · intro i
        show i ∈ s2.leaves ↔ _
        rw [k4.mem_iff, hperm.mem_iff]
        exact h.live i
      · intro i p hp
        have hil : i ∈ S.leaves := (h.live i).mpr (by rw [hp]; simp)
        refine (k5 i (hperm.mem_iff.mpr hil)).payIs ?_
        rw [hn1 i hil]
        exact h.pay i p hp

end B2
