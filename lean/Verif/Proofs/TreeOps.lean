import Verif.Proofs.TreePool

/-! Inserting and removing leaves; proxies. -/
namespace B2
set_option linter.unusedSectionVars false
variable {F D : Type} [LinearOrder F] [Add F] [Sub F] [Mul F] [Lit F]

/-- The user-visible contents of a node agree. -/
def SamePay (m m' : Nat → Node F D) (j : Nat) : Prop :=
  (m' j).aabb = (m j).aabb ∧ (m' j).userData = (m j).userData ∧ (m' j).moved = (m j).moved

theorem Pres.samePay {m m' : Nat → Node F D} (h : Pres m m') {j : Nat} (hj : (m j).child1 = none) :
    SamePay m m' j := ⟨((h j).2.2 hj).1, (h j).1, (h j).2.1⟩

theorem SamePay.trans {m m' m'' : Nat → Node F D} {j : Nat} (h : SamePay m m' j) (h' : SamePay m' m'' j) :
    SamePay m m'' j := ⟨h'.1.trans h.1, h'.2.1.trans h.2.1, h'.2.2.trans h.2.2⟩

/-- Ids of a possibly empty tree. -/
def oids : Option T → List Nat
  | none => []
  | some t => t.ids
/-- Leaves of a possibly empty tree. -/
def oleaves : Option T → List Nat
  | none => []
  | some t => t.leaves

/-- Root pointer and node contents represent `o`. -/
def RootRep (t : Tree F D) (o : Option T) : Prop :=
  match o with
  | none => t.root = none
  | some s => t.root = some s.id ∧ Rep t.nodes none s

theorem findSibling_spec {t : Tree F D} (box : AABB F) (s : T) : ∀ (p : Ref) (c : List Frame) (fuel : Nat),
    Rep t.nodes p s → (∀ j ∈ s.ids, j < t.cap) → s.ht < fuel →
      ∃ c' s', Tree.findSibling fuel t box s.id = some s'.id ∧ plug c' s' = plug c s := by
  induction s with
  | leaf i =>
    intro p c fuel hr hb hf
    obtain ⟨fuel, rfl⟩ : ∃ k, fuel = k + 1 := ⟨fuel - 1, by omega⟩
    refine ⟨c, .leaf i, ?_, rfl⟩
    have bi : i < t.cap := hb i (by simp [T.ids])
    simp [Tree.findSibling, T.id, Tree.get_of_lt bi, Node.isLeaf, hr.2.1]
  | node i l r hl hr' =>
    intro p c fuel hr hb hf
    obtain ⟨fuel, rfl⟩ : ∃ k, fuel = k + 1 := ⟨fuel - 1, by omega⟩
    have bi : i < t.cap := hb i (by simp [T.ids])
    have bl : ∀ j ∈ l.ids, j < t.cap := fun j hj => hb j (by simp [T.ids, hj])
    have br : ∀ j ∈ r.ids, j < t.cap := fun j hj => hb j (by simp [T.ids, hj])
    obtain ⟨a1, a2, a3, a4, a5, a6, a7⟩ := hr
    simp only [T.ht] at hf
    have k1 : ∃ c' s', some i = some s'.id ∧ plug c' s' = plug c (.node i l r) := ⟨c, .node i l r, rfl, rfl⟩
    have k2 := hl (some i) (⟨i, true, r⟩ :: c) fuel a6 bl (by omega)
    have k3 := hr' (some i) (⟨i, false, l⟩ :: c) fuel a7 br (by omega)
    change ∃ (c' : List Frame) (s' : T), Tree.findSibling (fuel + 1) t box i = some s'.id ∧ _
    simp only [Tree.findSibling, Tree.get_of_lt bi, Option.bind_eq_bind, Option.bind_some, Node.isLeaf, a2,
      Option.isNone_some, Bool.false_eq_true, if_false, Tree.getR, a3, Tree.get_of_lt (bl _ l.id_mem),
      Tree.get_of_lt (br _ r.id_mem)]
    split
    · exact k1
    split
    · exact k2
    · exact k3

theorem replaceChild_of_relink {t t' : Tree F D} {p old new : Nat}
    (h : t.relinkParent (some p) old new = some t') : t.replaceChild p old new = some t' := by
  unfold Tree.relinkParent at h
  unfold Tree.replaceChild
  by_cases hp : p < t.cap
  · simp only [Tree.get_of_lt hp, Option.bind_eq_bind, Option.bind_some] at h
    simp only [Tree.modify, if_pos hp] at h ⊢
    split at h
    · rename_i h1; simp only [h1, if_true] at h ⊢; exact h
    · rename_i h1
      split at h
      · rw [if_neg h1]; exact h
      · exact absurd h (by simp)
  · simp [Tree.get, hp] at h

theorem ctx_length_le : ∀ (c : List Frame), c.length ≤ (ctxIds c).length
  | [] => by simp
  | f :: c => by
    have := ctx_length_le c
    simp only [ctxIds, List.length_cons, List.length_append]; omega

/-- `insert_leaf`. -/
theorem insertLeaf_spec {t : Tree F D} {o : Option T} {leaf : Nat} (hroot : RootRep t o)
    (hpool : PoolInv t (leaf :: oids o)) (h1 : (t.nodes leaf).child1 = none)
    (h2 : (t.nodes leaf).child2 = none) (h3 : (t.nodes leaf).height = 0) :
    ∃ t' s', t.insertLeaf leaf = some t' ∧ RootRep t' (some s') ∧ PoolInv t' s'.ids ∧
      s'.leaves.Perm (leaf :: oleaves o) ∧ (∀ j ∈ leaf :: oleaves o, SamePay t.nodes t'.nodes j) ∧
      (t'.cap = t.cap ∨ ((leaf :: oids o).length = t.cap ∧ t'.cap = t.cap * 2)) := by
  have bleaf : leaf < t.cap := hpool.lt leaf (by simp)
  cases o with
  | none =>
    have hr : t.root = none := hroot
    unfold Tree.insertLeaf
    simp only [hr, Tree.modify, if_pos bleaf]
    refine ⟨_, .leaf leaf, rfl, ⟨rfl, by simp, by simp [h1], by simp [h2], by simp [h3]⟩, ?_, List.Perm.refl _, ?_, Or.inl rfl⟩
    · refine hpool.congr (u := [leaf]) ⟨rfl, rfl, rfl⟩ fun j hj => ?_
      exact upd_other _ _ (by simpa using hj)
    · intro j hj
      have : j = leaf := by simpa [oleaves] using hj
      subst this
      simp [SamePay]
  | some S =>
    obtain ⟨hr, hrep⟩ := hroot
    have hnd := hpool.nodup
    simp only [oids, List.nodup_cons] at hnd
    obtain ⟨hleafS, hndS⟩ := hnd
    have hbS : ∀ j ∈ S.ids, j < t.cap := fun j hj => hpool.lt j (by simp [oids, hj])
    -- descent
    have hlen := hpool.length_le
    have hht := S.ht_le
    simp only [oids, List.length_cons] at hlen
    obtain ⟨c, s, hfind, hplug⟩ := findSibling_spec (t := { t with insertions := t.insertions + 1 })
      (t.nodes leaf).aabb S none [] (t.cap + 1) hrep hbS (by omega)
    have hS : plug c s = S := hplug
    subst hS
    obtain ⟨hs, hc⟩ := hrep.split
    have hidsP := plug_ids c s
    have hlvP := plug_leaves c s
    have bs : s.id < t.cap := hbS _ (hidsP.mem_iff.mpr (by simp [s.id_mem]))
    -- allocation
    have hpool' : PoolInv { t with insertions := t.insertions + 1 } (leaf :: (plug c s).ids) :=
      hpool.congr ⟨rfl, rfl, rfl⟩ fun _ _ => rfl
    obtain ⟨t1, n, ea, hn, pa, ra, ca, na, ⟨n1, n2, n3, n4, n5, n6⟩, kc⟩ := allocate_spec hpool'
    simp only [List.mem_cons, not_or] at hn
    obtain ⟨hnleaf, hnS⟩ := hn
    have hnS' : n ∉ s.ids ∧ n ∉ ctxIds c := by
      constructor <;> (intro hm; exact hnS (hidsP.mem_iff.mpr (by simp [hm])))
    have hleafS' : leaf ∉ s.ids ∧ leaf ∉ ctxIds c := by
      constructor <;> (intro hm; exact hleafS (hidsP.mem_iff.mpr (by simp [hm])))
    have hndP : (s.ids ++ ctxIds c).Nodup := hidsP.nodup_iff.mp hndS
    rw [List.nodup_append] at hndP
    obtain ⟨nds, ndc, dsc⟩ := hndP
    have eqs : ∀ j ∈ (plug c s).ids, t1.nodes j = t.nodes j := fun j hj => na j (by simp [hj])
    have eqsl : t1.nodes leaf = t.nodes leaf := na leaf (by simp)
    have bn : n < t1.cap := pa.lt n (by simp)
    have bs1 : s.id < t1.cap := lt_of_lt_of_le bs ca
    have bl1 : leaf < t1.cap := lt_of_lt_of_le bleaf ca
    have hsn : s.id ≠ n := fun e => hnS'.1 (e ▸ s.id_mem)
    have hsl : s.id ≠ leaf := fun e => hleafS'.1 (e ▸ s.id_mem)
    have eS : ∀ j ∈ s.ids, t1.nodes j = t.nodes j := fun j hj => eqs j (hidsP.mem_iff.mpr (by simp [hj]))
    have eC : ∀ j ∈ ctxIds c, t1.nodes j = t.nodes j := fun j hj => eqs j (hidsP.mem_iff.mpr (by simp [hj]))
    -- t2: contents of the new parent
    let t2 : Tree F D := { t1 with nodes := upd t1.nodes n { t1.nodes n with
      parent := par c, userData := none, aabb := AABB.combine (t.nodes leaf).aabb (t1.nodes s.id).aabb,
      height := (t1.nodes s.id).height + 1 } }
    have e2 : ∀ j, j ≠ n → t2.nodes j = t1.nodes j := fun j hj => upd_other _ _ hj
    have hc2 : RepC t2.nodes c s.id := hc.congr fun j hj => by
      rw [e2 j (by rintro rfl; exact hnS'.2 hj), eC j hj]
    have hr2 : t2.root = some (rootId c s.id) := by
      show t1.root = _
      rw [ra]; show t.root = _
      rw [hr, plug_id]
    obtain ⟨t3, e3, p3, x3, r3, q3, o3⟩ := relink n hc2 hr2
      (fun hm => dsc _ s.id_mem _ hm rfl) ndc (fun j hj => by
        show j < t1.cap
        exact pa.lt j (by simp [hidsP.mem_iff, hj]))
    have cap3 : t3.cap = t1.cap := p3.1
    have n3' : t3.nodes n = t2.nodes n := o3 n hnS'.2
    -- t4: all links
    let m4a : Nat → Node F D := upd t3.nodes n { t3.nodes n with child1 := some s.id, child2 := some leaf }
    let m4b : Nat → Node F D := upd m4a s.id { m4a s.id with parent := some n }
    let m4 : Nat → Node F D := upd m4b leaf { m4b leaf with parent := some n }
    let t4 : Tree F D := { t3 with nodes := m4 }
    have eS3 : ∀ j ∈ s.ids, t3.nodes j = t.nodes j := fun j hj => by
      rw [o3 j (fun hm => dsc _ hj _ hm rfl), e2 j (by rintro rfl; exact hnS'.1 hj), eS j hj]
    have eL3 : t3.nodes leaf = t.nodes leaf := by
      rw [o3 leaf hleafS'.2, e2 leaf (Ne.symm hnleaf), eqsl]
    have m4n : t4.nodes n = { t2.nodes n with child1 := some s.id, child2 := some leaf } := by
      show upd m4b _ _ n = _
      rw [upd_other _ _ hnleaf]
      show upd m4a _ _ n = _
      rw [upd_other _ _ hsn.symm]
      show upd _ _ _ n = _
      rw [upd_same, n3']
    have m4s : t4.nodes s.id = { t.nodes s.id with parent := some n } := by
      show upd m4b _ _ s.id = _
      rw [upd_other _ _ hsl]
      show upd m4a _ _ s.id = _
      rw [upd_same]
      show ({ (upd _ _ _ s.id : Node F D) with parent := some n } : Node F D) = _
      rw [upd_other _ _ hsn, eS3 _ s.id_mem]
    have m4l : t4.nodes leaf = { t.nodes leaf with parent := some n } := by
      show upd m4b _ _ leaf = _
      rw [upd_same]
      show ({ (upd m4a _ _ leaf : Node F D) with parent := some n } : Node F D) = _
      rw [upd_other _ _ (Ne.symm hsl)]
      show ({ (upd _ _ _ leaf : Node F D) with parent := some n } : Node F D) = _
      rw [upd_other _ _ (Ne.symm hnleaf), eL3]
    have m4o : ∀ j, j ≠ n → j ≠ s.id → j ≠ leaf → t4.nodes j = t3.nodes j := by
      intro j j1 j2 j3
      show upd m4b _ _ j = _
      rw [upd_other _ _ j3]
      show upd m4a _ _ j = _
      rw [upd_other _ _ j2]
      exact upd_other _ _ j1
    have permAll : (n :: (s.ids ++ (T.leaf leaf).ids) ++ ctxIds c).Perm (n :: leaf :: (plug c s).ids) := by
      simp only [T.ids, List.cons_append]
      refine List.Perm.cons _ ?_
      rw [List.append_assoc, List.singleton_append]
      exact List.perm_middle.trans (List.Perm.cons _ hidsP.symm)
    have hopen : OpenAt t4 c n s (.leaf leaf) := by
      refine ⟨by rw [m4n], by rw [m4n]; rfl, ?_, ?_, ?_, ?_, r3, ?_, ?_⟩
      · rw [m4n]; show (upd _ n _ n : Node F D).parent = _; rw [upd_same]
      · refine hs.reparent nds ?_ m4s
        intro j hj hne
        rw [m4o j (by rintro rfl; exact hnS'.1 hj) hne (by rintro rfl; exact hleafS'.1 hj), eS3 j hj]
      · exact ⟨by rw [m4l], by rw [m4l]; exact h1, by rw [m4l]; exact h2, by rw [m4l]; exact h3⟩
      · refine x3.congr fun j hj => m4o j ?_ ?_ ?_
        · rintro rfl; exact hnS'.2 hj
        · rintro rfl; exact dsc _ s.id_mem _ hj rfl
        · rintro rfl; exact hleafS'.2 hj
      · exact permAll.nodup_iff.mpr pa.nodup
      · intro j hj
        show j < t3.cap
        rw [cap3]; exact pa.lt j (permAll.mem_iff.mp hj)
    have hclen : c.length < t4.cap + 1 := by
      have := ctx_length_le c
      have h5 := pa.length_le
      have h6 := permAll.length_eq
      have h7 : t4.cap = t1.cap := cap3
      simp only [List.length_append, List.length_cons] at h5 h6
      omega
    obtain ⟨t', S', k1, k2, k3, k4, k5, k6, k7, k8⟩ := fixUp_spec c hopen hclen
    have hl4 : (t4.nodes leaf).parent = some n := by rw [m4l]
    refine ⟨t', S', ?_, ⟨k3, k2⟩, ?_, ?_, ?_, ?_⟩
    · -- the computation
      unfold Tree.insertLeaf
      dsimp only
      split
      · rename_i hr'; rw [hr] at hr'; cases hr'
      rename_i root hr'
      have : root = (plug c s).id := by
        have h : t.root = some root := hr'
        rw [hr] at h; exact (Option.some.inj h).symm
      subst this
      simp only [Option.bind_eq_bind]
      rw [Tree.get_of_lt (t := { t with insertions := t.insertions + 1 }) bleaf, Option.bind_some, hfind, Option.bind_some,
        Tree.get_of_lt (t := { t with insertions := t.insertions + 1 }) bs, Option.bind_some, ea, Option.bind_some]
      change t1.linkLeaf leaf (t.nodes leaf).aabb s.id (t.nodes s.id).parent n = _
      rw [hs.parent]
      have hm2 : t1.modify n (fun m => { m with
          parent := par c, userData := none,
          aabb := AABB.combine (t.nodes leaf).aabb (t1.nodes s.id).aabb,
          height := (t1.nodes s.id).height + 1 }) = some t2 := by
        simp only [Tree.modify, if_pos bn]; rfl
      have hg4 : t4.get leaf = some (t4.nodes leaf) := Tree.get_of_lt (by show leaf < t3.cap; omega)
      rw [← hl4] at k1
      unfold Tree.linkLeaf
      simp only [Option.bind_eq_bind]
      rw [Tree.get_of_lt bs1, Option.bind_some, hm2, Option.bind_some]
      cases c with
      | nil =>
        obtain rfl : { t2 with root := some n } = t3 := Option.some.inj e3
        simp only [par, Option.bind_some]
        rw [Tree.modify, if_pos (show n < t2.cap from bn), Option.bind_some, Tree.modify, if_pos (by exact bs1), Option.bind_some,
          Tree.modify, if_pos (by exact bl1), Option.bind_some]
        refine Eq.trans ?_ k1
        refine Eq.trans (congrArg (fun x => Option.bind x _) hg4) ?_
        rfl
      | cons f c =>
        rw [show par (f :: c) = some f.id from rfl] at e3 ⊢
        have e3' := replaceChild_of_relink e3
        dsimp only
        rw [e3', Option.bind_some]
        rw [Tree.modify, if_pos (by rw [cap3]; exact bn), Option.bind_some, Tree.modify, if_pos (by show s.id < t3.cap; rw [cap3]; exact bs1), Option.bind_some,
          Tree.modify, if_pos (by show leaf < t3.cap; rw [cap3]; exact bl1), Option.bind_some]
        refine Eq.trans ?_ k1
        refine Eq.trans (congrArg (fun x => Option.bind x _) hg4) ?_
        rfl
    · refine PoolInv.perm ?_ (k4.trans permAll)
      have hp4 : PoolInv t4 (n :: leaf :: (plug c s).ids) := by
        refine pa.congr ⟨cap3, p3.2.1, p3.2.2⟩ fun j hj => ?_
        simp only [List.mem_cons, not_or] at hj
        obtain ⟨j1, j2, j3⟩ := hj
        have j4 : j ∉ s.ids ∧ j ∉ ctxIds c := by
          constructor <;> (intro hm; exact j3 (hidsP.mem_iff.mpr (by simp [hm])))
        rw [m4o j j1 (by rintro rfl; exact j4.1 s.id_mem) j2, o3 j j4.2, e2 j j1]
      exact hp4.congr k6 fun j hj => k8 j fun hm => hj (permAll.mem_iff.mp hm)
    · refine k5.trans ?_
      simp only [oleaves, T.leaves]
      rw [List.append_assoc, List.singleton_append]
      exact List.perm_middle.trans (List.Perm.cons _ hlvP.symm)
    · have hleafnode : ∀ j ∈ leaf :: oleaves (some (plug c s)), (t.nodes j).child1 = none := by
        intro j hj
        rcases List.mem_cons.mp hj with rfl | hj
        · exact h1
        · exact (hrep.leaf_node j hj).1
      intro j hj
      have hj1 := hleafnode j hj
      have hjn : j ≠ n := by
        rintro rfl
        rcases List.mem_cons.mp hj with h | h
        · exact hnleaf h
        · exact hnS (T.leaves_subset _ _ h)
      have e1j : t1.nodes j = t.nodes j := by
        rcases List.mem_cons.mp hj with rfl | hj
        · exact eqsl
        · exact eqs j (T.leaves_subset _ _ hj)
      have e2j : t2.nodes j = t.nodes j := by rw [e2 j hjn, e1j]
      have s3 : SamePay t.nodes t3.nodes j ∧ (t3.nodes j).child1 = none := by
        have := q3 j
        rw [e2j] at this
        exact ⟨⟨(this.2.2 hj1).1, this.1, this.2.1⟩, (this.2.2 hj1).2⟩
      have s4 : SamePay t.nodes t4.nodes j ∧ (t4.nodes j).child1 = none := by
        by_cases hjs : j = s.id
        · subst hjs; rw [SamePay, m4s]; exact ⟨⟨rfl, rfl, rfl⟩, hj1⟩
        by_cases hjl : j = leaf
        · subst hjl; rw [SamePay, m4l]; exact ⟨⟨rfl, rfl, rfl⟩, hj1⟩
        · rw [SamePay, m4o j hjn hjs hjl]; exact s3
      exact s4.1.trans (k7.samePay s4.2)
    · have hcap' : t'.cap = t1.cap := by rw [k6.1]; exact cap3
      rw [hcap']
      exact kc

theorem rootId_mem : ∀ (c : List Frame) (f : Frame) (i : Nat), rootId (f :: c) i ∈ ctxIds (f :: c)
  | [], f, i => by simp [rootId, ctxIds]
  | g :: c, f, i => by
    have := rootId_mem c g f.id
    have e : rootId (f :: g :: c) i = rootId (g :: c) f.id := rfl
    rw [e]
    simp only [ctxIds, List.mem_cons, List.mem_append] at this ⊢
    tauto

/-- `remove_leaf`. -/
theorem removeLeaf_spec {t : Tree F D} {S : T} {leaf : Nat} (hroot : RootRep t (some S))
    (hpool : PoolInv t S.ids) (hmem : leaf ∈ S.leaves) :
    ∃ t' o', t.removeLeaf leaf = some t' ∧ RootRep t' o' ∧ PoolInv t' (leaf :: oids o') ∧
      S.leaves.Perm (leaf :: oleaves o') ∧ (∀ j ∈ S.leaves, SamePay t.nodes t'.nodes j) ∧
      (t'.nodes leaf).child1 = none ∧ (t'.nodes leaf).child2 = none ∧ (t'.nodes leaf).height = 0 ∧
      t'.cap = t.cap := by
  obtain ⟨hr, hrep⟩ := hroot
  obtain ⟨c, hc⟩ := T.exists_ctx S leaf hmem []
  have hc' : plug c (.leaf leaf) = S := hc
  subst hc'
  cases c with
  | nil =>
    obtain ⟨-, a2, a3, a4⟩ := hrep
    refine ⟨{ t with root := none }, none, ?_, rfl, hpool.congr ⟨rfl, rfl, rfl⟩ fun _ _ => rfl, List.Perm.refl _,
      fun j _ => ⟨rfl, rfl, rfl⟩, a2, a3, a4, rfl⟩
    unfold Tree.removeLeaf
    rw [if_pos (show t.root = some leaf from hr)]; rfl
  | cons f c =>
    have hidsP : (plug (f :: c) (.leaf leaf)).ids.Perm (leaf :: f.id :: (f.sib.ids ++ ctxIds c)) := plug_ids _ _
    have hlvP : (plug (f :: c) (.leaf leaf)).leaves.Perm (leaf :: (f.sib.leaves ++ ctxLeaves c)) := plug_leaves _ _
    have hnd := hidsP.nodup_iff.mp hpool.nodup
    have hb : ∀ j ∈ leaf :: f.id :: (f.sib.ids ++ ctxIds c), j < t.cap :=
      fun j hj => hpool.lt j (hidsP.mem_iff.mpr hj)
    have hpool1 : PoolInv t (f.id :: leaf :: (f.sib.ids ++ ctxIds c)) :=
      PoolInv.perm hpool ((List.Perm.swap _ _ _).trans hidsP.symm)
    simp only [List.nodup_cons, List.mem_cons, List.mem_append, not_or, List.nodup_append] at hnd
    obtain ⟨⟨lf, ls, lc⟩, ⟨fs, fc⟩, nds, ndc, dsc⟩ := hnd
    obtain ⟨⟨hl1, hl2, hl3, hl4⟩, hctx⟩ := hrep.split
    obtain ⟨b1, b2, b3, b4, b5⟩ := hctx
    have hleafnode : ∀ j ∈ (plug (f :: c) (.leaf leaf)).leaves, (t.nodes j).child1 = none :=
      fun j hj => (hrep.leaf_node j hj).1
    have hleafne : ∀ j ∈ (plug (f :: c) (.leaf leaf)).leaves, j ≠ f.id := by
      rintro j hj rfl
      have := hleafnode _ hj
      rw [b1] at this; cases this
    have hsl : f.sib.id ≠ leaf := fun e => ls (e ▸ f.sib.id_mem)
    have hsf : f.sib.id ≠ f.id := fun e => fs (e ▸ f.sib.id_mem)
    have hsc : f.sib.id ∉ ctxIds c := fun h => dsc _ f.sib.id_mem _ h rfl
    have hrt : t.root = some (rootId c f.id) := by rw [hr, plug_id]; rfl
    have hne : t.root ≠ some leaf := by
      have h5 := rootId_mem c f leaf
      rw [hrt]
      intro h
      have h6 : rootId c f.id = leaf := Option.some.inj h
      have h7 : rootId (f :: c) leaf = rootId c f.id := rfl
      rw [h7, h6] at h5
      simp only [ctxIds, List.mem_cons, List.mem_append] at h5
      tauto
    have hsib : (if (t.nodes f.id).child1 = some leaf then (t.nodes f.id).child2 else (t.nodes f.id).child1)
        = some f.sib.id := by
      rw [b1, b2]
      by_cases hfl : f.left = true
      · simp [hfl, T.id]
      · simp [hfl, hsl]
    have blf := hb leaf (by simp)
    have bf := hb f.id (by simp)
    have bsib := hb f.sib.id (by simp [f.sib.id_mem])
    have hred : t.removeLeaf leaf = (match par c with
        | some gp => do
          let t ← t.replaceChild gp f.id f.sib.id
          let t ← t.modify f.sib.id fun n => { n with parent := some gp }
          let t ← t.freeNode f.id
          Tree.fixUp (t.cap + 1) t (some gp)
        | none => do
          let t := { t with root := some f.sib.id }
          let t ← t.modify f.sib.id fun n => { n with parent := none }
          t.freeNode f.id) := by
      unfold Tree.removeLeaf
      simp only [Option.bind_eq_bind]
      rw [if_neg hne, Tree.get_of_lt blf, Option.bind_some, hl1]
      show Option.bind (some f.id) _ = _
      rw [Option.bind_some, Tree.get_of_lt bf, Option.bind_some, hsib, Option.bind_some, b3]
      cases par c <;> rfl
    cases c with
    | nil =>
      let t1 : Tree F D := { t with
        root := some f.sib.id, nodes := upd t.nodes f.sib.id { t.nodes f.sib.id with parent := none } }
      have e1 : ∀ j, j ≠ f.sib.id → t1.nodes j = t.nodes j := fun j hj => upd_other _ _ hj
      have e1s : t1.nodes f.sib.id = { t.nodes f.sib.id with parent := none } := upd_same ..
      have p1 : PoolInv t1 (f.id :: leaf :: (f.sib.ids ++ ctxIds [])) := by
        refine hpool1.congr ⟨rfl, rfl, rfl⟩ fun j hj => e1 j ?_
        rintro rfl; exact hj (by simp [f.sib.id_mem])
      obtain ⟨t2, g1, g2, g3, g4, g5⟩ := free_spec p1
      have hpay : ∀ j, j ≠ f.id → SamePay t.nodes t2.nodes j := by
        intro j hj
        rw [SamePay, g5 j hj]
        by_cases hjs : j = f.sib.id
        · subst hjs; rw [e1s]; exact ⟨rfl, rfl, rfl⟩
        · rw [e1 j hjs]; exact ⟨rfl, rfl, rfl⟩
      have hleaf2 : t2.nodes leaf = t.nodes leaf := by rw [g5 leaf lf, e1 leaf (Ne.symm hsl)]
      refine ⟨t2, some f.sib, ?_, ⟨g3, ?_⟩, ?_, ?_, ?_, ?_, ?_, ?_, g4⟩
      · rw [hred]
        simp only [par, Option.bind_eq_bind]
        rw [Tree.modify, if_pos (by exact bsib), Option.bind_some]
        exact g1
      · refine b4.reparent nds ?_ ?_
        · intro j hj hjs
          rw [g5 j (by rintro rfl; exact fs hj), e1 j hjs]
        · rw [g5 _ hsf, e1s]
      · simpa [oids, ctxIds] using g2
      · simpa [oleaves, ctxLeaves] using hlvP
      · intro j hj; exact hpay j (hleafne j hj)
      · rw [hleaf2]; exact hl2
      · rw [hleaf2]; exact hl3
      · rw [hleaf2]; exact hl4
    | cons g c =>
      obtain ⟨t1, r1, r2, r3, r4, r5, r6⟩ := relink f.sib.id b5 hrt fc ndc
        (fun j hj => hb j (by simp [hj]))
      have hcap1 : t1.cap = t.cap := r2.1
      let t2 : Tree F D := { t1 with
        nodes := upd t1.nodes f.sib.id { t1.nodes f.sib.id with parent := some g.id } }
      have e2 : ∀ j, j ≠ f.sib.id → t2.nodes j = t1.nodes j := fun j hj => upd_other _ _ hj
      have e1s : t1.nodes f.sib.id = t.nodes f.sib.id := r6 _ hsc
      have e2s : t2.nodes f.sib.id = { t.nodes f.sib.id with parent := some g.id } := by
        show upd _ _ _ _ = _
        rw [upd_same, e1s]
      have p2 : PoolInv t2 (f.id :: leaf :: (f.sib.ids ++ ctxIds (g :: c))) := by
        refine hpool1.congr ⟨r2.1, r2.2.1, r2.2.2⟩ fun j hj => ?_
        simp only [List.mem_cons, List.mem_append, not_or] at hj
        rw [e2 j (by rintro rfl; exact hj.2.2.1 f.sib.id_mem), r6 j hj.2.2.2]
      obtain ⟨t3, g1, g2, g3, g4, g5⟩ := free_spec p2
      have e3leaf : t3.nodes leaf = t.nodes leaf := by
        rw [g5 leaf lf, e2 leaf (Ne.symm hsl), r6 leaf lc]
      have hctx3 : RepC t3.nodes (g :: c) f.sib.id := by
        refine r3.congr fun j hj => ?_
        rw [g5 j (by rintro rfl; exact fc hj), e2 j (by rintro rfl; exact hsc hj)]
      have hsib3 : Rep t3.nodes (some g.id) f.sib := by
        refine b4.reparent nds ?_ ?_
        · intro j hj hjs
          rw [g5 j (by rintro rfl; exact fs hj), e2 j hjs, r6 j (fun h => dsc _ hj _ h rfl)]
        · rw [g5 _ hsf, e2s]
      have hroot3 : t3.root = some (rootId (g :: c) f.sib.id) := by rw [g3]; exact r4
      have hpay : ∀ j, (t.nodes j).child1 = none → j ≠ f.id →
          SamePay t.nodes t3.nodes j ∧ (t3.nodes j).child1 = none := by
        intro j hj hjf
        rw [SamePay, g5 j hjf]
        by_cases hjs : j = f.sib.id
        · subst hjs; rw [e2s]; exact ⟨⟨rfl, rfl, rfl⟩, hj⟩
        · rw [e2 j hjs]
          obtain ⟨q1, q2, q3⟩ := r5 j
          exact ⟨⟨(q3 hj).1, q1, q2⟩, (q3 hj).2⟩
      obtain ⟨d1, d2, d3, d4, d5⟩ := hctx3
      have hnodup3 : (f.sib.ids ++ ctxIds (g :: c)).Nodup := by
        have := g2.nodup; simp only [List.nodup_cons] at this; exact this.2
      -- the open node is `g`, with children in either order
      have hopen : ∃ l r, OpenAt t3 c g.id l r ∧ (l.ids ++ r.ids).Perm (f.sib.ids ++ g.sib.ids) ∧
          (l.leaves ++ r.leaves).Perm (f.sib.leaves ++ g.sib.leaves) := by
        have base : (g.id :: (f.sib.ids ++ g.sib.ids) ++ ctxIds c).Perm (f.sib.ids ++ ctxIds (g :: c)) := by
          simp only [ctxIds, List.cons_append, List.append_assoc]
          exact List.perm_middle.symm
        by_cases hgl : g.left = true
        · simp only [hgl, if_true] at d1 d2
          refine ⟨f.sib, g.sib, ⟨d1, d2, d3, hsib3, d4, d5, hroot3, ?_, ?_⟩, List.Perm.refl _, List.Perm.refl _⟩
          · exact base.nodup_iff.mpr hnodup3
          · intro j hj
            exact g2.lt j (List.mem_cons_of_mem _ (base.mem_iff.mp hj))
        · simp only [hgl] at d1 d2
          have base' : (g.id :: (g.sib.ids ++ f.sib.ids) ++ ctxIds c).Perm (f.sib.ids ++ ctxIds (g :: c)) :=
            (List.Perm.cons _ (List.perm_append_comm.append_right _)).trans base
          refine ⟨g.sib, f.sib, ⟨d1, d2, d3, d4, hsib3, d5, hroot3, ?_, ?_⟩, List.perm_append_comm, List.perm_append_comm⟩
          · exact base'.nodup_iff.mpr hnodup3
          · intro j hj
            exact g2.lt j (List.mem_cons_of_mem _ (base'.mem_iff.mp hj))
      obtain ⟨l, r, hopen, hlr, hlrl⟩ := hopen
      have permAll : (g.id :: (l.ids ++ r.ids) ++ ctxIds c).Perm (f.sib.ids ++ ctxIds (g :: c)) := by
        refine (List.Perm.cons _ (hlr.append_right _)).trans ?_
        simp only [ctxIds, List.append_assoc]
        exact List.perm_middle.symm
      have hclen : c.length < t3.cap + 1 := by
        have h1 := ctx_length_le c
        have h2 := g2.length_le
        simp only [ctxIds, List.length_cons, List.length_append] at h2
        omega
      obtain ⟨t', S', k1, k2, k3, k4, k5, k6, k7, k8⟩ := fixUp_spec c hopen hclen
      have k8' : ∀ j, j ∉ f.sib.ids ++ ctxIds (g :: c) → t'.nodes j = t3.nodes j :=
        fun j hj => k8 j fun h => hj (permAll.mem_iff.mp h)
      have hleaf' : t'.nodes leaf = t.nodes leaf := by
        rw [k8' leaf (by simp only [List.mem_append, not_or]; exact ⟨ls, lc⟩), e3leaf]
      refine ⟨t', some S', ?_, ⟨k3, k2⟩, ?_, ?_, ?_, ?_, ?_, ?_, ?_⟩
      · rw [hred]
        have r1' := replaceChild_of_relink (p := g.id) r1
        simp only [par, Option.bind_eq_bind]
        rw [r1', Option.bind_some, Tree.modify, if_pos (by rw [hcap1]; exact bsib), Option.bind_some]
        exact (congrArg (fun x => Option.bind x _) g1).trans k1
      · refine PoolInv.perm ?_ (List.Perm.cons _ (k4.trans permAll))
        refine g2.congr k6 fun j hj => k8' j fun h => hj (List.mem_cons_of_mem _ h)
      · refine hlvP.trans (List.Perm.cons _ ?_)
        refine List.Perm.symm (k5.trans ?_)
        refine (hlrl.append_right _).trans ?_
        simp only [ctxLeaves, List.append_assoc]
        exact List.Perm.refl _
      · intro j hj
        obtain ⟨q1, q2⟩ := hpay j (hleafnode j hj) (hleafne j hj)
        exact q1.trans (k7.samePay q2)
      · rw [hleaf']; exact hl2
      · rw [hleaf']; exact hl3
      · rw [hleaf']; exact hl4
      · rw [k6.1, g4]; exact hcap1

end B2
