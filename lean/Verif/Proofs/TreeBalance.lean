import Verif.Proofs.TreeRep

/-! `balance` and the walk back up the tree. -/
namespace B2
set_option linter.unusedSectionVars false
variable {F D : Type} [LinearOrder F] [Add F] [Sub F] [Mul F] [Lit F]

/-- User data and moved flags are unchanged everywhere; childless nodes keep their box and stay childless. -/
def Pres (m m' : Nat → Node F D) : Prop :=
  ∀ j, (m' j).userData = (m j).userData ∧ (m' j).moved = (m j).moved ∧
    ((m j).child1 = none → (m' j).aabb = (m j).aabb ∧ (m' j).child1 = none)

theorem Pres.refl (m : Nat → Node F D) : Pres m m := fun _ => ⟨rfl, rfl, fun h => ⟨rfl, h⟩⟩

theorem Pres.trans {m m' m'' : Nat → Node F D} (h : Pres m m') (h' : Pres m' m'') : Pres m m'' := by
  intro j
  obtain ⟨a1, a2, a3⟩ := h j
  obtain ⟨b1, b2, b3⟩ := h' j
  refine ⟨b1.trans a1, b2.trans a2, fun hj => ?_⟩
  obtain ⟨c1, c2⟩ := a3 hj
  obtain ⟨d1, d2⟩ := b3 c2
  exact ⟨d1.trans c1, d2⟩

/-- The bookkeeping fields of the pool agree. -/
def SamePool (t t' : Tree F D) : Prop :=
  t'.cap = t.cap ∧ t'.count = t.count ∧ t'.free = t.free

/-- State of the walk up: everything except height and box of `i` and of the nodes on the path is right. -/
structure OpenAt (t : Tree F D) (c : List Frame) (i : Nat) (l r : T) : Prop where
  child1 : (t.nodes i).child1 = some l.id
  child2 : (t.nodes i).child2 = some r.id
  parent : (t.nodes i).parent = par c
  repL : Rep t.nodes (some i) l
  repR : Rep t.nodes (some i) r
  ctx : RepC t.nodes c i
  root : t.root = some (rootId c i)
  nodup : (i :: (l.ids ++ r.ids) ++ ctxIds c).Nodup
  bound : ∀ j ∈ i :: (l.ids ++ r.ids) ++ ctxIds c, j < t.cap

theorem Tree.get_of_lt {t : Tree F D} {i : Nat} (h : i < t.cap) : t.get i = some (t.nodes i) := by
  simp [Tree.get, h]

/-- Relinking the parent of the hole from `i` to `i'`. -/
theorem relink {t : Tree F D} {c : List Frame} {i : Nat} (i' : Nat) (hc : RepC t.nodes c i)
    (hr : t.root = some (rootId c i)) (hi : i ∉ ctxIds c) (hnd : (ctxIds c).Nodup)
    (hb : ∀ j ∈ ctxIds c, j < t.cap) :
    ∃ t', t.relinkParent (par c) i i' = some t' ∧ SamePool t t' ∧ RepC t'.nodes c i' ∧
      t'.root = some (rootId c i') ∧ Pres t.nodes t'.nodes ∧ (∀ j, j ∉ ctxIds c → t'.nodes j = t.nodes j) := by
  cases c with
  | nil => exact ⟨_, rfl, ⟨rfl, rfl, rfl⟩, trivial, rfl, Pres.refl _, fun _ _ => rfl⟩
  | cons f c =>
    obtain ⟨a1, a2, a3, a4, a5⟩ := hc
    simp only [ctxIds, List.nodup_cons, List.mem_cons, List.mem_append, not_or] at hnd hi hb
    have hf := hb f.id (Or.inl rfl)
    have hsib : f.sib.id ≠ i := by
      intro e; exact hi.2.1 (e ▸ f.sib.id_mem)
    simp only [Tree.relinkParent, par, Tree.get_of_lt hf, Option.bind_eq_bind, Option.bind_some]
    by_cases hl : f.left = true
    · rw [hl] at a1 a2; simp only [if_true] at a1 a2
      rw [if_pos a1]
      rw [Tree.modify, if_pos hf]
      refine ⟨_, rfl, ⟨rfl, rfl, rfl⟩, ?_, ?_, ?_, ?_⟩
      · refine ⟨by simp [hl], by simp [hl, a2], by simp [a3], a4.congr ?_, RepC.congr ?_ a5⟩
        · intro j hj; exact upd_other _ _ (by rintro rfl; exact hnd.1.1 hj)
        · intro j hj; exact upd_other _ _ (by rintro rfl; exact hnd.1.2 hj)
      · exact hr
      · intro j
        by_cases hj : j = f.id
        · subst hj; simp [a1]
        · simp [upd_other _ _ hj]
      · intro j hj
        exact upd_other _ _ (by rintro rfl; simp [ctxIds] at hj)
    · have hl' : f.left = false := by simpa using hl
      rw [hl'] at a1 a2; simp only [Bool.false_eq_true, if_false] at a1 a2
      rw [if_neg (by rw [a1]; simpa using hsib), if_pos a2]
      rw [Tree.modify, if_pos hf]
      refine ⟨_, rfl, ⟨rfl, rfl, rfl⟩, ?_, ?_, ?_, ?_⟩
      · refine ⟨by simp [hl', a1], by simp [hl'], by simp [a3], a4.congr ?_, RepC.congr ?_ a5⟩
        · intro j hj; exact upd_other _ _ (by rintro rfl; exact hnd.1.1 hj)
        · intro j hj; exact upd_other _ _ (by rintro rfl; exact hnd.1.2 hj)
      · exact hr
      · intro j
        by_cases hj : j = f.id
        · subst hj; simp [a1]
        · simp [upd_other _ _ hj]
      · intro j hj
        exact upd_other _ _ (by rintro rfl; simp [ctxIds] at hj)

/-- What a rotation achieves, for the four rotations at once. `K` stays a child of the node `iA` rotated down,
`X` becomes a child of the node `iC` rotated up, `Y` moves from `iC` to `iA`. `P`,`Q` are `K`,`Y` in some
order. `t` is the state before, `t1` after relinking, `t2` the final one. -/
theorem rotate {t t1 t2 : Tree F D} {c : List Frame} {iA iC : Nat} {K X Y P Q : T}
    (hK : Rep t.nodes (some iA) K) (hX : Rep t.nodes (some iC) X) (hY : Rep t.nodes (some iC) Y)
    (hnd : (iA :: iC :: (K.ids ++ (X.ids ++ Y.ids)) ++ ctxIds c).Nodup)
    (hbd : ∀ j ∈ iA :: iC :: (K.ids ++ (X.ids ++ Y.ids)) ++ ctxIds c, j < t.cap)
    (hcA : (t.nodes iA).child1 ≠ none) (hcC : (t.nodes iC).child1 ≠ none)
    (hpool : SamePool t t1) (hctx : RepC t1.nodes c iC) (hroot : t1.root = some (rootId c iC))
    (hpres : Pres t.nodes t1.nodes) (hout : ∀ j, j ∉ ctxIds c → t1.nodes j = t.nodes j)
    (hPQ : P = K ∧ Q = Y ∨ P = Y ∧ Q = K)
    (h2pool : SamePool t1 t2) (h2root : t2.root = t1.root)
    (h2 : ∀ j, j ≠ iA → j ≠ iC → j ≠ Y.id → t2.nodes j = t1.nodes j)
    (h2Y : t2.nodes Y.id = { t.nodes Y.id with parent := some iA })
    (h2A : t2.nodes iA = { t.nodes iA with
      parent := some iC, child1 := some P.id, child2 := some Q.id,
      aabb := AABB.combine (t.nodes P.id).aabb (t.nodes Q.id).aabb,
      height := 1 + max (t.nodes P.id).height (t.nodes Q.id).height })
    (h2C1 : (t2.nodes iC).child1 = some iA) (h2C2 : (t2.nodes iC).child2 = some X.id)
    (h2C3 : (t2.nodes iC).parent = par c)
    (h2C4 : (t2.nodes iC).userData = (t.nodes iC).userData) (h2C5 : (t2.nodes iC).moved = (t.nodes iC).moved) :
    OpenAt t2 c iC (.node iA P Q) X ∧ SamePool t t2 ∧ Pres t.nodes t2.nodes ∧
      (∀ j, j ∉ iA :: iC :: (K.ids ++ (X.ids ++ Y.ids)) ++ ctxIds c → t2.nodes j = t.nodes j) := by
  have hnd' := hnd
  simp only [List.cons_append, List.append_assoc, List.nodup_cons, List.mem_cons, List.mem_append, not_or,
    List.nodup_append] at hnd
  obtain ⟨⟨hAC, hAK, hAX, hAY, hAc⟩, ⟨hCK, hCX, hCY, hCc⟩, ndK, ⟨ndX, ⟨ndY, ndc, dYc⟩, dX⟩, dK⟩ := hnd
  have hYA : Y.id ≠ iA := fun e => hAY (e ▸ Y.id_mem)
  have hYC : Y.id ≠ iC := fun e => hCY (e ▸ Y.id_mem)
  have hYc : Y.id ∉ ctxIds c := fun h => dYc _ Y.id_mem _ h rfl
  -- subtrees are untouched except for the parent link of Y
  have eqOut : ∀ j, j ≠ iA → j ≠ iC → j ≠ Y.id → j ∉ ctxIds c → t2.nodes j = t.nodes j := by
    intro j h1 h3 h4 h5; rw [h2 j h1 h3 h4, hout j h5]
  have eqK : ∀ j ∈ K.ids, t2.nodes j = t.nodes j := fun j hj =>
    eqOut j (by rintro rfl; exact hAK hj) (by rintro rfl; exact hCK hj)
      (by rintro rfl; exact dK _ hj _ (Or.inr (Or.inl Y.id_mem)) rfl)
      (fun h => dK _ hj _ (Or.inr (Or.inr h)) rfl)
  have eqX : ∀ j ∈ X.ids, t2.nodes j = t.nodes j := fun j hj =>
    eqOut j (by rintro rfl; exact hAX hj) (by rintro rfl; exact hCX hj)
      (by rintro rfl; exact dX _ hj _ (Or.inl Y.id_mem) rfl)
      (fun h => dX _ hj _ (Or.inr h) rfl)
  have eqY : ∀ j ∈ Y.ids, j ≠ Y.id → t2.nodes j = t.nodes j := fun j hj hne =>
    eqOut j (by rintro rfl; exact hAY hj) (by rintro rfl; exact hCY hj) hne (fun h => dYc _ hj _ h rfl)
  have repK : Rep t2.nodes (some iA) K := hK.congr eqK
  have repX : Rep t2.nodes (some iC) X := hX.congr eqX
  have repY : Rep t2.nodes (some iA) Y := hY.reparent ndY eqY h2Y
  have boxK : (t2.nodes K.id).aabb = (t.nodes K.id).aabb := by rw [eqK _ K.id_mem]
  have boxY : (t2.nodes Y.id).aabb = (t.nodes Y.id).aabb := by rw [h2Y]
  have htK := hK.height
  have htY := hY.height
  have repA : Rep t2.nodes (some iC) (.node iA P Q) := by
    rcases hPQ with ⟨rfl, rfl⟩ | ⟨rfl, rfl⟩
    · refine ⟨by rw [h2A], by rw [h2A], by rw [h2A], ?_, ?_, repK, repY⟩
      · rw [h2A]; simp only [htK, htY, T.ht]; omega
      · rw [boxK, boxY, h2A]
    · refine ⟨by rw [h2A], by rw [h2A], by rw [h2A], ?_, ?_, repY, repK⟩
      · rw [h2A]; simp only [htK, htY, T.ht]; omega
      · rw [boxK, boxY, h2A]
  have permPQ : (P.ids ++ Q.ids).Perm (K.ids ++ Y.ids) := by
    rcases hPQ with ⟨rfl, rfl⟩ | ⟨rfl, rfl⟩
    · exact List.Perm.refl _
    · exact List.perm_append_comm
  have hperm : (iC :: ((T.node iA P Q).ids ++ X.ids) ++ ctxIds c).Perm
      (iA :: iC :: (K.ids ++ (X.ids ++ Y.ids)) ++ ctxIds c) := by
    refine List.Perm.append_right _ ?_
    simp only [T.ids, List.cons_append]
    refine (List.Perm.swap _ _ _).trans (List.Perm.cons _ (List.Perm.cons _ ?_))
    refine (permPQ.append_right _).trans ?_
    rw [List.append_assoc]
    exact List.Perm.append_left _ List.perm_append_comm
  have hcap : t2.cap = t.cap := h2pool.1.trans hpool.1
  refine ⟨⟨h2C1, h2C2, h2C3, repA, repX, ?_, by rw [h2root]; exact hroot, hperm.nodup_iff.mpr hnd', ?_⟩, ?_, ?_, ?_⟩
  · refine hctx.congr fun j hj => h2 j ?_ ?_ ?_
    · rintro rfl; exact hAc hj
    · rintro rfl; exact hCc hj
    · rintro rfl; exact hYc hj
  · intro j hj; rw [hcap]; exact hbd j (hperm.mem_iff.mp hj)
  · exact ⟨hcap, h2pool.2.1.trans hpool.2.1, h2pool.2.2.trans hpool.2.2⟩
  · intro j
    by_cases hjA : j = iA
    · subst hjA; rw [h2A]; exact ⟨rfl, rfl, fun h => absurd h hcA⟩
    by_cases hjC : j = iC
    · subst hjC; exact ⟨h2C4, h2C5, fun h => absurd h hcC⟩
    by_cases hjY : j = Y.id
    · subst hjY; rw [h2Y]; exact ⟨rfl, rfl, fun h => ⟨rfl, h⟩⟩
    · rw [h2 j hjA hjC hjY]; exact hpres j
  · intro j hj
    simp only [List.cons_append, List.append_assoc, List.mem_cons, List.mem_append, not_or] at hj
    exact eqOut j hj.1 hj.2.1 (by rintro rfl; exact hj.2.2.2.2.1 Y.id_mem) hj.2.2.2.2.2

/-- What `balance` and its rotations promise about an open node. -/
def BalPost (t : Tree F D) (c : List Frame) (i : Nat) (l r : T) (res : Option (Tree F D × Nat)) : Prop :=
  ∃ t' i' l' r', res = some (t', i') ∧ OpenAt t' c i' l' r' ∧ SamePool t t' ∧
    Pres t.nodes t'.nodes ∧ (i' :: (l'.ids ++ r'.ids)).Perm (i :: (l.ids ++ r.ids)) ∧
    (l'.leaves ++ r'.leaves).Perm (l.leaves ++ r.leaves) ∧
    (∀ j, j ∉ i :: (l.ids ++ r.ids) ++ ctxIds c → t'.nodes j = t.nodes j)

theorem perm_rot2 (i j : Nat) (k f g : List Nat) :
    (i :: j :: (k ++ (f ++ g))).Perm (i :: (k ++ (j :: (f ++ g)))) :=
  List.Perm.cons _ List.perm_middle.symm

theorem balPost_of {t t2 : Tree F D} {c : List Frame} {i iC : Nat} {l r K X Y P Q : T}
    (hPQ : P = K ∧ Q = Y ∨ P = Y ∧ Q = K)
    (hids : (i :: iC :: (K.ids ++ (X.ids ++ Y.ids))).Perm (i :: (l.ids ++ r.ids)))
    (hlv : (K.leaves ++ (X.leaves ++ Y.leaves)).Perm (l.leaves ++ r.leaves))
    (h : OpenAt t2 c iC (.node i P Q) X ∧ SamePool t t2 ∧ Pres t.nodes t2.nodes ∧
      (∀ j, j ∉ i :: iC :: (K.ids ++ (X.ids ++ Y.ids)) ++ ctxIds c → t2.nodes j = t.nodes j)) :
    BalPost t c i l r (some (t2, iC)) := by
  obtain ⟨k1, k2, k3, k4⟩ := h
  have permPQ : (P.ids ++ Q.ids).Perm (K.ids ++ Y.ids) ∧ (P.leaves ++ Q.leaves).Perm (K.leaves ++ Y.leaves) := by
    rcases hPQ with ⟨rfl, rfl⟩ | ⟨rfl, rfl⟩
    · exact ⟨List.Perm.refl _, List.Perm.refl _⟩
    · exact ⟨List.perm_append_comm, List.perm_append_comm⟩
  refine ⟨t2, iC, _, _, rfl, k1, k2, k3, ?_, ?_, ?_⟩
  · refine List.Perm.trans ?_ hids
    simp only [T.ids, List.cons_append]
    refine (List.Perm.swap _ _ _).trans (List.Perm.cons _ (List.Perm.cons _ ?_))
    refine (permPQ.1.append_right _).trans ?_
    rw [List.append_assoc]
    exact List.Perm.append_left _ List.perm_append_comm
  · refine List.Perm.trans ?_ hlv
    simp only [T.leaves]
    refine (permPQ.2.append_right _).trans ?_
    rw [List.append_assoc]
    exact List.Perm.append_left _ List.perm_append_comm
  · intro j hj
    exact k4 j fun hm => hj ((hids.append_right _).mem_iff.mp hm)

theorem rotateCUp_spec {t : Tree F D} {c : List Frame} {i iC : Nat} {l f g : T}
    (h : OpenAt t c i l (.node iC f g)) :
    BalPost t c i l (.node iC f g)
      (t.rotateCUp i iC (t.nodes i) (t.nodes l.id) (t.nodes iC)) := by
  have hnd := h.nodup
  have hbd := h.bound
  have hl := h.repL
  obtain ⟨c1, c2, c3, c4, c5, c6, c7⟩ := h.repR
  have permFG : (i :: iC :: (l.ids ++ (f.ids ++ g.ids)) ++ ctxIds c).Perm
      (i :: (l.ids ++ (T.node iC f g).ids) ++ ctxIds c) := (perm_rot2 _ _ _ _ _).append_right _
  have hnd1 := permFG.nodup_iff.mpr hnd
  have hbd1 : ∀ j ∈ i :: iC :: (l.ids ++ (f.ids ++ g.ids)) ++ ctxIds c, j < t.cap :=
    fun j hj => hbd j (permFG.mem_iff.mp hj)
  have permGF : (i :: iC :: (l.ids ++ (g.ids ++ f.ids)) ++ ctxIds c).Perm
      (i :: iC :: (l.ids ++ (f.ids ++ g.ids)) ++ ctxIds c) :=
    List.Perm.append_right _ (List.Perm.cons _ (List.Perm.cons _ (List.Perm.append_left _ List.perm_append_comm)))
  have hnd2 := permGF.nodup_iff.mpr hnd1
  have hbd2 : ∀ j ∈ i :: iC :: (l.ids ++ (g.ids ++ f.ids)) ++ ctxIds c, j < t.cap :=
    fun j hj => hbd1 j (permGF.mem_iff.mp hj)
  have hx := hnd1
  simp only [List.cons_append, List.append_assoc, List.nodup_cons, List.mem_cons, List.mem_append, not_or,
    List.nodup_append] at hx
  obtain ⟨⟨hAC, hAK, hAF, hAG, hAc⟩, ⟨hCK, hCF, hCG, hCc⟩, ndK, ⟨ndF, ⟨ndG, ndc, dGc⟩, dF⟩, dK⟩ := hx
  have bF : f.id < t.cap := hbd1 _ (by simp [f.id_mem])
  have bG : g.id < t.cap := hbd1 _ (by simp [g.id_mem])
  have nFA : f.id ≠ i := fun e => hAF (e ▸ f.id_mem)
  have nFC : f.id ≠ iC := fun e => hCF (e ▸ f.id_mem)
  have nGA : g.id ≠ i := fun e => hAG (e ▸ g.id_mem)
  have nGC : g.id ≠ iC := fun e => hCG (e ▸ g.id_mem)
  have nFG : f.id ≠ g.id := fun e => dF _ f.id_mem _ (Or.inl g.id_mem) e
  have nFc : f.id ∉ ctxIds c := fun e => dF _ f.id_mem _ (Or.inr e) rfl
  have nGc : g.id ∉ ctxIds c := fun e => dGc _ g.id_mem _ e rfl
  obtain ⟨t1, e1, p1, x1, r1, q1, o1⟩ := relink iC h.ctx h.root hAc ndc
    (fun j hj => hbd j (by simp [hj]))
  unfold Tree.rotateCUp
  simp only [c2, c3, Tree.get_of_lt bF, Tree.get_of_lt bG, h.parent, e1, Option.bind_eq_bind, Option.bind_some]
  have cA : (t.nodes i).child1 ≠ none := by rw [h.child1]; simp
  have cC : (t.nodes iC).child1 ≠ none := by rw [c2]; simp
  split
  · refine balPost_of (K := l) (X := f) (Y := g) (P := l) (Q := g) (Or.inl ⟨rfl, rfl⟩) (perm_rot2 _ _ _ _ _)
      (List.Perm.refl _) (rotate hl c6 c7 hnd1 hbd1 cA cC p1 x1 r1 q1 o1 (Or.inl ⟨rfl, rfl⟩) ⟨rfl, rfl, rfl⟩ rfl
        ?_ ?_ ?_ ?_ ?_ ?_ ?_ ?_)
    · intro j jA jC jY
      simp only [upd, if_neg jY, if_neg jC, if_neg jA]
      split
      · rename_i e; subst e; exact (o1 _ nFc).symm
      · rfl
    · simp only [upd, if_true]
    · simp only [upd, if_neg nGA.symm, if_neg nFA.symm, if_neg hAC, if_true, h.child1]
    · simp only [upd, if_neg nGC.symm, if_neg nFC.symm, if_true]
    · simp only [upd, if_neg nGC.symm, if_neg nFC.symm, if_true]
    · simp only [upd, if_neg nGC.symm, if_neg nFC.symm, if_true]
    · simp only [upd, if_neg nGC.symm, if_neg nFC.symm, if_true]
    · simp only [upd, if_neg nGC.symm, if_neg nFC.symm, if_true]
  · refine balPost_of (K := l) (X := g) (Y := f) (P := l) (Q := f) (Or.inl ⟨rfl, rfl⟩)
      (((List.Perm.cons _ (List.Perm.cons _ (List.Perm.append_left _ List.perm_append_comm)))).trans
        (perm_rot2 _ _ _ _ _))
      (List.Perm.append_left _ List.perm_append_comm)
      (rotate hl c7 c6 hnd2 hbd2 cA cC p1 x1 r1 q1 o1 (Or.inl ⟨rfl, rfl⟩) ⟨rfl, rfl, rfl⟩ rfl
        ?_ ?_ ?_ ?_ ?_ ?_ ?_ ?_)
    · intro j jA jC jY
      simp only [upd, if_neg jY, if_neg jC, if_neg jA]
      split
      · rename_i e; subst e; exact (o1 _ nGc).symm
      · rfl
    · simp only [upd, if_neg nFG, if_true]
    · simp only [upd, if_neg nGA.symm, if_neg nFA.symm, if_neg hAC, if_true, h.child1]
    · simp only [upd, if_neg nGC.symm, if_neg nFC.symm, if_true]
    · simp only [upd, if_neg nGC.symm, if_neg nFC.symm, if_true]
    · simp only [upd, if_neg nGC.symm, if_neg nFC.symm, if_true]
    · simp only [upd, if_neg nGC.symm, if_neg nFC.symm, if_true]
    · simp only [upd, if_neg nGC.symm, if_neg nFC.symm, if_true]

theorem perm_rot3 (i j : Nat) (k f g : List Nat) :
    (i :: j :: (k ++ (f ++ g))).Perm (i :: ((j :: (f ++ g)) ++ k)) :=
  List.Perm.cons _ (List.Perm.cons _ List.perm_append_comm)

theorem rotateBUp_spec {t : Tree F D} {c : List Frame} {i iB : Nat} {r d e : T}
    (h : OpenAt t c i (.node iB d e) r) :
    BalPost t c i (.node iB d e) r
      (t.rotateBUp i iB (t.nodes i) (t.nodes iB) (t.nodes r.id)) := by
  have hnd := h.nodup
  have hbd := h.bound
  have hr := h.repR
  obtain ⟨c1, c2, c3, c4, c5, c6, c7⟩ := h.repL
  have permDE : (i :: iB :: (r.ids ++ (d.ids ++ e.ids)) ++ ctxIds c).Perm
      (i :: ((T.node iB d e).ids ++ r.ids) ++ ctxIds c) := (perm_rot3 _ _ _ _ _).append_right _
  have hnd1 := permDE.nodup_iff.mpr hnd
  have hbd1 : ∀ j ∈ i :: iB :: (r.ids ++ (d.ids ++ e.ids)) ++ ctxIds c, j < t.cap :=
    fun j hj => hbd j (permDE.mem_iff.mp hj)
  have permED : (i :: iB :: (r.ids ++ (e.ids ++ d.ids)) ++ ctxIds c).Perm
      (i :: iB :: (r.ids ++ (d.ids ++ e.ids)) ++ ctxIds c) :=
    List.Perm.append_right _ (List.Perm.cons _ (List.Perm.cons _ (List.Perm.append_left _ List.perm_append_comm)))
  have hnd2 := permED.nodup_iff.mpr hnd1
  have hbd2 : ∀ j ∈ i :: iB :: (r.ids ++ (e.ids ++ d.ids)) ++ ctxIds c, j < t.cap :=
    fun j hj => hbd1 j (permED.mem_iff.mp hj)
  have hx := hnd1
  simp only [List.cons_append, List.append_assoc, List.nodup_cons, List.mem_cons, List.mem_append, not_or,
    List.nodup_append] at hx
  obtain ⟨⟨hAB, hAK, hAD, hAE, hAc⟩, ⟨hBK, hBD, hBE, hBc⟩, ndK, ⟨ndD, ⟨ndE, ndc, dEc⟩, dD⟩, dK⟩ := hx
  have bD : d.id < t.cap := hbd1 _ (by simp [d.id_mem])
  have bE : e.id < t.cap := hbd1 _ (by simp [e.id_mem])
  have nDA : d.id ≠ i := fun e => hAD (e ▸ d.id_mem)
  have nDB : d.id ≠ iB := fun e => hBD (e ▸ d.id_mem)
  have nEA : e.id ≠ i := fun e' => hAE (e' ▸ e.id_mem)
  have nEB : e.id ≠ iB := fun e' => hBE (e' ▸ e.id_mem)
  have nDE : d.id ≠ e.id := fun e' => dD _ d.id_mem _ (Or.inl e.id_mem) e'
  have nDc : d.id ∉ ctxIds c := fun e => dD _ d.id_mem _ (Or.inr e) rfl
  have nEc : e.id ∉ ctxIds c := fun e' => dEc _ e.id_mem _ e' rfl
  obtain ⟨t1, e1, p1, x1, r1, q1, o1⟩ := relink iB h.ctx h.root hAc ndc
    (fun j hj => hbd j (by simp [hj]))
  unfold Tree.rotateBUp
  simp only [c2, c3, Tree.get_of_lt bD, Tree.get_of_lt bE, h.parent, e1, Option.bind_eq_bind, Option.bind_some]
  have cA : (t.nodes i).child1 ≠ none := by rw [h.child1]; simp
  have cB : (t.nodes iB).child1 ≠ none := by rw [c2]; simp
  split
  · refine balPost_of (K := r) (X := d) (Y := e) (P := e) (Q := r) (Or.inr ⟨rfl, rfl⟩) (perm_rot3 _ _ _ _ _)
      List.perm_append_comm (rotate hr c6 c7 hnd1 hbd1 cA cB p1 x1 r1 q1 o1 (Or.inr ⟨rfl, rfl⟩) ⟨rfl, rfl, rfl⟩ rfl
        ?_ ?_ ?_ ?_ ?_ ?_ ?_ ?_)
    · intro j jA jC jY
      simp only [upd, if_neg jY, if_neg jC, if_neg jA]
      split
      · rename_i e; subst e; exact (o1 _ nDc).symm
      · rfl
    · simp only [upd, if_neg nDE.symm, if_true]
    · simp only [upd, if_neg nEA.symm, if_neg nDA.symm, if_neg hAB, if_true, h.child2]
      rw [AABB.combine_comm, max_comm]
    · simp only [upd, if_neg nEB.symm, if_neg nDB.symm, if_true]
    · simp only [upd, if_neg nEB.symm, if_neg nDB.symm, if_true]
    · simp only [upd, if_neg nEB.symm, if_neg nDB.symm, if_true]
    · simp only [upd, if_neg nEB.symm, if_neg nDB.symm, if_true]
    · simp only [upd, if_neg nEB.symm, if_neg nDB.symm, if_true]
  · refine balPost_of (K := r) (X := e) (Y := d) (P := d) (Q := r) (Or.inr ⟨rfl, rfl⟩)
      (((List.Perm.cons _ (List.Perm.cons _ (List.Perm.append_left _ List.perm_append_comm)))).trans
        (perm_rot3 _ _ _ _ _))
      ((List.Perm.append_left _ List.perm_append_comm).trans List.perm_append_comm)
      (rotate hr c7 c6 hnd2 hbd2 cA cB p1 x1 r1 q1 o1 (Or.inr ⟨rfl, rfl⟩) ⟨rfl, rfl, rfl⟩ rfl
        ?_ ?_ ?_ ?_ ?_ ?_ ?_ ?_)
    · intro j jA jC jY
      simp only [upd, if_neg jY, if_neg jC, if_neg jA]
      split
      · rename_i e; subst e; exact (o1 _ nEc).symm
      · rfl
    · simp only [upd, if_true]
    · simp only [upd, if_neg nEA.symm, if_neg nDA.symm, if_neg hAB, if_true, h.child2]
      rw [AABB.combine_comm, max_comm]
    · simp only [upd, if_neg nEB.symm, if_neg nDB.symm, if_true]
    · simp only [upd, if_neg nEB.symm, if_neg nDB.symm, if_true]
    · simp only [upd, if_neg nEB.symm, if_neg nDB.symm, if_true]
    · simp only [upd, if_neg nEB.symm, if_neg nDB.symm, if_true]
    · simp only [upd, if_neg nEB.symm, if_neg nDB.symm, if_true]

/-- `balance` on an open node never panics and yields an open node again. -/
theorem balance_spec {t : Tree F D} {c : List Frame} {i : Nat} {l r : T} (h : OpenAt t c i l r) :
    BalPost t c i l r (t.balance i) := by
  have hbd := h.bound
  have bi : i < t.cap := hbd i (by simp)
  have bl : l.id < t.cap := hbd _ (by simp [l.id_mem])
  have br : r.id < t.cap := hbd _ (by simp [r.id_mem])
  have same : BalPost t c i l r (some (t, i)) :=
    ⟨t, i, l, r, rfl, h, ⟨rfl, rfl, rfl⟩, Pres.refl _, List.Perm.refl _, List.Perm.refl _, fun _ _ => rfl⟩
  have hl := h.repL.height
  have hr := h.repR.height
  unfold Tree.balance
  simp only [Tree.get_of_lt bi, Option.bind_eq_bind, Option.bind_some]
  split
  · exact same
  simp only [h.child1, h.child2, Option.bind_some, Tree.get_of_lt bl, Tree.get_of_lt br]
  split
  · rename_i hbal
    cases r with
    | leaf j => simp only [T.ht, T.id] at *; omega
    | node iC f g => exact rotateCUp_spec h
  split
  · rename_i hbal
    cases l with
    | leaf j => simp only [T.ht, T.id] at *; omega
    | node iB d e => exact rotateBUp_spec h
  · exact same

/-- One round of the walk up. -/
theorem fixUp_step {t : Tree F D} {c : List Frame} {i : Nat} {l r : T} (h : OpenAt t c i l r) :
    ∃ t' i' l' r', (∀ fuel, Tree.fixUp (fuel + 1) t (some i) = Tree.fixUp fuel t' (par c)) ∧
      Rep t'.nodes (par c) (.node i' l' r') ∧ RepC t'.nodes c i' ∧ t'.root = some (rootId c i') ∧
      (i' :: (l'.ids ++ r'.ids)).Perm (i :: (l.ids ++ r.ids)) ∧
      (l'.leaves ++ r'.leaves).Perm (l.leaves ++ r.leaves) ∧ SamePool t t' ∧ Pres t.nodes t'.nodes ∧
      (∀ j, j ∉ i :: (l.ids ++ r.ids) ++ ctxIds c → t'.nodes j = t.nodes j) := by
  obtain ⟨t1, i', l', r', e1, o1, p1, q1, m1, v1, u1⟩ := balance_spec h
  have bi : i' < t1.cap := o1.bound i' (by simp)
  have bl : l'.id < t1.cap := o1.bound _ (by simp [l'.id_mem])
  have br : r'.id < t1.cap := o1.bound _ (by simp [r'.id_mem])
  have hnd := o1.nodup
  simp only [List.cons_append, List.append_assoc, List.nodup_cons, List.mem_append, not_or] at hnd
  obtain ⟨⟨nl, nr, nc⟩, -⟩ := hnd
  have el : l'.id ≠ i' := fun e => nl (e ▸ l'.id_mem)
  have er : r'.id ≠ i' := fun e => nr (e ▸ r'.id_mem)
  have hL := o1.repL.height
  have hR := o1.repR.height
  refine ⟨{ t1 with nodes := upd t1.nodes i' { t1.nodes i' with
      height := 1 + max (t1.nodes l'.id).height (t1.nodes r'.id).height,
      aabb := AABB.combine (t1.nodes l'.id).aabb (t1.nodes r'.id).aabb } }, i', l', r', ?_, ?_, ?_, o1.root, m1, v1,
      p1, ?_, ?_⟩
  · intro fuel
    rw [Tree.fixUp]
    simp only [e1, Option.bind_eq_bind, Option.bind_some, Tree.get_of_lt bi, o1.child1, o1.child2, Tree.getR,
      Tree.get_of_lt bl, Tree.get_of_lt br, Tree.modify, if_pos bi]
    simp only [Tree.get, if_pos bi, Option.bind_some, upd_same, o1.parent]
  · refine ⟨by simp [o1.parent], by simp [o1.child1], by simp [o1.child2], ?_, ?_, o1.repL.congr ?_, o1.repR.congr ?_⟩
    · simp only [upd_same, hL, hR, T.ht]; omega
    · simp only [upd_same, upd_other _ _ el, upd_other _ _ er]
    · intro j hj; exact upd_other _ _ (by rintro rfl; exact nl hj)
    · intro j hj; exact upd_other _ _ (by rintro rfl; exact nr hj)
  · exact o1.ctx.congr fun j hj => upd_other _ _ (by rintro rfl; exact nc hj)
  · refine q1.trans fun j => ?_
    by_cases hj : j = i'
    · subst hj; simp [o1.child1]
    · simp [upd_other _ _ hj]
  · intro j hj
    have : j ≠ i' := by
      rintro rfl
      exact hj (List.mem_append.mpr (Or.inl (m1.mem_iff.mp (by simp))))
    simp only [upd_other _ _ this]
    exact u1 j hj

/-- The walk up repairs the whole tree. -/
theorem fixUp_spec : ∀ (c : List Frame) {t : Tree F D} {i : Nat} {l r : T} {fuel : Nat}, OpenAt t c i l r →
    c.length < fuel → ∃ t' T', Tree.fixUp fuel t (some i) = some t' ∧ Rep t'.nodes none T' ∧
      t'.root = some T'.id ∧ T'.ids.Perm (i :: (l.ids ++ r.ids) ++ ctxIds c) ∧
      T'.leaves.Perm (l.leaves ++ r.leaves ++ ctxLeaves c) ∧ SamePool t t' ∧ Pres t.nodes t'.nodes ∧
      (∀ j, j ∉ i :: (l.ids ++ r.ids) ++ ctxIds c → t'.nodes j = t.nodes j) := by
  intro c
  induction c with
  | nil =>
    intro t i l r fuel h hf
    obtain ⟨fuel, rfl⟩ : ∃ k, fuel = k + 1 := ⟨fuel - 1, by simp at hf; omega⟩
    obtain ⟨t', i', l', r', e1, h1, -, h3, m1, v1, p1, q1, u1⟩ := fixUp_step h
    refine ⟨t', .node i' l' r', ?_, h1, h3, ?_, ?_, p1, q1, u1⟩
    · rw [e1]; cases fuel <;> rfl
    · simpa [ctxIds, T.ids] using m1
    · simpa [ctxLeaves, T.leaves] using v1
  | cons f c ih =>
    intro t i l r fuel h hf
    obtain ⟨fuel, rfl⟩ : ∃ k, fuel = k + 1 := ⟨fuel - 1, by simp at hf; omega⟩
    obtain ⟨t1, i', l', r', e1, h1, hc, h3, m1, v1, p1, q1, u1⟩ := fixUp_step h
    obtain ⟨a1, a2, a3, a4, a5⟩ := hc
    have hnd : (i' :: (l'.ids ++ r'.ids) ++ ctxIds (f :: c)).Nodup :=
      (m1.append_right _).nodup_iff.mpr h.nodup
    have hbd : ∀ j ∈ i' :: (l'.ids ++ r'.ids) ++ ctxIds (f :: c), j < t1.cap := by
      intro j hj
      rw [p1.1]; exact h.bound j ((m1.append_right _).mem_iff.mp hj)
    -- the node at the hole becomes a child of `f.id`
    have key : ∃ L R : T, OpenAt t1 c f.id L R ∧
        (f.id :: (L.ids ++ R.ids) ++ ctxIds c).Perm (i' :: (l'.ids ++ r'.ids) ++ ctxIds (f :: c)) ∧
        (L.leaves ++ R.leaves ++ ctxLeaves c).Perm (l'.leaves ++ r'.leaves ++ ctxLeaves (f :: c)) := by
      have perm1 : (f.id :: ((T.node i' l' r').ids ++ f.sib.ids) ++ ctxIds c).Perm
          (i' :: (l'.ids ++ r'.ids) ++ ctxIds (f :: c)) := by
        simp only [ctxIds, T.ids]
        rw [List.cons_append, List.append_assoc]
        exact List.perm_middle.symm
      have perm2 : (f.id :: (f.sib.ids ++ (T.node i' l' r').ids) ++ ctxIds c).Perm
          (i' :: (l'.ids ++ r'.ids) ++ ctxIds (f :: c)) :=
        List.Perm.trans (List.Perm.append_right _ (List.Perm.cons _ List.perm_append_comm)) perm1
      by_cases hl : f.left = true
      · simp only [hl, if_true] at a1 a2
        refine ⟨.node i' l' r', f.sib, ⟨a1, a2, a3, h1, a4, a5, h3, perm1.nodup_iff.mpr hnd,
          fun j hj => hbd j (perm1.mem_iff.mp hj)⟩, perm1, ?_⟩
        simp only [T.leaves, ctxLeaves, List.append_assoc]; exact List.Perm.refl _
      · have hl' : f.left = false := by simpa using hl
        simp only [hl', Bool.false_eq_true, if_false] at a1 a2
        refine ⟨f.sib, .node i' l' r', ⟨a1, a2, a3, a4, h1, a5, h3, perm2.nodup_iff.mpr hnd,
          fun j hj => hbd j (perm2.mem_iff.mp hj)⟩, perm2, ?_⟩
        simp only [T.leaves, ctxLeaves]
        rw [← List.append_assoc (l'.leaves ++ r'.leaves)]
        exact List.Perm.append_right _ List.perm_append_comm
    obtain ⟨L, R, hO, hids, hlv⟩ := key
    obtain ⟨t', T', k1, k2, k3, k4, k5, k6, k7, k8⟩ := ih hO (by simpa using hf)
    have hall : (f.id :: (L.ids ++ R.ids) ++ ctxIds c).Perm (i :: (l.ids ++ r.ids) ++ ctxIds (f :: c)) :=
      hids.trans (m1.append_right _)
    refine ⟨t', T', by rw [e1]; exact k1, k2, k3, k4.trans hall, k5.trans (hlv.trans (v1.append_right _)),
      ⟨k6.1.trans p1.1, k6.2.1.trans p1.2.1, k6.2.2.trans p1.2.2⟩, q1.trans k7, ?_⟩
    intro j hj
    rw [k8 j (fun hm => hj (hall.mem_iff.mp hm)), u1 j hj]

end B2
