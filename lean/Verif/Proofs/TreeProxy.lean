import Verif.Proofs.TreeOps
import Verif.Spec.Tree

/-! Proxies: the invariant connecting a tree with the user's bookkeeping. -/
namespace B2
set_option linter.unusedSectionVars false
open Spec
variable {F D : Type} [LinearOrder F] [Add F] [Sub F] [Mul F] [Lit F]

/-- The payload of a node is what the user knows. -/
def PayIs (n : Node F D) (p : Proxy F D) : Prop :=
  n.aabb = p.fat ∧ n.userData = some p.data ∧ n.moved = p.moved

/-- `t` represents the binary tree `o`, whose leaves are the live proxies `g`. -/
structure TInvO (t : Tree F D) (g : Nat → Option (Proxy F D)) (o : Option T) : Prop where
  root : RootRep t o
  pool : PoolInv t (oids o)
  live : ∀ i, i ∈ oleaves o ↔ g i ≠ none
  pay : ∀ i p, g i = some p → PayIs (t.nodes i) p

def TInv (t : Tree F D) (g : Nat → Option (Proxy F D)) : Prop := ∃ o, TInvO t g o

theorem oleaves_subset {o : Option T} {i : Nat} (h : i ∈ oleaves o) : i ∈ oids o := by
  cases o with
  | none => exact h
  | some S => exact T.leaves_subset _ _ h

theorem SamePay.payIs {m m' : Nat → Node F D} {j : Nat} (h : SamePay m m' j) {p : Proxy F D}
    (hp : PayIs (m j) p) : PayIs (m' j) p := by
  obtain ⟨h1, h2, h3⟩ := h
  exact ⟨h1.trans hp.1, h2.trans hp.2.1, h3.trans hp.2.2⟩

theorem TInvO.lt {t : Tree F D} {g : Nat → Option (Proxy F D)} {o : Option T} (h : TInvO t g o) {i : Nat}
    (hi : g i ≠ none) : i < t.cap := h.pool.lt i (oleaves_subset ((h.live i).mpr hi))

theorem TInvO.leaf {t : Tree F D} {g : Nat → Option (Proxy F D)} {o : Option T} (h : TInvO t g o) {i : Nat}
    (hi : g i ≠ none) : (t.nodes i).child1 = none := by
  have := (h.live i).mpr hi
  cases o with
  | none => cases this
  | some S => exact (h.root.2.leaf_node i this).1

theorem RootRep.congr {t t' : Tree F D} {o : Option T} (h : RootRep t o) (hr : t'.root = t.root)
    (hn : ∀ j ∈ oids o, t'.nodes j = t.nodes j) : RootRep t' o := by
  cases o with
  | none => exact hr.trans h
  | some S => exact ⟨hr.trans h.1, h.2.congr hn⟩

/-- Number of leaves, nodes and live proxies. -/
theorem TInvO.counts {t : Tree F D} {g : Nat → Option (Proxy F D)} {o : Option T} (h : TInvO t g o) :
    (oleaves o).Nodup ∧ nLive g = (oleaves o).length ∧ t.count = 2 * nLive g - 1 ∧ (oids o).length = 2 * nLive g - 1 := by
  have hnd : (oleaves o).Nodup := by
    cases o with
    | none => exact List.nodup_nil
    | some S => exact S.leaves_nodup h.pool.nodup
  have hn : nLive g = (oleaves o).length := by
    unfold nLive
    rw [← List.toFinset_card_of_nodup hnd, ← Set.ncard_coe_finset]
    congr 1
    ext i
    simp only [Set.mem_setOf_eq, List.coe_toFinset]
    exact (h.live i).symm
  have hl : (oids o).length = 2 * nLive g - 1 := by
    rw [hn]
    cases o with
    | none => rfl
    | some S =>
      have := S.ids_length
      simp only [oids, oleaves]; omega
  refine ⟨hnd, hn, ?_, hl⟩
  obtain ⟨fl, -, -, -, -, hc, -⟩ := h.pool
  rw [hc, hl]

theorem mem_upd_some {α : Type} {g : Nat → Option α} {id i : Nat} {x : α} :
    upd g id (some x) i ≠ none ↔ i = id ∨ g i ≠ none := by
  by_cases h : i = id
  · subst h; simp
  · simp [upd_other _ _ h, h]

theorem mem_upd_none {α : Type} {g : Nat → Option α} {id i : Nat} :
    upd g id none i ≠ none ↔ i ≠ id ∧ g i ≠ none := by
  by_cases h : i = id
  · subst h; simp
  · simp [upd_other _ _ h, h]

theorem createProxy_spec {t : Tree F D} {g : Nat → Option (Proxy F D)} (h : TInv t g) (box : AABB F) (d : D) :
    ∃ t' id, t.createProxy box d = some (t', id) ∧ g id = none ∧
      t'.getFatAabb id = some (Tree.fatten box) ∧
      TInv t' (upd g id (some ⟨d, box, Tree.fatten box, true⟩)) ∧
      t.cap ≤ t'.cap ∧
      (t'.cap = t.cap ∨ t'.cap ≤ 4 * nLive (upd g id (some ⟨d, box, Tree.fatten box, true⟩)) - 2) := by
  obtain ⟨o, h⟩ := h
  obtain ⟨t1, id, a1, a2, a3, a4, a5, a6, ⟨b1, b2, b3, b4, b5, b6⟩, a7⟩ := allocate_spec h.pool
  have bid : id < t1.cap := a3.lt id (by simp)
  have hgid : g id = none := by
    by_contra hc
    exact a2 (oleaves_subset ((h.live id).mpr hc))
  let t2 : Tree F D := { t1 with nodes := upd t1.nodes id { t1.nodes id with
    aabb := Tree.fatten box, userData := some d, height := 0, moved := true } }
  have e2 : ∀ j, j ≠ id → t2.nodes j = t1.nodes j := fun j hj => upd_other _ _ hj
  have e2i : t2.nodes id = { t1.nodes id with
    aabb := Tree.fatten box, userData := some d, height := 0, moved := true } := upd_same ..
  have e20 : ∀ j ∈ oids o, t2.nodes j = t.nodes j := fun j hj => by
    rw [e2 j (by rintro rfl; exact a2 hj), a6 j hj]
  have hroot2 : RootRep t2 o := h.root.congr a4 e20
  have hpool2 : PoolInv t2 (id :: oids o) := a3.congr ⟨rfl, rfl, rfl⟩ fun j hj =>
    e2 j (by rintro rfl; exact hj (by simp))
  obtain ⟨t', S', c1, c2, c3, c4, c5, c6⟩ := insertLeaf_spec hroot2 hpool2 (by rw [e2i]; exact b2)
    (by rw [e2i]; exact b3) (by rw [e2i])
  have bid' : id < t'.cap := c3.lt id (T.leaves_subset _ _ (c4.mem_iff.mpr (by simp)))
  have hpay : PayIs (t'.nodes id) ⟨d, box, Tree.fatten box, true⟩ := by
    refine (c5 id (by simp)).payIs ?_
    rw [e2i]; exact ⟨rfl, rfl, rfl⟩
  have hinv : TInvO t' (upd g id (some ⟨d, box, Tree.fatten box, true⟩)) (some S') := by
    refine ⟨c2, c3, ?_, ?_⟩
    · intro i
      show i ∈ S'.leaves ↔ _
      rw [c4.mem_iff, List.mem_cons, mem_upd_some, h.live i]
    · intro i p hp
      by_cases hi : i = id
      · subst hi; simp only [upd_same, Option.some.injEq] at hp; subst hp; exact hpay
      · rw [upd_other _ _ hi] at hp
        have hil : i ∈ oleaves o := (h.live i).mpr (by rw [hp]; simp)
        refine (c5 i (by simp [hil])).payIs ?_
        rw [e20 i (oleaves_subset hil)]
        exact h.pay i p hp
  have hcapm : t.cap ≤ t'.cap := by
    have h2cap : t2.cap = t1.cap := rfl
    rcases c6 with c6 | ⟨-, c6⟩ <;> omega
  refine ⟨t', id, ?_, hgid, ?_, ⟨some S', hinv⟩, hcapm, ?_⟩
  · simp only [Tree.createProxy, a1, Option.bind_eq_bind, Option.bind_some, Tree.modify, if_pos bid]
    show Option.bind (t2.insertLeaf id) _ = _
    rw [c1]; rfl
  · simp [Tree.getFatAabb, Tree.get_of_lt bid', hpay.1]
  · obtain ⟨-, k1, k2, k3⟩ := hinv.counts
    obtain ⟨-, l1, l2, l3⟩ := h.counts
    have l4 : (oids (some S')).length ≤ t'.cap := c3.length_le
    have hcard : nLive (upd g id (some ⟨d, box, Tree.fatten box, true⟩)) = nLive g + 1 := by
      rw [k1, l1]; simpa [oleaves] using c4.length_eq
    have h2cap : t2.cap = t1.cap := rfl
    rw [h2cap] at c6
    simp only [List.length_cons] at c6
    rcases c6 with c6 | ⟨c6, c7⟩
    · rcases a7 with a7 | ⟨a7, a8⟩
      · left; rw [c6, a7]
      · right; rw [c6, a8, hcard]; omega
    · right
      rw [c7, hcard]; omega

theorem destroyProxy_spec {t : Tree F D} {g : Nat → Option (Proxy F D)} (h : TInv t g) {id : Nat}
    (hid : g id ≠ none) :
    ∃ t', t.destroyProxy id = some t' ∧ TInv t' (upd g id none) ∧ t'.cap = t.cap := by
  obtain ⟨o, h⟩ := h
  have hl := (h.live id).mpr hid
  have hlt := h.lt hid
  cases o with
  | none => cases hl
  | some S =>
    obtain ⟨t1, o', a1, a2, a3, a4, a5, a6, a7, a8, a9⟩ := removeLeaf_spec h.root h.pool hl
    obtain ⟨t2, b1, b2, b3, b4, b5⟩ := free_spec a3
    have hnd := a3.nodup
    simp only [List.nodup_cons] at hnd
    refine ⟨t2, ?_, ⟨o', ?_, b2, ?_, ?_⟩, by rw [b4, a9]⟩
    · simp only [Tree.destroyProxy, Tree.get_of_lt hlt, Option.bind_eq_bind, Option.bind_some, Node.isLeaf, h.leaf hid,
        Option.isNone_none, if_true]
      rw [a1, Option.bind_some, b1]
    · exact a2.congr b3 fun j hj => b5 j (by rintro rfl; exact hnd.1 hj)
    · intro i
      rw [mem_upd_none, ← h.live i]
      show _ ↔ _ ∧ i ∈ S.leaves
      rw [a4.mem_iff, List.mem_cons]
      constructor
      · intro hi
        exact ⟨by rintro rfl; exact hnd.1 (oleaves_subset hi), Or.inr hi⟩
      · rintro ⟨h1, h2 | h2⟩
        · exact absurd h2 h1
        · exact h2
    · intro i p hp
      have hi : i ≠ id := by rintro rfl; simp at hp
      rw [upd_other _ _ hi] at hp
      rw [b5 i hi]
      exact (a5 i ((h.live i).mpr (by rw [hp]; simp))).payIs (h.pay i p hp)

theorem moveProxy_spec {t : Tree F D} {g : Nat → Option (Proxy F D)} (h : TInv t g) {id : Nat} {p : Proxy F D}
    (hid : g id = some p) (box : AABB F) (disp : Vec2 F) (hcap : 2 ≤ t.cap) :
    ∃ t' b, t.moveProxy id box disp = some (t', b) ∧ t'.cap = t.cap ∧
      (b = false → t' = t ∧ p.fat.contains box = true) ∧
      (b = true → TInv t' (upd g id (some ⟨p.data, box, Tree.fatMoved box disp, true⟩))) := by
  obtain ⟨o, h⟩ := h
  have hid' : g id ≠ none := by rw [hid]; simp
  have hl := (h.live id).mpr hid'
  have hlt := h.lt hid'
  have hpay := h.pay id p hid
  have hred : t.moveProxy id box disp =
      if p.fat.contains box && (Tree.hugeOf (Tree.fatMoved box disp)).contains p.fat then some (t, false) else do
        let t ← t.removeLeaf id
        let t ← t.modify id fun n => { n with aabb := Tree.fatMoved box disp }
        let t ← t.insertLeaf id
        let t ← t.modify id fun n => { n with moved := true }
        return (t, true) := by
    simp only [Tree.moveProxy, Tree.get_of_lt hlt, Option.bind_eq_bind, Option.bind_some, Node.isLeaf, h.leaf hid',
        Option.isNone_none, if_true, hpay.1]
    rfl
  by_cases hc : (p.fat.contains box && (Tree.hugeOf (Tree.fatMoved box disp)).contains p.fat) = true
  · refine ⟨t, false, by rw [hred, if_pos hc], rfl, fun _ => ⟨rfl, ?_⟩, by simp⟩
    simp only [Bool.and_eq_true] at hc
    exact hc.1
  rw [if_neg hc] at hred
  cases o with
  | none => cases hl
  | some S =>
    obtain ⟨t1, o', a1, a2, a3, a4, a5, a6, a7, a8, a9⟩ := removeLeaf_spec h.root h.pool hl
    have hnd := a3.nodup
    simp only [List.nodup_cons] at hnd
    have hlt1 : id < t1.cap := by rw [a9]; exact hlt
    let t2 : Tree F D := { t1 with nodes := upd t1.nodes id { t1.nodes id with aabb := Tree.fatMoved box disp } }
    have e2 : ∀ j, j ≠ id → t2.nodes j = t1.nodes j := fun j hj => upd_other _ _ hj
    have e2i : t2.nodes id = { t1.nodes id with aabb := Tree.fatMoved box disp } := upd_same ..
    have hroot2 : RootRep t2 o' := a2.congr rfl fun j hj => e2 j (by rintro rfl; exact hnd.1 hj)
    have hpool2 : PoolInv t2 (id :: oids o') := a3.congr ⟨rfl, rfl, rfl⟩ fun j hj =>
      e2 j (by rintro rfl; exact hj (by simp))
    obtain ⟨t3, S', c1, c2, c3, c4, c5, c6⟩ := insertLeaf_spec hroot2 hpool2 (by rw [e2i]; exact a6)
      (by rw [e2i]; exact a7) (by rw [e2i]; exact a8)
    have hidS' : id ∈ S'.leaves := c4.mem_iff.mpr (by simp)
    have hcap3 : t3.cap = t.cap := by
      rcases c6 with c6 | ⟨c6, -⟩
      · rw [c6]; exact a9
      · exfalso
        have k1 : S.ids.length ≤ t.cap := h.pool.length_le
        have k2 := S.ids_length
        have k3 : t2.cap = t.cap := a9
        have k4 := a4.length_eq
        simp only [List.length_cons] at c6 k4
        cases o' with
        | none => simp [oids] at c6; omega
        | some S2 =>
          have := S2.ids_length
          simp only [oids, oleaves] at c6 k4
          omega
    have hlt3 : id < t3.cap := by rw [hcap3]; exact hlt
    let t4 : Tree F D := { t3 with nodes := upd t3.nodes id { t3.nodes id with moved := true } }
    have e4 : ∀ j, j ≠ id → t4.nodes j = t3.nodes j := fun j hj => upd_other _ _ hj
    have e4i : t4.nodes id = { t3.nodes id with moved := true } := upd_same ..
    have hrep4 : ∀ (q : Ref) (s : T), Rep t3.nodes q s → Rep t4.nodes q s := by
      have ee : ∀ j, (t4.nodes j).parent = (t3.nodes j).parent ∧ (t4.nodes j).child1 = (t3.nodes j).child1 ∧
          (t4.nodes j).child2 = (t3.nodes j).child2 ∧ (t4.nodes j).height = (t3.nodes j).height ∧
          (t4.nodes j).aabb = (t3.nodes j).aabb := by
        intro j
        by_cases hj : j = id
        · subst hj; rw [e4i]; exact ⟨rfl, rfl, rfl, rfl, rfl⟩
        · rw [e4 j hj]; exact ⟨rfl, rfl, rfl, rfl, rfl⟩
      intro q s
      induction s generalizing q with
      | leaf i => 
        rintro ⟨b1, b2, b3, b4⟩
        exact ⟨(ee i).1.trans b1, (ee i).2.1.trans b2, (ee i).2.2.1.trans b3, (ee i).2.2.2.1.trans b4⟩
      | node i l r hl hr =>
        rintro ⟨b1, b2, b3, b4, b5, b6, b7⟩
        exact ⟨(ee i).1.trans b1, (ee i).2.1.trans b2, (ee i).2.2.1.trans b3, (ee i).2.2.2.1.trans b4,
          by rw [(ee i).2.2.2.2, (ee l.id).2.2.2.2, (ee r.id).2.2.2.2]; exact b5, hl _ b6, hr _ b7⟩
    refine ⟨t4, true, ?_, hcap3, by simp, fun _ => ⟨some S', ⟨c2.1, hrep4 _ _ c2.2⟩, ?_, ?_, ?_⟩⟩
    · rw [hred, a1]
      simp only [Option.bind_eq_bind, Option.bind_some]
      rw [Tree.modify, if_pos hlt1, Option.bind_some]
      show Option.bind (t2.insertLeaf id) _ = _
      rw [c1, Option.bind_some, Tree.modify, if_pos hlt3, Option.bind_some]
      rfl
    · refine c3.congr ⟨rfl, rfl, rfl⟩ fun j hj => e4 j ?_
      rintro rfl; exact hj (T.leaves_subset _ _ hidS')
    · intro i
      show i ∈ S'.leaves ↔ _
      rw [c4.mem_iff, List.mem_cons, mem_upd_some, ← h.live i]
      show _ ↔ _ ∨ i ∈ S.leaves
      rw [a4.mem_iff, List.mem_cons]
      tauto
    · intro i q hq
      by_cases hi : i = id
      · subst hi
        simp only [upd_same, Option.some.injEq] at hq
        subst hq
        obtain ⟨k1, k2, k3⟩ := c5 i (by simp)
        obtain ⟨l1, l2, l3⟩ := a5 i hl
        rw [e4i]
        refine ⟨?_, ?_, rfl⟩
        · show (t3.nodes i).aabb = _
          rw [k1, e2i]
        · show (t3.nodes i).userData = _
          rw [k2, e2i]; show (t1.nodes i).userData = _
          rw [l2, hpay.2.1]
      · rw [upd_other _ _ hi] at hq
        have hil : i ∈ S.leaves := (h.live i).mpr (by rw [hq]; simp)
        have hil' : i ∈ oleaves o' := by
          have := a4.mem_iff.mp hil
          simpa [hi] using this
        rw [e4 i hi]
        refine (c5 i (by simp [hil'])).payIs ?_
        rw [e2 i hi]
        exact (a5 i hil).payIs (h.pay i q hq)

theorem clearMoved_spec {t : Tree F D} {g : Nat → Option (Proxy F D)} (h : TInv t g) {id : Nat} {p : Proxy F D}
    (hid : g id = some p) :
    ∃ t', t.clearMoved id = some t' ∧ t'.cap = t.cap ∧ TInv t' (upd g id (some { p with moved := false })) := by
  obtain ⟨o, h⟩ := h
  have hid' : g id ≠ none := by rw [hid]; simp
  have hl := (h.live id).mpr hid'
  have hlt := h.lt hid'
  let t4 : Tree F D := { t with nodes := upd t.nodes id { t.nodes id with moved := false } }
  have e4 : ∀ j, j ≠ id → t4.nodes j = t.nodes j := fun j hj => upd_other _ _ hj
  have e4i : t4.nodes id = { t.nodes id with moved := false } := upd_same ..
  have hrep4 : ∀ (q : Ref) (s : T), Rep t.nodes q s → Rep t4.nodes q s := by
    have ee : ∀ j, (t4.nodes j).parent = (t.nodes j).parent ∧ (t4.nodes j).child1 = (t.nodes j).child1 ∧
        (t4.nodes j).child2 = (t.nodes j).child2 ∧ (t4.nodes j).height = (t.nodes j).height ∧
        (t4.nodes j).aabb = (t.nodes j).aabb := by
      intro j
      by_cases hj : j = id
      · subst hj; rw [e4i]; exact ⟨rfl, rfl, rfl, rfl, rfl⟩
      · rw [e4 j hj]; exact ⟨rfl, rfl, rfl, rfl, rfl⟩
    intro q s
    induction s generalizing q with
    | leaf i => 
      rintro ⟨b1, b2, b3, b4⟩
      exact ⟨(ee i).1.trans b1, (ee i).2.1.trans b2, (ee i).2.2.1.trans b3, (ee i).2.2.2.1.trans b4⟩
    | node i l r hl hr =>
      rintro ⟨b1, b2, b3, b4, b5, b6, b7⟩
      exact ⟨(ee i).1.trans b1, (ee i).2.1.trans b2, (ee i).2.2.1.trans b3, (ee i).2.2.2.1.trans b4,
        by rw [(ee i).2.2.2.2, (ee l.id).2.2.2.2, (ee r.id).2.2.2.2]; exact b5, hl _ b6, hr _ b7⟩
  refine ⟨t4, by simp only [Tree.clearMoved, Tree.modify, if_pos hlt]; rfl, rfl, o, ?_, ?_, ?_, ?_⟩
  · have hr := h.root
    cases o with
    | none => exact hr
    | some S => exact ⟨hr.1, hrep4 _ _ hr.2⟩
  · refine h.pool.congr ⟨rfl, rfl, rfl⟩ fun j hj => e4 j ?_
    rintro rfl; exact hj (oleaves_subset hl)
  · intro i
    rw [mem_upd_some, h.live i]
    constructor
    · exact Or.inr
    · rintro (rfl | hi)
      · exact hid'
      · exact hi
  · intro i q hq
    by_cases hi : i = id
    · subst hi
      simp only [upd_same, Option.some.injEq] at hq
      subst hq
      rw [e4i]
      exact ⟨(h.pay i p hid).1, (h.pay i p hid).2.1, rfl⟩
    · rw [upd_other _ _ hi] at hq
      rw [e4 i hi]; exact h.pay i q hq

theorem new_inv : TInv (Tree.new : Tree F D) (fun _ => none) ∧ (Tree.new : Tree F D).cap = 16 := by
  refine ⟨⟨none, rfl, ⟨List.range' 0 16, ?_, ?_, ?_, rfl, rfl, ?_, Nat.zero_lt_succ 15⟩, ?_, ?_⟩, rfl⟩
  · refine seg_chain (Tree.new : Tree F D).nodes 0 16 (by decide) ?_ ?_
    · intro i _ hi
      show (if i < 15 then some (i + 1) else none) = _
      rw [if_pos hi]
    · rfl
  · exact List.nodup_range' ..
  · intro i hi
    have : i < 16 := by simpa [oids] using hi
    exact this
  · intro i _; rfl
  · intro i; simp [oleaves]
  · intro i p hp; cases hp

/-! ### Shifting the origin -/

theorem shift_combine [RoundLaws F] (o : Vec2 F) (a b : AABB F) :
    AABB.combine (shift o a) (shift o b) = shift o (AABB.combine a b) := by
  have hmin : ∀ x y z : F, b2min (x - z) (y - z) = b2min x y - z := by
    intro x y z
    rw [b2min_eq, b2min_eq]
    rcases le_total x y with h | h
    · rw [min_eq_left h, min_eq_left (RoundLaws.sub_mono _ _ _ h)]
    · rw [min_eq_right h, min_eq_right (RoundLaws.sub_mono _ _ _ h)]
  have hmax : ∀ x y z : F, b2max (x - z) (y - z) = b2max x y - z := by
    intro x y z
    rw [b2max_eq, b2max_eq]
    rcases le_total x y with h | h
    · rw [max_eq_right h, max_eq_right (RoundLaws.sub_mono _ _ _ h)]
    · rw [max_eq_left h, max_eq_left (RoundLaws.sub_mono _ _ _ h)]
  simp only [AABB.combine, shift, minV, maxV, hmin, hmax]

theorem shiftOrigin_nodes (t : Tree F D) (o : Vec2 F) {j : Nat} (hj : j < t.cap) :
    (t.shiftOrigin o).nodes j = { t.nodes j with aabb := shift o (t.nodes j).aabb } := by
  simp only [Tree.shiftOrigin, if_pos hj]; rfl

theorem shiftOrigin_rep [RoundLaws F] {t : Tree F D} (o : Vec2 F) {s : T} : ∀ {q : Ref}, Rep t.nodes q s →
    (∀ j ∈ s.ids, j < t.cap) → Rep (t.shiftOrigin o).nodes q s := by
  induction s with
  | leaf i =>
    rintro q ⟨b1, b2, b3, b4⟩ hb
    rw [Rep, shiftOrigin_nodes t o (hb i (by simp [T.ids]))]
    exact ⟨b1, b2, b3, b4⟩
  | node i l r hl hr =>
    rintro q ⟨b1, b2, b3, b4, b5, b6, b7⟩ hb
    have bl : ∀ j ∈ l.ids, j < t.cap := fun j hj => hb j (by simp [T.ids, hj])
    have br : ∀ j ∈ r.ids, j < t.cap := fun j hj => hb j (by simp [T.ids, hj])
    rw [Rep, shiftOrigin_nodes t o (hb i (by simp [T.ids])), shiftOrigin_nodes t o (bl _ l.id_mem),
      shiftOrigin_nodes t o (br _ r.id_mem)]
    refine ⟨b1, b2, b3, b4, ?_, hl b6 bl, hr b7 br⟩
    show shift o _ = AABB.combine (shift o _) (shift o _)
    rw [b5, shift_combine]

theorem shiftOrigin_spec [RoundLaws F] {t : Tree F D} {g : Nat → Option (Proxy F D)} (h : TInv t g) (o : Vec2 F) :
    TInv (t.shiftOrigin o) (fun i => (g i).map fun p => { p with box := shift o p.box, fat := shift o p.fat }) := by
  obtain ⟨S, h⟩ := h
  refine ⟨S, ?_, ?_, ?_, ?_⟩
  · have hr := h.root
    cases S with
    | none => exact hr
    | some S => exact ⟨hr.1, shiftOrigin_rep o hr.2 h.pool.lt⟩
  · obtain ⟨fl, h1, h2, h3, h4, h5, h6, h7⟩ := h.pool
    refine ⟨fl, ?_, h2, h3, h4, h5, ?_, h7⟩
    · refine Seg.congr ?_ h1
      intro a ha
      rw [shiftOrigin_nodes t o (h3 a (by simp [ha]))]
    · intro a ha
      rw [shiftOrigin_nodes t o (h3 a (by simp [ha]))]
      exact h6 a ha
  · intro i; rw [h.live i]; cases g i <;> simp
  · intro i p hp
    cases hg : g i with
    | none => rw [hg] at hp; cases hp
    | some q =>
      rw [hg] at hp
      simp only [Option.map_some, Option.some.injEq] at hp
      subst hp
      rw [shiftOrigin_nodes t o (h.lt (by rw [hg]; simp))]
      obtain ⟨k1, k2, k3⟩ := h.pay i q hg
      exact ⟨congrArg (shift o) k1, k2, k3⟩

/-! ### The height and `validate` -/

theorem computeHeightBy_spec {t : Tree F D} {s : T} : ∀ {q : Ref} {fuel : Nat}, Rep t.nodes q s →
    (∀ j ∈ s.ids, j < t.cap) → s.ht < fuel → Tree.computeHeightBy fuel t (some s.id) = some (s.ht : Int) := by
  induction s with
  | leaf i =>
    rintro q fuel ⟨b1, b2, b3, b4⟩ hb hf
    obtain ⟨fuel, rfl⟩ : ∃ k, fuel = k + 1 := ⟨fuel - 1, by omega⟩
    simp [Tree.computeHeightBy, T.id, Tree.get_of_lt (hb i (by simp [T.ids])), Node.isLeaf, b2, T.ht]
  | node i l r hl hr =>
    rintro q fuel ⟨b1, b2, b3, b4, b5, b6, b7⟩ hb hf
    obtain ⟨fuel, rfl⟩ : ∃ k, fuel = k + 1 := ⟨fuel - 1, by omega⟩
    have bl : ∀ j ∈ l.ids, j < t.cap := fun j hj => hb j (by simp [T.ids, hj])
    have br : ∀ j ∈ r.ids, j < t.cap := fun j hj => hb j (by simp [T.ids, hj])
    simp only [T.ht] at hf ⊢
    change Tree.computeHeightBy (fuel + 1) t (some i) = _
    simp only [Tree.computeHeightBy, Option.bind_eq_bind, Option.bind_some, Tree.get_of_lt (hb i (by simp [T.ids])),
      Node.isLeaf, b2, b3, Option.isNone_some, Bool.false_eq_true, if_false]
    rw [hl b6 bl (by omega), Option.bind_some, hr b7 br (by omega), Option.bind_some]
    simp only [Option.pure_def, Option.some.injEq]
    omega

theorem validateStructure_spec {t : Tree F D} {s : T} : ∀ {q : Ref} {fuel : Nat}, Rep t.nodes q s →
    (∀ j ∈ s.ids, j < t.cap) → s.ht < fuel → (q ≠ none → ∀ j ∈ s.ids, t.root ≠ some j) →
    (∀ i l r, s = .node i l r → ∀ j ∈ l.ids ++ r.ids, t.root ≠ some j) → 
    Tree.validateStructure fuel t (some s.id) = some () := by
  induction s with
  | leaf i =>
    rintro q fuel ⟨b1, b2, b3, b4⟩ hb hf hq hq'
    obtain ⟨fuel, rfl⟩ : ∃ k, fuel = k + 1 := ⟨fuel - 1, by omega⟩
    have : ¬ (t.root = some i ∧ (t.nodes i).parent ≠ none) := by
      rintro ⟨h1, h2⟩
      exact hq (by rwa [b1] at h2) i (by simp [T.ids]) h1
    simp [Tree.validateStructure, T.id, Tree.get_of_lt (hb i (by simp [T.ids])), Node.isLeaf, b2, b3, b4]
    simpa using this
  | node i l r hl hr =>
    rintro q fuel ⟨b1, b2, b3, b4, b5, b6, b7⟩ hb hf hq hq'
    obtain ⟨fuel, rfl⟩ : ∃ k, fuel = k + 1 := ⟨fuel - 1, by omega⟩
    have bl : ∀ j ∈ l.ids, j < t.cap := fun j hj => hb j (by simp [T.ids, hj])
    have br : ∀ j ∈ r.ids, j < t.cap := fun j hj => hb j (by simp [T.ids, hj])
    have : ¬ (t.root = some i ∧ (t.nodes i).parent ≠ none) := by
      rintro ⟨h1, h2⟩
      exact hq (by rwa [b1] at h2) i (by simp [T.ids]) h1
    have hroot := hq' i l r rfl
    have hsub : ∀ (s : T), (∀ j ∈ s.ids, t.root ≠ some j) → ∀ i l r, s = .node i l r → ∀ j ∈ l.ids ++ r.ids, t.root ≠ some j := by
      rintro s hs i l r rfl j hj
      exact hs j (by simp only [T.ids, List.mem_cons]; exact Or.inr hj)
    simp only [T.ht] at hf
    change Tree.validateStructure (fuel + 1) t (some i) = _
    simp only [Tree.validateStructure, Option.bind_eq_bind, Option.bind_some, Tree.get_of_lt (hb i (by simp [T.ids])),
      Node.isLeaf, b2, b3, Option.isNone_some, Bool.false_eq_true, if_false, if_neg this, Tree.getR,
      Tree.get_of_lt (bl _ l.id_mem), Tree.get_of_lt (br _ r.id_mem), b6.parent, b7.parent, and_self, if_true]
    have hL : ∀ j ∈ l.ids, t.root ≠ some j := fun j hj => hroot j (by simp [hj])
    have hR : ∀ j ∈ r.ids, t.root ≠ some j := fun j hj => hroot j (by simp [hj])
    rw [hl b6 bl (by omega) (fun _ => hL) (hsub l hL), Option.bind_some,
      hr b7 br (by omega) (fun _ => hR) (hsub r hR)]

theorem validateMetrics_spec {t : Tree F D} {s : T} : ∀ {q : Ref} {fuel : Nat}, Rep t.nodes q s →
    (∀ j ∈ s.ids, j < t.cap) → s.ht < fuel → Tree.validateMetrics fuel t (some s.id) = some () := by
  induction s with
  | leaf i =>
    rintro q fuel ⟨b1, b2, b3, b4⟩ hb hf
    obtain ⟨fuel, rfl⟩ : ∃ k, fuel = k + 1 := ⟨fuel - 1, by omega⟩
    simp [Tree.validateMetrics, T.id, Tree.get_of_lt (hb i (by simp [T.ids])), Node.isLeaf, b2, b3, b4]
  | node i l r hl hr =>
    rintro q fuel ⟨b1, b2, b3, b4, b5, b6, b7⟩ hb hf
    obtain ⟨fuel, rfl⟩ : ∃ k, fuel = k + 1 := ⟨fuel - 1, by omega⟩
    have bl : ∀ j ∈ l.ids, j < t.cap := fun j hj => hb j (by simp [T.ids, hj])
    have br : ∀ j ∈ r.ids, j < t.cap := fun j hj => hb j (by simp [T.ids, hj])
    have hh : (t.nodes i).height = 1 + max (t.nodes l.id).height (t.nodes r.id).height := by
      rw [b4, b6.height, b7.height]; simp only [T.ht]; omega
    simp only [T.ht] at hf
    change Tree.validateMetrics (fuel + 1) t (some i) = _
    simp only [Tree.validateMetrics, Option.bind_eq_bind, Option.bind_some, Tree.get_of_lt (hb i (by simp [T.ids])),
      Node.isLeaf, b2, b3, Option.isNone_some, Bool.false_eq_true, if_false, Tree.getR,
      Tree.get_of_lt (bl _ l.id_mem), Tree.get_of_lt (br _ r.id_mem)]
    rw [if_pos ⟨hh, b5⟩, hl b6 bl (by omega), Option.bind_some, hr b7 br (by omega)]

theorem freeCount_spec {t : Tree F D} : ∀ {l : List Nat} {r : Ref} {fuel : Nat},
    Seg (fun i => (t.nodes i).parent) r l → (∀ i ∈ l, i < t.cap) → l.length < fuel →
    Tree.freeCount fuel t r = some l.length
  | [], r, fuel, h, _, _ => by
    have : r = none := h
    subst this; cases fuel <;> rfl
  | a :: l, r, fuel, ⟨h1, h2⟩, hb, hf => by
    subst h1
    obtain ⟨fuel, rfl⟩ : ∃ k, fuel = k + 1 := ⟨fuel - 1, by omega⟩
    simp only [List.length_cons] at hf
    simp only [Tree.freeCount, Tree.get_of_lt (hb a (by simp)), Option.bind_eq_bind, Option.bind_some]
    rw [freeCount_spec h2 (fun i hi => hb i (by simp [hi])) (by omega)]
    rfl

theorem T.root_not_below {i : Nat} {l r : T} (h : (T.node i l r).ids.Nodup) : ∀ j ∈ l.ids ++ r.ids, j ≠ i := by
  rintro j hj rfl
  simp only [T.ids, List.nodup_cons] at h
  exact h.1 hj

theorem validate_spec' {t : Tree F D} {S : T} (hr : RootRep t (some S)) (hp : PoolInv t S.ids) :
    t.validate = some () := by
  obtain ⟨hroot, hrep⟩ := hr
  have hlt := hp.lt
  have hlen := hp.length_le
  have hht := S.ht_le
  have hnd := hp.nodup
  have hh : t.getHeight = some (S.ht : Int) := by
    simp [Tree.getHeight, hroot, Tree.get_of_lt (hlt _ S.id_mem), hrep.height]
  have hch : t.computeHeight = some (S.ht : Int) := by
    rw [Tree.computeHeight, hroot]
    exact computeHeightBy_spec hrep hlt (by omega)
  obtain ⟨fl, h1, h2, h3, h4, h5, h6, h7⟩ := hp
  have hfc := freeCount_spec (fuel := t.cap + 1) h1 (fun i hi => h3 i (by simp [hi])) (by omega)
  have hstr : Tree.validateStructure (t.cap + 1) t t.root = some () := by
    rw [hroot]
    refine validateStructure_spec hrep hlt (by omega) (fun h => absurd rfl h) ?_
    rintro i l r rfl j hj hc
    rw [hroot] at hc
    exact T.root_not_below hnd j hj (Option.some.inj hc).symm
  have hmet : Tree.validateMetrics (t.cap + 1) t t.root = some () := by
    rw [hroot]
    exact validateMetrics_spec hrep hlt (by omega)
  simp only [Tree.validate, hstr, hmet, hfc, hh, hch, Option.bind_eq_bind, Option.bind_some]
  rw [if_pos ⟨trivial, by omega⟩]

end B2
