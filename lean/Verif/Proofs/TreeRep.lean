import Verif.Model.DynamicTree
import Verif.Proofs.LinkedList
import Mathlib.Data.List.Perm.Basic
import Mathlib.Tactic.Common

/-! Representation of the node pool by an inductive tree; contexts (zippers). -/
namespace B2

/-- Shape of a subtree: which node indices sit where. -/
inductive T where
  | leaf (i : Nat)
  | node (i : Nat) (l r : T)

namespace T
/-- index of the root node -/
def id : T → Nat
  | leaf i => i
  | node i _ _ => i
/-- all indices -/
def ids : T → List Nat
  | leaf i => [i]
  | node i l r => i :: (l.ids ++ r.ids)
/-- leaf indices -/
def leaves : T → List Nat
  | leaf i => [i]
  | node _ l r => l.leaves ++ r.leaves
/-- height -/
def ht : T → Nat
  | leaf _ => 0
  | node _ l r => 1 + max l.ht r.ht

theorem id_mem (t : T) : t.id ∈ t.ids := by cases t <;> simp [id, ids]
theorem leaves_subset (t : T) : ∀ i ∈ t.leaves, i ∈ t.ids := by
  induction t with
  | leaf i => simp [leaves, ids]
  | node i l r hl hr =>
    intro j hj
    simp only [leaves, List.mem_append] at hj
    simp only [ids, List.mem_cons, List.mem_append]
    rcases hj with h | h
    · exact Or.inr (Or.inl (hl _ h))
    · exact Or.inr (Or.inr (hr _ h))
theorem ids_length (t : T) : t.ids.length + 1 = 2 * t.leaves.length := by
  induction t with
  | leaf i => simp [leaves, ids]
  | node i l r hl hr => simp [leaves, ids]; omega
theorem leaves_nodup {t : T} (h : t.ids.Nodup) : t.leaves.Nodup := by
  induction t with
  | leaf i => simp [leaves]
  | node i l r hl hr =>
    simp only [ids, List.nodup_cons, List.nodup_append] at h
    obtain ⟨-, h1, h2, h3⟩ := h
    rw [leaves, List.nodup_append]
    exact ⟨hl h1, hr h2, fun a ha b hb => h3 a (leaves_subset _ _ ha) b (leaves_subset _ _ hb)⟩
theorem ht_le (t : T) : t.ht + 1 ≤ t.ids.length := by
  induction t with
  | leaf i => simp [ht, ids]
  | node i l r hl hr => simp only [ht, ids, List.length_cons, List.length_append]; omega
end T

variable {F D : Type} [LinearOrder F]

/-- The pool `m` stores the subtree `t`, whose root has parent link `p`. -/
def Rep (m : Nat → Node F D) : Ref → T → Prop
  | p, .leaf i => (m i).parent = p ∧ (m i).child1 = none ∧ (m i).child2 = none ∧ (m i).height = 0
  | p, .node i l r => (m i).parent = p ∧ (m i).child1 = some l.id ∧ (m i).child2 = some r.id ∧
      (m i).height = ((T.node i l r).ht : Int) ∧
      (m i).aabb = AABB.combine (m l.id).aabb (m r.id).aabb ∧ Rep m (some i) l ∧ Rep m (some i) r

theorem Rep.parent {m : Nat → Node F D} {p : Ref} {t : T} (h : Rep m p t) : (m t.id).parent = p := by
  cases t <;> exact h.1

theorem Rep.height {m : Nat → Node F D} {p : Ref} {t : T} (h : Rep m p t) : (m t.id).height = (t.ht : Int) := by
  cases t with
  | leaf i => exact h.2.2.2
  | node i l r => exact h.2.2.2.1

theorem Rep.congr {m m' : Nat → Node F D} {t : T} : ∀ {p : Ref}, (∀ i ∈ t.ids, m' i = m i) → Rep m p t → Rep m' p t := by
  induction t with
  | leaf i =>
    intro p hc h
    have := hc i (by simp [T.ids])
    simpa only [Rep, this] using h
  | node i l r hl hr =>
    intro p hc h
    have h0 := hc i (by simp [T.ids])
    have h1 : ∀ j ∈ l.ids, m' j = m j := fun j hj => hc j (by simp [T.ids, hj])
    have h2 : ∀ j ∈ r.ids, m' j = m j := fun j hj => hc j (by simp [T.ids, hj])
    obtain ⟨a1, a2, a3, a4, a5, a6, a7⟩ := h
    refine ⟨?_, ?_, ?_, ?_, ?_, hl h1 a6, hr h2 a7⟩
    · rw [h0]; exact a1
    · rw [h0]; exact a2
    · rw [h0]; exact a3
    · rw [h0]; exact a4
    · rw [h0, h1 _ l.id_mem, h2 _ r.id_mem]; exact a5

theorem Rep.reparent {m m' : Nat → Node F D} {t : T} {p p' : Ref} (hnd : t.ids.Nodup)
    (hc : ∀ i ∈ t.ids, i ≠ t.id → m' i = m i) (hr : m' t.id = { m t.id with parent := p' })
    (h : Rep m p t) : Rep m' p' t := by
  cases t with
  | leaf i =>
    simp only [T.id] at hr
    obtain ⟨-, a2, a3, a4⟩ := h
    refine ⟨by rw [hr], by rw [hr]; exact a2, by rw [hr]; exact a3, by rw [hr]; exact a4⟩
  | node i l r =>
    simp only [T.id] at hr hc
    simp only [T.ids, List.nodup_cons, List.mem_append, not_or] at hnd
    have h1 : ∀ j ∈ l.ids, m' j = m j := fun j hj =>
      hc j (by simp [T.ids, hj]) (by rintro rfl; exact hnd.1.1 hj)
    have h2 : ∀ j ∈ r.ids, m' j = m j := fun j hj =>
      hc j (by simp [T.ids, hj]) (by rintro rfl; exact hnd.1.2 hj)
    obtain ⟨a1, a2, a3, a4, a5, a6, a7⟩ := h
    refine ⟨by rw [hr], by rw [hr]; exact a2, by rw [hr]; exact a3, by rw [hr]; exact a4, ?_, a6.congr h1, a7.congr h2⟩
    rw [hr, h1 _ l.id_mem, h2 _ r.id_mem]; exact a5

theorem Rep.child1_none_iff {m : Nat → Node F D} {p : Ref} {t : T} (h : Rep m p t) :
    (m t.id).child1 = none ↔ t.ht = 0 := by
  cases t with
  | leaf i => exact ⟨fun _ => rfl, fun _ => h.2.1⟩
  | node i l r =>
    constructor
    · intro h'; have := h.2.1; simp only [T.id] at h'; rw [this] at h'; simp at h'
    · intro h'; simp only [T.ht] at h'; omega

theorem Rep.leaf_node {m : Nat → Node F D} {t : T} : ∀ {p : Ref}, Rep m p t → ∀ i ∈ t.leaves,
    (m i).child1 = none ∧ (m i).child2 = none ∧ (m i).height = 0 := by
  induction t with
  | leaf i => intro p h j hj; simp only [T.leaves, List.mem_singleton] at hj; subst hj; exact h.2
  | node i l r hl hr =>
    intro p h j hj
    obtain ⟨_, _, _, _, _, a6, a7⟩ := h
    simp only [T.leaves, List.mem_append] at hj
    rcases hj with hj | hj
    · exact hl a6 j hj
    · exact hr a7 j hj

/-- A node of the represented tree has non-negative height, and is a leaf if it has no first child. -/
theorem Rep.used {m : Nat → Node F D} {t : T} : ∀ {p : Ref}, Rep m p t → ∀ i ∈ t.ids,
    0 ≤ (m i).height ∧ ((m i).child1 = none → i ∈ t.leaves) := by
  induction t with
  | leaf i =>
    intro p h j hj
    simp only [T.ids, List.mem_singleton] at hj; subst hj
    exact ⟨by rw [h.2.2.2], by simp [T.leaves]⟩
  | node i l r hl hr =>
    intro p h j hj
    obtain ⟨_, h2, _, h4, _, a6, a7⟩ := h
    simp only [T.ids, List.mem_cons, List.mem_append] at hj
    simp only [T.leaves, List.mem_append]
    rcases hj with rfl | hj | hj
    · exact ⟨by rw [h4]; omega, by simp [h2]⟩
    · exact ⟨(hl a6 j hj).1, fun h => Or.inl ((hl a6 j hj).2 h)⟩
    · exact ⟨(hr a7 j hj).1, fun h => Or.inr ((hr a7 j hj).2 h)⟩

/-- One step of a path: the node `id` whose one child is the hole and whose other child is `sib`. -/
structure Frame where
  id : Nat
  left : Bool
  sib : T

/-- Frame filled with a subtree. -/
def Frame.fill (f : Frame) (t : T) : T := if f.left then .node f.id t f.sib else .node f.id f.sib t

/-- The tree obtained by filling the innermost hole; the innermost frame comes first. -/
def plug : List Frame → T → T
  | [], t => t
  | f :: c, t => plug c (f.fill t)

def ctxIds : List Frame → List Nat
  | [] => []
  | f :: c => f.id :: (f.sib.ids ++ ctxIds c)

def ctxLeaves : List Frame → List Nat
  | [] => []
  | f :: c => f.sib.leaves ++ ctxLeaves c

/-- Parent link of the hole. -/
def par : List Frame → Ref
  | [] => none
  | f :: _ => some f.id

/-- Root index, when the hole is filled by a tree with root `h`. -/
def rootId : List Frame → Nat → Nat
  | [], h => h
  | f :: c, _ => rootId c f.id

/-- Links of the path are right and the siblings are represented; heights and boxes on the path are
unconstrained. -/
def RepC (m : Nat → Node F D) : List Frame → Nat → Prop
  | [], _ => True
  | f :: c, h => (m f.id).child1 = some (if f.left then h else f.sib.id) ∧
      (m f.id).child2 = some (if f.left then f.sib.id else h) ∧
      (m f.id).parent = par c ∧ Rep m (some f.id) f.sib ∧ RepC m c f.id

theorem Frame.fill_id (f : Frame) (t : T) : (f.fill t).id = f.id := by
  unfold Frame.fill; split <;> rfl

theorem Frame.fill_ids (f : Frame) (t : T) : (f.fill t).ids.Perm (f.id :: (t.ids ++ f.sib.ids)) := by
  unfold Frame.fill; split
  · exact List.Perm.refl _
  · exact List.Perm.cons _ List.perm_append_comm

theorem Frame.fill_leaves (f : Frame) (t : T) : (f.fill t).leaves.Perm (t.leaves ++ f.sib.leaves) := by
  unfold Frame.fill; split
  · exact List.Perm.refl _
  · exact List.perm_append_comm

theorem plug_id : ∀ (c : List Frame) (t : T), (plug c t).id = rootId c t.id
  | [], _ => rfl
  | f :: c, t => by
    have := plug_id c (f.fill t)
    simp only [plug, rootId]; rw [this, Frame.fill_id]

theorem plug_ids : ∀ (c : List Frame) (t : T), (plug c t).ids.Perm (t.ids ++ ctxIds c)
  | [], t => by simp [plug, ctxIds]
  | f :: c, t => by
    simp only [plug, ctxIds]
    refine (plug_ids c (f.fill t)).trans ?_
    refine ((f.fill_ids t).append_right _).trans ?_
    rw [List.cons_append, List.append_assoc]
    exact (List.perm_middle).symm

theorem plug_leaves : ∀ (c : List Frame) (t : T), (plug c t).leaves.Perm (t.leaves ++ ctxLeaves c)
  | [], t => by simp [plug, ctxLeaves]
  | f :: c, t => by
    simp only [plug, ctxLeaves]
    refine (plug_leaves c (f.fill t)).trans ?_
    refine ((f.fill_leaves t).append_right _).trans ?_
    rw [List.append_assoc]

theorem ctxLeaves_subset : ∀ (c : List Frame), ∀ i ∈ ctxLeaves c, i ∈ ctxIds c
  | [], i, hi => by simp [ctxLeaves] at hi
  | f :: c, i, hi => by
    simp only [ctxLeaves, List.mem_append] at hi
    simp only [ctxIds, List.mem_cons, List.mem_append]
    rcases hi with h | h
    · exact Or.inr (Or.inl (T.leaves_subset _ _ h))
    · exact Or.inr (Or.inr (ctxLeaves_subset c i h))

/-- Splitting a represented tree at any position. -/
theorem Rep.split {m : Nat → Node F D} : ∀ {c : List Frame} {t : T}, Rep m none (plug c t) →
    Rep m (par c) t ∧ RepC m c t.id
  | [], t, h => ⟨h, trivial⟩
  | f :: c, t, h => by
    obtain ⟨h1, h2⟩ := Rep.split (c := c) (t := f.fill t) h
    rw [Frame.fill_id] at h2
    unfold Frame.fill at h1
    by_cases hl : f.left = true
    · simp only [hl, if_true] at h1
      obtain ⟨a1, a2, a3, _, _, a6, a7⟩ := h1
      exact ⟨a6, by simp only [hl, if_true]; exact a2, by simp only [hl, if_true]; exact a3, a1, a7, h2⟩
    · have hl' : f.left = false := by simpa using hl
      simp only [hl', Bool.false_eq_true, if_false] at h1
      obtain ⟨a1, a2, a3, _, _, a6, a7⟩ := h1
      exact ⟨a7, by simp only [hl', Bool.false_eq_true, if_false]; exact a2,
        by simp only [hl', Bool.false_eq_true, if_false]; exact a3, a1, a6, h2⟩

theorem RepC.congr {m m' : Nat → Node F D} : ∀ {c : List Frame} {h : Nat}, (∀ i ∈ ctxIds c, m' i = m i) →
    RepC m c h → RepC m' c h
  | [], _, _, _ => trivial
  | f :: c, h, hc, hr => by
    obtain ⟨a1, a2, a3, a4, a5⟩ := hr
    have h0 := hc f.id (by simp [ctxIds])
    refine ⟨by rw [h0]; exact a1, by rw [h0]; exact a2, by rw [h0]; exact a3, ?_, ?_⟩
    · exact a4.congr fun i hi => hc i (by simp [ctxIds, hi])
    · exact RepC.congr (fun i hi => hc i (by simp [ctxIds, hi])) a5

/-- Every leaf of a tree is at the hole of some context. -/
theorem T.exists_ctx (t : T) : ∀ (i : Nat), i ∈ t.leaves → ∀ c0, ∃ c, plug c (.leaf i) = plug c0 t := by
  induction t with
  | leaf j =>
    intro i hi c0
    simp only [T.leaves, List.mem_singleton] at hi
    subst hi; exact ⟨c0, rfl⟩
  | node j l r hl hr =>
    intro i hi c0
    simp only [T.leaves, List.mem_append] at hi
    rcases hi with h | h
    · exact hl i h (⟨j, true, r⟩ :: c0)
    · exact hr i h (⟨j, false, l⟩ :: c0)

/-! Boxes -/

theorem b2min_eq (a b : F) : b2min a b = min a b := by
  unfold b2min; rcases lt_or_ge a b with h | h
  · rw [if_pos h, min_eq_left h.le]
  · rw [if_neg (not_lt.mpr h), min_eq_right h]

theorem b2max_eq (a b : F) : b2max a b = max a b := by
  unfold b2max; rcases lt_or_ge b a with h | h
  · rw [if_pos h, max_eq_left h.le]
  · rw [if_neg (not_lt.mpr h), max_eq_right h]

theorem AABB.combine_comm (a b : AABB F) : AABB.combine a b = AABB.combine b a := by
  simp only [AABB.combine, minV, maxV, b2min_eq, b2max_eq, min_comm, max_comm]

end B2
