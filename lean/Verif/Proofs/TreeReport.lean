import Verif.Model.TreeReport
import Verif.Spec.TreeReport
import Verif.Proofs.TreeFinal
import Mathlib.Algebra.BigOperators.Group.List.Basic

/-! The figures that a dynamic tree reports. -/
set_option linter.unusedSectionVars false
namespace B2
open Spec

section
variable {F D : Type} [LinearOrder F] [Add F] [Sub F] [Mul F] [Lit F]

theorem WellFormed.stored {t : Tree F D} {i : Nat} {p : Option Nat} {d : Nat} {l : List Nat} (h : WellFormed t i p d l) :
    ∃ n, t.get i = some n ∧ n.height = (d : Int) := by
  cases h with
  | leaf h1 _ _ _ h5 => exact ⟨_, h1, by simpa using h5⟩
  | node h1 _ _ _ _ _ _ _ h9 _ => exact ⟨_, h1, by rw [h9]; omega⟩

theorem inTree_iff {t : Tree F D} {S : T} : ∀ {p : Ref}, Rep t.nodes p S → (∀ j ∈ S.ids, j < t.cap) → ∀ i,
    InTree t S.id i ↔ i ∈ S.ids := by
  induction S with
  | leaf k =>
    rintro p ⟨-, b2, b3, -⟩ hb i
    have hk := Tree.get_of_lt (hb k (by simp [T.ids]))
    constructor
    · intro h
      cases h with
      | here => simp [T.ids, T.id]
      | left h1 h2 _ => simp only [T.id, hk, Option.some.injEq] at h1; rw [← h1, b2] at h2; cases h2
      | right h1 h2 _ => simp only [T.id, hk, Option.some.injEq] at h1; rw [← h1, b3] at h2; cases h2
    · intro h
      simp only [T.ids, List.mem_singleton] at h
      subst h; exact .here
  | node k l r hl hr =>
    rintro p ⟨b1, b2, b3, b4, b5, b6, b7⟩ hb i
    have hk := Tree.get_of_lt (hb k (by simp [T.ids]))
    have bl : ∀ j ∈ l.ids, j < t.cap := fun j hj => hb j (by simp [T.ids, hj])
    have br : ∀ j ∈ r.ids, j < t.cap := fun j hj => hb j (by simp [T.ids, hj])
    simp only [T.ids, List.mem_cons, List.mem_append]
    constructor
    · intro h
      cases h with
      | here => left; rfl
      | left h1 h2 h3 =>
        simp only [T.id, hk, Option.some.injEq] at h1
        rw [← h1, b2, Option.some.injEq] at h2
        subst h2; right; left; exact (hl b6 bl i).mp h3
      | right h1 h2 h3 =>
        simp only [T.id, hk, Option.some.injEq] at h1
        rw [← h1, b3, Option.some.injEq] at h2
        subst h2; right; right; exact (hr b7 br i).mp h3
    · rintro (rfl | h | h)
      · exact .here
      · exact .left hk b2 ((hl b6 bl i).mpr h)
      · exact .right hk b3 ((hr b7 br i).mpr h)

/-- Every inner node of the represented tree has subtrees. -/
theorem Rep.inner {t : Tree F D} {S : T} : ∀ {p : Ref}, Rep t.nodes p S → (∀ j ∈ S.ids, j < t.cap) → ∀ i ∈ S.ids,
    ((t.nodes i).height = 0 ∧ (t.nodes i).child1 = none) ∨
    ∃ l r : T, (t.nodes i).child1 = some l.id ∧ (t.nodes i).child2 = some r.id ∧
      (t.nodes i).height = 1 + max (l.ht : Int) r.ht ∧ Rep t.nodes (some i) l ∧ Rep t.nodes (some i) r ∧
      (∀ j ∈ l.ids, j < t.cap) ∧ (∀ j ∈ r.ids, j < t.cap) := by
  induction S with
  | leaf k =>
    rintro p ⟨-, b2, b3, b4⟩ hb i hi
    simp only [T.ids, List.mem_singleton] at hi
    subst hi; exact Or.inl ⟨b4, b2⟩
  | node k l r hl hr =>
    rintro p ⟨b1, b2, b3, b4, b5, b6, b7⟩ hb i hi
    have bl : ∀ j ∈ l.ids, j < t.cap := fun j hj => hb j (by simp [T.ids, hj])
    have br : ∀ j ∈ r.ids, j < t.cap := fun j hj => hb j (by simp [T.ids, hj])
    simp only [T.ids, List.mem_cons, List.mem_append] at hi
    rcases hi with rfl | h | h
    · exact Or.inr ⟨l, r, b2, b3, by rw [b4]; simp only [T.ht]; omega, b6, b7, bl, br⟩
    · exact hl b6 bl i h
    · exact hr b7 br i h

theorem foldlM_max {α : Type} (f : Int → α → Option Int) (k : α → Int) (l : List α)
    (h : ∀ acc, 0 ≤ acc → ∀ a ∈ l, f acc a = some (max acc (k a))) (acc : Int) (ha : 0 ≤ acc) :
    ∃ B, l.foldlM f acc = some B ∧ acc ≤ B ∧ (∀ a ∈ l, k a ≤ B) ∧ (B = acc ∨ ∃ a ∈ l, B = k a) := by
  induction l generalizing acc with
  | nil => exact ⟨acc, rfl, le_refl _, by simp, Or.inl rfl⟩
  | cons a l ih =>
    obtain ⟨B, h1, h2, h3, h4⟩ := ih (fun acc h0 b hb => h acc h0 b (List.mem_cons_of_mem _ hb)) (max acc (k a)) (by omega)
    refine ⟨B, ?_, by omega, ?_, ?_⟩
    · rw [List.foldlM_cons, h acc ha a List.mem_cons_self]; exact h1
    · intro b hb
      rcases List.mem_cons.mp hb with rfl | hb
      · omega
      · exact h3 b hb
    · rcases h4 with h4 | ⟨b, hb, h4⟩
      · rcases max_choice acc (k a) with h5 | h5
        · left; rw [h4, h5]
        · right; exact ⟨a, List.mem_cons_self, by rw [h4, h5]⟩
      · right; exact ⟨b, List.mem_cons_of_mem _ hb, h4⟩

theorem maxBalance_spec {t : Tree F D} {o : Option T} (hroot : RootRep t o) (hpool : PoolInv t (oids o)) :
    ∃ B, t.getMaxBalance = some B ∧ 0 ≤ B ∧
      (∀ r, t.root = some r → ∀ i k, InTree t r i → Uneven t i k → k ≤ B) ∧
      (B = 0 ∨ ∃ r i, t.root = some r ∧ InTree t r i ∧ Uneven t i B) := by
  obtain ⟨fl, p1, p2, p3, p4, p5, p6, p7⟩ := id hpool
  have hmem : ∀ i, i < t.cap → i ∈ oids o ∨ i ∈ fl := by
    intro i hi
    have hp : List.Subperm (oids o ++ fl) (List.range t.cap) := p2.subperm fun j hj => List.mem_range.mpr (p3 j hj)
    have := (hp.perm_of_length_le (by rw [List.length_range, List.length_append]; omega)).mem_iff.mpr (List.mem_range.mpr hi)
    exact List.mem_append.mp this
  -- how uneven node `i` looks to the loop
  let k : Nat → Int := fun i => if (t.nodes i).height ≤ 1 then 0 else
    match t.getR (t.nodes i).child1, t.getR (t.nodes i).child2 with
    | some a, some b => |b.height - a.height|
    | _, _ => 0
  have hin : ∀ i < t.cap, i ∈ fl ∨ ((t.nodes i).height = 0 ∧ (t.nodes i).child1 = none) ∨
      ∃ l r : T, (t.nodes i).child1 = some l.id ∧ (t.nodes i).child2 = some r.id ∧
      (t.nodes i).height = 1 + max (l.ht : Int) r.ht ∧ Rep t.nodes (some i) l ∧ Rep t.nodes (some i) r ∧
      (∀ j ∈ l.ids, j < t.cap) ∧ (∀ j ∈ r.ids, j < t.cap) := by
    intro i hi
    rcases hmem i hi with h | h
    · right
      cases o with
      | none => simp [oids] at h
      | some S => exact hroot.2.inner hpool.lt i h
    · exact Or.inl h
  have hk : ∀ i < t.cap, ∀ l r : T, (t.nodes i).child1 = some l.id → (t.nodes i).child2 = some r.id →
      (t.nodes i).height = 1 + max (l.ht : Int) r.ht → Rep t.nodes (some i) l → Rep t.nodes (some i) r →
      (∀ j ∈ l.ids, j < t.cap) → (∀ j ∈ r.ids, j < t.cap) → k i = |(l.ht : Int) - r.ht| := by
    intro i hi l r c1 c2 c3 c4 c5 c6 c7
    have g1 : t.getR (t.nodes i).child1 = some (t.nodes l.id) := by rw [c1]; exact Tree.get_of_lt (c6 _ l.id_mem)
    have g2 : t.getR (t.nodes i).child2 = some (t.nodes r.id) := by rw [c2]; exact Tree.get_of_lt (c7 _ r.id_mem)
    simp only [k, g1, g2]
    split
    · have : l.ht = 0 ∧ r.ht = 0 := by omega
      simp [this.1, this.2]
    · rw [c4.height, c5.height, abs_sub_comm]
  have hstep : ∀ acc, 0 ≤ acc → ∀ i ∈ List.range t.cap, t.maxBalanceStep acc i = some (max acc (k i)) := by
    intro acc h0 i hi
    rw [List.mem_range] at hi
    simp only [Tree.maxBalanceStep, Tree.get_of_lt hi, Option.bind_eq_bind, Option.bind_some]
    by_cases h1 : (t.nodes i).height ≤ 1
    · simp [k, h1, h0]
    · simp only [h1, if_false]
      rcases hin i hi with h | h | ⟨l, r, c1, c2, c3, c4, c5, c6, c7⟩
      · have := p6 i h; omega
      · omega
      · have g1 : t.getR (t.nodes i).child1 = some (t.nodes l.id) := by rw [c1]; exact Tree.get_of_lt (c6 _ l.id_mem)
        have g2 : t.getR (t.nodes i).child2 = some (t.nodes r.id) := by rw [c2]; exact Tree.get_of_lt (c7 _ r.id_mem)
        have hleaf : (t.nodes i).isLeaf = false := by simp [Node.isLeaf, c1]
        rw [hk i hi l r c1 c2 c3 c4 c5 c6 c7, g1, g2, hleaf]
        simp only [Bool.false_eq_true, if_false, Option.bind_some, c4.height, c5.height]
        rw [abs_sub_comm]; rfl
  obtain ⟨B, h1, h2, h3, h4⟩ := foldlM_max t.maxBalanceStep k (List.range t.cap) hstep 0 (le_refl _)
  refine ⟨B, h1, h2, ?_, ?_⟩
  · rintro r hr i u hi ⟨n, a, b, da, db, la, lb, e1, e2, e3, e4, e5, rfl⟩
    have hlt : i < t.cap := by
      by_contra hc
      simp [Tree.get, hc] at e1
    have hn : n = t.nodes i := by rw [Tree.get_of_lt hlt, Option.some.injEq] at e1; exact e1.symm
    subst hn
    rcases hin i hlt with h | h | ⟨l, r', c1, c2, c3, c4, c5, c6, c7⟩
    · exfalso
      cases o with
      | none => have : t.root = none := hroot; rw [this] at hr; cases hr
      | some S =>
        obtain ⟨hr', hrep⟩ := hroot
        rw [hr', Option.some.injEq] at hr
        subst hr
        have := (inTree_iff hrep hpool.lt i).mp hi
        have h' := p2
        rw [List.nodup_append] at h'
        exact h'.2.2 i this i h rfl
    · rw [h.2] at e2; cases e2
    · obtain ⟨na, f1, f2⟩ := WellFormed.stored e4
      obtain ⟨nb, f3, f4⟩ := WellFormed.stored e5
      rw [c1, Option.some.injEq] at e2
      rw [c2, Option.some.injEq] at e3
      subst e2 e3
      rw [Tree.get_of_lt (c6 _ l.id_mem), Option.some.injEq] at f1
      rw [Tree.get_of_lt (c7 _ r'.id_mem), Option.some.injEq] at f3
      rw [← f1, c4.height] at f2
      rw [← f3, c5.height] at f4
      rw [← f2, ← f4, ← hk i hlt l r' c1 c2 c3 c4 c5 c6 c7]
      exact h3 i (List.mem_range.mpr hlt)
  · rcases h4 with h4 | ⟨i, hi, h4⟩
    · left; exact h4
    · rw [List.mem_range] at hi
      rcases hin i hi with h | h | ⟨l, r, c1, c2, c3, c4, c5, c6, c7⟩
      · left; rw [h4]; have := p6 i h; simp only [k]; rw [if_pos (by omega)]
      · left; rw [h4]; simp only [k]; rw [if_pos (by omega)]
      · rcases hmem i hi with h | h
        · cases o with
          | none => simp [oids] at h
          | some S =>
            obtain ⟨hr', hrep⟩ := hroot
            refine Or.inr ⟨S.id, i, hr', (inTree_iff hrep hpool.lt i).mpr h, _, _, _, _, _, _, _, Tree.get_of_lt hi, c1, c2,
              wellFormed_of_rep c4 c6, wellFormed_of_rep c5 c7, ?_⟩
            rw [h4, hk i hi l r c1 c2 c3 c4 c5 c6 c7]
        · have := p6 i h; omega

end

section
variable {F D : Type} [Field F] [LinearOrder F] [IsStrictOrderedRing F]

theorem foldlM_area {t : Tree F D} (l : List Nat) (hl : ∀ i ∈ l, i < t.cap) (acc : F) :
    l.foldlM t.areaStep acc = some (acc + ((l.filter fun i => decide (0 ≤ (t.nodes i).height)).map fun i => (t.nodes i).aabb.perimeter).sum) := by
  induction l generalizing acc with
  | nil => simp
  | cons a l ih =>
    rw [List.foldlM_cons]
    have ha := hl a List.mem_cons_self
    by_cases h : (t.nodes a).height < 0
    · have h' : decide (0 ≤ (t.nodes a).height) = false := by simpa using h
      simp only [Tree.areaStep, Tree.get_of_lt ha, Option.bind_eq_bind, Option.bind_some, h, if_true, pure]
      rw [ih (fun i hi => hl i (List.mem_cons_of_mem _ hi)), List.filter_cons, h']
      simp
    · have h' : decide (0 ≤ (t.nodes a).height) = true := by simpa using h
      simp only [Tree.areaStep, Tree.get_of_lt ha, Option.bind_eq_bind, Option.bind_some, h, if_false, pure]
      rw [ih (fun i hi => hl i (List.mem_cons_of_mem _ hi)), List.filter_cons, h']
      simp [add_assoc]

theorem area_spec {t : Tree F D} {S : T} (hroot : RootRep t (some S)) (hpool : PoolInv t S.ids) :
    t.getAreaRatio = some ((S.ids.map fun i => (t.nodes i).aabb.perimeter).sum / (t.nodes S.id).aabb.perimeter) := by
  obtain ⟨fl, p1, p2, p3, p4, p5, p6, p7⟩ := id hpool
  have hp : List.Perm (S.ids ++ fl) (List.range t.cap) :=
    (p2.subperm fun j hj => List.mem_range.mpr (p3 j hj)).perm_of_length_le (by rw [List.length_range, List.length_append]; omega)
  have hf : ((List.range t.cap).filter fun i => decide (0 ≤ (t.nodes i).height)).Perm S.ids := by
    refine (hp.symm.filter _).trans ?_
    rw [List.filter_append, List.filter_eq_self.mpr, List.filter_eq_nil_iff.mpr, List.append_nil]
    · intro i hi; rw [p6 i hi]; simp
    · intro i hi; simpa using (hroot.2.used i hi).1
  have hr : t.root = some S.id := hroot.1
  simp only [Tree.getAreaRatio, hr, Tree.get_of_lt (hpool.lt _ S.id_mem), Option.bind_eq_bind, Option.bind_some]
  rw [foldlM_area _ (fun i hi => List.mem_range.mp hi)]
  simp only [Option.bind_some, pure]
  rw [(hf.map _).sum_eq]
  congr 2
  show ((0 : ℚ) : F) + _ = _
  simp

end
end B2
