import Verif.Proofs.TreeQuery
import Verif.Proofs.FieldLaws
import Mathlib.Tactic.Ring

namespace B2
set_option linter.unusedSectionVars false
open Spec
section
variable {F D : Type} [LinearOrder F] [Add F] [Sub F] [Mul F] [Lit F]

theorem isUnion_combine (a b : AABB F) : IsUnion (AABB.combine a b) a b := by
  simp only [IsUnion, Covers, AABB.combine, minV, maxV, b2min_eq, b2max_eq]
  refine ⟨⟨min_le_left _ _, min_le_left _ _, le_max_left _ _, le_max_left _ _⟩,
    ⟨min_le_right _ _, min_le_right _ _, le_max_right _ _, le_max_right _ _⟩, ?_⟩
  rintro v ⟨h1, h2, h3, h4⟩ ⟨k1, k2, k3, k4⟩
  exact ⟨le_min h1 k1, le_min h2 k2, max_le h3 k3, max_le h4 k4⟩

theorem wellFormed_of_rep {t : Tree F D} {s : T} : ∀ {p : Ref}, Rep t.nodes p s → (∀ j ∈ s.ids, j < t.cap) →
    WellFormed t s.id p s.ht s.leaves := by
  induction s with
  | leaf i =>
    rintro p ⟨b1, b2, b3, b4⟩ hb
    exact .leaf (Tree.get_of_lt (hb i (by simp [T.ids]))) b1 b2 b3 b4
  | node i l r hl hr =>
    rintro p ⟨b1, b2, b3, b4, b5, b6, b7⟩ hb
    have bl : ∀ j ∈ l.ids, j < t.cap := fun j hj => hb j (by simp [T.ids, hj])
    have br : ∀ j ∈ r.ids, j < t.cap := fun j hj => hb j (by simp [T.ids, hj])
    refine .node (Tree.get_of_lt (hb i (by simp [T.ids]))) b1 b2 b3 (Tree.get_of_lt (bl _ l.id_mem))
      (Tree.get_of_lt (br _ r.id_mem)) (hl b6 bl) (hr b7 br) ?_ ?_
    · change (t.nodes i).height = _
      rw [b4]; simp only [T.ht]; omega
    · change IsUnion (t.nodes i).aabb _ _
      rw [b5]; exact isUnion_combine _ _

theorem TInvO.root_none {t : Tree F D} {g : Nat → Option (Proxy F D)} {o : Option T} (h : TInvO t g o) :
    (∀ i, g i = none) ↔ o = none := by
  cases o with
  | none =>
    simp only [iff_true]
    intro i
    by_contra hc
    have := (h.live i).mpr hc
    cases this
  | some S =>
    simp only [reduceCtorEq, iff_false]
    intro hall
    have hpos : 0 < S.leaves.length := by
      have := S.ids_length; omega
    obtain ⟨j, hj⟩ := List.exists_mem_of_length_pos hpos
    exact (h.live j).mp hj (hall j)

end

section
variable {F D : Type} [Field F] [LinearOrder F] [IsStrictOrderedRing F]

theorem overlap_shift (a b : AABB F) (o : Vec2 F) :
    AABB.overlap (shift o a) (shift o b) = AABB.overlap a b := by
  have e : ∀ x y z : F, x - z - (y - z) = x - y := fun x y z => by ring
  simp only [AABB.overlap, shift, Vec2.sub_x, Vec2.sub_y, e]

theorem queryLoop_shift {S : Type} (t : Tree F D) (cb : S → Nat → S × Bool) (q : AABB F) (o : Vec2 F) :
    ∀ (fuel : Nat) (stack : GStack.State Ref) (s : S),
      Tree.queryLoop (t.shiftOrigin o) cb (shift o q) fuel stack s = Tree.queryLoop t cb q fuel stack s := by
  intro fuel
  induction fuel with
  | zero => intros; rfl
  | succ fuel ih =>
    intro stack s
    rw [Tree.queryLoop, Tree.queryLoop]
    split
    · congr 1
      funext ⟨ref, stack⟩
      dsimp only
      split
      · exact ih _ _
      · rename_i id
        by_cases hid : id < t.cap
        · have h1 : (t.shiftOrigin o).get id = some { t.nodes id with aabb := shift o (t.nodes id).aabb } := by
            rw [Tree.get_of_lt (t := t.shiftOrigin o) hid, shiftOrigin_nodes t o hid]
          rw [h1, Tree.get_of_lt hid]
          simp only [Option.bind_eq_bind, Option.bind_some, overlap_shift, ih]
          rfl
        · have h1 : (t.shiftOrigin o).get id = none := if_neg hid
          have h2 : t.get id = none := if_neg hid
          rw [h1, h2]
          rfl
    · rfl

end
end B2
