import Verif.Proofs.TreeReport
import Verif.Proofs.FieldLaws
import Verif.Props.DynamicTree

/-!
# C130: the figures that a tree reports about its shape are true
-/
set_option linter.unusedSectionVars false
namespace B2.Props
open Spec

section
variable {F D : Type} [LinearOrder F] [Add F] [Sub F] [Mul F] [Lit F] [RoundLaws F]

/-- C130. After any history `get_max_balance` does not panic and answers the largest difference in depth between the two subtrees of a node of the tree:
no node has a larger one, and some node has this one, unless the answer is 0. -/
theorem c130_max_balance {t : Tree F D} {g : Nat → Option (Proxy F D)} {peak : Nat} (h : Hist t g peak) :
    ∃ B, t.getMaxBalance = some B ∧ 0 ≤ B ∧
      (∀ r, t.root = some r → ∀ i k, InTree t r i → Uneven t i k → k ≤ B) ∧
      (B = 0 ∨ ∃ r i, t.root = some r ∧ InTree t r i ∧ Uneven t i B) := by
  obtain ⟨o, hi⟩ := (histInv h).inv
  exact maxBalance_spec hi.root hi.pool

end

section
variable {F D : Type} [Field F] [LinearOrder F] [IsStrictOrderedRing F]

/-- C130. After any history `get_area_ratio` does not panic. For an empty tree it answers 0, and otherwise the sum of the perimeters of the boxes of all
nodes of the tree, each taken once, divided by the perimeter of the box of the root. -/
theorem c130_area_ratio {t : Tree F D} {g : Nat → Option (Proxy F D)} {peak : Nat} (h : Hist t g peak) :
    match t.root with
    | none => t.getAreaRatio = some 0
    | some r => ∃ ids : List Nat, ids.Nodup ∧ (∀ i, i ∈ ids ↔ InTree t r i) ∧
        t.getAreaRatio = some ((ids.map fun i => 2 * (((t.nodes i).aabb.hi.x - (t.nodes i).aabb.lo.x) + ((t.nodes i).aabb.hi.y - (t.nodes i).aabb.lo.y))).sum /
          (2 * (((t.nodes r).aabb.hi.x - (t.nodes r).aabb.lo.x) + ((t.nodes r).aabb.hi.y - (t.nodes r).aabb.lo.y)))) := by
  obtain ⟨o, hi⟩ := (histInv h).inv
  cases o with
  | none =>
    have hr : t.root = none := hi.root
    simp only [hr, Tree.getAreaRatio]
    show some ((0 : ℚ) : F) = some 0
    simp
  | some S =>
    obtain ⟨hr, hrep⟩ := hi.root
    rw [hr]
    refine ⟨S.ids, ?_, fun i => (inTree_iff hrep hi.pool.lt i).symm, ?_⟩
    · obtain ⟨fl, -, p2, -⟩ := hi.pool
      rw [List.nodup_append] at p2
      exact p2.1
    · rw [area_spec hi.root hi.pool]
      have hp : ∀ b : AABB F, b.perimeter = 2 * ((b.hi.x - b.lo.x) + (b.hi.y - b.lo.y)) := by
        intro b
        show ((2 : ℚ) : F) * _ = _
        simp
      simp only [hp]

end

/-- The tree of three proxies of `Props/DynamicTree` has a leaf beside a node with two leaves, so its balance is 1, and the five perimeters together are
4.8 + 4.8 + 4.8 + 5.8 + 22.8, against 22.8 for the root. -/
example : (∃ g peak, Hist ex3.1 g peak) ∧ ex3.1.getMaxBalance = some 1 ∧ ex3.1.getAreaRatio = some ((48 / 10 + 48 / 10 + 48 / 10 + 58 / 10 + 228 / 10) / (228 / 10)) := by
  obtain ⟨g, peak, h, -⟩ := ex3_hist
  exact ⟨⟨g, peak, h⟩, by decide +kernel, by decide +kernel⟩

end B2.Props
