import Verif.Model.BroadPhase
import Verif.Spec.Tree

/-!
# What a user of the broad-phase knows

`BHist bp g buf rep`: some history of public calls, made with live ids, led to `bp`. The user's record: the live
proxies `g`; the list `buf` of the ids created, re-inserted by a move, or touched since the last `update_pairs`
(once per such call, destroyed ones dropped); and the set `rep` of the pairs `(i, j)`, `i < j`, of live proxies whose
user data was passed to `add_pair` since both were created. (If several live proxies have equal user data a call
counts for all of them; with distinct data, as in the engine, `rep` is exactly what was reported.) The record of
an update is made with a callback that only records; the outcome does not depend on the callback.
-/
namespace B2.Spec
variable {F D : Type} [LinearOrder F] [Add F] [Sub F] [Mul F] [Lit F]

/-- The callback that records what it is called with. -/
def record (l : List (Option D × Option D)) (a b : Option D) : List (Option D × Option D) := l ++ [(a, b)]

inductive BHist : BroadPhase F D → (Nat → Option (Proxy F D)) → List Nat → Set (Nat × Nat) → Prop
  | new : BHist BroadPhase.new (fun _ => none) [] ∅
  | create {bp bp' g buf rep box d id fat} : BHist bp g buf rep →
      bp.createProxy box d = some (bp', id) → bp'.tree.getFatAabb id = some fat →
      BHist bp' (upd g id (some ⟨d, box, fat, true⟩)) (buf ++ [id]) rep
  | destroy {bp bp' g buf rep id} : BHist bp g buf rep → g id ≠ none →
      bp.destroyProxy id = some bp' →
      BHist bp' (upd g id none) (buf.filter (· ≠ id)) {q ∈ rep | q.1 ≠ id ∧ q.2 ≠ id}
  | move {bp bp' g buf rep id p box disp b t fat} : BHist bp g buf rep → g id = some p →
      bp.moveProxy id box disp = some bp' → bp.tree.moveProxy id box disp = some (t, b) →
      bp'.tree.getFatAabb id = some fat →
      BHist bp' (upd g id (some { p with box := box, fat := fat, moved := p.moved || b }))
        (if b then buf ++ [id] else buf) rep
  | touch {bp bp' g buf rep id} : BHist bp g buf rep → g id ≠ none →
      bp.touchProxy id = some bp' → BHist bp' g (buf ++ [id]) rep
  | update {bp bp' g buf rep calls} : BHist bp g buf rep →
      bp.updatePairs record [] = some (bp', calls) →
      BHist bp' (fun i => (g i).map fun p => { p with moved := false }) []
        (rep ∪ {q | q.1 < q.2 ∧ ∃ p1 p2, g q.1 = some p1 ∧ g q.2 = some p2 ∧ (some p1.data, some p2.data) ∈ calls})
  | rebuild {bp bp' g buf rep} : BHist bp g buf rep → bp.rebuild = some bp' → BHist bp' g buf rep
  | shift {bp g buf rep} (o : Vec2 F) : BHist bp g buf rep →
      BHist (bp.shiftOrigin o)
        (fun i => (g i).map fun p => { p with box := shift o p.box, fat := shift o p.fat }) buf rep

end B2.Spec
