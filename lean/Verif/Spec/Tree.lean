import Verif.Model.DynamicTree
import Mathlib.Data.Set.Card

/-!
# What a user of the dynamic tree knows

A user's own bookkeeping about the proxies they created, and the histories of calls they may make. Nothing
here looks inside the tree: a history is a sequence of public calls that returned, each made with live ids.
-/
namespace B2.Spec
variable {F D : Type} [LinearOrder F] [Add F] [Sub F] [Mul F] [Lit F]

/-- What the user knows about a live proxy: the data they attached, the tight box they passed last, the fat
box they were told of (`get_fat_aabb`) after the last call about this proxy, whether some call since the last
`clear_moved` reported a move. -/
structure Proxy (F D : Type) where
  data : D
  box : AABB F
  fat : AABB F
  moved : Bool

/-- Geometric shift of a box. -/
def shift (o : Vec2 F) (b : AABB F) : AABB F :=
  ⟨⟨b.lo.x - o.x, b.lo.y - o.y⟩, ⟨b.hi.x - o.x, b.hi.y - o.y⟩⟩

/-- `inner` lies in `outer`, as sets of points. -/
def Covers (outer inner : AABB F) : Prop :=
  outer.lo.x ≤ inner.lo.x ∧ outer.lo.y ≤ inner.lo.y ∧ inner.hi.x ≤ outer.hi.x ∧ inner.hi.y ≤ outer.hi.y

/-- The boxes, as closed sets of points, have a common point - for boxes with `lo ≤ hi`. -/
def Meets (a b : AABB F) : Prop :=
  a.lo.x ≤ b.hi.x ∧ b.lo.x ≤ a.hi.x ∧ a.lo.y ≤ b.hi.y ∧ b.lo.y ≤ a.hi.y

/-- Number of live proxies. -/
noncomputable def nLive (g : Nat → Option (Proxy F D)) : Nat := Set.ncard {i | g i ≠ none}

/-- `Hist t g peak`: some history of calls, starting from a new tree and using live ids only, ended in tree
`t`, with the live proxies `g`, and never had more than `peak` of them. -/
inductive Hist : Tree F D → (Nat → Option (Proxy F D)) → Nat → Prop
  | new : Hist Tree.new (fun _ => none) 0
  | create {t t' g peak box d id fat} : Hist t g peak →
      t.createProxy box d = some (t', id) → t'.getFatAabb id = some fat →
      Hist t' (upd g id (some ⟨d, box, fat, true⟩))
        (max peak (nLive (upd g id (some ⟨d, box, fat, true⟩))))
  | destroy {t t' g peak id} : Hist t g peak → g id ≠ none →
      t.destroyProxy id = some t' → Hist t' (upd g id none) peak
  | move {t t' g peak id p box disp b fat} : Hist t g peak → g id = some p →
      t.moveProxy id box disp = some (t', b) → t'.getFatAabb id = some fat →
      Hist t' (upd g id (some { p with box := box, fat := fat, moved := p.moved || b })) peak
  | clearMoved {t t' g peak id p} : Hist t g peak → g id = some p →
      t.clearMoved id = some t' → Hist t' (upd g id (some { p with moved := false })) peak
  | rebuild {t t' g peak} : Hist t g peak → t.rebuildBottomUp = some t' → Hist t' g peak
  | shift {t g peak} (o : Vec2 F) : Hist t g peak →
      Hist (t.shiftOrigin o)
        (fun i => (g i).map fun p => { p with box := shift o p.box, fat := shift o p.fat }) peak

/-- `u` is the smallest box covering `a` and `b`. -/
def IsUnion (u a b : AABB F) : Prop :=
  Covers u a ∧ Covers u b ∧ ∀ v, Covers v a → Covers v b → Covers v u

/-- `WellFormed t id parent depth leaves`: node `id` of the pool is the root of a well-formed binary tree, linked
to `parent`, of depth `depth` (edges on the longest downward path), with these leaves from left to right. Every
internal node has two children which point back to it, stores its real depth, and its box is the union of its
children's boxes. -/
inductive WellFormed (t : Tree F D) : Nat → Option Nat → Nat → List Nat → Prop
  | leaf {id parent n} : t.get id = some n → n.parent = parent → n.child1 = none → n.child2 = none →
      n.height = 0 → WellFormed t id parent 0 [id]
  | node {id parent n a b na nb da db la lb} : t.get id = some n → n.parent = parent →
      n.child1 = some a → n.child2 = some b → t.get a = some na → t.get b = some nb →
      WellFormed t a (some id) da la → WellFormed t b (some id) db lb →
      n.height = 1 + max (da : Int) db → IsUnion n.aabb na.aabb nb.aabb →
      WellFormed t id parent (1 + max da db) (la ++ lb)

/-- Calling a stateful callback on a sequence of ids until it answers `false`. -/
def callUntil {S : Type} (cb : S → Nat → S × Bool) (s : S) : List Nat → S
  | [] => s
  | i :: l => if (cb s i).2 then callUntil cb (cb s i).1 l else (cb s i).1

end B2.Spec

namespace B2
/-- The arithmetic laws the broad-phase relies on. They hold in every linearly ordered field (instance
below), and also for rounded arithmetic: rounding is monotone and exact on representable numbers, and a
difference of floats rounds to zero only when it is zero. -/
class RoundLaws (F : Type) [LinearOrder F] [Add F] [Sub F] [Lit F] : Prop where
  sub_le : ∀ a r : F, lit 0 ≤ r → a - r ≤ a
  le_add : ∀ a r : F, lit 0 ≤ r → a ≤ a + r
  add_le : ∀ a r : F, r < lit 0 → a + r ≤ a
  sub_mono : ∀ a b c : F, a ≤ b → a - c ≤ b - c
  sub_pos : ∀ a b : F, lit 0 < a - b ↔ b < a
  ext_nonneg : (lit 0 : F) ≤ aabbExtension

end B2
