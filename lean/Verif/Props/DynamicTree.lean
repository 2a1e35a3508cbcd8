import Verif.Proofs.TreeFinal
import Mathlib.Tactic.NormNum
import Mathlib.Tactic.Linarith
set_option linter.unusedSectionVars false

/-!
# Properties C05-C11, C13, C14: the dynamic tree

`Hist t g peak` (Verif/Spec/Tree.lean): some history of public calls with live ids led to the tree `t`; `g` is the
user's own record of the live proxies. A result `none` of a model function is a panic or an endless loop.
-/
namespace B2.Props
open Spec
section
variable {F D : Type} [LinearOrder F] [Add F] [Sub F] [Mul F] [Lit F] [RoundLaws F]

/-- **C05**, first half: after any history no further operation panics or loops. -/
theorem c05_tree_never_panics {t : Tree F D} {g : Nat → Option (Proxy F D)} {peak : Nat} (h : Hist t g peak) :
    (∀ box d, ∃ t' id, t.createProxy box d = some (t', id)) ∧
    (∀ id, g id ≠ none →
      (∃ t', t.destroyProxy id = some t') ∧
      (∀ box disp, ∃ t' b, t.moveProxy id box disp = some (t', b)) ∧
      (∃ t', t.clearMoved id = some t') ∧
      (∃ x, t.getFatAabb id = some x) ∧ (∃ x, t.getUserData id = some x) ∧ (∃ x, t.wasMoved id = some x)) ∧
    (∀ (S : Type) (cb : S → Nat → S × Bool) box s, ∃ s', t.query cb box s = some s') := by
  have hi := histInv h
  refine ⟨fun box d => ?_, fun id hid => ?_, fun S cb box s => ?_⟩
  · obtain ⟨t', id, h1, -⟩ := createProxy_spec hi.inv box d
    exact ⟨t', id, h1⟩
  · obtain ⟨p, hp⟩ := Option.ne_none_iff_exists'.mp hid
    have hlt : id < t.cap := by
      obtain ⟨o, hi⟩ := hi.inv; exact hi.lt hid
    refine ⟨?_, fun box disp => ?_, ?_, ?_, ?_, ?_⟩
    · obtain ⟨t', h1, -⟩ := destroyProxy_spec hi.inv hid; exact ⟨t', h1⟩
    · obtain ⟨t', b, h1, -⟩ := moveProxy_spec hi.inv hp box disp (by have := hi.cap_lo; omega)
      exact ⟨t', b, h1⟩
    · obtain ⟨t', h1, -⟩ := clearMoved_spec hi.inv hp; exact ⟨t', h1⟩
    · exact ⟨_, by simp only [Tree.getFatAabb, Tree.get_of_lt hlt]; rfl⟩
    · exact ⟨_, by simp only [Tree.getUserData, Tree.get_of_lt hlt]; rfl⟩
    · exact ⟨_, by simp only [Tree.wasMoved, Tree.get_of_lt hlt]; rfl⟩
  · obtain ⟨ids, -, -, h1⟩ := query_spec hi.inv box
    exact ⟨_, h1 S cb s⟩

/-- **C05**, second half: the tree is well formed, its leaves are exactly the live proxies, and unless it is
empty its own `validate()` passes. -/
theorem c05_tree_well_formed {t : Tree F D} {g : Nat → Option (Proxy F D)} {peak : Nat} (h : Hist t g peak) :
    match t.root with
    | none => ∀ i, g i = none
    | some r => t.validate = some () ∧
        ∃ depth leaves, WellFormed t r none depth leaves ∧ leaves.Nodup ∧ ∀ i, i ∈ leaves ↔ g i ≠ none := by
  obtain ⟨o, hi⟩ := (histInv h).inv
  cases o with
  | none =>
    have hr : t.root = none := hi.root
    rw [hr]
    exact hi.root_none.mpr rfl
  | some S =>
    obtain ⟨hr, hrep⟩ := hi.root
    rw [hr]
    exact ⟨validate_spec' hi.root hi.pool, S.ht, S.leaves, wellFormed_of_rep hrep hi.pool.lt, hi.counts.1, hi.live⟩

omit [RoundLaws F] in
/-- A finding: in a debug build `validate()` panics on an empty tree (`compute_height` indexes with -1). -/
theorem c05_validate_panics_on_empty_tree : (Tree.new : Tree F D).validate = none := by
  have hc : (Tree.new : Tree F D).computeHeight = none := rfl
  simp only [Tree.validate, hc, Option.bind_eq_bind, Option.bind_none]
  simp

/-- **C06**: a new id differs from all live ids, and every live id keeps naming its own data, fat box and
moved flag, whatever happened to other proxies (`g` changes at an id only by calls with that id). -/
theorem c06_ids_are_stable {t : Tree F D} {g : Nat → Option (Proxy F D)} {peak : Nat} (h : Hist t g peak) :
    (∀ box d t' id, t.createProxy box d = some (t', id) → g id = none) ∧
    (∀ id p, g id = some p →
      t.getUserData id = some (some p.data) ∧ t.getFatAabb id = some p.fat ∧ t.wasMoved id = some p.moved) := by
  have hi := histInv h
  constructor
  · intro box d t' id e
    obtain ⟨t1, id1, h1, h2, -⟩ := createProxy_spec hi.inv box d
    rw [e] at h1
    obtain ⟨rfl, rfl⟩ := Prod.mk.inj (Option.some.inj h1)
    exact h2
  · intro id p hp
    obtain ⟨o, hi⟩ := hi.inv
    have hlt := hi.lt (i := id) (by rw [hp]; simp)
    obtain ⟨k1, k2, k3⟩ := hi.pay id p hp
    simp [Tree.getUserData, Tree.getFatAabb, Tree.wasMoved, Tree.get_of_lt hlt, k1, k2, k3]

/-- **C07** and **C08**: for every query box there is one duplicate-free sequence of ids, consisting of exactly
the live proxies whose fat box meets the query box, such that for every callback the query calls it on these
ids in order until it first answers `false`. -/
theorem c07_c08_query_exact {t : Tree F D} {g : Nat → Option (Proxy F D)} {peak : Nat} (h : Hist t g peak)
    (box : AABB F) :
    ∃ ids : List Nat, ids.Nodup ∧ (∀ i, i ∈ ids ↔ ∃ p, g i = some p ∧ Meets p.fat box) ∧
      ∀ (S : Type) (cb : S → Nat → S × Bool) (s : S), t.query cb box s = some (callUntil cb s ids) :=
  query_spec (histInv h).inv box

/-- **C09**: the stored fat box always covers the tight box last passed in; a move that returns `false` left
the tree as it was, one that returns `true` marked the proxy. -/
theorem c09_fat_box_covers {t : Tree F D} {g : Nat → Option (Proxy F D)} {peak : Nat} (h : Hist t g peak) :
    (∀ id p, g id = some p → ∃ fat, t.getFatAabb id = some fat ∧ Covers fat p.box) ∧
    (∀ id box disp t', g id ≠ none → t.moveProxy id box disp = some (t', false) → t' = t) ∧
    (∀ id box disp t', g id ≠ none → t.moveProxy id box disp = some (t', true) → t'.wasMoved id = some true) := by
  have hi := histInv h
  have hm : ∀ id box disp t' b, g id ≠ none → t.moveProxy id box disp = some (t', b) →
      (b = false → t' = t) ∧ (b = true → t'.wasMoved id = some true) := by
    intro id box disp t' b hid e
    obtain ⟨p, hp⟩ := Option.ne_none_iff_exists'.mp hid
    obtain ⟨t1, b1, a1, a2, a3, a4⟩ := moveProxy_spec hi.inv hp box disp (by have := hi.cap_lo; omega)
    rw [e] at a1
    obtain ⟨rfl, rfl⟩ := Prod.mk.inj (Option.some.inj a1)
    refine ⟨fun hb => (a3 hb).1, fun hb => ?_⟩
    obtain ⟨o, hi'⟩ := a4 hb
    have hlt := hi'.lt (i := id) (by simp)
    simp [Tree.wasMoved, Tree.get_of_lt hlt, (hi'.pay id _ (upd_same ..)).2.2]
  refine ⟨fun id p hp => ⟨p.fat, getFatAabb_of hi.inv hp, hi.covers id p hp⟩, ?_, ?_⟩
  · exact fun id box disp t' hid e => (hm id box disp t' false hid e).1 rfl
  · exact fun id box disp t' hid e => (hm id box disp t' true hid e).2 rfl

/-- **C10**: with `n` live proxies exactly `2n - 1` nodes are allocated (`0` for `n = 0`), and the pool never
gets larger than the largest number of proxies ever alive requires. -/
theorem c10_pool_accounting {t : Tree F D} {g : Nat → Option (Proxy F D)} {peak : Nat} (h : Hist t g peak) :
    t.count = 2 * nLive g - 1 ∧ nLive g ≤ peak ∧ t.cap ≤ max 16 (4 * peak - 2) := by
  have hi := histInv h
  refine ⟨?_, hi.peak, hi.cap_hi⟩
  obtain ⟨o, hi⟩ := hi.inv
  exact hi.counts.2.2.1

/-- **C11**: `get_height` is the real depth of the tree (0 when empty), and `compute_height` agrees. -/
theorem c11_height_is_real {t : Tree F D} {g : Nat → Option (Proxy F D)} {peak : Nat} (h : Hist t g peak) :
    match t.root with
    | none => t.getHeight = some 0
    | some r => ∃ depth leaves, WellFormed t r none depth leaves ∧
        t.getHeight = some (depth : Int) ∧ t.computeHeight = some (depth : Int) := by
  obtain ⟨o, hi⟩ := (histInv h).inv
  cases o with
  | none =>
    have hr : t.root = none := hi.root
    simp only [hr, Tree.getHeight]
  | some S =>
    obtain ⟨hr, hrep⟩ := hi.root
    rw [hr]
    have h1 := S.ht_le
    have h2 : S.ids.length ≤ t.cap := hi.pool.length_le
    refine ⟨S.ht, S.leaves, wellFormed_of_rep hrep hi.pool.lt, ?_, ?_⟩
    · simp [Tree.getHeight, hr, Tree.get_of_lt (hi.pool.lt _ S.id_mem), hrep.height]
    · rw [Tree.computeHeight, hr]
      exact computeHeightBy_spec hrep hi.pool.lt (by omega)

/-- **C13**: rebuilding a non-empty tree, whose proxies lie in a region where perimeters stay below
`B2_MAX_FLOAT`, succeeds; every proxy keeps id, data, box and moved flag; the result is well formed over the
same proxies; and exactly as many nodes are in use as before, in a pool of the same size. -/
theorem c13_rebuild_keeps_proxies {t : Tree F D} {g : Nat → Option (Proxy F D)} {peak : Nat} (h : Hist t g peak)
    (hne : ∃ i, g i ≠ none) (B : AABB F) (hB : ∀ i p, g i = some p → Covers B p.fat)
    (hBmax : ∀ b, Covers B b → b.perimeter < Tree.maxFloat) :
    ∃ t', t.rebuildBottomUp = some t' ∧
      (∀ id p, g id = some p →
        t'.getUserData id = some (some p.data) ∧ t'.getFatAabb id = some p.fat ∧ t'.wasMoved id = some p.moved) ∧
      (∃ r depth leaves, t'.root = some r ∧ WellFormed t' r none depth leaves ∧ leaves.Nodup ∧
        ∀ i, i ∈ leaves ↔ g i ≠ none) ∧
      t'.count = t.count ∧ t'.cap = t.cap := by
  rcases rebuild_spec (histInv h).inv with ⟨-, h1 | h1⟩ | ⟨t', a1, a2, a3, a4⟩
  · obtain ⟨i, hi⟩ := hne; exact absurd (h1 i) hi
  · exact absurd ⟨B, hB, hBmax⟩ h1
  · have h' := Hist.rebuild h a1
    refine ⟨t', a1, (c06_ids_are_stable h').2, ?_, ?_, a3⟩
    · have := c05_tree_well_formed h'
      cases hr : t'.root with
      | none => exact absurd hr a4
      | some r =>
        rw [hr] at this
        obtain ⟨-, depth, leaves, k1, k2, k3⟩ := this
        exact ⟨r, depth, leaves, rfl, k1, k2, k3⟩
    · rw [(c10_pool_accounting h').1, (c10_pool_accounting h).1]

omit [RoundLaws F] in
/-- A finding: rebuilding an empty tree panics. -/
theorem c13_rebuild_panics_on_empty_tree : (Tree.new : Tree F D).rebuildBottomUp = none := by
  rcases rebuild_spec (new_inv (F := F) (D := D)).1 with ⟨h, -⟩ | ⟨t', h1, h2, -, h4⟩
  · exact h
  · exfalso
    obtain ⟨o, hi⟩ := h2
    cases o with
    | none => exact h4 hi.root
    | some S => have := hi.root_none.mp (fun _ => rfl); cases this

end

section
variable {F D : Type} [Field F] [LinearOrder F] [IsStrictOrderedRing F]

/-- **C14**: in exact arithmetic, querying the shifted tree with the shifted box is the same as querying the
tree with the box, call by call; and the shifted tree is well formed over the same proxies. -/
theorem c14_shift_commutes_with_query {t : Tree F D} {g : Nat → Option (Proxy F D)} {peak : Nat}
    (h : Hist t g peak) (o : Vec2 F) :
    (∀ (S : Type) (cb : S → Nat → S × Bool) box s, (t.shiftOrigin o).query cb (shift o box) s = t.query cb box s) ∧
    (∀ id p, g id = some p → (t.shiftOrigin o).getFatAabb id = some (shift o p.fat) ∧
      (t.shiftOrigin o).getUserData id = some (some p.data)) ∧
    (∀ r, t.root = some r → (t.shiftOrigin o).validate = some () ∧
      ∃ depth leaves, WellFormed (t.shiftOrigin o) r none depth leaves ∧ ∀ i, i ∈ leaves ↔ g i ≠ none) := by
  have h' := Hist.shift o h
  refine ⟨fun S cb box s => ?_, fun id p hp => ?_, fun r hr => ?_⟩
  · simp only [Tree.query, queryLoop_shift]
    rfl
  · obtain ⟨k1, k2, -⟩ := (c06_ids_are_stable h').2 id { p with box := shift o p.box, fat := shift o p.fat } (by simp [hp])
    exact ⟨k2, k1⟩
  · have := c05_tree_well_formed h'
    rw [show (t.shiftOrigin o).root = some r from hr] at this
    obtain ⟨k0, depth, leaves, k1, -, k3⟩ := this
    exact ⟨k0, depth, leaves, k1, fun i => by rw [k3 i]; simp⟩

end

/-! ## The hypotheses are met by real histories

Three proxies are created, one is moved far away, one destroyed. -/

def exBox (x : ℚ) : AABB ℚ := ⟨⟨x, 0⟩, ⟨x + 1, 1⟩⟩
def exHalf : AABB ℚ := exBox (1 / 2)
def exBig : AABB ℚ := ⟨⟨-100, -100⟩, ⟨100, 100⟩⟩

def ex1 : Tree ℚ Nat × Nat := ((Tree.new : Tree ℚ Nat).createProxy (exBox 0) 7).get (by decide +kernel)
def ex2 : Tree ℚ Nat × Nat := (ex1.1.createProxy (exHalf) 8).get (by decide +kernel)
def ex3 : Tree ℚ Nat × Nat := (ex2.1.createProxy (exBox 9) 9).get (by decide +kernel)
def ex4 : Tree ℚ Nat × Bool := (ex3.1.moveProxy 1 (exBox 20) ⟨1, 0⟩).get (by decide +kernel)
def ex5 : Tree ℚ Nat := (ex4.1.destroyProxy 0).get (by decide +kernel)
def exP (t : Tree ℚ Nat) (d : Nat) (x : ℚ) (i : Nat) (h : (t.getFatAabb i).isSome) : Proxy ℚ Nat :=
  ⟨d, exBox x, (t.getFatAabb i).get h, true⟩

theorem ex3_hist : ∃ g peak, Hist ex3.1 g peak ∧ (∃ p, g 0 = some p ∧ p.box = exBox 0) ∧
    (∃ p, g 1 = some p ∧ p.box = exHalf) ∧ (∃ p, g 3 = some p ∧ p.box = exBox 9) ∧
    ∀ i p, g i = some p → i = 0 ∨ i = 1 ∨ i = 3 := by
  have e1 : ex1.2 = 0 := by decide +kernel
  have e2 : ex2.2 = 1 := by decide +kernel
  have e3 : ex3.2 = 3 := by decide +kernel
  have h1 := Hist.create (F := ℚ) (t' := ex1.1) (id := 0) (d := 7) (box := exBox 0)
    (fat := (ex1.1.getFatAabb 0).get (by decide +kernel)) .new (by rw [← e1]; simp [ex1]) (by simp)
  have h2 := Hist.create (t' := ex2.1) (id := 1) (d := 8) (box := exHalf)
    (fat := (ex2.1.getFatAabb 1).get (by decide +kernel)) h1 (by rw [← e2]; simp [ex2]) (by simp)
  have h3 := Hist.create (t' := ex3.1) (id := 3) (d := 9) (box := exBox 9)
    (fat := (ex3.1.getFatAabb 3).get (by decide +kernel)) h2 (by rw [← e3]; simp [ex3]) (by simp)
  refine ⟨_, _, h3, ⟨_, by simp [upd]; rfl, rfl⟩, ⟨_, by simp [upd]; rfl, rfl⟩, ⟨_, by simp [upd]; rfl, rfl⟩, ?_⟩
  intro i p hp
  simp only [upd] at hp
  split_ifs at hp <;> omega

/-- A history with a move and a destruction; two proxies are left. -/
theorem ex5_hist : ∃ g peak, Hist ex5 g peak ∧ (∃ p, g 1 = some p ∧ p.box = exBox 20) ∧
    (∃ p, g 3 = some p ∧ p.box = exBox 9) ∧ g 0 = none := by
  obtain ⟨g, peak, h, ⟨p0, h0, -⟩, ⟨p1, h1, -⟩, ⟨p3, h3, b3⟩, -⟩ := ex3_hist
  have e4 : ex4.2 = true := by decide +kernel
  have k4 := Hist.move (t' := ex4.1) (b := true) (id := 1) (box := exBox 20) (disp := ⟨1, 0⟩)
    (fat := (ex4.1.getFatAabb 1).get (by decide +kernel)) h h1 (by rw [← e4]; simp [ex4]) (by simp)
  have k5 := Hist.destroy (t' := ex5) (id := 0) k4 (by simp [upd, h0]) (by simp [ex5])
  exact ⟨_, _, k5, ⟨_, by simp [upd]; rfl, rfl⟩, ⟨p3, by simp [upd, h3], b3⟩, by simp [upd]⟩

/-- C05, C06, C09, C10, C11 apply to it, and C07/C08 to any box: here a query that meets one of the two proxies
and one stopped by the callback after the first of two. -/
example : ex5.root ≠ none ∧ ex5.validate = some () ∧ ex5.getHeight = some 1 ∧ ex5.count = 3 ∧
    ex5.query (fun l i => (l ++ [i], true)) (exBox 8) [] = some [3] ∧
    ex5.query (fun l i => (l ++ [i], true)) exBig [] = some [1, 3] ∧
    ex5.query (fun l i => (l ++ [i], false)) exBig [] = some [1] := by
  decide +kernel

/-- The hypotheses of C13 hold for `ex3`: all three fat boxes lie in `exBig`. -/
example : ∃ g peak, Hist ex3.1 g peak ∧ (∃ i, g i ≠ none) ∧ (∀ i p, g i = some p → Covers exBig p.fat) ∧
    ∀ b, Covers exBig b → b.perimeter < Tree.maxFloat := by
  obtain ⟨g, peak, h, ⟨p0, h0, -⟩, -, -, hall⟩ := ex3_hist
  refine ⟨g, peak, h, ⟨0, by simp [h0]⟩, fun i p hp => ?_, fun b hb => ?_⟩
  · have h1 := ((c06_ids_are_stable h).2 i p hp).2.1
    have hc : ∀ i ∈ [0, 1, 3], ∃ b, ex3.1.getFatAabb i = some b ∧ Covers exBig b := by
      have h0 : ((ex3.1.getFatAabb 0).get (by decide +kernel)) = ⟨⟨-1/10, -1/10⟩, ⟨11/10, 11/10⟩⟩ := by decide +kernel
      have h1 : ((ex3.1.getFatAabb 1).get (by decide +kernel)) = ⟨⟨4/10, -1/10⟩, ⟨16/10, 11/10⟩⟩ := by decide +kernel
      have h3 : ((ex3.1.getFatAabb 3).get (by decide +kernel)) = ⟨⟨89/10, -1/10⟩, ⟨101/10, 11/10⟩⟩ := by decide +kernel
      simp only [List.mem_cons, List.not_mem_nil, or_false, forall_eq_or_imp, forall_eq]
      refine ⟨⟨_, (Option.some_get (by decide +kernel)).symm, ?_⟩, ⟨_, (Option.some_get (by decide +kernel)).symm, ?_⟩,
        ⟨_, (Option.some_get (by decide +kernel)).symm, ?_⟩⟩
      · rw [h0]; norm_num [Covers, exBig]
      · rw [h1]; norm_num [Covers, exBig]
      · rw [h3]; norm_num [Covers, exBig]
    obtain ⟨b, hb, hc⟩ := hc i (by rcases hall i p hp with rfl | rfl | rfl <;> simp)
    rw [h1] at hb
    exact Option.some.inj hb ▸ hc
  · obtain ⟨k1, k2, k3, k4⟩ := hb
    simp only [exBig] at k1 k2 k3 k4
    have : (Tree.maxFloat : ℚ) = (2 ^ 24 - 1) * 2 ^ 104 := by simp [Tree.maxFloat, lit_def]
    rw [this]
    simp only [AABB.perimeter, lit_def]
    norm_num
    linarith

/-- C14 on `ex5`: the same two proxies, the same order, with shifted boxes. -/
example : (ex5.shiftOrigin ⟨3, -4⟩).query (fun l i => (l ++ [i], true)) (shift ⟨3, -4⟩ exBig) [] = some [1, 3] := by
  decide +kernel

end B2.Props
