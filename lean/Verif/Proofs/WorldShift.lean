import Verif.Proofs.WorldQuery
import Verif.Proofs.TreeFinal

/-! Moving the origin of a world and then looking at it. -/
set_option linter.unusedSectionVars false
namespace B2
open Spec World

section
variable {F D : Type} [Field F] [LinearOrder F] [IsStrictOrderedRing F]

theorem segmentAabb_shift (o p1 p2 : Vec2 F) (f : F) :
    Tree.segmentAabb (p1 - o) (p2 - o) f = shift o (Tree.segmentAabb p1 p2 f) := by
  have e : ∀ a b c : F, a - c + f * (b - c - (a - c)) = a + f * (b - a) - c := fun a b c => by ring
  have mn : ∀ a b c : F, b2min (a - c) (b - c) = b2min a b - c := by
    intro a b c; unfold b2min; simp only [sub_lt_sub_iff_right]; split <;> rfl
  have mx : ∀ a b c : F, b2max (a - c) (b - c) = b2max a b - c := by
    intro a b c; unfold b2max; simp only [sub_lt_sub_iff_right, gt_iff_lt]; split <;> rfl
  simp only [Tree.segmentAabb, shift, minV, maxV]
  congr 1 <;> ext <;> simp only [Vec2.sub_x, Vec2.sub_y, Vec2.add_x, Vec2.add_y, Vec2.smul_x, Vec2.smul_y, e, mn, mx]

theorem raySurvives_shift (o p1 v absv : Vec2 F) (box seg : AABB F) :
    Tree.raySurvives (shift o box) (p1 - o) v absv (shift o seg) = Tree.raySurvives box p1 v absv seg := by
  have hl : (lit (1 / 2) : F) = 1 / 2 := by show ((1 / 2 : ℚ) : F) = 1 / 2; norm_num
  have h1 : p1 - o - (shift o box).center = p1 - box.center := by
    ext <;> simp only [AABB.center, shift, Vec2.sub_x, Vec2.sub_y, Vec2.add_x, Vec2.add_y, Vec2.smul_x, Vec2.smul_y, hl] <;> ring
  have h2 : (shift o box).extents = box.extents := by
    ext <;> simp only [AABB.extents, shift, Vec2.sub_x, Vec2.sub_y, Vec2.smul_x, Vec2.smul_y] <;> ring
  simp only [Tree.raySurvives, overlap_shift, h1, h2]

/-- The loops over the shifted and the original tree run alike, if the callbacks do at the leaves. -/
theorem rayCastLoop_shift {S : Type} (t : Tree F D) (o : Vec2 F) (cb cb' : S → RayIn F → Nat → S × F) (p1 p2 v absv : Vec2 F) : ∀ (fuel : Nat)
    (ts : List T) (stack : GStack.State Ref) (f : F) (seg : AABB F) (s : S), GStack.Rep 256 stack (ts.reverse.map fun x => some x.id) →
    (∀ x ∈ ts, (∃ p, Rep t.nodes p x) ∧ (∀ j ∈ x.ids, j < t.cap) ∧
      ∀ i ∈ x.leaves, ∀ s f, cb' s ⟨p1 - o, p2 - o, f⟩ i = cb s ⟨p1, p2, f⟩ i) →
    Tree.rayCastLoop (t.shiftOrigin o) cb' (p1 - o) (p2 - o) v absv fuel stack f (shift o seg) s =
      Tree.rayCastLoop t cb p1 p2 v absv fuel stack f seg s := by
  intro fuel
  induction fuel with
  | zero => intros; rfl
  | succ fuel ih =>
    intro ts stack f seg s hst hts
    cases ts with
    | nil =>
      have hc := hst.count
      simp only [List.reverse_nil, List.map_nil, List.length_nil] at hc
      rw [Tree.rayCastLoop, if_neg (by omega), Tree.rayCastLoop, if_neg (by omega)]
    | cons x ts =>
      have hc := hst.count
      have hst' : GStack.Rep 256 stack ((ts.reverse.map fun x => some x.id) ++ [some x.id]) := by
        simpa using hst
      obtain ⟨stack', hp, hst2⟩ := hst'.pop_append
      have hc' : GStack.getCount stack > 0 := by rw [hc]; simp
      obtain ⟨⟨p, hrep⟩, hlt, hcb⟩ := hts x (by simp)
      have hts' : ∀ y ∈ ts, _ := fun y hy => hts y (List.mem_cons_of_mem _ hy)
      cases x with
      | leaf i =>
        obtain ⟨-, b2, -, -⟩ := hrep
        have hid := hlt i (by simp [T.ids])
        rw [rayCastLoop_pop (t := t.shiftOrigin o) cb' _ _ v absv fuel f _ s hc' i hp hid, rayCastLoop_pop cb p1 p2 v absv fuel f seg s hc' i hp hid,
          shiftOrigin_nodes t o hid]
        dsimp only
        rw [raySurvives_shift]
        by_cases hsv : Tree.raySurvives (t.nodes i).aabb p1 v absv seg = true
        swap
        · rw [if_neg hsv, if_neg hsv]; exact ih ts stack' f seg s hst2 hts'
        rw [if_pos hsv, if_pos hsv]
        simp only [Node.isLeaf, b2, Option.isNone_none, if_true]
        rw [hcb i (by simp [T.leaves])]
        split
        · rfl
        · split
          · rw [segmentAabb_shift]; exact ih ts stack' _ _ _ hst2 hts'
          · exact ih ts stack' _ _ _ hst2 hts'
      | node i l r =>
        obtain ⟨b1, b2, b3, b4, b5, b6, b7⟩ := hrep
        have hid := hlt i (by simp [T.ids])
        rw [rayCastLoop_pop (t := t.shiftOrigin o) cb' _ _ v absv fuel f _ s hc' i hp hid, rayCastLoop_pop cb p1 p2 v absv fuel f seg s hc' i hp hid,
          shiftOrigin_nodes t o hid]
        dsimp only
        rw [raySurvives_shift]
        by_cases hsv : Tree.raySurvives (t.nodes i).aabb p1 v absv seg = true
        swap
        · rw [if_neg hsv, if_neg hsv]; exact ih ts stack' f seg s hst2 hts'
        rw [if_pos hsv, if_pos hsv]
        simp only [Node.isLeaf, b2, b3, Option.isNone_some, Bool.false_eq_true, if_false]
        obtain ⟨s1, e1, h1⟩ := hst2.push (some l.id)
        obtain ⟨s2, e2, h2⟩ := h1.push (some r.id)
        simp only [e1, Option.bind_some, e2]
        refine ih (r :: l :: ts) s2 f seg s (by simpa using h2) ?_
        intro y hy
        simp only [List.mem_cons] at hy
        rcases hy with rfl | rfl | hy
        · exact ⟨⟨_, b7⟩, fun j hj => hlt j (by simp [T.ids, hj]), fun j hj => hcb j (by simp [T.leaves, hj])⟩
        · exact ⟨⟨_, b6⟩, fun j hj => hlt j (by simp [T.ids, hj]), fun j hj => hcb j (by simp [T.leaves, hj])⟩
        · exact hts' y hy

theorem rayCast_shift [Elem F] {S : Type} {t : Tree F D} {g : Nat → Option (Spec.Proxy F D)} (h : TInv t g) (o : Vec2 F)
    (cb cb' : S → RayIn F → Nat → S × F) (p1 p2 : Vec2 F) (f : F)
    (hcb : ∀ i, g i ≠ none → ∀ s f, cb' s ⟨p1 - o, p2 - o, f⟩ i = cb s ⟨p1, p2, f⟩ i) (s : S) :
    (t.shiftOrigin o).rayCast cb' ⟨p1 - o, p2 - o, f⟩ s = t.rayCast cb ⟨p1, p2, f⟩ s := by
  obtain ⟨T0, hi⟩ := h
  have e : p2 - o - (p1 - o) = p2 - p1 := by ext <;> simp
  simp only [Tree.rayCast, e]
  split
  swap
  · rfl
  obtain ⟨s1, e1, h1⟩ := new_rep.push t.root
  have e2 : (t.shiftOrigin o).root = t.root := rfl
  have e3 : (t.shiftOrigin o).cap = t.cap := rfl
  rw [e2, e3, e1]
  simp only [Option.bind_eq_bind, Option.bind_some, segmentAabb_shift]
  cases T0 with
  | none =>
    have hr : t.root = none := hi.root
    rw [hr] at h1
    obtain ⟨s2, e4, h2⟩ := GStack.Rep.pop_append (l := []) h1
    have c1 := h1.count
    have c2 := h2.count
    simp only [List.nil_append, List.length_singleton, List.length_nil] at c1 c2
    rw [Tree.rayCastLoop, if_pos (by omega), e4, Tree.rayCastLoop, if_pos (by omega), e4]
    simp only [Option.bind_eq_bind, Option.bind_some]
    cases t.cap + 1 with
    | zero => rfl
    | succ n => rw [Tree.rayCastLoop, if_neg (by omega), Tree.rayCastLoop, if_neg (by omega)]
  | some S' =>
    obtain ⟨hr, hrep⟩ := hi.root
    refine rayCastLoop_shift t o cb cb' p1 p2 _ _ _ [S'] s1 f _ s (by simpa [hr] using h1) ?_
    intro x hx
    simp only [List.mem_singleton] at hx
    subst hx
    exact ⟨⟨_, hrep⟩, hi.pool.lt, fun i hi' => hcb i ((hi.live i).mp hi')⟩

end

section
variable {F : Type} [Field F] [LinearOrder F] [IsStrictOrderedRing F] [Elem F]

theorem shape_rayCast_shift (sh : Shape F) (o p1 p2 : Vec2 F) (f : F) (xf : Xf F) (i : Nat) :
    sh.rayCast ⟨p1 - o, p2 - o, f⟩ ⟨xf.p - o, xf.q⟩ i = sh.rayCast ⟨p1, p2, f⟩ xf i := by
  have e1 : ∀ a b c : Vec2 F, a - c - (b - c) = a - b := fun a b c => by ext <;> simp
  have e2 : ∀ a b c d : Vec2 F, a - c - (b - c + d) = a - (b + d) := fun a b c d => by
    ext <;> simp only [Vec2.sub_x, Vec2.sub_y, Vec2.add_x, Vec2.add_y] <;> ring
  cases sh with
  | circle c => simp only [Shape.rayCast, Circle.rayCast, e1, e2]
  | edge e => simp only [Shape.rayCast, Edge.rayCast, e1]
  | polygon p => simp only [Shape.rayCast, Polygon.rayCast, e1]
  | chain c => simp only [Shape.rayCast, Chain.rayCast, Edge.rayCast, e1]

theorem shape_testPoint_shift (sh : Shape F) (o p : Vec2 F) (xf : Xf F) :
    sh.testPoint ⟨xf.p - o, xf.q⟩ (p - o) = sh.testPoint xf p := by
  have e1 : ∀ a b c : Vec2 F, a - c - (b - c) = a - b := fun a b c => by ext <;> simp
  have e2 : ∀ a b c d : Vec2 F, a - c - (b - c + d) = a - (b + d) := fun a b c d => by
    ext <;> simp only [Vec2.sub_x, Vec2.sub_y, Vec2.add_x, Vec2.add_y] <;> ring
  cases sh with
  | circle c => simp only [Shape.testPoint, Circle.testPoint, e2]
  | edge e => rfl
  | polygon p => simp only [Shape.testPoint, Polygon.testPoint, e1]
  | chain c => rfl

/-- `shift_origin` touches the bodies and the tree. -/
theorem shiftOrigin_rest {w w' : World F} {o : Vec2 F} (e : w.shiftOrigin o = some w') : { w' with phys := w.phys, bp := w.bp } = w := by
  unfold shiftOrigin at e
  split at e
  · cases e
  cases e
  have : ∀ (l : List Nat) (v : World F), { (l.foldl (fun (w : World F) b =>
      let p := w.phys b
      w.setPhys b { p with xf := ⟨p.xf.p - o, p.xf.q⟩, sweep := { p.sweep with c0 := p.sweep.c0 - o, c := p.sweep.c - o } }) v) with phys := w.phys, bp := w.bp } =
      { v with phys := w.phys, bp := w.bp } := by
    intro l
    induction l with
    | nil => intro v; rfl
    | cons b l ih => intro v; rw [List.foldl_cons, ih]; rfl
  exact (this w.g.bodyList w).trans rfl

end
end B2
