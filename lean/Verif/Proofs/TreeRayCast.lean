import Verif.Model.TreeRayCast
import Verif.Spec.Geom
import Verif.Proofs.TreeFinal
import Verif.Proofs.Slab

/-! The two tests of the tree ray cast decide exactly whether segment and box meet; the loop. -/
namespace B2
set_option linter.unusedSectionVars false
open Spec
variable {F D : Type} [Field F] [LinearOrder F] [IsStrictOrderedRing F]

theorem abs_mid_iff (lo hi x : F) : |x - (lo + hi) / 2| ≤ (hi - lo) / 2 ↔ lo ≤ x ∧ x ≤ hi := by
  rw [abs_le]
  constructor
  · rintro ⟨h1, h2⟩; constructor <;> linarith
  · rintro ⟨h1, h2⟩; constructor <;> linarith

theorem axis_meet {lo hi a b : F} (hv : lo ≤ hi) (h1 : lo ≤ max a b) (h2 : min a b ≤ hi) :
    ∃ t, 0 ≤ t ∧ t ≤ 1 ∧ lo ≤ a + t * (b - a) ∧ a + t * (b - a) ≤ hi := by
  rcases lt_or_ge a lo with ha | ha
  · have hb : lo ≤ b := by
      rcases le_max_iff.mp h1 with h | h
      · exact absurd ha (not_lt.mpr h)
      · exact h
    have hd : 0 < b - a := by linarith
    have e : (lo - a) / (b - a) * (b - a) = lo - a := div_mul_cancel₀ _ hd.ne'
    refine ⟨(lo - a) / (b - a), div_nonneg (by linarith) hd.le, by rw [div_le_one hd]; linarith, ?_, ?_⟩ <;>
      rw [e] <;> linarith
  · rcases le_or_gt a hi with ha' | ha'
    · exact ⟨0, le_refl _, zero_le_one, by linarith, by linarith⟩
    · have hb : b ≤ hi := by
        rcases min_le_iff.mp h2 with h | h
        · exact absurd ha' (not_lt.mpr h)
        · exact h
      have hd : 0 < a - b := by linarith
      have e : (a - hi) / (a - b) * (b - a) = hi - a := by
        rw [← neg_sub a b, mul_neg, div_mul_cancel₀ _ hd.ne']; ring
      refine ⟨(a - hi) / (a - b), div_nonneg (by linarith) hd.le, by rw [div_le_one hd]; linarith, ?_, ?_⟩ <;>
        rw [e] <;> linarith

theorem helly3 {m1 r1 m2 r2 : F} {x y : F} (x0 : 0 ≤ x) (x1 : x ≤ 1) (hx : |x - m1| ≤ r1) (y0 : 0 ≤ y) (y1 : y ≤ 1)
    (hy : |y - m2| ≤ r2) (hxy : |m1 - m2| ≤ r1 + r2) :
    ∃ t, 0 ≤ t ∧ t ≤ 1 ∧ |t - m1| ≤ r1 ∧ |t - m2| ≤ r2 := by
  rw [abs_le] at hx hy hxy
  refine ⟨max 0 (max (m1 - r1) (m2 - r2)), le_max_left _ _, ?_, ?_, ?_⟩
  · refine max_le zero_le_one (max_le ?_ ?_) <;> linarith
  · rw [abs_le]
    constructor
    · have := (le_max_left (m1 - r1) (m2 - r2)).trans (le_max_right 0 _); linarith
    · have : max 0 (max (m1 - r1) (m2 - r2)) ≤ m1 + r1 := by
        refine max_le ?_ (max_le ?_ ?_) <;> linarith
      linarith
  · rw [abs_le]
    constructor
    · have := (le_max_right (m1 - r1) (m2 - r2)).trans (le_max_right 0 _); linarith
    · have : max 0 (max (m1 - r1) (m2 - r2)) ≤ m2 + r2 := by
        refine max_le ?_ (max_le ?_ ?_) <;> linarith
      linarith

theorem segMeets_iff_abs (a b : Vec2 F) (box : AABB F) :
    SegMeets a b box ↔ ∃ t, 0 ≤ t ∧ t ≤ 1 ∧
      |a.x + t * (b.x - a.x) - (box.lo.x + box.hi.x) / 2| ≤ (box.hi.x - box.lo.x) / 2 ∧
      |a.y + t * (b.y - a.y) - (box.lo.y + box.hi.y) / 2| ≤ (box.hi.y - box.lo.y) / 2 := by
  simp only [SegMeets, InBox, onLine, abs_mid_iff, and_assoc]

/-- Separating axes in the plane, for a segment and a box. -/
theorem sat {a b : Vec2 F} {box : AABB F} (hv : Valid box)
    (hx1 : box.lo.x ≤ max a.x b.x) (hx2 : min a.x b.x ≤ box.hi.x)
    (hy1 : box.lo.y ≤ max a.y b.y) (hy2 : min a.y b.y ≤ box.hi.y)
    (hs : |(b.x - a.x) * (a.y - (box.lo.y + box.hi.y) / 2) - (b.y - a.y) * (a.x - (box.lo.x + box.hi.x) / 2)| ≤
      |b.y - a.y| * ((box.hi.x - box.lo.x) / 2) + |b.x - a.x| * ((box.hi.y - box.lo.y) / 2)) :
    SegMeets a b box := by
  rw [segMeets_iff_abs]
  obtain ⟨x, x0, x1, hx⟩ := axis_meet hv.1 hx1 hx2
  obtain ⟨y, y0, y1, hy⟩ := axis_meet hv.2 hy1 hy2
  rw [← abs_mid_iff] at hx hy
  generalize (box.lo.x + box.hi.x) / 2 = cx at *
  generalize (box.hi.x - box.lo.x) / 2 = hx' at *
  generalize (box.lo.y + box.hi.y) / 2 = cy at *
  generalize (box.hi.y - box.lo.y) / 2 = hy' at *
  generalize b.x - a.x = dx at *
  generalize b.y - a.y = dy at *
  have conv : ∀ {a d c h : F} (hd : d ≠ 0) (t : F), |a + t * d - c| ≤ h ↔ |t - (c - a) / d| ≤ h / |d| := by
    intro a d c h hd t
    have e : a + t * d - c = (t - (c - a) / d) * d := by field_simp; ring
    rw [e, abs_mul, le_div_iff₀ (abs_pos.mpr hd)]
  by_cases h1 : dx = 0
  · subst h1
    exact ⟨y, y0, y1, by simpa using hx, hy⟩
  · by_cases h2 : dy = 0
    · subst h2
      exact ⟨x, x0, x1, hx, by simpa using hy⟩
    · simp only [conv h1, conv h2] at hx hy ⊢
      refine helly3 x0 x1 hx y0 y1 hy ?_
      have e : (cx - a.x) / dx - (cy - a.y) / dy = (dx * (a.y - cy) - dy * (a.x - cx)) / (dx * dy) := by
        field_simp; ring
      have p1 := abs_pos.mpr h1
      have p2 := abs_pos.mpr h2
      rw [e, abs_div, abs_mul, div_le_iff₀ (mul_pos p1 p2)]
      have e2 : (hx' / |dx| + hy' / |dy|) * (|dx| * |dy|) = |dy| * hx' + |dx| * hy' := by
        field_simp
      rw [e2]; exact hs

theorem between (a b t : F) (t0 : 0 ≤ t) (t1 : t ≤ 1) : min a b ≤ a + t * (b - a) ∧ a + t * (b - a) ≤ max a b := by
  rcases le_total a b with h | h
  · rw [min_eq_left h, max_eq_right h]
    have := mul_nonneg t0 (sub_nonneg.mpr h)
    have := mul_nonneg (sub_nonneg.mpr t1) (sub_nonneg.mpr h)
    constructor <;> linarith
  · rw [min_eq_right h, max_eq_left h]
    have := mul_nonneg t0 (sub_nonneg.mpr h)
    have := mul_nonneg (sub_nonneg.mpr t1) (sub_nonneg.mpr h)
    constructor <;> linarith

theorem segmentAabb_eq (p1 p2 : Vec2 F) (f : F) : Tree.segmentAabb p1 p2 f =
    ⟨⟨min p1.x (onLine p1 p2 f).x, min p1.y (onLine p1 p2 f).y⟩, ⟨max p1.x (onLine p1 p2 f).x, max p1.y (onLine p1 p2 f).y⟩⟩ := by
  simp only [Tree.segmentAabb, minV, maxV, b2min_eq, b2max_eq, onLine]
  rfl

theorem raySurvives_iff_tests (box : AABB F) (p1 p2 : Vec2 F) (f k : F) (hk : 0 < k) :
    Tree.raySurvives box p1 ⟨-(k * (p2.y - p1.y)), k * (p2.x - p1.x)⟩
      (absV ⟨-(k * (p2.y - p1.y)), k * (p2.x - p1.x)⟩) (Tree.segmentAabb p1 p2 f) = true ↔
    (Meets box (Tree.segmentAabb p1 p2 f) ∧
     |(p2.x - p1.x) * (p1.y - (box.lo.y + box.hi.y) / 2) - (p2.y - p1.y) * (p1.x - (box.lo.x + box.hi.x) / 2)| ≤
      |p2.y - p1.y| * ((box.hi.x - box.lo.x) / 2) + |p2.x - p1.x| * ((box.hi.y - box.lo.y) / 2)) := by
  rw [← overlap_iff]
  unfold Tree.raySurvives
  cases AABB.overlap box (Tree.segmentAabb p1 p2 f)
  · simp
  · simp only [Bool.true_eq_false, if_false, true_and]
    have hhalf : (lit (1 / 2) : F) = 1 / 2 := by simp [lit_def]
    have e1 : dot (⟨-(k * (p2.y - p1.y)), k * (p2.x - p1.x)⟩ : Vec2 F) (p1 - box.center) =
        k * ((p2.x - p1.x) * (p1.y - (box.lo.y + box.hi.y) / 2) - (p2.y - p1.y) * (p1.x - (box.lo.x + box.hi.x) / 2)) := by
      simp only [dot, AABB.center, Vec2.sub_x, Vec2.sub_y, Vec2.smul_x, Vec2.smul_y, Vec2.add_x, Vec2.add_y, hhalf]
      ring
    have e2 : dot (absV (⟨-(k * (p2.y - p1.y)), k * (p2.x - p1.x)⟩ : Vec2 F)) box.extents =
        k * (|p2.y - p1.y| * ((box.hi.x - box.lo.x) / 2) + |p2.x - p1.x| * ((box.hi.y - box.lo.y) / 2)) := by
      simp only [dot, absV, AABB.extents, Vec2.sub_x, Vec2.sub_y, Vec2.smul_x, Vec2.smul_y, hhalf, abs_neg, abs_mul,
        abs_of_pos hk]
      ring
    rw [e1, e2, abs_mul, abs_of_pos hk, ← mul_sub]
    have : ∀ x : F, k * x > 0 ↔ x > 0 := fun x => by
      constructor
      · intro h; exact (mul_pos_iff_of_pos_left hk).mp h
      · intro h; exact mul_pos hk h
    simp only [gt_iff_lt] at this ⊢
    simp only [this, sub_pos]
    split
    · rename_i h; simp only [Bool.false_eq_true, false_iff, not_le]; exact h
    · rename_i h; simp only [true_iff]; exact not_lt.mp h

theorem raySurvives_of_meets {box : AABB F} {p1 p2 : Vec2 F} {f k : F} (hk : 0 < k)
    (h : SegMeets p1 (onLine p1 p2 f) box) :
    Tree.raySurvives box p1 ⟨-(k * (p2.y - p1.y)), k * (p2.x - p1.x)⟩
      (absV ⟨-(k * (p2.y - p1.y)), k * (p2.x - p1.x)⟩) (Tree.segmentAabb p1 p2 f) = true := by
  rw [raySurvives_iff_tests box p1 p2 f k hk]
  constructor
  · obtain ⟨t, t0, t1, h1, h2, h3, h4⟩ := h
    obtain ⟨a1, a2⟩ := between p1.x (onLine p1 p2 f).x t t0 t1
    obtain ⟨b1, b2⟩ := between p1.y (onLine p1 p2 f).y t t0 t1
    rw [segmentAabb_eq]
    exact ⟨h1.trans a2, a1.trans h2, h3.trans b2, b1.trans h4⟩
  · rw [segMeets_iff_abs] at h
    obtain ⟨t, t0, t1, h1, h2⟩ := h
    generalize (box.lo.x + box.hi.x) / 2 = cx at *
    generalize (box.hi.x - box.lo.x) / 2 = hx at *
    generalize (box.lo.y + box.hi.y) / 2 = cy at *
    generalize (box.hi.y - box.lo.y) / 2 = hy at *
    simp only [onLine, add_sub_cancel_left] at h1 h2
    generalize p2.x - p1.x = dx at *
    generalize p2.y - p1.y = dy at *
    have e : dx * (p1.y - cy) - dy * (p1.x - cx) =
        dx * (p1.y + t * (f * dy) - cy) - dy * (p1.x + t * (f * dx) - cx) := by ring
    rw [e]
    refine (abs_sub _ _).trans ?_
    rw [abs_mul, abs_mul]
    have := mul_le_mul_of_nonneg_left h1 (abs_nonneg dy)
    have := mul_le_mul_of_nonneg_left h2 (abs_nonneg dx)
    linarith

theorem raySurvives_iff {box : AABB F} (hv : Valid box) {p1 p2 : Vec2 F} {f k : F} (hk : 0 < k) :
    Tree.raySurvives box p1 ⟨-(k * (p2.y - p1.y)), k * (p2.x - p1.x)⟩
      (absV ⟨-(k * (p2.y - p1.y)), k * (p2.x - p1.x)⟩) (Tree.segmentAabb p1 p2 f) = true ↔
    SegMeets p1 (onLine p1 p2 f) box := by
  refine ⟨fun h => ?_, raySurvives_of_meets hk⟩
  rw [raySurvives_iff_tests box p1 p2 f k hk, segmentAabb_eq] at h
  obtain ⟨⟨h1, h2, h3, h4⟩, hs⟩ := h
  refine sat hv h1 h2 h3 h4 ?_
  simp only [onLine, add_sub_cancel_left]
  have := mul_le_mul_of_nonneg_left hs (abs_nonneg f)
  rw [← abs_mul] at this
  have e : f * (p2.x - p1.x) * (p1.y - (box.lo.y + box.hi.y) / 2) - f * (p2.y - p1.y) * (p1.x - (box.lo.x + box.hi.x) / 2) =
    f * ((p2.x - p1.x) * (p1.y - (box.lo.y + box.hi.y) / 2) - (p2.y - p1.y) * (p1.x - (box.lo.x + box.hi.x) / 2)) := by ring
  rw [e, abs_mul f (p2.y - p1.y), abs_mul f (p2.x - p1.x)]
  linarith

theorem segMeets_mono {a b : Vec2 F} {s u : AABB F} (hc : Covers u s) (h : SegMeets a b s) : SegMeets a b u := by
  obtain ⟨t, t0, t1, h1, h2, h3, h4⟩ := h
  obtain ⟨c1, c2, c3, c4⟩ := hc
  exact ⟨t, t0, t1, c1.trans h1, h2.trans c3, c2.trans h3, h4.trans c4⟩

/-- The leaves in the order the ray cast would meet them. -/
def rayOrder : T → List Nat
  | .leaf i => [i]
  | .node _ l r => rayOrder r ++ rayOrder l

theorem rayOrder_mem (s : T) (i : Nat) : i ∈ rayOrder s ↔ i ∈ s.leaves := by
  induction s with
  | leaf j => simp [rayOrder, T.leaves]
  | node j l r hl hr => simp only [rayOrder, T.leaves, List.mem_append, hl, hr]; tauto

theorem rayOrder_perm (s : T) : (rayOrder s).Perm s.leaves := by
  induction s with
  | leaf j => exact List.Perm.refl _
  | node j l r hl hr => exact (List.perm_append_comm).trans (hl.append hr)

theorem castOver_skip {S : Type} (cb : S → RayIn F → Nat → S × F) (p1 p2 : Vec2 F) (box : Nat → Option (AABB F)) (f : F)
    (s : S) (l rest : List Nat) (h : ∀ i ∈ l, ∀ b, box i = some b → ¬ SegMeets p1 (onLine p1 p2 f) b) :
    castOver cb p1 p2 box f s (l ++ rest) = castOver cb p1 p2 box f s rest := by
  induction l with
  | nil => rfl
  | cons i l ih =>
    rw [List.cons_append, castOver, if_neg, ih (fun j hj => h j (by simp [hj]))]
    rintro ⟨b, h1, h2⟩
    exact h i (by simp) b h1 h2

theorem castOver_congr {S : Type} (cb : S → RayIn F → Nat → S × F) (p1 p2 : Vec2 F) {box box' : Nat → Option (AABB F)} (f : F)
    (s : S) {l : List Nat} (h : ∀ i ∈ l, box i = box' i) : castOver cb p1 p2 box f s l = castOver cb p1 p2 box' f s l := by
  induction l generalizing f s with
  | nil => rfl
  | cons i l ih =>
    have hr := fun f s => ih f s (fun j hj => h j (by simp [hj]))
    have hi := h i (by simp)
    simp only [castOver, hr]
    by_cases hm : ∃ b, box i = some b ∧ SegMeets p1 (onLine p1 p2 f) b
    · have hm' := hm
      rw [hi] at hm'
      rw [if_pos hm, if_pos hm']
    · have hm' := hm
      rw [hi] at hm'
      rw [if_neg hm, if_neg hm']

theorem Rep.leaf_covered {m : Nat → Node F D} {s : T} {p : Ref} (h : Rep m p s) : ∀ i ∈ s.leaves,
    Covers (m s.id).aabb (m i).aabb := by
  induction s generalizing p with
  | leaf j =>
    intro i hi
    simp only [T.leaves, List.mem_singleton] at hi
    subst hi
    exact ⟨le_refl _, le_refl _, le_refl _, le_refl _⟩
  | node j l r hl hr =>
    obtain ⟨-, -, -, -, b5, b6, b7⟩ := h
    intro i hi
    change Covers (m j).aabb _
    rw [b5]
    obtain ⟨⟨c1, c2, c3, c4⟩, ⟨d1, d2, d3, d4⟩, -⟩ := isUnion_combine (m l.id).aabb (m r.id).aabb
    simp only [T.leaves, List.mem_append] at hi
    rcases hi with hi | hi
    · obtain ⟨e1, e2, e3, e4⟩ := hl b6 i hi
      exact ⟨c1.trans e1, c2.trans e2, e3.trans c3, e4.trans c4⟩
    · obtain ⟨e1, e2, e3, e4⟩ := hr b7 i hi
      exact ⟨d1.trans e1, d2.trans e2, e3.trans d3, e4.trans d4⟩

theorem rayCastLoop_pop {S : Type} {t : Tree F D} (cb : S → RayIn F → Nat → S × F) (p1 p2 v absv : Vec2 F) (fuel : Nat)
    {stack stack' : GStack.State Ref} (f : F) (seg : AABB F) (s : S) (hc : GStack.getCount stack > 0) (id : Nat)
    (hp : GStack.pop 256 stack = some (some id, stack')) (hlt : id < t.cap) :
    Tree.rayCastLoop t cb p1 p2 v absv (fuel + 1) stack f seg s =
      if Tree.raySurvives (t.nodes id).aabb p1 v absv seg then
        if (t.nodes id).isLeaf then
          if (cb s ⟨p1, p2, f⟩ id).2 = 0 then some (cb s ⟨p1, p2, f⟩ id).1
          else if (cb s ⟨p1, p2, f⟩ id).2 > 0 then
            Tree.rayCastLoop t cb p1 p2 v absv fuel stack' (cb s ⟨p1, p2, f⟩ id).2
              (Tree.segmentAabb p1 p2 (cb s ⟨p1, p2, f⟩ id).2) (cb s ⟨p1, p2, f⟩ id).1
          else Tree.rayCastLoop t cb p1 p2 v absv fuel stack' f seg (cb s ⟨p1, p2, f⟩ id).1
        else
          (GStack.push 256 stack' (t.nodes id).child1).bind fun st =>
          (GStack.push 256 st (t.nodes id).child2).bind fun st => Tree.rayCastLoop t cb p1 p2 v absv fuel st f seg s
      else Tree.rayCastLoop t cb p1 p2 v absv fuel stack' f seg s := by
  rw [Tree.rayCastLoop, if_pos hc, hp]
  simp only [Option.bind_eq_bind, Option.bind_some, Tree.get_of_lt hlt]
  rfl

theorem rayCastLoop_spec {S : Type} {t : Tree F D} (cb : S → RayIn F → Nat → S × F) (p1 p2 v : Vec2 F) (k : F) (hk : 0 < k)
    (hv : v = ⟨-(k * (p2.y - p1.y)), k * (p2.x - p1.x)⟩) (box : Nat → Option (AABB F)) : ∀ (fuel : Nat)
    (ts : List T) (stack : GStack.State Ref) (f : F) (s : S), GStack.Rep 256 stack (ts.reverse.map fun x => some x.id) →
    (∀ x ∈ ts, (∃ p, Rep t.nodes p x) ∧ (∀ j ∈ x.ids, j < t.cap) ∧
      ∀ i ∈ x.leaves, box i = some (t.nodes i).aabb ∧ Valid (t.nodes i).aabb) → (ts.flatMap T.ids).length < fuel →
    Tree.rayCastLoop t cb p1 p2 v (absV v) fuel stack f (Tree.segmentAabb p1 p2 f) s =
      some (castOver cb p1 p2 box f s (ts.flatMap rayOrder)) := by
  subst hv
  intro fuel
  induction fuel with
  | zero => intro ts stack f s _ _ h; omega
  | succ fuel ih =>
    intro ts stack f s hst hts hf
    cases ts with
    | nil =>
      have hc := hst.count
      simp only [List.reverse_nil, List.map_nil, List.length_nil] at hc
      rw [Tree.rayCastLoop, if_neg (by omega)]
      rfl
    | cons x ts =>
      have hc := hst.count
      have hst' : GStack.Rep 256 stack ((ts.reverse.map fun x => some x.id) ++ [some x.id]) := by
        simpa using hst
      obtain ⟨stack', hp, hst2⟩ := hst'.pop_append
      have hc' : GStack.getCount stack > 0 := by rw [hc]; simp
      obtain ⟨⟨p, hrep⟩, hlt, hbox⟩ := hts x (by simp)
      have hts' : ∀ y ∈ ts, _ := fun y hy => hts y (List.mem_cons_of_mem _ hy)
      have hf' : x.ids.length + (ts.flatMap T.ids).length < fuel + 1 := by
        simpa using hf
      rw [List.flatMap_cons]
      have hcov := hrep.leaf_covered
      have hnot : ∀ {i}, x.id = i →
          ¬ Tree.raySurvives (t.nodes i).aabb p1 ⟨-(k * (p2.y - p1.y)), k * (p2.x - p1.x)⟩
            (absV ⟨-(k * (p2.y - p1.y)), k * (p2.x - p1.x)⟩) (Tree.segmentAabb p1 p2 f) = true →
          ∀ j ∈ rayOrder x, ∀ b, box j = some b → ¬ SegMeets p1 (onLine p1 p2 f) b := by
        rintro i rfl hn j hj b hb hm
        rw [rayOrder_mem] at hj
        rw [(hbox j hj).1] at hb
        obtain rfl := Option.some.inj hb
        exact hn (raySurvives_of_meets hk (segMeets_mono (hcov j hj) hm))
      cases x with
      | leaf i =>
        obtain ⟨-, b2, -, -⟩ := hrep
        simp only [T.ids, List.length_singleton] at hf'
        have hnext := fun f s => ih ts stack' f s hst2 hts' (by omega)
        rw [rayCastLoop_pop cb p1 p2 _ _ fuel f _ s hc' i hp (hlt i (by simp [T.ids]))]
        obtain ⟨hb1, hb2⟩ := hbox i (by simp [T.leaves])
        by_cases ho : Tree.raySurvives (t.nodes i).aabb p1 ⟨-(k * (p2.y - p1.y)), k * (p2.x - p1.x)⟩
            (absV ⟨-(k * (p2.y - p1.y)), k * (p2.x - p1.x)⟩) (Tree.segmentAabb p1 p2 f) = true
        · rw [if_pos ho]
          have hm := (raySurvives_iff hb2 hk).mp ho
          simp only [Node.isLeaf, b2, Option.isNone_none, if_true, rayOrder, List.singleton_append]
          have hex : ∃ b, box i = some b ∧ SegMeets p1 (onLine p1 p2 f) b := ⟨_, hb1, hm⟩
          rw [castOver, if_pos hex]
          dsimp only
          by_cases h0 : (cb s ⟨p1, p2, f⟩ i).2 = 0
          · rw [if_pos h0, if_pos h0]
          · rw [if_neg h0, if_neg h0]
            by_cases h1 : (cb s ⟨p1, p2, f⟩ i).2 > 0
            · rw [if_pos h1, if_pos h1]; exact hnext _ _
            · rw [if_neg h1, if_neg h1]; exact hnext _ _
        · rw [if_neg ho, castOver_skip _ _ _ _ _ _ _ _ (hnot rfl ho)]
          exact hnext f s
      | node i l r =>
        obtain ⟨b1, b2, b3, b4, b5, b6, b7⟩ := hrep
        simp only [T.ids, List.length_cons, List.length_append] at hf'
        rw [rayCastLoop_pop cb p1 p2 _ _ fuel f _ s hc' i hp (hlt i (by simp [T.ids]))]
        by_cases ho : Tree.raySurvives (t.nodes i).aabb p1 ⟨-(k * (p2.y - p1.y)), k * (p2.x - p1.x)⟩
            (absV ⟨-(k * (p2.y - p1.y)), k * (p2.x - p1.x)⟩) (Tree.segmentAabb p1 p2 f) = true
        · rw [if_pos ho]
          simp only [Node.isLeaf, b2, b3, Option.isNone_some, Bool.false_eq_true, if_false]
          obtain ⟨s1, e1, h1⟩ := hst2.push (some l.id)
          obtain ⟨s2, e2, h2⟩ := h1.push (some r.id)
          have h3 := ih (r :: l :: ts) s2 f s (by simpa using h2) (by
            intro y hy
            simp only [List.mem_cons] at hy
            rcases hy with rfl | rfl | hy
            · exact ⟨⟨_, b7⟩, fun j hj => hlt j (by simp [T.ids, hj]), fun j hj => hbox j (by simp [T.leaves, hj])⟩
            · exact ⟨⟨_, b6⟩, fun j hj => hlt j (by simp [T.ids, hj]), fun j hj => hbox j (by simp [T.leaves, hj])⟩
            · exact hts' y hy) (by
            simp only [List.flatMap_cons, List.length_append]; omega)
          rw [e1, Option.bind_some, e2, Option.bind_some, h3]
          simp [rayOrder, List.append_assoc]
        · rw [if_neg ho, castOver_skip _ _ _ _ _ _ _ _ (hnot rfl ho)]
          exact ih ts stack' f s hst2 hts' (by omega)

theorem normalize_crossSV [Elem F] (r : Vec2 F) :
    ∃ k, 0 < k ∧ crossSV 1 r.normalize.1 = ⟨-(k * r.y), k * r.x⟩ := by
  unfold Vec2.normalize
  dsimp only
  split
  · exact ⟨1, one_pos, by ext <;> simp [crossSV]⟩
  · rename_i h
    have hpos : 0 < r.length := lt_of_lt_of_le epsilon_pos (not_lt.mp h)
    refine ⟨1 / r.length, one_div_pos.mpr hpos, ?_⟩
    ext <;> simp only [crossSV] <;> ring

theorem rayCast_spec [Elem F] {t : Tree F D} {g : Nat → Option (Proxy F D)} (h : TInv t g)
    (hval : ∀ i p, g i = some p → Valid p.fat) :
    ∃ ids : List Nat, ids.Nodup ∧ (∀ i, i ∈ ids ↔ g i ≠ none) ∧
      ∀ (S : Type) (cb : S → RayIn F → Nat → S × F) (input : RayIn F) (s : S), input.p1 ≠ input.p2 →
        t.rayCast cb input s =
          some (castOver cb input.p1 input.p2 (fun i => (g i).map (·.fat)) input.maxFraction s ids) := by
  obtain ⟨o, h⟩ := h
  have hlen : ∀ input : RayIn F, input.p1 ≠ input.p2 → (input.p2 - input.p1).lengthSquared > 0 := by
    intro input hne
    simp only [Vec2.lengthSquared, Vec2.sub_x, Vec2.sub_y]
    rcases eq_or_ne input.p2.x input.p1.x with hx | hx
    · have hy : input.p2.y ≠ input.p1.y := fun hy => hne (by ext <;> simp [hx, hy])
      have := mul_self_pos.mpr (sub_ne_zero.mpr hy)
      have := mul_self_nonneg (input.p2.x - input.p1.x)
      linarith
    · have := mul_self_pos.mpr (sub_ne_zero.mpr hx)
      have := mul_self_nonneg (input.p2.y - input.p1.y)
      linarith
  cases o with
  | none =>
    have hr : t.root = none := h.root
    refine ⟨[], List.nodup_nil, fun i => ?_, fun S cb input s hne => ?_⟩
    · rw [← h.live]; simp [oleaves]
    · obtain ⟨s1, e1, h1⟩ := new_rep.push (none : Ref)
      obtain ⟨s2, e2, h2⟩ := GStack.Rep.pop_append (l := []) h1
      have c1 := h1.count
      have c2 := h2.count
      simp only [List.nil_append, List.length_singleton, List.length_nil] at c1 c2
      unfold Tree.rayCast
      dsimp only
      rw [if_pos (hlen input hne), hr, e1]
      simp only [Option.bind_eq_bind, Option.bind_some]
      rw [Tree.rayCastLoop, if_pos (by omega), e2]
      simp only [Option.bind_eq_bind, Option.bind_some]
      rw [Tree.rayCastLoop, if_neg (by omega)]
      rfl
  | some X =>
    obtain ⟨hr, hrep⟩ := h.root
    refine ⟨rayOrder X, (rayOrder_perm X).nodup_iff.mpr h.counts.1, fun i => ?_, fun S cb input s hne => ?_⟩
    · rw [rayOrder_mem]; exact h.live i
    · obtain ⟨s1, e1, h1⟩ := new_rep.push (some X.id)
      obtain ⟨k, hk, hkv⟩ := normalize_crossSV (input.p2 - input.p1)
      unfold Tree.rayCast
      dsimp only
      rw [if_pos (hlen input hne), hr]
      change Option.bind (GStack.push 256 (GStack.new none) (some X.id)) _ = _
      rw [e1, Option.bind_some, rayCastLoop_spec cb input.p1 input.p2 _ k hk hkv (fun i => (g i).map (·.fat)) _ [X] s1 _ s
        (by simpa using h1)]
      · simp
      · intro x hx
        simp only [List.mem_singleton] at hx; subst hx
        refine ⟨⟨_, hrep⟩, h.pool.lt, fun i hi => ?_⟩
        obtain ⟨p, hp⟩ := Option.ne_none_iff_exists'.mp ((h.live i).mp hi)
        have hpay := (h.pay i p hp).1
        exact ⟨by rw [hp, hpay]; rfl, by rw [hpay]; exact hval i p hp⟩
      · have : X.ids.length ≤ t.cap := h.pool.length_le
        simp; omega

end B2
