import Verif.Proofs.Hull
import Mathlib.Data.List.Rotate

/-!
# Welding, `B2polygonShape::set` and polygon mass
-/
namespace B2
open Spec
set_option linter.unusedSectionVars false
section
variable {F : Type} [Field F] [LinearOrder F] [IsStrictOrderedRing F]

/-- Half the slop, squared: points closer than this are welded. -/
def weldDist : F := (1 / 2 * linearSlop) * (1 / 2 * linearSlop)

theorem weldDist_pos : (0 : F) < weldDist := by unfold weldDist linearSlop; positivity

theorem weld_snoc (l : List (Vec2 F)) (v : Vec2 F) :
    weld (l ++ [v]) = if (weld l).any (fun p => decide (distanceV2 v p < weldDist)) then weld l else weld l ++ [v] := by
  simp only [weld, List.foldl_append, List.foldl_cons, List.foldl_nil]; rfl

theorem weld_spec (vs : List (Vec2 F)) :
    (∀ p ∈ weld vs, p ∈ vs) ∧ (∀ v ∈ vs, ∃ p ∈ weld vs, dist2 v p < weldDist) ∧
    (weld vs).Pairwise (fun a b => weldDist ≤ dist2 b a) ∧ (weld vs).length ≤ vs.length ∧
    (vs.Pairwise (fun a b => weldDist ≤ dist2 b a) → weld vs = vs) := by
  have hw := weldDist_pos (F := F)
  induction vs using List.reverseRecOn with
  | nil => simp [weld]
  | append_singleton l v ih =>
    obtain ⟨h1, h2, h3, h4, h5⟩ := ih
    rw [weld_snoc]
    by_cases h : (weld l).any (fun p => decide (distanceV2 v p < weldDist)) = true
    · rw [if_pos h]
      rw [List.any_eq_true] at h
      obtain ⟨p, hp, hd⟩ := h
      rw [decide_eq_true_iff] at hd
      refine ⟨fun q hq => by simp [h1 q hq], fun w hwm => ?_, h3, by simp; omega, fun hpw => ?_⟩
      · rw [List.mem_append] at hwm
        rcases hwm with hwm | hwm
        · exact h2 w hwm
        · simp at hwm; rw [hwm]; exact ⟨p, hp, hd⟩
      · rw [List.pairwise_append] at hpw
        have := hpw.2.2 p (h1 p hp) v (by simp)
        exact absurd hd (not_lt.mpr this)
    · rw [if_neg h]
      have hall : ∀ p ∈ weld l, weldDist ≤ dist2 v p := by
        intro p hp
        by_contra hc
        apply h
        rw [List.any_eq_true]
        exact ⟨p, hp, by rw [decide_eq_true_iff]; exact not_le.mp hc⟩
      refine ⟨fun q hq => ?_, fun w hwm => ?_, ?_, by simp; omega, fun hpw => ?_⟩
      · rw [List.mem_append] at hq ⊢
        rcases hq with hq | hq
        · left; exact h1 q hq
        · right; exact hq
      · rw [List.mem_append] at hwm
        rcases hwm with hwm | hwm
        · obtain ⟨p, hp, hd⟩ := h2 w hwm
          exact ⟨p, by simp [hp], hd⟩
        · simp at hwm; rw [hwm]
          exact ⟨v, by simp, by simp only [dist2]; simpa using hw⟩
      · rw [List.pairwise_append]
        exact ⟨h3, by simp, fun a ha b hb => by simp at hb; rw [hb]; exact hall a ha⟩
      · rw [List.pairwise_append] at hpw
        rw [h5 hpw.1]

theorem psGet_eq {ps : List (Vec2 F)} {i : Nat} (h : i < ps.length) : psGet ps i = ps[i] := by
  simp [psGet, List.getElem?_eq_getElem h]

theorem dist2_comm (a b : Vec2 F) : dist2 a b = dist2 b a := by simp only [dist2]; ring

theorem pairwise_get {ps : List (Vec2 F)} (h : ps.Pairwise (fun a b => weldDist ≤ dist2 b a)) {i j : Nat}
    (hi : i < ps.length) (hj : j < ps.length) (hne : i ≠ j) : weldDist ≤ dist2 (psGet ps i) (psGet ps j) := by
  rw [psGet_eq hi, psGet_eq hj]
  rw [List.pairwise_iff_getElem] at h
  rcases Nat.lt_or_gt_of_ne hne with hl | hl
  · rw [dist2_comm]; exact h i j hi hj hl
  · exact h j i hj hi hl

theorem distinct_of_pairwise {ps : List (Vec2 F)} (h : ps.Pairwise (fun a b => weldDist ≤ dist2 b a)) : Distinct ps := by
  intro i j hi hj he
  by_contra hne
  have := pairwise_get h hi hj hne
  rw [he] at this
  have hw := weldDist_pos (F := F)
  simp only [dist2] at this
  simp at this
  exact absurd this (not_le.mpr hw)

theorem cyclicPairs_eq (l : List (Vec2 F)) : cyclicPairs l = l.zip (l.rotate 1) := by
  cases l with
  | nil => rfl
  | cons a t => simp [cyclicPairs]

theorem mem_cyclicPairs {l : List (Vec2 F)} {a b : Vec2 F} : (a, b) ∈ cyclicPairs l ↔ NextTo l a b := by
  rw [cyclicPairs_eq, List.mem_iff_getElem?]
  unfold NextTo
  constructor
  · rintro ⟨i, hi⟩
    rw [List.getElem?_zip_eq_some] at hi
    obtain ⟨h1, h2⟩ := hi
    have hl := (List.getElem?_eq_some_iff.mp h1).1
    rw [List.getElem?_rotate hl] at h2
    exact ⟨i, h1, h2⟩
  · rintro ⟨i, h1, h2⟩
    have hl := (List.getElem?_eq_some_iff.mp h1).1
    exact ⟨i, by rw [List.getElem?_zip_eq_some, List.getElem?_rotate hl]; exact ⟨h1, h2⟩⟩

/-- Over a closed path, differences add up to nothing. -/
theorem cyclic_telescope (l : List (Vec2 F)) (f : Vec2 F → F) : ((cyclicPairs l).map fun ab => f ab.1 - f ab.2).sum = 0 := by
  rw [cyclicPairs_eq]
  have key : ∀ (l m : List (Vec2 F)), l.length = m.length →
      ((l.zip m).map fun ab => f ab.1 - f ab.2).sum = (l.map f).sum - (m.map f).sum := by
    intro l
    induction l with
    | nil => intro m hm; cases m with
      | nil => simp
      | cons _ _ => simp at hm
    | cons a l ih => intro m hm; cases m with
      | nil => simp at hm
      | cons b m =>
        have := ih m (by simpa using hm)
        simp only [List.zip_cons_cons, List.map_cons, List.sum_cons, this]; ring
  rw [key _ _ (by simp)]
  have : ((l.rotate 1).map f).sum = (l.map f).sum := ((List.rotate_perm l 1).map f).sum_eq
  rw [this, sub_self]

/-- Sums over the edges that agree up to a telescoping difference are equal. -/
theorem cyclic_sum_eq (l : List (Vec2 F)) (g h : Vec2 F × Vec2 F → F) (f : Vec2 F → F)
    (hd : ∀ a b, g (a, b) - h (a, b) = f a - f b) : ((cyclicPairs l).map g).sum = ((cyclicPairs l).map h).sum := by
  have h1 := cyclic_telescope l f
  have key : ∀ m : List (Vec2 F × Vec2 F), (m.map g).sum - (m.map h).sum = (m.map fun ab => f ab.1 - f ab.2).sum := by
    intro m
    induction m with
    | nil => simp
    | cons ab m ih =>
      simp only [List.map_cons, List.sum_cons, ← ih, ← hd ab.1 ab.2]; ring
  have := key (cyclicPairs l)
  rw [h1] at this
  linarith

/-- The accumulating loop of `compute_centroid`. -/
theorem centroid_fold (s : Vec2 F) (m : List (Vec2 F × Vec2 F)) (acc : Vec2 F × F) :
    m.foldl (fun (acc : Vec2 F × F) pr =>
      let p1 := s - s
      let p2 := pr.1 - s
      let p3 := pr.2 - s
      let e1 := p2 - p1
      let e2 := p3 - p1
      let d := cross e1 e2
      let triangleArea := 1 / 2 * d
      (acc.1 + (triangleArea * (1 / 3)) * (p1 + p2 + p3), acc.2 + triangleArea)) acc =
    (⟨acc.1.x + (m.map fun ab => 1 / 6 * cross (ab.1 - s) (ab.2 - s) * (ab.1.x + ab.2.x - 2 * s.x)).sum,
      acc.1.y + (m.map fun ab => 1 / 6 * cross (ab.1 - s) (ab.2 - s) * (ab.1.y + ab.2.y - 2 * s.y)).sum⟩,
      acc.2 + (m.map fun ab => 1 / 2 * cross (ab.1 - s) (ab.2 - s)).sum) := by
  induction m generalizing acc with
  | nil => simp
  | cons ab m ih =>
    rw [List.foldl_cons, ih]
    simp only [List.map_cons, List.sum_cons, Prod.mk.injEq, Vec2.mk.injEq, cross, Vec2.sub_x, Vec2.sub_y, Vec2.add_x,
      Vec2.add_y, Vec2.smul_x, Vec2.smul_y]
    refine ⟨⟨?_, ?_⟩, ?_⟩ <;> ring

theorem sum_map_mul (c : F) (m : List (Vec2 F × Vec2 F)) (g : Vec2 F × Vec2 F → F) :
    (m.map fun ab => c * g ab).sum = c * (m.map g).sum := by
  induction m with
  | nil => simp
  | cons a m ih => simp only [List.map_cons, List.sum_cons, ih]; ring

theorem sum_map_add (m : List (Vec2 F × Vec2 F)) (g h : Vec2 F × Vec2 F → F) :
    (m.map fun ab => g ab + h ab).sum = (m.map g).sum + (m.map h).sum := by
  induction m with
  | nil => simp
  | cons a m ih => simp only [List.map_cons, List.sum_cons, ih]; ring

theorem area_eq (s : Vec2 F) (l : List (Vec2 F)) :
    ((cyclicPairs l).map fun ab => 1 / 2 * cross (ab.1 - s) (ab.2 - s)).sum = shoelace l := by
  have := cyclic_sum_eq l (fun ab => 1 / 2 * cross (ab.1 - s) (ab.2 - s)) (fun ab => 1 / 2 * cross ab.1 ab.2)
    (fun v => 1 / 2 * cross s v) (fun a b => by simp only [cross, Vec2.sub_x, Vec2.sub_y]; ring)
  rw [this, sum_map_mul, cyclicPairs_eq]; rfl

theorem computeCentroid_eq (l : List (Vec2 F)) (h3 : 3 ≤ l.length) :
    ∃ s, computeCentroid l = if shoelace l > epsilon then
      some ((1 / shoelace l) * (⟨((cyclicPairs l).map fun ab => 1 / 6 * cross (ab.1 - s) (ab.2 - s) * (ab.1.x + ab.2.x - 2 * s.x)).sum,
        ((cyclicPairs l).map fun ab => 1 / 6 * cross (ab.1 - s) (ab.2 - s) * (ab.1.y + ab.2.y - 2 * s.y)).sum⟩ : Vec2 F) + s)
      else none := by
  obtain ⟨s, hs⟩ : ∃ s, l[0]? = some s := ⟨_, List.getElem?_eq_getElem (by omega)⟩
  refine ⟨s, ?_⟩
  unfold computeCentroid
  rw [hs]
  simp only [Option.bind_eq_bind, Option.bind_some, centroid_fold, zero_add]
  simp only [area_eq]
  by_cases h : shoelace l > epsilon
  · simp [h3, h]
  · simp [h3, h]

end
end B2
