import Verif.Spec.Shapes
import Verif.Spec.Real
import Verif.Proofs.Slab
import Mathlib.Tactic.NormNum
import Mathlib.Tactic.LinearCombination

/-!
# Lemmas about shapes
-/
namespace B2
open Spec
set_option linter.unusedSectionVars false
section
variable {F : Type} [Field F] [LinearOrder F] [IsStrictOrderedRing F]

/-- A box contains the hull of the points it contains. -/
theorem hull_inBox {vs : List (Vec2 F)} {xf : Xf F} {b : AABB F} (h : ∀ v ∈ vs, InBox b (place xf v)) {q : Vec2 F}
    (hq : Hull vs q) : InBox b (place xf q) := by
  induction hq with
  | vertex hv => exact h _ hv
  | @between u v t _ _ h0 h1 ihu ihv =>
    obtain ⟨a1, a2, a3, a4⟩ := ihu
    obtain ⟨b1, b2, b3, b4⟩ := ihv
    have hx : (place xf (onLine u v t)).x = (1 - t) * (place xf u).x + t * (place xf v).x := by
      simp only [place, onLine]; ring
    have hy : (place xf (onLine u v t)).y = (1 - t) * (place xf u).y + t * (place xf v).y := by
      simp only [place, onLine]; ring
    have k : 0 ≤ 1 - t := by linarith
    refine ⟨?_, ?_, ?_, ?_⟩
    · rw [hx]; nlinarith
    · rw [hx]; nlinarith
    · rw [hy]; nlinarith
    · rw [hy]; nlinarith

/-- The box grown by `r` contains the disc of radius `r` around a point of the box. -/
theorem disc_inBox {b : AABB F} {r : F} (hr : 0 ≤ r) {q p : Vec2 F} (hq : InBox b q) (hd : dist2 q p ≤ r * r) :
    InBox ⟨b.lo - ⟨r, r⟩, b.hi + ⟨r, r⟩⟩ p := by
  obtain ⟨a1, a2, a3, a4⟩ := hq
  simp only [dist2] at hd
  have hx : |q.x - p.x| ≤ r := abs_le_of_sq_le_sq (by nlinarith [mul_self_nonneg (q.y - p.y)]) hr
  have hy : |q.y - p.y| ≤ r := abs_le_of_sq_le_sq (by nlinarith [mul_self_nonneg (q.x - p.x)]) hr
  rw [abs_le] at hx hy
  refine ⟨?_, ?_, ?_, ?_⟩ <;> simp only [Vec2.sub_x, Vec2.sub_y, Vec2.add_x, Vec2.add_y] <;> linarith [hx.1, hx.2, hy.1, hy.2]

/-- The skinless box of a non-empty list of points. -/
theorem foldl_box (xf : Xf F) (l : List (Vec2 F)) (b : Vec2 F × Vec2 F) :
    let r := l.foldl (fun (b : Vec2 F × Vec2 F) v => (minV b.1 (xf.mulV v), maxV b.2 (xf.mulV v))) b
    (∀ q, InBox ⟨b.1, b.2⟩ q → InBox ⟨r.1, r.2⟩ q) ∧ (Valid ⟨b.1, b.2⟩ → ∀ v ∈ l, InBox ⟨r.1, r.2⟩ (place xf v)) ∧
    ∀ c : AABB F, (c.lo.x ≤ b.1.x ∧ b.2.x ≤ c.hi.x ∧ c.lo.y ≤ b.1.y ∧ b.2.y ≤ c.hi.y) →
      (∀ v ∈ l, InBox c (place xf v)) → c.lo.x ≤ r.1.x ∧ r.2.x ≤ c.hi.x ∧ c.lo.y ≤ r.1.y ∧ r.2.y ≤ c.hi.y := by
  induction l generalizing b with
  | nil => exact ⟨fun q h => h, fun _ v hv => (by cases hv), fun c h _ => h⟩
  | cons v l ih =>
    have hm : xf.mulV v = place xf v := rfl
    obtain ⟨i1, i2, i3⟩ := ih (minV b.1 (xf.mulV v), maxV b.2 (xf.mulV v))
    refine ⟨fun q h => i1 q ?_, fun hv w hw => ?_, fun c hc h => i3 c ?_ fun w hw => h w (List.mem_cons_of_mem _ hw)⟩
    · obtain ⟨h1, h2, h3, h4⟩ := h
      refine ⟨?_, ?_, ?_, ?_⟩ <;> simp only [minV, maxV, b2min_eq, b2max_eq]
      · exact (min_le_left _ _).trans h1
      · exact h2.trans (le_max_left _ _)
      · exact (min_le_left _ _).trans h3
      · exact h4.trans (le_max_left _ _)
    · rcases List.mem_cons.mp hw with rfl | hw
      · apply i1
        refine ⟨?_, ?_, ?_, ?_⟩ <;> simp only [minV, maxV, b2min_eq, b2max_eq, hm]
        · exact min_le_right _ _
        · exact le_max_right _ _
        · exact min_le_right _ _
        · exact le_max_right _ _
      · refine i2 ?_ w hw
        simp only [Valid, minV, maxV, b2min_eq, b2max_eq] at hv ⊢
        exact ⟨(min_le_left _ _).trans (hv.1.trans (le_max_left _ _)), (min_le_left _ _).trans (hv.2.trans (le_max_left _ _))⟩
    · obtain ⟨h1, h2, h3, h4⟩ := h v (by simp)
      obtain ⟨k1, k2, k3, k4⟩ := hc
      simp only [minV, maxV, b2min_eq, b2max_eq, hm]
      exact ⟨le_min k1 h1, max_le k2 h2, le_min k3 h3, max_le k4 h4⟩

/-- `b` is the least box around the placed points, grown by `r`. -/
def IsBoxOf (vs : List (Vec2 F)) (xf : Xf F) (r : F) (box : AABB F) : Prop :=
  ∃ b : AABB F, box = ⟨b.lo - ⟨r, r⟩, b.hi + ⟨r, r⟩⟩ ∧ (∀ v ∈ vs, InBox b (place xf v)) ∧
    ∀ c : AABB F, (∀ v ∈ vs, InBox c (place xf v)) →
      c.lo.x ≤ b.lo.x ∧ b.hi.x ≤ c.hi.x ∧ c.lo.y ≤ b.lo.y ∧ b.hi.y ≤ c.hi.y

theorem isBoxOf_cons (v : Vec2 F) (l : List (Vec2 F)) (xf : Xf F) (r : F) :
    IsBoxOf (v :: l) xf r (({ radius := r, centroid := ⟨0, 0⟩, verts := v :: l, normals := [] } : Polygon F).computeAabb xf) := by
  obtain ⟨i1, i2, i3⟩ := foldl_box xf l (xf.mulV v, xf.mulV v)
  refine ⟨⟨_, _⟩, rfl, fun w hw => ?_, fun c h => ?_⟩
  · rcases List.mem_cons.mp hw with rfl | hw
    · exact i1 _ ⟨le_refl _, le_refl _, le_refl _, le_refl _⟩
    · exact i2 ⟨le_refl _, le_refl _⟩ w hw
  · obtain ⟨h1, h2, h3, h4⟩ := h v (by simp)
    exact i3 c ⟨h1, h2, h3, h4⟩ fun w hw => h w (List.mem_cons_of_mem _ hw)

theorem chain_ends {c : Chain F} {i : Nat} (h : i + 1 < c.vertices.length) :
    ∃ a b, c.ends i = some (a, b) ∧ (c.vertices.drop i).take 2 = [a, b] := by
  have h0 : i < c.vertices.length := by omega
  refine ⟨c.vertices[i], c.vertices[i + 1], ?_, ?_⟩
  · simp [Chain.ends, h0, h, ne_of_lt h]
  · rw [List.drop_eq_getElem_cons h0, List.drop_eq_getElem_cons h]; rfl

theorem computeAabb_isBoxOf {s : Shape F} {i : Nat} {xf : Xf F} {box : AABB F} {n : Nat} (hn : s.childCount = some n)
    (hi : i < n) (hne : childPoints s i ≠ []) (h : s.computeAabb xf i = some box) :
    IsBoxOf (childPoints s i) xf (skin s) box := by
  cases s with
  | circle c =>
    simp only [Shape.computeAabb, Option.some.injEq] at h
    subst h
    refine ⟨⟨place xf c.p, place xf c.p⟩, ?_, ?_, ?_⟩
    · simp only [Circle.computeAabb, skin, place, Rot.mulV, AABB.mk.injEq, Vec2.ext_iff, Vec2.sub_x, Vec2.sub_y, Vec2.add_x, Vec2.add_y]
      refine ⟨⟨?_, ?_⟩, ?_, ?_⟩ <;> ring
    · intro v hv
      simp only [childPoints, List.mem_singleton] at hv
      subst hv; exact ⟨le_refl _, le_refl _, le_refl _, le_refl _⟩
    · intro b hb
      obtain ⟨h1, h2, h3, h4⟩ := hb c.p (by simp [childPoints])
      exact ⟨h1, h2, h3, h4⟩
  | edge e =>
    simp only [Shape.computeAabb, Option.some.injEq] at h
    subst h
    exact isBoxOf_cons e.v1 [e.v2] xf e.radius
  | polygon p =>
    simp only [Shape.computeAabb, Option.some.injEq] at h
    subst h
    obtain ⟨r, c, vs, ns⟩ := p
    cases vs with
    | nil => exact absurd rfl hne
    | cons v l => exact isBoxOf_cons v l xf r
  | chain c =>
    simp only [Shape.childCount, Chain.childCount] at hn
    split at hn
    · cases hn
    · cases hn
      obtain ⟨a, b, h1, h2⟩ := chain_ends (c := c) (i := i) (by omega)
      simp only [Shape.computeAabb, Chain.computeAabb, h1, Option.bind_eq_bind, Option.bind_some, Option.some.injEq, pure] at h
      subst h
      simp only [childPoints, h2]
      exact isBoxOf_cons a [b] xf c.radius

theorem hull_nil (x : Vec2 F) : ¬ Hull ([] : List (Vec2 F)) x := by
  intro hx
  induction hx with
  | vertex hv => cases hv
  | between _ _ _ _ ih _ => exact ih

/-! ## Frames -/

theorem place_eq (xf : Xf F) (v : Vec2 F) : xf.mulV v = place xf v := rfl

/-- A placed point in the frame of the body. -/
def unplace (xf : Xf F) (p : Vec2 F) : Vec2 F := xf.q.mulTV (p - xf.p)

theorem unplace_place {xf : Xf F} (h : IsRot xf.q) (v : Vec2 F) : unplace xf (place xf v) = v := by
  simp only [IsRot] at h
  ext
  · simp only [unplace, place, Rot.mulTV, Vec2.sub_x, Vec2.sub_y]; linear_combination v.x * h
  · simp only [unplace, place, Rot.mulTV, Vec2.sub_x, Vec2.sub_y]; linear_combination v.y * h

theorem place_unplace {xf : Xf F} (h : IsRot xf.q) (p : Vec2 F) : place xf (unplace xf p) = p := by
  simp only [IsRot] at h
  ext
  · simp only [unplace, place, Rot.mulTV, Vec2.sub_x, Vec2.sub_y]; linear_combination (p.x - xf.p.x) * h
  · simp only [unplace, place, Rot.mulTV, Vec2.sub_x, Vec2.sub_y]; linear_combination (p.y - xf.p.y) * h

theorem unplace_onLine (xf : Xf F) (a b : Vec2 F) (t : F) :
    unplace xf (onLine a b t) = onLine (unplace xf a) (unplace xf b) t := by
  ext <;> simp only [unplace, onLine, Rot.mulTV, Vec2.sub_x, Vec2.sub_y] <;> ring

theorem place_onLine (xf : Xf F) (a b : Vec2 F) (t : F) :
    place xf (onLine a b t) = onLine (place xf a) (place xf b) t := by
  ext <;> simp only [place, onLine] <;> ring

/-! ## Normalizing -/

theorem normalize_scale [Elem F] [ElemLaws F] (v : Vec2 F) :
    ∃ k : F, 0 < k ∧ v.normalize.1 = ⟨v.x * k, v.y * k⟩ ∧ (epsilon ≤ v.length → k * v.length = 1) := by
  have he : (0 : F) < epsilon := by unfold epsilon; positivity
  unfold Vec2.normalize
  by_cases h : v.length < epsilon
  · refine ⟨1, one_pos, ?_, fun h' => absurd h' (not_le.mpr h)⟩
    simp [h]
  · have hp : 0 < v.length := lt_of_lt_of_le he (not_lt.mp h)
    refine ⟨1 / v.length, by positivity, ?_, fun _ => by field_simp⟩
    simp [h]

end
end B2
