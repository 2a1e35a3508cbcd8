import Verif.Props.Collide
import Mathlib.Tactic.FinCases

/-!
# C129: boxes and edges are what was asked for
-/
set_option linter.unusedSectionVars false
namespace B2.Props
open Spec

section
variable {F : Type} [Field F] [LinearOrder F] [IsStrictOrderedRing F] [Elem F] [ElemLaws F]

/-- The point of the body that is `u` to the right and `v` up, in a box that is turned by `angle` round its centre `center`. -/
def boxPoint (center : Vec2 F) (angle u v : F) : Vec2 F :=
  ⟨center.x + (Elem.cos angle * u - Elem.sin angle * v), center.y + (Elem.sin angle * u + Elem.cos angle * v)⟩

/-- What `set_as_box_angle` makes is a proper polygon, unless a side is shorter than `EPSILON`. -/
theorem c129_box_angle_proper (p : Polygon F) (hx hy : F) (center : Vec2 F) (angle : F) (h1 : epsilon ≤ 2 * hx) (h2 : epsilon ≤ 2 * hy) :
    ProperPolygon (p.setAsBoxAngle hx hy center angle) := by
  have he : (0 : F) < epsilon := eps_pos
  have px : 0 < hx := by linarith
  have py : 0 < hy := by linarith
  have hr : Elem.sin angle * Elem.sin angle + Elem.cos angle * Elem.cos angle = 1 := ElemLaws.sin_cos angle
  generalize hs : (Elem.sin angle : F) = s at hr
  generalize hc : (Elem.cos angle : F) = c at hr
  have hv : (p.setAsBoxAngle hx hy center angle).verts = (boxVerts hx hy).map (Xf.mulV ⟨center, ⟨s, c⟩⟩) := by
    simp only [Polygon.setAsBoxAngle, Rot.ofAngle, hs, hc]
  have hn : (p.setAsBoxAngle hx hy center angle).normals = boxNormals.map (Rot.mulV ⟨s, c⟩) := by
    simp only [Polygon.setAsBoxAngle, Rot.ofAngle, hs, hc]
  have hB := proper_box p hx hy h1 h2
  have ht : ∀ a b d : Vec2 F, turn (Xf.mulV ⟨center, ⟨s, c⟩⟩ a) (Xf.mulV ⟨center, ⟨s, c⟩⟩ b) (Xf.mulV ⟨center, ⟨s, c⟩⟩ d) = turn a b d := by
    intro a b d
    simp only [turn, Xf.mulV]
    linear_combination ((b.x - a.x) * (d.y - a.y) - (b.y - a.y) * (d.x - a.x)) * hr
  have hd : ∀ a b : Vec2 F, dist2 (Xf.mulV ⟨center, ⟨s, c⟩⟩ a) (Xf.mulV ⟨center, ⟨s, c⟩⟩ b) = dist2 a b := by
    intro a b
    simp only [dist2, Xf.mulV]
    linear_combination ((b.x - a.x) * (b.x - a.x) + (b.y - a.y) * (b.y - a.y)) * hr
  have hinj : Function.Injective (Xf.mulV (⟨center, ⟨s, c⟩⟩ : Xf F)) := by
    intro a b hab
    have h0 : dist2 a b = 0 := by rw [← hd, hab]; simp [dist2]
    simp only [dist2] at h0
    have hx0 : a.x - b.x = 0 := by nlinarith [mul_self_nonneg (a.x - b.x), mul_self_nonneg (a.y - b.y)]
    have hy0 : a.y - b.y = 0 := by nlinarith [mul_self_nonneg (a.x - b.x), mul_self_nonneg (a.y - b.y)]
    ext
    · linarith
    · linarith
  have hnext : ∀ a b, NextTo ((boxVerts hx hy).map (Xf.mulV ⟨center, ⟨s, c⟩⟩)) a b →
      ∃ a' b', a = Xf.mulV ⟨center, ⟨s, c⟩⟩ a' ∧ b = Xf.mulV ⟨center, ⟨s, c⟩⟩ b' ∧ NextTo (boxVerts hx hy) a' b' := by
    rintro a b ⟨i, ha, hb⟩
    rw [List.getElem?_map, Option.map_eq_some_iff] at ha hb
    obtain ⟨a', ha, rfl⟩ := ha
    obtain ⟨b', hb, rfl⟩ := hb
    rw [List.length_map] at hb
    exact ⟨a', b', rfl, rfl, i, ha, hb⟩
  refine ⟨⟨by rw [hv]; simp [boxVerts], ?_, ?_⟩, by rw [hv]; simp [boxVerts], ?_, by rw [hv, hn]; simp [boxVerts, boxNormals], ?_⟩
  · rw [hv]; exact hB.convex.2.1.map hinj
  · rw [hv]
    intro a b hab v hv
    obtain ⟨a', b', rfl, rfl, h⟩ := hnext a b hab
    obtain ⟨v', hv', rfl⟩ := List.mem_map.mp hv
    rw [ht]
    rcases hB.convex.2.2 a' b' h v' hv' with h | h | h
    · left; rw [h]
    · right; left; rw [h]
    · right; right; exact h
  · rw [hv]
    intro a b hab
    obtain ⟨a', b', rfl, rfl, h⟩ := hnext a b hab
    rw [hd]
    exact hB.long a' b' h
  · rw [hv, hn]
    intro i a b n ha hb hn
    rw [List.getElem?_map, Option.map_eq_some_iff] at ha hb hn
    obtain ⟨a', ha, rfl⟩ := ha
    obtain ⟨b', hb, rfl⟩ := hb
    obtain ⟨n', hn, rfl⟩ := hn
    rw [List.length_map] at hb
    obtain ⟨k1, k2, k3⟩ := hB.normal i a' b' n' ha hb hn
    simp only [dot, Vec2.sub_x, Vec2.sub_y, turn, Vec2.add_x, Vec2.add_y, Xf.mulV, Rot.mulV] at k1 k2 k3 ⊢
    refine ⟨by linear_combination k1 + (n'.x * n'.x + n'.y * n'.y) * hr,
      by linear_combination k2 + (n'.x * (b'.x - a'.x) + n'.y * (b'.y - a'.y)) * hr, lt_of_eq_of_lt ?_ k3⟩
    linear_combination ((b'.x - a'.x) * n'.y - (b'.y - a'.y) * n'.x) * hr

/-- `test_point` of a box that `set_as_box` made says yes exactly for the points at most `hx` to the left or right and at most `hy` above or below
the origin of the body. -/
theorem c129_box_points (p : Polygon F) (hx hy : F) (xf : Xf F) (hq : IsRot xf.q) (q : Vec2 F) :
    (p.setAsBox hx hy).testPoint xf q = true ↔ ∃ u v, -hx ≤ u ∧ u ≤ hx ∧ -hy ≤ v ∧ v ≤ hy ∧ q = place xf ⟨u, v⟩ := by
  have hq' : xf.q.c * xf.q.c + xf.q.s * xf.q.s = 1 := hq
  simp only [Polygon.testPoint, Polygon.setAsBox, boxVerts, boxNormals, List.zip_cons_cons, List.zip_nil_left, List.all_cons, List.all_nil, Bool.and_true,
    Bool.and_eq_true, Bool.not_eq_true', decide_eq_false_iff_not, not_lt, gt_iff_lt, dot, Vec2.sub_x, Vec2.sub_y, Rot.mulTV]
  constructor
  · rintro ⟨h1, h2, h3, h4⟩
    refine ⟨xf.q.c * (q.x - xf.p.x) + xf.q.s * (q.y - xf.p.y), -xf.q.s * (q.x - xf.p.x) + xf.q.c * (q.y - xf.p.y), ?_, ?_, ?_, ?_, ?_⟩
    · linarith
    · linarith
    · linarith
    · linarith
    · ext <;> simp only [place]
      · linear_combination (xf.p.x - q.x) * hq'
      · linear_combination (xf.p.y - q.y) * hq'
  · rintro ⟨u, v, h1, h2, h3, h4, rfl⟩
    simp only [place]
    have e1 : xf.q.c * (xf.q.c * u - xf.q.s * v + xf.p.x - xf.p.x) + xf.q.s * (xf.q.s * u + xf.q.c * v + xf.p.y - xf.p.y) = u := by
      linear_combination u * hq'
    have e2 : -xf.q.s * (xf.q.c * u - xf.q.s * v + xf.p.x - xf.p.x) + xf.q.c * (xf.q.s * u + xf.q.c * v + xf.p.y - xf.p.y) = v := by
      linear_combination v * hq'
    rw [e1, e2]
    refine ⟨by linarith, by linarith, by linarith, by linarith⟩

/-- The same for `set_as_box_angle`: the points at most `hx` and `hy` away from the middle of the box, along its own axes. -/
theorem c129_box_angle_points (p : Polygon F) (hx hy : F) (center : Vec2 F) (angle : F) (xf : Xf F) (hq : IsRot xf.q) (q : Vec2 F) :
    (p.setAsBoxAngle hx hy center angle).testPoint xf q = true ↔
      ∃ u v, -hx ≤ u ∧ u ≤ hx ∧ -hy ≤ v ∧ v ≤ hy ∧ q = place xf (boxPoint center angle u v) := by
  have hr : Elem.sin angle * Elem.sin angle + Elem.cos angle * Elem.cos angle = 1 := ElemLaws.sin_cos angle
  have key : (p.setAsBoxAngle hx hy center angle).testPoint xf q =
      (p.setAsBox hx hy).testPoint ⟨place xf center, xf.q.mul (Rot.ofAngle angle)⟩ q := by
    have hq' : xf.q.c * xf.q.c + xf.q.s * xf.q.s = 1 := hq
    have e1 : ∀ n v w : Vec2 F, dot (Rot.mulV (Rot.ofAngle angle) n) (w - Xf.mulV ⟨center, Rot.ofAngle angle⟩ v) =
        dot n (Rot.mulTV (Rot.ofAngle angle) (w - center) - v) := by
      intro n v w
      simp only [dot, Rot.mulV, Rot.mulTV, Xf.mulV, Vec2.sub_x, Vec2.sub_y, Rot.ofAngle]
      linear_combination -(n.x * v.x + n.y * v.y) * hr
    have e2 : Rot.mulTV (xf.q.mul (Rot.ofAngle angle)) (q - place xf center) = Rot.mulTV (Rot.ofAngle angle) (xf.q.mulTV (q - xf.p) - center) := by
      ext <;> simp only [place, Rot.mul, Rot.mulTV, Vec2.sub_x, Vec2.sub_y, Rot.ofAngle]
      · linear_combination -(Elem.cos angle * center.x + Elem.sin angle * center.y) * hq'
      · linear_combination -(Elem.cos angle * center.y - Elem.sin angle * center.x) * hq'
    simp only [Polygon.testPoint, Polygon.setAsBox, Polygon.setAsBoxAngle, boxVerts, boxNormals, List.map_cons, List.map_nil, List.zip_cons_cons,
      List.zip_nil_left, List.all_cons, List.all_nil, e1, e2]
  rw [key, c129_box_points]
  swap
  · have hq' : xf.q.c * xf.q.c + xf.q.s * xf.q.s = 1 := hq
    show (xf.q.mul (Rot.ofAngle angle)).c * (xf.q.mul (Rot.ofAngle angle)).c + (xf.q.mul (Rot.ofAngle angle)).s * (xf.q.mul (Rot.ofAngle angle)).s = 1
    simp only [Rot.mul, Rot.ofAngle]
    linear_combination (Elem.sin angle * Elem.sin angle + Elem.cos angle * Elem.cos angle) * hq' + hr
  refine exists_congr fun u => exists_congr fun v => ?_
  have : place ⟨place xf center, xf.q.mul (Rot.ofAngle angle)⟩ (⟨u, v⟩ : Vec2 F) = place xf (boxPoint center angle u v) := by
    ext <;> simp only [place, boxPoint, Rot.mul, Rot.ofAngle] <;> ring
  rw [this]

/-- The mass data of a turned box: density times area, the centre that was asked for, and the inertia about the origin of the body by the
parallel-axis theorem. -/
theorem c129_box_angle_mass (p : Polygon F) (hx hy : F) (center : Vec2 F) (angle density : F) (hA : epsilon < 4 * hx * hy) :
    ∃ md, (p.setAsBoxAngle hx hy center angle).computeMass density = some md ∧ md.mass = density * (4 * hx * hy) ∧ md.center = center ∧
      md.i = md.mass * (hx * hx + hy * hy) / 3 + md.mass * (center.x * center.x + center.y * center.y) := by
  have he : (0 : F) < epsilon := by unfold epsilon; positivity
  have hr : Elem.sin angle * Elem.sin angle + Elem.cos angle * Elem.cos angle = 1 := ElemLaws.sin_cos angle
  have hs : shoelace (p.setAsBoxAngle hx hy center angle).verts = 4 * hx * hy := by
    simp [shoelace, Polygon.setAsBoxAngle, boxVerts, Xf.mulV, Rot.ofAngle]
    linear_combination 4 * hx * hy * hr
  obtain ⟨md, hmd⟩ := c60_total (p.setAsBoxAngle hx hy center angle) density (by simp [Polygon.setAsBoxAngle, boxVerts]) (by rw [hs]; exact hA)
  obtain ⟨h1, h2, h3, h4, -⟩ := c60_polygon_mass _ _ _ hmd
  have hne : (4 * hx * hy : F) ≠ 0 := ne_of_gt (he.trans hA)
  refine ⟨md, hmd, by rw [h1, hs], ?_, ?_⟩
  · have mx : momentX (p.setAsBoxAngle hx hy center angle).verts = 4 * hx * hy * center.x := by
      simp [momentX, Polygon.setAsBoxAngle, boxVerts, Xf.mulV, Rot.ofAngle]
      linear_combination 4 * hx * hy * center.x * hr
    have my : momentY (p.setAsBoxAngle hx hy center angle).verts = 4 * hx * hy * center.y := by
      simp [momentY, Polygon.setAsBoxAngle, boxVerts, Xf.mulV, Rot.ofAngle]
      linear_combination 4 * hx * hy * center.y * hr
    rw [hs, mx] at h2
    rw [hs, my] at h3
    ext
    · exact mul_left_cancel₀ hne h2
    · exact mul_left_cancel₀ hne h3
  · rw [h4, h1, hs]
    simp [momentII, Polygon.setAsBoxAngle, boxVerts, Xf.mulV, Rot.ofAngle]
    have hr2 : (Elem.sin angle * Elem.sin angle + Elem.cos angle * Elem.cos angle) * (Elem.sin angle * Elem.sin angle + Elem.cos angle * Elem.cos angle) = (1 : F) := by
      rw [hr, mul_one]
    linear_combination density * (4 * hx * hy) * (center.x * center.x + center.y * center.y) * hr + density * (4 * hx * hy) * ((hx * hx + hy * hy) / 3) * hr2

/-- Edges: `set_two_sided` and `set_one_sided` change the ends and the sidedness as told, and nothing else; the stored centroid of a turned box is its
middle, and neither setter changes the radius. -/
theorem c129_setters (e : Edge F) (p : Polygon F) (v0 v1 v2 v3 center : Vec2 F) (hx hy angle : F) :
    (let e2 := e.setTwoSided v1 v2; e2.v1 = v1 ∧ e2.v2 = v2 ∧ e2.oneSided = false ∧ e2.radius = e.radius) ∧
    (let e1 := e.setOneSided v0 v1 v2 v3
     e1.v0 = v0 ∧ e1.v1 = v1 ∧ e1.v2 = v2 ∧ e1.v3 = v3 ∧ e1.oneSided = true ∧ e1.radius = e.radius) ∧
    (p.setAsBox hx hy).centroid = ⟨0, 0⟩ ∧ (p.setAsBoxAngle hx hy center angle).centroid = center ∧
    (p.setAsBox hx hy).radius = p.radius ∧ (p.setAsBoxAngle hx hy center angle).radius = p.radius :=
  ⟨⟨rfl, rfl, rfl, rfl⟩, ⟨rfl, rfl, rfl, rfl, rfl, rfl⟩, rfl, rfl, rfl, rfl⟩

end

/-- A box of 2 by 4 metres whose middle is at (3, 1), turned by a right angle: the point (4.5, 1.5) is in it, as it lies 1.5 m from the middle along the
long side; without the turn it would not be. -/
example : (Polygon.default.setAsBoxAngle 1 2 ⟨3, 1⟩ (Real.pi / 2) : Polygon ℝ).testPoint ⟨⟨0, 0⟩, Rot.identity⟩ ⟨9 / 2, 3 / 2⟩ = true ∧
    (Polygon.default.setAsBoxAngle 1 2 ⟨3, 1⟩ 0 : Polygon ℝ).testPoint ⟨⟨0, 0⟩, Rot.identity⟩ ⟨9 / 2, 3 / 2⟩ = false ∧
    ProperPolygon (Polygon.default.setAsBoxAngle 1 2 ⟨3, 1⟩ (Real.pi / 2) : Polygon ℝ) ∧
    (epsilon : ℝ) < 4 * 1 * 2 := by
  have hi : IsRot (Rot.identity : Rot ℝ) := by norm_num [IsRot, Rot.identity]
  refine ⟨(c129_box_angle_points _ _ _ _ _ _ hi _).mpr ⟨1 / 2, -3 / 2, by norm_num, by norm_num, by norm_num, by norm_num, ?_⟩, ?_,
    c129_box_angle_proper _ _ _ _ _ (by norm_num [epsilon]) (by norm_num [epsilon]), by norm_num [epsilon]⟩
  · have h1 : (Elem.cos (Real.pi / 2) : ℝ) = 0 := Real.cos_pi_div_two
    have h2 : (Elem.sin (Real.pi / 2) : ℝ) = 1 := Real.sin_pi_div_two
    ext <;> simp only [place, boxPoint, Rot.identity, h1, h2] <;> norm_num
  · rw [Bool.eq_false_iff, Ne, c129_box_angle_points _ _ _ _ _ _ hi]
    rintro ⟨u, v, h1, h2, -, -, h⟩
    have h3 : (Elem.cos 0 : ℝ) = 1 := Real.cos_zero
    have h4 : (Elem.sin 0 : ℝ) = 0 := Real.sin_zero
    have := congrArg Vec2.x h
    simp only [place, boxPoint, Rot.identity, h3, h4] at this
    linarith

end B2.Props
