import Verif.Proofs.CollideSat
import Verif.Props.Manifold

/-!
# Contacts of two polygons
-/
namespace B2.Props
open B2 B2.Spec
set_option linter.unusedSectionVars false
section
variable {F : Type} [Field F] [LinearOrder F] [IsStrictOrderedRing F] [Elem F] [ElemLaws F]

/-- **C81** (partial: the converse and the distance need more, see `c81_overlap_false` and `c81_apart_false`): two polygons that
a face of one of them keeps apart by more than the sum of the radii have no contact point. -/
theorem c81_separated_partial (a b : Polygon F) (i : Nat) (xfA xfB : Xf F) (rA : IsRot xfA.q) (rB : IsRot xfB.q)
    (hr : a.radius + b.radius < maxFlt) (m : Manifold F)
    (hm : evaluateShapes (.polygon a) i xfA (.polygon b) xfB = some m) (hne : m.points ≠ []) :
    (∀ j < a.verts.length, ∃ v ∈ b.verts, ∀ q, place xfA q = place xfB v → faceHeight a j q ≤ a.radius + b.radius) ∧
    (∀ j < b.verts.length, ∃ v ∈ a.verts, ∀ q, place xfB q = place xfA v → faceHeight b j q ≤ a.radius + b.radius) := by
  simp only [evaluateShapes, collidePolygons] at hm
  split at hm
  · simp only [Option.some.injEq] at hm; rw [← hm] at hne; exact absurd rfl hne
  split at hm
  · simp only [Option.some.injEq] at hm; rw [← hm] at hne; exact absurd rfl hne
  rename_i h1 h2
  have h1 := not_lt.mp h1
  have h2 := not_lt.mp h2
  constructor
  · intro j hj
    obtain ⟨v, hv, h⟩ := (findMaxSeparation_spec rA rB a b rfl (h1.trans_lt hr)).1 j hj
    refine ⟨v, hv, fun q hq => ?_⟩
    rw [heightOver, ← hq, unplace_place rA] at h
    exact h.trans h1
  · intro j hj
    obtain ⟨v, hv, h⟩ := (findMaxSeparation_spec rB rA b a rfl (h2.trans_lt hr)).1 j hj
    refine ⟨v, hv, fun q hq => ?_⟩
    rw [heightOver, ← hq, unplace_place rB] at h
    exact h.trans h2

end

theorem sqrt_two_sq : Real.sqrt 4 = 2 := by
  rw [show (4 : ℝ) = 2 ^ 2 from by norm_num]; exact Real.sqrt_sq (by norm_num)

/-- C81: two polygons that do not touch may have a contact point: boxes corner to corner, 0.018 apart in both directions. -/
theorem c81_apart_false : ∃ (a b : Polygon ℝ) (xfA xfB : Xf ℝ) (m : Manifold ℝ), ProperShape (.polygon a) 0 ∧ ProperShape (.polygon b) 0 ∧
    a.radius = polygonRadius ∧ b.radius = polygonRadius ∧ IsRot xfA.q ∧ IsRot xfB.q ∧
    evaluateShapes (.polygon a) 0 xfA (.polygon b) xfB = some m ∧ m.points ≠ [] ∧ ¬ Touching (.polygon a) 0 xfA (.polygon b) xfB := by
  have hp : ProperShape (.polygon (Polygon.default.setAsBox 1 1 : Polygon ℝ)) 0 :=
    ⟨by norm_num [Polygon.setAsBox, Polygon.default, polygonRadius, linearSlop], proper_box _ 1 1 (by norm_num [epsilon]) (by norm_num [epsilon])⟩
  refine ⟨Polygon.default.setAsBox 1 1, Polygon.default.setAsBox 1 1, ⟨⟨0, 0⟩, Rot.identity⟩, ⟨⟨2018 / 1000, 2018 / 1000⟩, Rot.identity⟩,
    ⟨[.at' ⟨-1, -1⟩ ⟨1, 0, 1, 0⟩, .at' ⟨-1, -499 / 500⟩ ⟨2, 3, 0, 1⟩], ⟨1, 0⟩, ⟨1, 0⟩, .faceA⟩, hp, hp, rfl, rfl,
    by simp [IsRot, Rot.identity], by simp [IsRot, Rot.identity], ?_, by simp, ?_⟩
  · norm_num [evaluateShapes, collidePolygons, findMaxSeparation, Polygon.setAsBox, Polygon.default, boxVerts, boxNormals,
      clipPolygons, findIncidentEdge, mostAntiParallel, clipTwice, clipSegmentToLine, clipPush, List.range_succ, psGet, dot, Xf.mulV, Xf.mulTV,
      Xf.mulT, Rot.mulV, Rot.mulT, Rot.mulTV, Rot.identity, epsilon, polygonRadius, linearSlop, maxFlt, nextIndex, Vec2.normalize, Vec2.length,
      Elem.sqrt, sqrt_two_sq, eVertex, eFace, ManifoldPoint.at', Feature.swap, crossVS]
    exact ⟨by decide, by ext <;> norm_num⟩
  · rintro ⟨p, ⟨x, hx, hxp⟩, y, hy, hyp⟩
    have hx1 : x.x ≤ 1 ∧ x.y ≤ 1 := by
      clear hxp
      induction hx with
      | vertex hv =>
        simp only [childPoints, Polygon.setAsBox, boxVerts, List.mem_cons, List.not_mem_nil, or_false] at hv
        rcases hv with rfl | rfl | rfl | rfl <;> norm_num
      | @between p q t _ _ h0 h1 ih1 ih2 =>
        simp only [onLine]; constructor <;> nlinarith
    have hy1 : -1 ≤ y.x ∧ -1 ≤ y.y := by
      clear hyp
      induction hy with
      | vertex hv =>
        simp only [childPoints, Polygon.setAsBox, boxVerts, List.mem_cons, List.not_mem_nil, or_false] at hv
        rcases hv with rfl | rfl | rfl | rfl <;> norm_num
      | @between p q t _ _ h0 h1 ih1 ih2 =>
        simp only [onLine]; constructor <;> nlinarith
    norm_num [dist2, place, Rot.identity, skin, Polygon.setAsBox, Polygon.default, polygonRadius, linearSlop] at hxp hyp
    have h1 : (p.x - x.x) + (p.y - x.y) ≤ 15 / 1000 := by nlinarith [sq_nonneg ((p.x - x.x) - (p.y - x.y))]
    have h2 : (y.x + 1009 / 500 - p.x) + (y.y + 1009 / 500 - p.y) ≤ 15 / 1000 := by
      nlinarith [sq_nonneg ((y.x + 1009 / 500 - p.x) - (y.y + 1009 / 500 - p.y))]
    linarith [hx1.1, hx1.2, hy1.1, hy1.2]

/-- A keel: a box with a blunt keel below, whose two bottom faces are almost level. -/
noncomputable def keel : Polygon ℝ :=
  { radius := polygonRadius, centroid := ⟨3 / 2, 2⟩
    verts := [⟨8000001 / 10000000, 9004 / 10000⟩, ⟨6 / 5, 9 / 10⟩, ⟨6 / 5 + 15999999 / 16000000, 9005 / 10000⟩,
      ⟨6 / 5 + 15999999 / 16000000, 3⟩, ⟨8000001 / 10000000, 3⟩]
    normals := [⟨-4000 / 4000001, -3999999 / 4000001⟩, ⟨8000 / 16000001, -15999999 / 16000001⟩, ⟨1, 0⟩, ⟨0, 1⟩, ⟨-1, 0⟩] }

theorem keel_proper : ProperPolygon keel := by
  refine ⟨⟨by simp [keel], by norm_num [keel], ?_⟩, by simp [keel], ?_, rfl, ?_⟩
  · rintro a b ⟨i, ha, hb⟩ v hv
    have hi := (List.getElem?_eq_some_iff.mp ha).1
    simp only [keel, List.length_cons, List.length_nil] at hi
    simp only [keel, List.mem_cons, List.not_mem_nil, or_false] at hv
    match i, hi with
    | 0, _ | 1, _ | 2, _ | 3, _ | 4, _ =>
      simp [keel] at ha hb; rw [← ha, ← hb]
      rcases hv with rfl | rfl | rfl | rfl | rfl <;>
        first | (left; rfl) | (right; left; rfl) | (right; right; norm_num [turn])
  · rintro a b ⟨i, ha, hb⟩
    have hi := (List.getElem?_eq_some_iff.mp ha).1
    simp only [keel, List.length_cons, List.length_nil] at hi
    match i, hi with
    | 0, _ | 1, _ | 2, _ | 3, _ | 4, _ => simp [keel] at ha hb; rw [← ha, ← hb]; norm_num [dist2, epsilon]
  · intro i a b n ha hb hn
    have hi := (List.getElem?_eq_some_iff.mp ha).1
    simp only [keel, List.length_cons, List.length_nil] at hi
    match i, hi with
    | 0, _ | 1, _ | 2, _ | 3, _ | 4, _ =>
      simp [keel] at ha hb hn
      rw [← ha, ← hb, ← hn]
      refine ⟨by norm_num [dot], by norm_num [dot], by norm_num [turn]⟩

/-- C81: two polygons that overlap may have no contact point: the keel is sunk a tenth into the end of the top of a box, but
its face that is most opposed to the top is beyond that end. -/
theorem c81_overlap_false : ∃ (a b : Polygon ℝ) (xfA xfB : Xf ℝ) (m : Manifold ℝ), ProperShape (.polygon a) 0 ∧ ProperShape (.polygon b) 0 ∧
    a.radius = polygonRadius ∧ b.radius = polygonRadius ∧ IsRot xfA.q ∧ IsRot xfB.q ∧
    evaluateShapes (.polygon a) 0 xfA (.polygon b) xfB = some m ∧ m.points = [] ∧
    ∃ p ∈ b.verts, ∀ x, dist2 x (place xfB p) ≤ 9 / 100 * (9 / 100) → ∃ q, Hull a.verts q ∧ place xfA q = x := by
  refine ⟨Polygon.default.setAsBox 1 1, keel, ⟨⟨0, 0⟩, Rot.identity⟩, ⟨⟨0, 0⟩, Rot.identity⟩,
    ⟨[], ⟨0, 0⟩, ⟨0, 0⟩, .faceA⟩, ⟨?_, ?_⟩, ⟨?_, keel_proper⟩, rfl, rfl,
    by simp [IsRot, Rot.identity], by simp [IsRot, Rot.identity], ?_, rfl, ⟨8000001 / 10000000, 9004 / 10000⟩, by simp [keel], ?_⟩
  · norm_num [Polygon.setAsBox, Polygon.default, polygonRadius, linearSlop]
  · exact proper_box _ 1 1 (by norm_num [epsilon]) (by norm_num [epsilon])
  · norm_num [keel, polygonRadius, linearSlop]
  · norm_num [evaluateShapes, collidePolygons, findMaxSeparation, Polygon.setAsBox, Polygon.default, boxVerts, boxNormals, keel,
      clipPolygons, findIncidentEdge, mostAntiParallel, clipTwice, clipSegmentToLine, clipPush, List.range_succ, psGet, dot, Xf.mulV, Xf.mulTV,
      Xf.mulT, Rot.mulV, Rot.mulT, Rot.mulTV, Rot.identity, epsilon, polygonRadius, linearSlop, maxFlt, nextIndex, Vec2.normalize, Vec2.length,
      Elem.sqrt, sqrt_two_sq, eVertex, eFace, ManifoldPoint.at', Feature.swap, crossVS, Manifold.default]
  · intro x hx
    refine ⟨x, ?_, by simp [place, Rot.identity]⟩
    norm_num [dist2, place, Rot.identity] at hx
    have hx1 : -1 ≤ x.x := by nlinarith [mul_self_nonneg (x.y - 2251 / 2500)]
    have hx2 : x.x ≤ 1 := by nlinarith [mul_self_nonneg (x.y - 2251 / 2500)]
    have hy1 : -1 ≤ x.y := by nlinarith [mul_self_nonneg (x.x - 8000001 / 10000000)]
    have hy2 : x.y ≤ 1 := by nlinarith [mul_self_nonneg (x.x - 8000001 / 10000000)]
    have hv : ∀ v ∈ [(⟨-1, -1⟩ : Vec2 ℝ), ⟨1, -1⟩, ⟨1, 1⟩, ⟨-1, 1⟩], Hull (Polygon.default.setAsBox 1 1 : Polygon ℝ).verts v := by
      intro v hv; exact .vertex hv
    have h1 := Hull.between (hv ⟨-1, -1⟩ (by simp)) (hv ⟨1, -1⟩ (by simp)) (t := (x.x + 1) / 2) (by linarith) (by linarith)
    have h2 := Hull.between (hv ⟨-1, 1⟩ (by simp)) (hv ⟨1, 1⟩ (by simp)) (t := (x.x + 1) / 2) (by linarith) (by linarith)
    have h3 := Hull.between h1 h2 (t := (x.y + 1) / 2) (by linarith) (by linarith)
    have : onLine (onLine (⟨-1, -1⟩ : Vec2 ℝ) ⟨1, -1⟩ ((x.x + 1) / 2)) (onLine ⟨-1, 1⟩ ⟨1, 1⟩ ((x.x + 1) / 2)) ((x.y + 1) / 2) = x := by
      ext <;> simp only [onLine] <;> ring
    rw [this] at h3; exact h3

end B2.Props
