import Verif.Proofs.CollideWorld
import Verif.Props.Polygon

/-!
# Contact manifolds: circles, polygons against circles, edges and chains against circles
-/
namespace B2.Props
open B2 B2.Spec
set_option linter.unusedSectionVars false
section
variable {F : Type} [Field F] [LinearOrder F] [IsStrictOrderedRing F] [Elem F] [ElemLaws F]

/-! ## C76: two circles -/

/-- **C76**: two circles have a contact point exactly when they touch. -/
theorem c76_touching (a b : Circle F) (ha : 0 ≤ a.radius) (hb : 0 ≤ b.radius) (i : Nat) (xfA xfB : Xf F) :
    ∃ m, evaluateShapes (.circle a) i xfA (.circle b) xfB = some m ∧
      (m.points ≠ [] ↔ Touching (.circle a) i xfA (.circle b) xfB) := by
  refine ⟨_, rfl, ?_⟩
  rw [touching_circle (a := .circle a) ha hb]
  have hd : dot (xfB.mulV b.p - xfA.mulV a.p) (xfB.mulV b.p - xfA.mulV a.p) = dist2 (place xfA a.p) (place xfB b.p) := by
    rw [sub_dist2, dist2_comm, place_eq, place_eq]
  have hT : (∃ x, Hull (childPoints (.circle a) i) x ∧ dist2 (place xfA x) (place xfB b.p) ≤
      (skin (.circle a) + b.radius) * (skin (.circle a) + b.radius)) ↔
      ¬ dot (xfB.mulV b.p - xfA.mulV a.p) (xfB.mulV b.p - xfA.mulV a.p) > (a.radius + b.radius) * (a.radius + b.radius) := by
    rw [hd, not_lt]
    constructor
    · rintro ⟨x, hx, h⟩
      rw [hull_singleton hx] at h; exact h
    · intro h; exact ⟨a.p, .vertex (by simp [childPoints]), h⟩
  rw [hT]
  simp only [collideCircles]
  split
  · rename_i h; simp [Manifold.default, h]
  · rename_i h; simp [h]

/-- **C76**: the world manifold of two circles that touch and whose centres are apart: its normal leads from the centre of
the first to that of the second, the separation is the distance of the centres less the radii. -/
theorem c76_world (a b : Circle F) (i : Nat) (xfA xfB : Xf F) (m : Manifold F)
    (hm : evaluateShapes (.circle a) i xfA (.circle b) xfB = some m) (hp : m.points ≠ [])
    (hfar : epsilon * epsilon < dist2 (place xfA a.p) (place xfB b.p)) :
    ∃ w, worldManifold m xfA a.radius xfB b.radius = some w ∧
      NearestContact [a.p] xfA a.radius (place xfB b.p) b.radius w := by
  simp only [evaluateShapes, Option.some.injEq] at hm
  simp only [collideCircles] at hm
  split at hm
  · subst hm; exact absurd rfl hp
  · subst hm
    refine world_circles rfl rfl (.vertex (by simp)) hfar ?_
    intro y hy; rw [hull_singleton hy]

example : ∃ m, evaluateShapes (.circle ⟨1, ⟨0, 0⟩⟩ : Shape ℝ) 0 ⟨⟨0, 0⟩, Rot.identity⟩ (.circle ⟨1, ⟨1, 0⟩⟩) ⟨⟨1 / 2, 0⟩, Rot.identity⟩ = some m ∧
    m.points ≠ [] ∧ epsilon * epsilon < dist2 (place ⟨⟨0, 0⟩, Rot.identity⟩ ⟨0, 0⟩) (place ⟨⟨1 / 2, 0⟩, Rot.identity⟩ (⟨1, 0⟩ : Vec2 ℝ)) := by
  refine ⟨_, rfl, ?_, ?_⟩ <;>
    norm_num [evaluateShapes, collideCircles, Xf.mulV, dot, Rot.identity, epsilon, dist2, place]

/-! ## C77: polygon and circle -/

/-- What `set` makes is a proper polygon. -/
theorem proper_set (p p' : Polygon F) (vs : List (Vec2 F)) (h : p.set vs = some p') : ProperPolygon p' := by
  obtain ⟨h1, -, ⟨kept, k1, -, -, k4, -⟩, h4, h5⟩ := c59_hull p p' vs h
  have hlen : vs.length ≤ 8 := by
    by_contra hc
    have : ¬ (3 ≤ vs.length ∧ vs.length ≤ maxPolygonVertices) := fun h => hc h.2
    simp only [Polygon.set, this, not_false_eq_true, if_true] at h
    simp at h
  refine ⟨h1, ?_, ?_, h4, h5⟩
  · have : p'.verts.length ≤ vs.length := (h1.2.1.subperm fun v hv => k1 v (k4 v hv)).length_le
    omega
  · have hsz : (3 ≤ vs.length ∧ vs.length ≤ 8) ∧ 3 ≤ (weld vs).length := by
      by_contra hc
      by_cases h1 : 3 ≤ vs.length ∧ vs.length ≤ maxPolygonVertices
      · have h2 : (weld vs).length < 3 := by
          by_contra h2; exact hc ⟨h1, by omega⟩
        simp [Polygon.set, h1, h2] at h
      · simp only [Polygon.set, h1, not_false_eq_true, if_true] at h
        simp at h
    obtain ⟨⟨g3, g8⟩, gw⟩ := hsz
    obtain ⟨r, -, -, hx, hE, hs⟩ := set_eq p vs g3 g8 gw
    obtain ⟨-, -, w3, -, -⟩ := weld_spec vs
    rw [hs] at h
    split at h
    swap
    · cases h
    rw [Option.map_eq_some_iff] at h
    obtain ⟨c, -, rfl⟩ := h
    intro a b hab
    obtain ⟨ia, ib, hia, hib, rfl, rfl, he⟩ := hull_points hE hab
    rw [dist2_comm]
    exact (lt_of_lt_of_le epsilon_weld (pairwise_get w3 he.lt (hx ia hia).1 he.ne)).le

/-- What `set_as_box` makes is a proper polygon, unless a side is shorter than `EPSILON`. -/
theorem proper_box (p : Polygon F) (hx hy : F) (h1 : epsilon ≤ 2 * hx) (h2 : epsilon ≤ 2 * hy) : ProperPolygon (p.setAsBox hx hy) := by
  have he : (0 : F) < epsilon := eps_pos
  have px : 0 < hx := by linarith
  have py : 0 < hy := by linarith
  have hnext : ∀ a b, NextTo (boxVerts hx hy) a b → (a = ⟨-hx, -hy⟩ ∧ b = ⟨hx, -hy⟩) ∨ (a = ⟨hx, -hy⟩ ∧ b = ⟨hx, hy⟩) ∨
      (a = ⟨hx, hy⟩ ∧ b = ⟨-hx, hy⟩) ∨ (a = ⟨-hx, hy⟩ ∧ b = ⟨-hx, -hy⟩) := by
    rintro a b ⟨i, ha, hb⟩
    have hi := (List.getElem?_eq_some_iff.mp ha).1
    simp only [boxVerts, List.length_cons, List.length_nil] at hi
    match i, hi with
    | 0, _ | 1, _ | 2, _ | 3, _ => simp [boxVerts] at ha hb; simp [← ha, ← hb]
  have hxx : epsilon * epsilon ≤ (2 * hx) * (2 * hx) := mul_self_le_mul_self he.le h1
  have hyy : epsilon * epsilon ≤ (2 * hy) * (2 * hy) := mul_self_le_mul_self he.le h2
  have hxne : -hx ≠ hx := by intro h; linarith
  have hyne : -hy ≠ hy := by intro h; linarith
  have hxy := mul_pos px py
  refine ⟨⟨by simp [Polygon.setAsBox, boxVerts], ?_, ?_⟩, by simp [Polygon.setAsBox, boxVerts], ?_, rfl, ?_⟩
  · simp only [Polygon.setAsBox, boxVerts, List.nodup_cons, List.mem_cons, Vec2.mk.injEq, List.not_mem_nil, or_false, hxne, hyne, hxne.symm, hyne.symm]
    simp
  · intro a b hab v hv
    simp only [Polygon.setAsBox, boxVerts, List.mem_cons, List.not_mem_nil, or_false] at hv
    rcases hnext a b hab with ⟨rfl, rfl⟩ | ⟨rfl, rfl⟩ | ⟨rfl, rfl⟩ | ⟨rfl, rfl⟩ <;> rcases hv with rfl | rfl | rfl | rfl <;>
      first | (left; rfl) | (right; left; rfl) | (right; right; simp only [turn]; nlinarith)
  · intro a b hab
    rcases hnext a b hab with ⟨rfl, rfl⟩ | ⟨rfl, rfl⟩ | ⟨rfl, rfl⟩ | ⟨rfl, rfl⟩ <;> simp only [dist2] <;> linarith
  · intro i a b n ha hb hn
    have hi := (List.getElem?_eq_some_iff.mp ha).1
    simp only [Polygon.setAsBox, boxVerts, List.length_cons, List.length_nil] at hi
    match i, hi with
    | 0, _ | 1, _ | 2, _ | 3, _ =>
      simp [Polygon.setAsBox, boxVerts, boxNormals] at ha hb hn
      rw [← ha, ← hb, ← hn]
      refine ⟨by simp [dot], by simp [dot], ?_⟩
      simp only [turn, Vec2.add_x, Vec2.add_y]; nlinarith

/-- **C77**: a polygon and a circle that touch always have a contact point. -/
theorem c77_complete (a : Polygon F) (b : Circle F) (hp : ProperPolygon a) (ha : 0 ≤ a.radius) (hb : 0 ≤ b.radius) (i : Nat)
    (xfA xfB : Xf F) (hA : IsRot xfA.q) :
    ∃ m, evaluateShapes (.polygon a) i xfA (.circle b) xfB = some m ∧
      (Touching (.polygon a) i xfA (.circle b) xfB → m.points ≠ []) := by
  refine ⟨_, rfl, fun ht hno => ?_⟩
  rw [touching_circle (a := .polygon a) ha hb] at ht
  obtain ⟨x, hx, hd⟩ := ht
  rcases polyCircle_spec hp (b := b) (xfA := xfA) (xfB := xfB) (by linarith) with ⟨-, h⟩ | ⟨n, q, h, -⟩
  · have := h x hx
    rw [dist2_unplace hA, dist2_comm] at hd
    exact absurd this (not_lt.mpr hd)
  · rw [h] at hno; simp [faceCircle] at hno

/-- **C77**, the converse as far as it holds: a polygon and a circle with a contact point touch, if the centre of the
circle is in the polygon or at least `EPSILON` outside one of its faces. Without that it is false: `c77_false`. -/
theorem c77_sound_partial (a : Polygon F) (b : Circle F) (hp : ProperPolygon a) (ha : 0 ≤ a.radius) (hb : 0 ≤ b.radius) (i : Nat)
    (xfA xfB : Xf F) (hA : IsRot xfA.q) (m : Manifold F)
    (hm : evaluateShapes (.polygon a) i xfA (.circle b) xfB = some m) (hne : m.points ≠ [])
    (c : Vec2 F) (hc : place xfA c = place xfB b.p)
    (hin : Hull a.verts c ∨ ∃ i < a.verts.length, epsilon ≤ faceHeight a i c) :
    Touching (.polygon a) i xfA (.circle b) xfB := by
  have hcu : unplace xfA (place xfB b.p) = c := by rw [← hc, unplace_place hA]
  rw [touching_circle (a := .polygon a) ha hb]
  simp only [evaluateShapes, Option.some.injEq] at hm
  subst hm
  have hsq : (0 : F) ≤ (a.radius + b.radius) * (a.radius + b.radius) := mul_self_nonneg _
  have hinside : Hull a.verts c → ∃ x, Hull (childPoints (.polygon a) i) x ∧
      dist2 (place xfA x) (place xfB b.p) ≤ (skin (.polygon a) + b.radius) * (skin (.polygon a) + b.radius) := by
    intro h
    refine ⟨c, h, ?_⟩
    rw [hc]
    have : dist2 (place xfB b.p) (place xfB b.p) = 0 := by simp [dist2]
    rw [this]; exact hsq
  rcases polyCircle_spec hp (b := b) (xfA := xfA) (xfB := xfB) (by linarith) with ⟨h, -⟩ | ⟨n, q, h, ⟨hn, -, -⟩, h' | ⟨hlt, -⟩⟩
  · exact absurd h hne
  · rw [hcu] at h'
    obtain ⟨-, h0, h1, ⟨x, hx, hxc⟩, -⟩ := h'
    refine ⟨x, hx, ?_⟩
    rw [← hc, dist2_place hA, ← sub_dist2]
    have : x - c = (-dot (c - q) n) * n := by
      ext
      · have := congrArg Vec2.x hxc; simp only [Vec2.add_x, Vec2.smul_x] at this; simp only [Vec2.sub_x, Vec2.smul_x]; linarith
      · have := congrArg Vec2.y hxc; simp only [Vec2.add_y, Vec2.smul_y] at this; simp only [Vec2.sub_y, Vec2.smul_y]; linarith
    rw [this]
    have : dot (-dot (c - q) n * n) (-dot (c - q) n * n) = dot (c - q) n * dot (c - q) n * dot n n := by
      simp only [dot, Vec2.smul_x, Vec2.smul_y]; ring
    rw [this, hn, mul_one]
    exact mul_self_le_mul_self h0 h1
  · rw [hcu] at hlt
    rcases hin with hin | ⟨i, hi, hle⟩
    · exact hinside hin
    · exact absurd (hlt i hi) (not_lt.mpr hle)

/-- **C77**: the world manifold when the centre is outside (at least `EPSILON` outside one of the faces): the normal leads
from the nearest point of the polygon to the centre, the separation is the distance less the radii. -/
theorem c77_world (a : Polygon F) (b : Circle F) (hp : ProperPolygon a) (ha : 0 ≤ a.radius) (hb : 0 ≤ b.radius) (i : Nat)
    (xfA xfB : Xf F) (hA : IsRot xfA.q) (m : Manifold F)
    (hm : evaluateShapes (.polygon a) i xfA (.circle b) xfB = some m) (hne : m.points ≠ [])
    (c : Vec2 F) (hc : place xfA c = place xfB b.p) (hout : ∃ i < a.verts.length, epsilon ≤ faceHeight a i c) :
    ∃ w, worldManifold m xfA a.radius xfB b.radius = some w ∧
      NearestContact a.verts xfA a.radius (place xfB b.p) b.radius w := by
  have hcu : unplace xfA (place xfB b.p) = c := by rw [← hc, unplace_place hA]
  simp only [evaluateShapes, Option.some.injEq] at hm
  subst hm
  rcases polyCircle_spec hp (b := b) (xfA := xfA) (xfB := xfB) (by linarith) with ⟨h, -⟩ | ⟨n, q, h, ⟨hn, -, -⟩, h' | ⟨hlt, -⟩⟩
  · exact absurd h hne
  · obtain ⟨-, h0, h1, ⟨x, hx, hxc⟩, hmin⟩ := h'
    obtain ⟨w, h1, h2, -⟩ := world_face (vs := a.verts) (rA := a.radius) (rB := b.radius) (m := faceCircle n q b.p) (xfB := xfB) hA rfl rfl hn hx h0 hxc (by
      intro y hy
      refine le_trans (le_of_eq ?_) (hmin y hy)
      rw [← sub_dist2]
      set d := unplace xfA (place xfB b.p)
      have : d - x = dot (d - q) n * n := by
        ext
        · have := congrArg Vec2.x hxc; simp only [Vec2.add_x, Vec2.smul_x] at this; simp only [Vec2.sub_x, Vec2.smul_x]; linarith
        · have := congrArg Vec2.y hxc; simp only [Vec2.add_y, Vec2.smul_y] at this; simp only [Vec2.sub_y, Vec2.smul_y]; linarith
      rw [this]
      have : dot (dot (d - q) n * n) (dot (d - q) n * n) = dot (d - q) n * dot (d - q) n * dot n n := by
        simp only [dot, Vec2.smul_x, Vec2.smul_y]; ring
      rw [this, hn, mul_one])
    rw [h]; exact ⟨w, h1, h2⟩
  · rw [hcu] at hlt
    obtain ⟨i, hi, hle⟩ := hout
    exact absurd (hlt i hi) (not_lt.mpr hle)

/-- **C77**: the world manifold when the centre is inside: the normal is that of the face with the least depth, the
separation is minus the depth below that face less the radii. (Unless all depths are at least `MAX_FLT`.) -/
theorem c77_world_inside (a : Polygon F) (b : Circle F) (hp : ProperPolygon a) (ha : 0 ≤ a.radius) (hb : 0 ≤ b.radius) (i : Nat)
    (xfA xfB : Xf F) (hA : IsRot xfA.q) (m : Manifold F)
    (hm : evaluateShapes (.polygon a) i xfA (.circle b) xfB = some m)
    (c : Vec2 F) (hc : place xfA c = place xfB b.p) (hin : Hull a.verts c)
    (hsmall : ∃ j < a.verts.length, -maxFlt < faceHeight a j c) :
    ∃ w, worldManifold m xfA a.radius xfB b.radius = some w ∧ ∃ j < a.verts.length,
      (∀ k < a.verts.length, faceHeight a k c ≤ faceHeight a j c) ∧
      w.s1 = faceHeight a j c - a.radius - b.radius ∧ w.normal = xfA.q.mulV (psGet a.normals j) := by
  have hcu : unplace xfA (place xfB b.p) = c := by rw [← hc, unplace_place hA]
  have he : (0 : F) < epsilon := eps_pos
  simp only [evaluateShapes, Option.some.injEq] at hm
  subst hm
  rcases polyCircle_spec hp (b := b) (xfA := xfA) (xfB := xfB) (by linarith) with ⟨-, h⟩ | ⟨n, q, h, ⟨hn, -, -⟩, ⟨⟨j, hj, hle⟩, -⟩ | ⟨-, j, hj, hnj, hh, -, hmax⟩⟩
  · rw [hcu] at h
    have := h c hin
    have h0 : dist2 c c = 0 := by simp [dist2]
    rw [h0] at this
    exact absurd this (not_lt.mpr (mul_self_nonneg _))
  · rw [hcu] at hle
    exact absurd (hp.below hj hin) (not_le.mpr (he.trans_le hle))
  · rw [hcu] at hh hmax
    rw [h]
    refine ⟨_, rfl, j, hj, hmax hsmall, ?_, by rw [hnj]; rfl⟩
    simp only [faceCircle, ManifoldPoint.at', place_eq, ← hc]
    have hrot : ∀ u v : Vec2 F, dot (xfA.q.mulV u) (xfA.q.mulV v) = dot u v := by
      intro u v
      simp only [IsRot] at hA
      simp only [dot, Rot.mulV]; linear_combination (u.x * v.x + u.y * v.y) * hA
    have hsub : ∀ u v : Vec2 F, place xfA u - place xfA v = xfA.q.mulV (u - v) := by
      intro u v; ext <;> simp only [place, Rot.mulV, Vec2.sub_x, Vec2.sub_y] <;> ring
    have hnn := hrot n n
    rw [hn] at hnn
    have hD : dot (place xfA c - place xfA q) (xfA.q.mulV n) = faceHeight a j c := by rw [hsub, hrot, hh]
    simp only [worldPoint, hD]
    generalize xfA.q.mulV n = N at hnn ⊢
    generalize place xfA c = P
    have : dot ((P - b.radius * N) - (P + (a.radius - faceHeight a j c) * N)) N = (faceHeight a j c - a.radius - b.radius) * dot N N := by
      simp only [dot, Vec2.sub_x, Vec2.sub_y, Vec2.add_x, Vec2.add_y, Vec2.smul_x, Vec2.smul_y]; ring
    rw [this, hnn, mul_one]

end

/-- A thin wedge: a triangle a million long with its tip at the origin and sides that make an angle of 2e-8. -/
noncomputable def wedge : Polygon ℝ :=
  { radius := polygonRadius, centroid := ⟨0, 0⟩
    verts := [⟨0, 0⟩, ⟨(39999999999999999) / 40000000000, -(1 / 100)⟩, ⟨(39999999999999999) / 40000000000, 1 / 100⟩]
    normals := [⟨-(400000000 / 40000000000000001), -(39999999999999999 / 40000000000000001)⟩, ⟨1, 0⟩,
      ⟨-(400000000 / 40000000000000001), 39999999999999999 / 40000000000000001⟩] }

theorem wedge_proper : ProperPolygon wedge := by
  have hnext : ∀ a b, NextTo wedge.verts a b → (a = ⟨0, 0⟩ ∧ b = ⟨(39999999999999999) / 40000000000, -(1 / 100)⟩) ∨
      (a = ⟨(39999999999999999) / 40000000000, -(1 / 100)⟩ ∧ b = ⟨(39999999999999999) / 40000000000, 1 / 100⟩) ∨
      (a = ⟨(39999999999999999) / 40000000000, 1 / 100⟩ ∧ b = ⟨0, 0⟩) := by
    rintro a b ⟨i, ha, hb⟩
    have hi := (List.getElem?_eq_some_iff.mp ha).1
    simp only [wedge, List.length_cons, List.length_nil] at hi
    match i, hi with
    | 0, _ | 1, _ | 2, _ => simp [wedge] at ha hb; simp [← ha, ← hb]
  refine ⟨⟨by simp [wedge], by norm_num [wedge], ?_⟩, by simp [wedge], ?_, rfl, ?_⟩
  · intro a b hab v hv
    simp only [wedge, List.mem_cons, List.not_mem_nil, or_false] at hv
    rcases hnext a b hab with ⟨rfl, rfl⟩ | ⟨rfl, rfl⟩ | ⟨rfl, rfl⟩ <;> rcases hv with rfl | rfl | rfl <;>
      first | (left; rfl) | (right; left; rfl) | (right; right; norm_num [turn])
  · intro a b hab
    rcases hnext a b hab with ⟨rfl, rfl⟩ | ⟨rfl, rfl⟩ | ⟨rfl, rfl⟩ <;> norm_num [dist2, epsilon]
  · intro i a b n ha hb hn
    have hi := (List.getElem?_eq_some_iff.mp ha).1
    simp only [wedge, List.length_cons, List.length_nil] at hi
    match i, hi with
    | 0, _ | 1, _ | 2, _ =>
      simp [wedge] at ha hb hn
      rw [← ha, ← hb, ← hn]
      refine ⟨by norm_num [dot], by norm_num [dot], by norm_num [turn]⟩

/-- C77 is false as an equivalence: a circle of radius 1 whose centre is 5 in front of the tip of the wedge has a contact
point, since it is less than `EPSILON` above both faces. -/
theorem c77_false : ∃ (a : Polygon ℝ) (b : Circle ℝ) (xfA xfB : Xf ℝ) (m : Manifold ℝ), ProperPolygon a ∧ a.radius = polygonRadius ∧
    IsRot xfA.q ∧ IsRot xfB.q ∧ b.radius = 1 ∧ evaluateShapes (.polygon a) 0 xfA (.circle b) xfB = some m ∧ m.points ≠ [] ∧
    ¬ Touching (.polygon a) 0 xfA (.circle b) xfB := by
  refine ⟨wedge, ⟨1, ⟨0, 0⟩⟩, ⟨⟨0, 0⟩, Rot.identity⟩, ⟨⟨-5, 0⟩, Rot.identity⟩, _, wedge_proper, rfl, by simp [IsRot, Rot.identity],
    by simp [IsRot, Rot.identity], rfl, rfl, ?_, ?_⟩
  · norm_num [collidePolygonCircle, wedge, faceLoop, List.range_succ, psGet, dot, Xf.mulV, Xf.mulTV, Rot.mulTV, Rot.identity, epsilon,
      polygonRadius, linearSlop, maxFlt, faceCircle]
  · rw [touching_circle (a := .polygon wedge) (by norm_num [skin, wedge, polygonRadius, linearSlop]) zero_le_one]
    rintro ⟨x, hx, hd⟩
    have hx0 : 0 ≤ x.x := by
      clear hd
      induction hx with
      | vertex hv =>
        simp only [childPoints, wedge, List.mem_cons, List.not_mem_nil, or_false] at hv
        rcases hv with rfl | rfl | rfl <;> norm_num
      | @between p q t _ _ h0 h1 ih1 ih2 =>
        simp only [onLine]; nlinarith
    norm_num [dist2, place, Rot.identity, skin, wedge, polygonRadius, linearSlop] at hd
    nlinarith [mul_self_nonneg x.y]

/-- The hypotheses of the theorems of C77 are met by a box and a circle beside it, and by one inside it. -/
example : ProperPolygon (Polygon.default.setAsBox 1 1 : Polygon ℝ) ∧
    (∃ m, evaluateShapes (.polygon (Polygon.default.setAsBox 1 1 : Polygon ℝ)) 0 ⟨⟨0, 0⟩, Rot.identity⟩ (.circle ⟨1, ⟨0, 0⟩⟩)
      ⟨⟨3 / 2, 0⟩, Rot.identity⟩ = some m ∧ m.points ≠ []) ∧
    epsilon ≤ faceHeight (Polygon.default.setAsBox 1 1 : Polygon ℝ) 1 ⟨3 / 2, 0⟩ ∧
    Hull (Polygon.default.setAsBox 1 1 : Polygon ℝ).verts ⟨0, 0⟩ ∧
    -maxFlt < faceHeight (Polygon.default.setAsBox 1 1 : Polygon ℝ) 1 ⟨0, 0⟩ := by
  have hp : ProperPolygon (Polygon.default.setAsBox 1 1 : Polygon ℝ) := proper_box _ 1 1 (by norm_num [epsilon]) (by norm_num [epsilon])
  refine ⟨hp, ⟨_, rfl, ?_⟩, ?_, ?_, ?_⟩
  · norm_num [collidePolygonCircle, Polygon.setAsBox, boxVerts, boxNormals, faceLoop, List.range_succ, psGet, dot, Xf.mulV, Xf.mulTV,
      Rot.mulTV, Rot.identity, epsilon, Polygon.default, polygonRadius, linearSlop, maxFlt, faceCircle, nextIndex]
  · norm_num [faceHeight, Polygon.setAsBox, boxVerts, boxNormals, psGet, dot, epsilon]
  · have := Hull.between (F := ℝ) (vs := (Polygon.default.setAsBox 1 1 : Polygon ℝ).verts) (a := ⟨-1, -1⟩) (b := ⟨1, 1⟩) (t := 1 / 2)
      (.vertex (by simp [Polygon.setAsBox, boxVerts])) (.vertex (by simp [Polygon.setAsBox, boxVerts])) (by norm_num) (by norm_num)
    rw [show onLine (⟨-1, -1⟩ : Vec2 ℝ) ⟨1, 1⟩ (1 / 2) = ⟨0, 0⟩ from by ext <;> norm_num [onLine]] at this
    exact this
  · norm_num [faceHeight, Polygon.setAsBox, boxVerts, boxNormals, psGet, dot, maxFlt]

section
variable {F : Type} [Field F] [LinearOrder F] [IsStrictOrderedRing F] [Elem F] [ElemLaws F]

/-! ## C78: edge or chain and circle -/

/-- Everything about the contact points of an edge and a circle. -/
theorem edge_circle_cases (e : Edge F) (b : Circle F) (he : 0 ≤ e.radius) (hb : 0 ≤ b.radius) (i : Nat) (xfA xfB : Xf F) (hA : IsRot xfA.q)
    (q : Vec2 F) (hq : place xfA q = place xfB b.p) :
    ∃ m, evaluateShapes (.edge e) i xfA (.circle b) xfB = some m ∧
      (m.points ≠ [] → Touching (.edge e) i xfA (.circle b) xfB ∧ ¬ Behind e q) ∧
      (Touching (.edge e) i xfA (.circle b) xfB → ¬ Behind e q →
        (e.oneSided = true → NotNearer e.v0 e.v1 q [e.v1, e.v2] ∧ NotNearer e.v2 e.v3 q [e.v1, e.v2]) → m.points ≠ []) := by
  have hcu : unplace xfA (place xfB b.p) = q := by rw [← hq, unplace_place hA]
  obtain ⟨m, hm, h⟩ := edgeCircle_spec e xfA b xfB
  rw [hcu] at h
  refine ⟨m, hm, fun hne => ?_, fun ht hnb hnn hno => ?_⟩
  · rcases h with ⟨h, -⟩ | ⟨hs, -, -, x, hx, hd, -⟩
    · exact absurd h hne
    · refine ⟨(touching_circle (a := .edge e) he hb).mpr ⟨x, hx, ?_⟩, fun hb => absurd (hs hb.1) (not_le.mpr hb.2)⟩
      rw [← hq, dist2_place hA, dist2_comm]; exact hd
  · obtain ⟨x, hx, hd⟩ := (touching_circle (a := .edge e) he hb).mp ht
    rw [← hq, dist2_place hA, dist2_comm] at hd
    rcases h with ⟨-, h | h | ⟨h1, h2, h3⟩ | ⟨h1, h2, h3, h4⟩⟩ | ⟨-, -, -, y, -, -, -, ⟨-, -, cf, h⟩ | ⟨-, -, ⟨cf, h⟩, -⟩⟩
    · exact hnb h
    · exact absurd (h x hx) (not_lt.mpr hd)
    · obtain ⟨y, hy, hlt⟩ := nearer_inside h3
      obtain ⟨z, hz, hle⟩ := (hnn h1).1 y hy
      exact absurd (pair_first h2 hz) (not_le.mpr (hle.trans_lt hlt))
    · have h4' : 0 < dot (e.v2 - e.v3) (e.v2 - q) := by
        have : dot (e.v2 - e.v3) (e.v2 - q) = dot (e.v3 - e.v2) (q - e.v2) := by simp only [dot, Vec2.sub_x, Vec2.sub_y]; ring
        rw [this]; exact h4
      obtain ⟨y, hy, hlt⟩ := nearer_inside h4'
      have hy' : Hull [e.v2, e.v3] y := by
        obtain ⟨t, t0, t1, rfl⟩ := hull_pair hy
        exact .between (.vertex (by simp)) (.vertex (by simp)) t0 t1
      obtain ⟨z, hz, hle⟩ := (hnn h1).2 y hy'
      exact absurd (pair_second h3 hz) (not_le.mpr (hle.trans_lt hlt))
    · rw [h] at hno; simp at hno
    · rw [h] at hno; simp at hno

/-- **C78**: a two-sided edge and a circle have a contact point exactly when they touch. -/
theorem c78_two_sided (e : Edge F) (b : Circle F) (h2 : e.oneSided = false) (he : 0 ≤ e.radius) (hb : 0 ≤ b.radius) (i : Nat)
    (xfA xfB : Xf F) (hA : IsRot xfA.q) :
    ∃ m, evaluateShapes (.edge e) i xfA (.circle b) xfB = some m ∧
      (m.points ≠ [] ↔ Touching (.edge e) i xfA (.circle b) xfB) := by
  obtain ⟨m, hm, h, h'⟩ := edge_circle_cases e b he hb i xfA xfB hA (unplace xfA (place xfB b.p)) (place_unplace hA _)
  refine ⟨m, hm, fun hne => (h hne).1, fun ht => h' ht ?_ ?_⟩
  · rintro ⟨h1, -⟩; rw [h2] at h1; cases h1
  · intro h1; rw [h2] at h1; cases h1

/-- **C78**: a one-sided edge and a circle have a contact point only when they touch and the centre is not behind the edge;
and then they have one whenever neither of the neighbouring segments of the edge is nearer to the centre. -/
theorem c78_one_sided (e : Edge F) (b : Circle F) (h1 : e.oneSided = true) (he : 0 ≤ e.radius) (hb : 0 ≤ b.radius) (i : Nat)
    (xfA xfB : Xf F) (hA : IsRot xfA.q) (q : Vec2 F) (hq : place xfA q = place xfB b.p) :
    ∃ m, evaluateShapes (.edge e) i xfA (.circle b) xfB = some m ∧
      (m.points ≠ [] → Touching (.edge e) i xfA (.circle b) xfB ∧ turn e.v1 e.v2 q ≤ 0) ∧
      (Touching (.edge e) i xfA (.circle b) xfB → turn e.v1 e.v2 q ≤ 0 → NotNearer e.v0 e.v1 q [e.v1, e.v2] →
        NotNearer e.v2 e.v3 q [e.v1, e.v2] → m.points ≠ []) := by
  obtain ⟨m, hm, h, h'⟩ := edge_circle_cases e b he hb i xfA xfB hA q hq
  refine ⟨m, hm, fun hne => ⟨(h hne).1, not_lt.mp fun hlt => (h hne).2 ⟨h1, hlt⟩⟩, fun ht hs hn1 hn2 => h' ht ?_ fun _ => ⟨hn1, hn2⟩⟩
  rintro ⟨-, hlt⟩; linarith

/-- A child of a chain is a one-sided edge between its neighbours. -/
theorem chain_child (ch : Chain F) (i : Nat) (v1 v2 : Vec2 F) (hv1 : ch.vertices[i]? = some v1) (hv2 : ch.vertices[i + 1]? = some v2) :
    ch.getChildEdge i = some ⟨ch.radius, v1, v2, chainBefore ch i, chainAfter ch i, true⟩ ∧ childPoints (.chain ch) i = [v1, v2] := by
  have hl : i + 1 < ch.vertices.length := (List.getElem?_eq_some_iff.mp hv2).1
  constructor
  · have hb' : (if i > 0 then ch.vertices[i - 1]? else some ch.prev) = some (chainBefore ch i) := by
      unfold chainBefore
      rcases Nat.eq_zero_or_pos i with h0 | h0
      · subst h0; simp
      · rw [if_pos h0, if_neg (by omega), List.getElem?_eq_getElem (by omega)]; rfl
    have ha' : (if i < ch.vertices.length - 2 then ch.vertices[i + 2]? else some ch.next) = some (chainAfter ch i) := by
      unfold chainAfter
      by_cases h0 : i < ch.vertices.length - 2
      · rw [if_pos h0, List.getElem?_eq_getElem (by omega)]; rfl
      · rw [if_neg h0, List.getElem?_eq_none (by omega)]; rfl
    have h2 : 2 ≤ ch.vertices.length := by omega
    have h3 : 1 ≤ ch.vertices.length ∧ i < ch.vertices.length - 1 := by omega
    simp [Chain.getChildEdge, h2, h3, hv1, hv2, hb', ha']
  · obtain ⟨h1, e1⟩ := List.getElem?_eq_some_iff.mp hv1
    obtain ⟨h2, e2⟩ := List.getElem?_eq_some_iff.mp hv2
    simp only [childPoints]
    rw [List.drop_eq_getElem_cons h1, List.drop_eq_getElem_cons h2, e1, e2]; rfl

/-- **C78**: the same for a child of a chain: there is no gap where two children meet, since the contact with the child
nearest to the circle is not suppressed. -/
theorem c78_chain (ch : Chain F) (b : Circle F) (hc : 0 ≤ ch.radius) (hb : 0 ≤ b.radius) (i : Nat) (v1 v2 : Vec2 F)
    (hv1 : ch.vertices[i]? = some v1) (hv2 : ch.vertices[i + 1]? = some v2)
    (xfA xfB : Xf F) (hA : IsRot xfA.q) (q : Vec2 F) (hq : place xfA q = place xfB b.p) :
    ∃ m, evaluateShapes (.chain ch) i xfA (.circle b) xfB = some m ∧
      (m.points ≠ [] → Touching (.chain ch) i xfA (.circle b) xfB ∧ turn v1 v2 q ≤ 0) ∧
      (Touching (.chain ch) i xfA (.circle b) xfB → turn v1 v2 q ≤ 0 → NotNearer (chainBefore ch i) v1 q [v1, v2] →
        NotNearer v2 (chainAfter ch i) q [v1, v2] → m.points ≠ []) := by
  obtain ⟨hch, hpts⟩ := chain_child ch i v1 v2 hv1 hv2
  have hT : Touching (.chain ch) i xfA (.circle b) xfB ↔
      Touching (.edge ⟨ch.radius, v1, v2, chainBefore ch i, chainAfter ch i, true⟩) i xfA (.circle b) xfB := by
    simp only [Touching, ShapePoint, hpts, skin]; rfl
  obtain ⟨m, hm, h⟩ := c78_one_sided ⟨ch.radius, v1, v2, chainBefore ch i, chainAfter ch i, true⟩ b rfl hc hb i xfA xfB hA q hq
  refine ⟨m, ?_, ?_⟩
  · simp only [evaluateShapes, hch, Option.bind_some]; exact hm
  · rw [hT]; exact h

/-- **C78**: the world manifold of an edge that is not shorter than `EPSILON` and a circle whose centre is not on it. -/
theorem c78_world (e : Edge F) (b : Circle F) (i : Nat) (xfA xfB : Xf F) (hA : IsRot xfA.q) (m : Manifold F)
    (hm : evaluateShapes (.edge e) i xfA (.circle b) xfB = some m) (hne : m.points ≠ [])
    (hl : epsilon * epsilon ≤ dist2 e.v1 e.v2)
    (hfar : ∀ x, Hull [e.v1, e.v2] x → epsilon * epsilon < dist2 (place xfA x) (place xfB b.p)) :
    ∃ w, worldManifold m xfA e.radius xfB b.radius = some w ∧
      NearestContact [e.v1, e.v2] xfA e.radius (place xfB b.p) b.radius w := by
  obtain ⟨m', hm', h⟩ := edgeCircle_spec e xfA b xfB
  simp only [evaluateShapes] at hm
  rw [hm] at hm'
  obtain rfl : m = m' := by simpa using hm'
  have hd : ∀ x, dist2 (place xfA x) (place xfB b.p) = dist2 (unplace xfA (place xfB b.p)) x := by
    intro x; rw [dist2_unplace hA, dist2_comm]
  rcases h with ⟨h, -⟩ | ⟨-, -, -, x, hx, -, hmin, ⟨h1, h2, cf, h3⟩ | ⟨h1, h2, ⟨cf, h3⟩, -, h4⟩⟩
  · exact absurd h hne
  · subst h2
    exact world_circles h1 h3 hx (hfar _ hx) (fun y hy => by rw [hd, hd]; exact hmin y hy)
  · obtain ⟨n1, -, n2, n3⟩ := h4 hl
    obtain ⟨w, w1, w2, -⟩ := world_face (vs := [e.v1, e.v2]) (rA := e.radius) (rB := b.radius) hA h1 h3 n1 hx (by rw [h2]; exact n2) (by rw [h2]; exact n3) hmin
    exact ⟨w, w1, w2⟩

end

/-- The hypotheses of the theorems of C78 are met by a chain with two children and a circle above the second. -/
example : Touching (.chain ⟨polygonRadius, [⟨2, 0⟩, ⟨0, 0⟩, ⟨-2, 0⟩], ⟨4, 0⟩, ⟨-4, 0⟩⟩ : Shape ℝ) 1 ⟨⟨0, 0⟩, Rot.identity⟩
      (.circle ⟨1, ⟨0, 0⟩⟩) ⟨⟨-1, 1⟩, Rot.identity⟩ ∧
    turn (⟨0, 0⟩ : Vec2 ℝ) ⟨-2, 0⟩ ⟨-1, 1⟩ ≤ 0 ∧ NotNearer (⟨2, 0⟩ : Vec2 ℝ) ⟨0, 0⟩ ⟨-1, 1⟩ [⟨0, 0⟩, ⟨-2, 0⟩] ∧
    NotNearer (⟨-2, 0⟩ : Vec2 ℝ) ⟨-4, 0⟩ ⟨-1, 1⟩ [⟨0, 0⟩, ⟨-2, 0⟩] ∧
    ∀ x : Vec2 ℝ, Hull [⟨0, 0⟩, ⟨-2, 0⟩] x → epsilon * epsilon < dist2 (place ⟨⟨0, 0⟩, Rot.identity⟩ x) (place ⟨⟨-1, 1⟩, Rot.identity⟩ ⟨0, 0⟩) := by
  have hmid : Hull [⟨0, 0⟩, ⟨-2, 0⟩] (⟨-1, 0⟩ : Vec2 ℝ) := by
    have := Hull.between (F := ℝ) (vs := [⟨0, 0⟩, ⟨-2, 0⟩]) (a := ⟨0, 0⟩) (b := ⟨-2, 0⟩) (t := 1 / 2)
      (.vertex (by simp)) (.vertex (by simp)) (by norm_num) (by norm_num)
    rw [show onLine (⟨0, 0⟩ : Vec2 ℝ) ⟨-2, 0⟩ (1 / 2) = ⟨-1, 0⟩ from by ext <;> norm_num [onLine]] at this
    exact this
  refine ⟨?_, by norm_num [turn], ?_, ?_, ?_⟩
  · rw [touching_circle (by norm_num [skin, polygonRadius, linearSlop]) (by norm_num)]
    exact ⟨_, hmid, by norm_num [dist2, place, Rot.identity, skin, polygonRadius, linearSlop]⟩
  · intro y hy
    obtain ⟨t, t0, t1, rfl⟩ := hull_pair hy
    exact ⟨_, hmid, by simp only [dist2, onLine]; nlinarith⟩
  · intro y hy
    obtain ⟨t, t0, t1, rfl⟩ := hull_pair hy
    exact ⟨_, hmid, by simp only [dist2, onLine]; nlinarith⟩
  · intro x hx
    obtain ⟨t, t0, t1, rfl⟩ := hull_pair hx
    simp only [dist2, onLine, place, Rot.identity, epsilon]
    norm_num
    nlinarith [mul_self_nonneg (-(t * 2) + 1)]

end B2.Props
