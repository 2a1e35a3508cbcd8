import Verif.Spec.Ghost
import Verif.Proofs.CollideEdgePoly
import Verif.Props.Manifold

set_option linter.unusedSectionVars false

/-!
# C138: bodies slide over the inner vertices of a chain

A box that slides over two collinear edges can catch on the vertex between them: the second edge sees the side of the box first and pushes it back.
Chains give every edge ghost vertices to prevent that. Here it is shown that they do: on a straight chain a circle is pushed exactly across the chain,
and a polygon along the chain at most by a tenth of the push (`sinTol`). At corners the push stays between the directions across the neighbouring edges,
up to the same tolerance, and at concave corners it is exactly across the edge.
-/
namespace B2.Props
open B2 Spec
section
variable {F : Type} [Field F] [LinearOrder F] [IsStrictOrderedRing F]

theorem normalize_along [Elem F] [ElemLaws F] {d p q : Vec2 F} (hd : dot d d = 1) (h : Onward d p q) : (q - p).normalize.1 = d := by
  obtain ⟨t, ht, rfl⟩ := h
  have he : (0 : F) < epsilon := eps_pos
  have e1 : p + t * d - p = t * d := by ext <;> simp
  have e2 : dot (t * d) (t * d) = t * t := by
    have : dot (t * d) (t * d) = t * t * dot d d := by simp only [dot, Vec2.smul_x, Vec2.smul_y]; ring
    rw [this, hd, mul_one]
  obtain ⟨u1, u2, u3⟩ := normalize_unit (d := t * d) (s := t) ht (by rw [e2])
  rw [e1]
  set n := (t * d : Vec2 F).normalize.1
  have ht0 : 0 < t := he.trans_le ht
  have e3 : dot (t * d) n = t := by
    rw [e2] at u3
    have := mul_self_eq_mul_self_iff.mp u3
    rcases this with h | h
    · exact h
    · linarith
  have e4 := along_unit (d := t * d) u1 ht0.le e3.ge e2
  have hx := congrArg Vec2.x e4
  have hy := congrArg Vec2.y e4
  simp only [Vec2.smul_x, Vec2.smul_y] at hx hy
  ext
  · exact (mul_left_cancel₀ ht0.ne' hx).symm
  · exact (mul_left_cancel₀ ht0.ne' hy).symm

/-- Where the chosen axis may point. -/
theorem primary_smooth [Elem F] [ElemLaws F] {a : Edge F} {d0 d1 d2 : Vec2 F} (h : Bent a d0 d1 d2) {r : F} {ea pa p : EPAxis F} (hea : dot ea.normal d1 = 0)
    (e : primaryAxis a r d1 ea pa = some p) :
    (dot p.normal d1 ≤ 0 → dot p.normal d1 = 0 ∨ (0 ≤ cross d0 d1 ∧ -(1 / 10) ≤ dot p.normal d0)) ∧ (0 < dot p.normal d1 → 0 ≤ cross d1 d2 ∧ dot p.normal d2 ≤ 1 / 10) := by
  have n0 := normalize_along h.unit.1 h.before
  have n2 := normalize_along h.unit.2.2 h.after
  have c0 : ∀ v : Vec2 F, cross v ⟨d0.y, -d0.x⟩ = -dot v d0 := fun v => by simp only [cross, dot]; ring
  have c2 : ∀ v : Vec2 F, cross (⟨d2.y, -d2.x⟩ : Vec2 F) v = dot v d2 := fun v => by simp only [cross, dot]; ring
  unfold primaryAxis at e
  simp only [h.oneSided, if_true, n0, n2, c0, c2] at e
  generalize (if pa.separation - r > 98 / 100 * (ea.separation - r) + 1 / 1000 then pa else ea) = pr at e
  split_ifs at e with h1 h2 h3 h4 h5
  · cases e
    exact ⟨fun _ => .inr ⟨h2, by linarith⟩, fun hp => absurd h1 (not_le.mpr hp)⟩
  · cases e
    exact ⟨fun _ => .inl hea, fun hp => by rw [hea] at hp; exact absurd hp (lt_irrefl _)⟩
  · cases e
    exact ⟨fun hp => absurd hp h1, fun _ => ⟨h4, by linarith⟩⟩
  · cases e
    exact ⟨fun _ => .inl hea, fun hp => by rw [hea] at hp; exact absurd hp (lt_irrefl _)⟩

theorem clipToEdge_form {r : F} {a : Edge F} {e1 n : Vec2 F} {vs ns : List (Vec2 F)} {xf : Xf F} {m : Manifold F} (h : clipToEdge r a e1 n vs ns xf = some m) (hne : m.points ≠ []) :
    m.type = .faceA ∧ m.localNormal = n := by
  unfold clipToEdge at h
  simp only [Option.bind_eq_some_iff] at h
  obtain ⟨q, -, h⟩ := h
  split at h
  · cases h; exact absurd rfl hne
  · cases h; exact ⟨rfl, rfl⟩

theorem clipToFace_form {r : F} {a : Edge F} {i : Nat} {b : Polygon F} {vs ns : List (Vec2 F)} {m : Manifold F} (h : clipToFace r a (some i) b vs ns = some m) (hne : m.points ≠ []) :
    m.type = .faceB ∧ m.localNormal = psGet b.normals i := by
  unfold clipToFace at h
  simp only [Option.bind_some, Option.bind_eq_some_iff] at h
  obtain ⟨q, -, h⟩ := h
  split at h
  · cases h; exact absurd rfl hne
  · cases h; exact ⟨rfl, rfl⟩

theorem world_faceA [Elem F] {m : Manifold F} {xA xB : Xf F} {rA rB : F} {wm : WorldManifold F} (hne : m.points ≠ []) (ht : m.type = .faceA) (h : worldManifold m xA rA xB rB = some wm) :
    wm.normal = xA.q.mulV m.localNormal := by
  unfold worldManifold at h
  split at h
  · rename_i hp; exact absurd hp hne
  · rw [ht] at h
    dsimp only at h
    split at h
    · cases h; rfl
    · cases h; rfl
    · cases h

theorem world_faceB [Elem F] {m : Manifold F} {xA xB : Xf F} {rA rB : F} {wm : WorldManifold F} (hne : m.points ≠ []) (ht : m.type = .faceB) (h : worldManifold m xA rA xB rB = some wm) :
    wm.normal = -xB.q.mulV m.localNormal := by
  unfold worldManifold at h
  split at h
  · rename_i hp; exact absurd hp hne
  · rw [ht] at h
    dsimp only at h
    split at h
    · cases h; rfl
    · cases h; rfl
    · cases h

/-- **C138.** At a corner of a chain a polygon is pushed exactly across the edge, or by a direction between those across the edge and across the neighbour, up to
the tolerance; and the latter only if the corner is convex. -/
theorem c138_corner [Elem F] [ElemLaws F] {a : Edge F} {d0 d1 d2 : Vec2 F} (h : Bent a d0 d1 d2) {b : Polygon F} (hb : ProperPolygon b) {xA xB : Xf F} {ra rb : F} (rA : IsRot xA.q) (rB : IsRot xB.q)
    (hr : ∀ u ∈ b.verts, ∀ v ∈ b.verts, dist2 u v < maxFlt * maxFlt)
    {m : Manifold F} (e : collideEdgePolygon a xA b xB = some m) (hne : m.points ≠ []) {wm : WorldManifold F} (hw : worldManifold m xA ra xB rb = some wm) :
    (dot wm.normal (xA.q.mulV d1) ≤ 0 → dot wm.normal (xA.q.mulV d1) = 0 ∨ (0 ≤ cross d0 d1 ∧ -(1 / 10) ≤ dot wm.normal (xA.q.mulV d0))) ∧
    (0 < dot wm.normal (xA.q.mulV d1) → 0 ≤ cross d1 d2 ∧ dot wm.normal (xA.q.mulV d2) ≤ 1 / 10) := by
  have n1 := normalize_along h.unit.2.1 h.along
  unfold collideEdgePolygon at e
  simp only [n1] at e
  have hn1 : dot (⟨d1.y, -d1.x⟩ : Vec2 F) ⟨d1.y, -d1.x⟩ = 1 := by rw [← h.unit.2.1]; simp only [dot]; ring
  obtain ⟨q1, q2, q3, -⟩ := edgeSeparation_spec (verts := b.verts.map (xA.mulT xB).mulV) (v1 := a.v1) hn1 (by
    intro u hu v hv
    obtain ⟨x, hx, rfl⟩ := List.mem_map.mp hu
    obtain ⟨w, hw, rfl⟩ := List.mem_map.mp hv
    rw [place_eq, place_eq, dist2_place (mulT_rot rA rB)]; exact hr x hx w hw)
  obtain ⟨p1, p2, p3⟩ := polygonSeparation_spec (b.verts.map (xA.mulT xB).mulV) (b.normals.map (xA.mulT xB).q.mulV) a.v1 a.v2
  set pa := computePolygonSeparation (b.verts.map (xA.mulT xB).mulV) (b.normals.map (xA.mulT xB).q.mulV) a.v1 a.v2
  set ea := computeEdgeSeparation (b.verts.map (xA.mulT xB).mulV) a.v1 ⟨d1.y, -d1.x⟩
  have hm := maxFlt_pos (F := F)
  have hea : dot ea.normal d1 = 0 := by
    rcases q3 with h | h <;> rw [h] <;> simp only [dot, Vec2.neg_x, Vec2.neg_y] <;> ring
  have hdef : ¬ (some (Manifold.default : Manifold F) = some m) := fun h => by cases h; exact hne rfl
  split_ifs at e with h1 h2 h3
  · exact absurd e hdef
  · exact absurd e hdef
  · exact absurd e hdef
  · rcases hpr : primaryAxis a (b.radius + a.radius) d1 ea pa with _ | p
    · rw [hpr] at e; exact absurd e hdef
    · rw [hpr] at e
      dsimp only at e
      have key := primary_smooth h hea hpr
      suffices hs : ∀ d, dot wm.normal (xA.q.mulV d) = dot p.normal d by rw [hs, hs, hs]; exact key
      intro d
      rcases primaryAxis_spec hpr with rfl | ⟨rfl, hgt⟩
      · rw [if_pos q2] at e
        obtain ⟨k1, k2⟩ := clipToEdge_form e hne
        rw [world_faceA hne k1 hw, k2, rotV_dot rA]
      · rcases p3 with p3 | ⟨i, hi, p3⟩
        · rw [p3] at hgt
          exfalso
          simp only [] at hgt
          linarith
        · rw [if_neg (by rw [p3]; exact fun h => by cases h), show pa.index = some i from by rw [p3]] at e
          obtain ⟨k1, k2⟩ := clipToFace_form e hne
          rw [world_faceB hne k1 hw, k2, p3]
          rw [List.length_map, ← hb.len] at hi
          rw [psGet_map _ hi]
          simp only [dot, Rot.mulV, Rot.mulT, Xf.mulT, Vec2.neg_x, Vec2.neg_y]
          ring

/-- **C138.** In a valley (both corners concave) a polygon is pushed exactly across the edge. -/
theorem c138_valley [Elem F] [ElemLaws F] {a : Edge F} {d0 d1 d2 : Vec2 F} (h : Bent a d0 d1 d2) (h0 : cross d0 d1 < 0) (h2 : cross d1 d2 < 0)
    {b : Polygon F} (hb : ProperPolygon b) {xA xB : Xf F} {ra rb : F} (rA : IsRot xA.q) (rB : IsRot xB.q)
    (hr : ∀ u ∈ b.verts, ∀ v ∈ b.verts, dist2 u v < maxFlt * maxFlt)
    {m : Manifold F} (e : collideEdgePolygon a xA b xB = some m) (hne : m.points ≠ []) {wm : WorldManifold F} (hw : worldManifold m xA ra xB rb = some wm) :
    dot wm.normal (xA.q.mulV d1) = 0 := by
  obtain ⟨k1, k2⟩ := c138_corner h hb rA rB hr e hne hw
  rcases le_or_gt (dot wm.normal (xA.q.mulV d1)) 0 with hl | hl
  · exact (k1 hl).resolve_right fun k => absurd h0 (not_lt.mpr k.1)
  · exact absurd h2 (not_lt.mpr (k2 hl).1)

theorem normalize_pos [Elem F] (v : Vec2 F) : ∃ s : F, 0 < s ∧ v.normalize.1 = s * v := by
  by_cases h : v.length < epsilon
  · refine ⟨1, one_pos, ?_⟩
    simp only [Vec2.normalize, if_pos h]
    ext <;> simp
  · refine ⟨1 / v.length, one_div_pos.mpr (eps_pos.trans_le (not_lt.mp h)), ?_⟩
    simp only [Vec2.normalize, if_neg h]
    ext <;> simp [mul_comm]

/-- **C138.** At a corner of a chain a circle is pushed to the front of the edge: exactly across the edge, or by a direction between those across the edge and
across the neighbour. -/
theorem c138_corner_circle [Elem F] {a : Edge F} {d0 d1 d2 : Vec2 F} (h : Bent a d0 d1 d2) {b : Circle F} {xA xB : Xf F} {ra rb : F} (rA : IsRot xA.q)
    (hd : ∀ v, v = a.v1 ∨ v = a.v2 → epsilon * epsilon < dist2 (place xA v) (place xB b.p))
    {m : Manifold F} (e : collideEdgeCircle a xA b xB = some m) (hne : m.points ≠ []) {wm : WorldManifold F} (hw : worldManifold m xA ra xB rb = some wm) :
    0 ≤ dot wm.normal (xA.q.mulV (rightOf d1)) ∧
    (dot wm.normal (xA.q.mulV d1) < 0 → 0 ≤ dot wm.normal (xA.q.mulV d0)) ∧
    (0 < dot wm.normal (xA.q.mulV d1) → dot wm.normal (xA.q.mulV d2) ≤ 0) := by
  have he := eps_pos (F := F)
  obtain ⟨t0, ht0, g0⟩ := h.before
  obtain ⟨t1, ht1, g1⟩ := h.along
  obtain ⟨t2, ht2, g2⟩ := h.after
  have p0 := he.trans_le ht0
  have p1 := he.trans_le ht1
  have p2 := he.trans_le ht2
  have s0 : a.v1 - a.v0 = t0 * d0 := by rw [g0]; ext <;> simp
  have s1 : a.v2 - a.v1 = t1 * d1 := by rw [g1]; ext <;> simp
  have s2 : a.v3 - a.v2 = t2 * d2 := by rw [g2]; ext <;> simp
  unfold collideEdgeCircle at e
  simp only [s0, s1, s2, h.oneSided, true_and] at e
  have hdef : ¬ (some (Manifold.default : Manifold F) = some m) := fun h => by cases h; exact hne rfl
  set q := xA.mulTV (xB.mulV b.p) with hq
  -- the push from a vertex
  have vert : ∀ v : Vec2 F, (v = a.v1 ∨ v = a.v2) → ∀ i : Feature, m = { type := .circles, localNormal := ⟨0, 0⟩, localPoint := v, points := [.at' b.p i] } →
      ∃ s : F, 0 < s ∧ ∀ d, dot wm.normal (xA.q.mulV d) = s * dot (q - v) d := by
    rintro v hv i rfl
    simp only [worldManifold, Option.some.injEq] at hw
    have hgt : distanceV2 (xA.mulV v) (xB.mulV (ManifoldPoint.at' b.p i).localPoint) > epsilon * epsilon := by
      have := hd v hv
      simp only [dist2, place] at this
      simp only [distanceV2, ManifoldPoint.at', Xf.mulV, dot, Vec2.sub_x, Vec2.sub_y]
      first | exact this | nlinarith [this]
    rw [if_pos hgt] at hw
    obtain ⟨s, hs, hn⟩ := normalize_pos (xB.mulV (ManifoldPoint.at' b.p i).localPoint - xA.mulV v)
    refine ⟨s, hs, fun d => ?_⟩
    rw [← hw]
    simp only [hn]
    have hqq : xB.mulV b.p - xA.mulV v = xA.q.mulV (q - v) := by
      have hp : xB.mulV b.p = place xA q := by rw [hq, mulTV_unplace, place_unplace rA]
      rw [hp]
      ext <;> simp only [place, Xf.mulV, Rot.mulV, Vec2.sub_x, Vec2.sub_y] <;> ring
    have : dot (s * (xB.mulV b.p - xA.mulV v)) (xA.q.mulV d) = s * dot (xB.mulV b.p - xA.mulV v) (xA.q.mulV d) := by
      simp only [dot, Vec2.smul_x, Vec2.smul_y]; ring
    simp only [ManifoldPoint.at']
    rw [this, hqq, rotV_dot rA]
  have sc : ∀ (t : F) (u v : Vec2 F), dot (t * u) v = t * dot v u := fun t u v => by simp only [dot, Vec2.smul_x, Vec2.smul_y]; ring
  have off : ∀ v, v = a.v1 ∨ v = a.v2 → dot (⟨(t1 * d1 : Vec2 F).y, -(t1 * d1 : Vec2 F).x⟩ : Vec2 F) (q - a.v1) = t1 * dot (q - v) (rightOf d1) := by
    rintro v (rfl | rfl)
    · simp only [dot, rightOf, Vec2.smul_x, Vec2.smul_y, Vec2.sub_x, Vec2.sub_y]; ring
    · rw [g1]; simp only [dot, rightOf, Vec2.smul_x, Vec2.smul_y, Vec2.sub_x, Vec2.sub_y, Vec2.add_x, Vec2.add_y]; ring
  split_ifs at e with h1 h2 h3 h4 h5 h6 h7 h8 h9
  all_goals first | exact absurd e hdef | skip
  · obtain ⟨s, hs, hn⟩ := vert a.v1 (.inl rfl) _ (Option.some.inj e).symm
    rw [off _ (.inl rfl)] at h1
    rw [sc] at h2 h4
    have k1 := nonneg_of_mul_nonneg_right (not_lt.mp h1) p1
    have k2 : dot (a.v1 - q) d0 ≤ 0 := nonpos_of_mul_nonpos_right (not_lt.mp h4) p0
    have k3 : dot (q - a.v1) d1 ≤ 0 := nonpos_of_mul_nonpos_right h2 p1
    have k4 : dot (a.v1 - q) d0 = -dot (q - a.v1) d0 := by simp only [dot, Vec2.sub_x, Vec2.sub_y]; ring
    rw [hn, hn, hn, hn]
    refine ⟨mul_nonneg hs.le k1, fun _ => mul_nonneg hs.le (by linarith), fun hp => ?_⟩
    exact absurd (mul_nonpos_of_nonneg_of_nonpos hs.le k3) (not_le.mpr hp)
  · obtain ⟨s, hs, hn⟩ := vert a.v2 (.inr rfl) _ (Option.some.inj e).symm
    rw [off _ (.inr rfl)] at h1
    rw [sc] at h5 h7
    have k1 := nonneg_of_mul_nonneg_right (not_lt.mp h1) p1
    have k2 : dot (q - a.v2) d2 ≤ 0 := nonpos_of_mul_nonpos_right (not_lt.mp h7) p2
    have k3 : dot (a.v2 - q) d1 ≤ 0 := nonpos_of_mul_nonpos_right h5 p1
    have k4 : dot (a.v2 - q) d1 = -dot (q - a.v2) d1 := by simp only [dot, Vec2.sub_x, Vec2.sub_y]; ring
    rw [hn, hn, hn, hn]
    refine ⟨mul_nonneg hs.le k1, fun hp => ?_, fun _ => mul_nonpos_of_nonneg_of_nonpos hs.le k2⟩
    exact absurd (mul_nonneg hs.le (show 0 ≤ dot (q - a.v2) d1 by linarith)) (not_le.mpr hp)
  · cases e
    obtain ⟨s, hs, hn⟩ := normalize_pos (⟨(t1 * d1 : Vec2 F).y, -(t1 * d1 : Vec2 F).x⟩ : Vec2 F)
    rw [world_faceA hne rfl hw, rotV_dot rA, rotV_dot rA, rotV_dot rA, rotV_dot rA]
    simp only [hn]
    have z : dot (s * (⟨(t1 * d1 : Vec2 F).y, -(t1 * d1 : Vec2 F).x⟩ : Vec2 F)) d1 = 0 := by simp only [dot, Vec2.smul_x, Vec2.smul_y]; ring
    have z2 : dot (s * (⟨(t1 * d1 : Vec2 F).y, -(t1 * d1 : Vec2 F).x⟩ : Vec2 F)) (rightOf d1) = s * t1 * dot d1 d1 := by simp only [dot, rightOf, Vec2.smul_x, Vec2.smul_y]; ring
    rw [z, z2, h.unit.2.1]
    exact ⟨by positivity, fun h => absurd h (lt_irrefl _), fun h => absurd h (lt_irrefl _)⟩

theorem flat_bent {a : Edge F} {d : Vec2 F} (h : Flat a d) : Bent a d d d := ⟨h.oneSided, ⟨h.unit, h.unit, h.unit⟩, h.before, h.along, h.after⟩

/-- **C138.** On a flat stretch a circle is pushed exactly across, to the front. -/
theorem c138_flat_circle [Elem F] {a : Edge F} {d : Vec2 F} (h : Flat a d) {b : Circle F} {xA xB : Xf F} {ra rb : F} (rA : IsRot xA.q)
    (hd : ∀ v, v = a.v1 ∨ v = a.v2 → epsilon * epsilon < dist2 (place xA v) (place xB b.p))
    {m : Manifold F} (e : collideEdgeCircle a xA b xB = some m) (hne : m.points ≠ []) {wm : WorldManifold F} (hw : worldManifold m xA ra xB rb = some wm) :
    0 ≤ dot wm.normal (xA.q.mulV (rightOf d)) ∧ dot wm.normal (xA.q.mulV d) = 0 := by
  obtain ⟨k1, k2, k3⟩ := c138_corner_circle (flat_bent h) rA hd e hne hw
  refine ⟨k1, ?_⟩
  rcases lt_trichotomy (dot wm.normal (xA.q.mulV d)) 0 with hl | hl | hl
  · exact absurd hl (not_lt.mpr (k2 hl))
  · exact hl
  · exact absurd hl (not_lt.mpr (k3 hl))

/-- **C138.** On a flat stretch a polygon is pushed across, up to the tolerance. -/
theorem c138_flat [Elem F] [ElemLaws F] {a : Edge F} {d : Vec2 F} (h : Flat a d) {b : Polygon F} (hb : ProperPolygon b) {xA xB : Xf F} {ra rb : F} (rA : IsRot xA.q) (rB : IsRot xB.q)
    (hr : ∀ u ∈ b.verts, ∀ v ∈ b.verts, dist2 u v < maxFlt * maxFlt)
    {m : Manifold F} (e : collideEdgePolygon a xA b xB = some m) (hne : m.points ≠ []) {wm : WorldManifold F} (hw : worldManifold m xA ra xB rb = some wm) :
    |dot wm.normal (xA.q.mulV d)| ≤ 1 / 10 := by
  obtain ⟨k1, k2⟩ := c138_corner (flat_bent h) hb rA rB hr e hne hw
  rw [abs_le]
  rcases le_or_gt (dot wm.normal (xA.q.mulV d)) 0 with hl | hl
  · rcases k1 hl with k | k
    · rw [k]; norm_num
    · exact ⟨k.2, hl.trans (by norm_num)⟩
  · exact ⟨le_trans (by norm_num) hl.le, (k2 hl).2⟩

theorem child_form [Elem F] [ElemLaws F] {c : Chain F} {i : Nat} {e : Edge F} (he : c.getChildEdge i = some e) :
    ∃ v1 v2, c.vertices[i]? = some v1 ∧ c.vertices[i + 1]? = some v2 ∧ e = ⟨c.radius, v1, v2, chainBefore c i, chainAfter c i, true⟩ := by
  by_cases hi : i + 1 < c.vertices.length
  · have g1 := List.getElem?_eq_getElem (show i < c.vertices.length by omega)
    have g2 := List.getElem?_eq_getElem hi
    refine ⟨_, _, g1, g2, ?_⟩
    have := (chain_child c i _ _ g1 g2).1
    rw [he] at this
    exact Option.some.inj this
  · unfold Chain.getChildEdge at he
    rw [if_pos (by omega)] at he
    cases he

/-- Every edge of a straight chain is flat. -/
theorem straight_flat [Elem F] [ElemLaws F] {c : Chain F} {d : Vec2 F} (h : StraightChain c d) {i : Nat} {e : Edge F} (he : c.getChildEdge i = some e) : Flat e d := by
  have hl := List.isChain_iff_getElem.mp h.line
  have hlen : (c.prev :: c.vertices ++ [c.next]).length = c.vertices.length + 2 := by simp
  have at? : ∀ k x y, (c.prev :: c.vertices ++ [c.next])[k]? = some x → (c.prev :: c.vertices ++ [c.next])[k + 1]? = some y → Onward d x y := by
    intro k x y hx hy
    obtain ⟨p, rfl⟩ := List.getElem?_eq_some_iff.mp hx
    obtain ⟨q, rfl⟩ := List.getElem?_eq_some_iff.mp hy
    exact hl k q
  have mid : ∀ k x, c.vertices[k]? = some x → (c.prev :: c.vertices ++ [c.next])[k + 1]? = some x := by
    intro k x hx
    obtain ⟨p, -⟩ := List.getElem?_eq_some_iff.mp hx
    rw [List.cons_append, List.getElem?_cons_succ, List.getElem?_append_left p, hx]
  obtain ⟨v1, v2, g1, g2, rfl⟩ := child_form he
  have hi : i + 1 < c.vertices.length := (List.getElem?_eq_some_iff.mp g2).1
  refine ⟨rfl, h.unit, at? i _ _ ?_ (mid _ _ g1), at? (i + 1) _ _ (mid _ _ g1) (mid _ _ g2), at? (i + 2) _ _ (mid _ _ g2) ?_⟩
  · unfold chainBefore
    rcases i with _ | i
    · simp
    · have hi' : i < c.vertices.length := by omega
      simp [hi', List.getElem?_append_left]
  · unfold chainAfter
    by_cases hn : i + 2 < c.vertices.length
    · rw [mid (i + 2) c.vertices[i + 2] (List.getElem?_eq_getElem hn)]
      simp [hn]
    · have : c.vertices.length = i + 2 := by omega
      rw [List.cons_append, List.getElem?_cons_succ, List.getElem?_append_right (by omega)]
      simp [this]

/-- **C138.** On a straight chain a circle is pushed exactly across, to the front: it slides over the vertices. -/
theorem c138_straight_circle [Elem F] [ElemLaws F] {c : Chain F} {d : Vec2 F} (h : StraightChain c d) {b : Circle F} {i : Nat} {xA xB : Xf F} (rA : IsRot xA.q)
    (hd : ∀ v ∈ c.vertices, epsilon * epsilon < dist2 (place xA v) (place xB b.p))
    {m : Manifold F} (e : evaluateShapes (.chain c) i xA (.circle b) xB = some m) (hne : m.points ≠ []) {wm : WorldManifold F} (hw : worldManifold m xA c.radius xB b.radius = some wm) :
    0 ≤ dot wm.normal (xA.q.mulV (rightOf d)) ∧ dot wm.normal (xA.q.mulV d) = 0 := by
  simp only [evaluateShapes, Option.bind_eq_some_iff] at e
  obtain ⟨a, ha, e⟩ := e
  refine c138_flat_circle (straight_flat h ha) rA (fun v hv => hd v ?_) e hne hw
  obtain ⟨v1, v2, g1, g2, rfl⟩ := child_form ha
  rcases hv with rfl | rfl
  · exact List.mem_of_getElem? g1
  · exact List.mem_of_getElem? g2

/-- **C138.** On a straight chain a polygon is pushed across, up to the tolerance: its motion along the chain is hindered by at most a tenth of the push. -/
theorem c138_straight [Elem F] [ElemLaws F] {c : Chain F} {d : Vec2 F} (h : StraightChain c d) {b : Polygon F} (hb : ProperPolygon b) {i : Nat} {xA xB : Xf F} (rA : IsRot xA.q) (rB : IsRot xB.q)
    (hr : ∀ u ∈ b.verts, ∀ v ∈ b.verts, dist2 u v < maxFlt * maxFlt)
    {m : Manifold F} (e : evaluateShapes (.chain c) i xA (.polygon b) xB = some m) (hne : m.points ≠ []) {wm : WorldManifold F} (hw : worldManifold m xA c.radius xB b.radius = some wm) :
    |dot wm.normal (xA.q.mulV d)| ≤ 1 / 10 := by
  simp only [evaluateShapes, Option.bind_eq_some_iff] at e
  obtain ⟨a, ha, e⟩ := e
  exact c138_flat (straight_flat h ha) hb rA rB hr e hne hw

/-- **C138.** A polygon whose centroid is behind a one-sided edge does not meet it. -/
theorem c138_behind [Elem F] [ElemLaws F] {a : Edge F} (h1 : a.oneSided = true) {d : Vec2 F} (hd : dot d d = 1) (ha : Onward d a.v1 a.v2) {b : Polygon F} {xA xB : Xf F} (rA : IsRot xA.q)
    (hb : dot (xA.q.mulV (rightOf d)) (place xB b.centroid - place xA a.v1) < 0) : ∃ m, collideEdgePolygon a xA b xB = some m ∧ m.points = [] := by
  refine ⟨Manifold.default, ?_, rfl⟩
  unfold collideEdgePolygon
  simp only [normalize_along hd ha, h1, true_and]
  rw [if_pos]
  have e1 : place xB b.centroid - place xA a.v1 = xA.q.mulV ((xA.mulT xB).mulV b.centroid - a.v1) := by
    rw [← place_mulT rA b.centroid, place_eq]
    ext <;> simp only [place, Rot.mulV, Vec2.sub_x, Vec2.sub_y] <;> ring
  rwa [e1, rotV_dot rA] at hb

end

/-! ## The push on a polygon need not be to the front -/

/-- A triangle that stands on its tip. -/
noncomputable def topTriangle : Polygon ℝ :=
  ⟨polygonRadius, ⟨0, 0⟩, [⟨0, -8⟩, ⟨9, 4⟩, ⟨-9, 4⟩], [⟨4 / 5, -3 / 5⟩, ⟨0, 1⟩, ⟨-4 / 5, -3 / 5⟩]⟩

theorem topTriangle_proper : ProperPolygon topTriangle := by
  have hnext : ∀ a b, NextTo topTriangle.verts a b → (a = ⟨0, -8⟩ ∧ b = ⟨9, 4⟩) ∨ (a = ⟨9, 4⟩ ∧ b = ⟨-9, 4⟩) ∨ (a = ⟨-9, 4⟩ ∧ b = ⟨0, -8⟩) := by
    rintro a b ⟨i, ha, hb⟩
    have hi := (List.getElem?_eq_some_iff.mp ha).1
    simp only [topTriangle, List.length_cons, List.length_nil] at hi
    match i, hi with
    | 0, _ | 1, _ | 2, _ => simp [topTriangle] at ha hb; simp [← ha, ← hb]
  refine ⟨⟨by simp [topTriangle], ?_, ?_⟩, by simp [topTriangle], ?_, rfl, ?_⟩
  · simp only [topTriangle, List.nodup_cons, List.mem_cons, Vec2.mk.injEq, List.not_mem_nil, or_false]
    norm_num
  · intro a b hab v hv
    simp only [topTriangle, List.mem_cons, List.not_mem_nil, or_false] at hv
    rcases hnext a b hab with ⟨rfl, rfl⟩ | ⟨rfl, rfl⟩ | ⟨rfl, rfl⟩ <;> rcases hv with rfl | rfl | rfl <;>
      first | (left; rfl) | (right; left; rfl) | (right; right; norm_num [turn])
  · intro a b hab
    rcases hnext a b hab with ⟨rfl, rfl⟩ | ⟨rfl, rfl⟩ | ⟨rfl, rfl⟩ <;> norm_num [dist2, epsilon]
  · intro i a b n ha hb hn
    have hi := (List.getElem?_eq_some_iff.mp ha).1
    simp only [topTriangle, List.length_cons, List.length_nil] at hi
    match i, hi with
    | 0, _ | 1, _ | 2, _ =>
      simp [topTriangle] at ha hb hn
      rw [← ha, ← hb, ← hn]
      refine ⟨by norm_num [dot], by norm_num [dot], by norm_num [turn]⟩

/-- A floor from right to left, so that its front is above it. -/
noncomputable def floorChain : Chain ℝ := ⟨polygonRadius, [⟨200, 0⟩, ⟨100, 0⟩, ⟨0, 0⟩], ⟨300, 0⟩, ⟨-100, 0⟩⟩

theorem floorChain_straight : StraightChain floorChain ⟨-1, 0⟩ := by
  refine ⟨by norm_num [dot], ?_⟩
  simp only [floorChain, List.cons_append, List.nil_append, List.isChain_cons_cons, List.isChain_singleton, and_true]
  refine ⟨⟨100, ?_⟩, ⟨100, ?_⟩, ⟨100, ?_⟩, 100, ?_⟩ <;> refine ⟨by norm_num [epsilon], ?_⟩ <;> ext <;> norm_num

/-- A push on a polygon from a straight chain can lead to the back of the chain although the centroid of the polygon is in front: when the polygon reaches farther
to the back than to the front, the chain pulls it through. -/
theorem c138_front_false : ∃ (c : Chain ℝ) (d : Vec2 ℝ) (b : Polygon ℝ) (xA xB : Xf ℝ) (m : Manifold ℝ) (wm : WorldManifold ℝ), StraightChain c d ∧ ProperPolygon b ∧ IsRot xA.q ∧ IsRot xB.q ∧
    (∀ v ∈ c.vertices, 0 < dot (xA.q.mulV (rightOf d)) (place xB b.centroid - place xA v)) ∧
    evaluateShapes (.chain c) 0 xA (.polygon b) xB = some m ∧ m.points ≠ [] ∧ worldManifold m xA c.radius xB b.radius = some wm ∧
    dot wm.normal (xA.q.mulV (rightOf d)) < 0 := by
  have hs : Real.sqrt 10000 = 100 := by
    rw [show (10000 : ℝ) = 100 ^ 2 from by norm_num]; exact Real.sqrt_sq (by norm_num)
  refine ⟨floorChain, ⟨-1, 0⟩, topTriangle, ⟨⟨0, 0⟩, Rot.identity⟩, ⟨⟨150, 1⟩, Rot.identity⟩,
    ⟨[.at' ⟨9, 4⟩ ⟨0, 1, 1, 0⟩, .at' ⟨-9, 4⟩ ⟨0, 2, 1, 0⟩], ⟨0, -1⟩, ⟨200, 0⟩, .faceA⟩, _, floorChain_straight, topTriangle_proper,
    by simp [IsRot, Rot.identity], by simp [IsRot, Rot.identity], ?_, ?_, by simp, rfl, ?_⟩
  · intro v hv
    simp only [floorChain, List.mem_cons, List.not_mem_nil, or_false] at hv
    rcases hv with rfl | rfl | rfl <;> norm_num [topTriangle, place, rightOf, Rot.mulV, Rot.identity, dot]
  · norm_num [evaluateShapes, floorChain, Chain.getChildEdge, topTriangle, collideEdgePolygon, computeEdgeSeparation, edgeAxisStep,
      deepest, computePolygonSeparation, primaryAxis, clipToEdge, mostAntiParallel', clipTwice, clipSegmentToLine, clipPush, List.range_succ, List.range'_succ, psGet, dot, Xf.mulV,
      Xf.mulT, Xf.mulTV, Rot.mulV, Rot.mulT, Rot.mulTV, Rot.identity, epsilon, polygonRadius, linearSlop, maxFlt, nextIndex, Vec2.normalize, Vec2.length,
      Elem.sqrt, hs, b2min, eVertex, eFace, ManifoldPoint.at', Feature.swap, cross]
    exact ⟨by decide, by ext <;> norm_num⟩
  · norm_num [Rot.mulV, Rot.identity, rightOf, dot]

/-- The hypotheses of `c138_straight` are met by a box that slides over a vertex of the floor. -/
example : ∃ (m : Manifold ℝ) (wm : WorldManifold ℝ), StraightChain floorChain ⟨-1, 0⟩ ∧ ProperPolygon (Polygon.default.setAsBox 1 1 : Polygon ℝ) ∧
    (∀ u ∈ (Polygon.default.setAsBox 1 1 : Polygon ℝ).verts, ∀ v ∈ (Polygon.default.setAsBox 1 1 : Polygon ℝ).verts, dist2 u v < maxFlt * maxFlt) ∧
    evaluateShapes (.chain floorChain) 0 ⟨⟨0, 0⟩, Rot.identity⟩ (.polygon (Polygon.default.setAsBox 1 1)) ⟨⟨201 / 2, 99 / 100⟩, Rot.identity⟩ = some m ∧ m.points.length = 2 ∧
    worldManifold m ⟨⟨0, 0⟩, Rot.identity⟩ polygonRadius ⟨⟨201 / 2, 99 / 100⟩, Rot.identity⟩ polygonRadius = some wm := by
  have hs : Real.sqrt 10000 = 100 := by
    rw [show (10000 : ℝ) = 100 ^ 2 from by norm_num]; exact Real.sqrt_sq (by norm_num)
  refine ⟨⟨[.at' ⟨1, -1⟩ ⟨0, 1, 1, 0⟩, .at' ⟨-1 / 2, -1⟩ ⟨1, 0, 0, 1⟩], ⟨0, 1⟩, ⟨200, 0⟩, .faceA⟩, _, floorChain_straight, proper_box _ 1 1 (by norm_num [epsilon]) (by norm_num [epsilon]), ?_, ?_, rfl, rfl⟩
  · intro x hx y hy
    simp only [Polygon.setAsBox, boxVerts, List.mem_cons, List.not_mem_nil, or_false] at hx hy
    rcases hx with rfl | rfl | rfl | rfl <;> rcases hy with rfl | rfl | rfl | rfl <;> norm_num [dist2, maxFlt]
  · norm_num [evaluateShapes, floorChain, Chain.getChildEdge, Polygon.setAsBox, Polygon.default, boxVerts, boxNormals, collideEdgePolygon, computeEdgeSeparation, edgeAxisStep,
      deepest, computePolygonSeparation, primaryAxis, clipToEdge, mostAntiParallel', clipTwice, clipSegmentToLine, clipPush, List.range_succ, List.range'_succ, psGet, dot, Xf.mulV,
      Xf.mulT, Xf.mulTV, Rot.mulV, Rot.mulT, Rot.mulTV, Rot.identity, epsilon, polygonRadius, linearSlop, maxFlt, nextIndex, Vec2.normalize, Vec2.length,
      Elem.sqrt, hs, b2min, eVertex, eFace, ManifoldPoint.at', Feature.swap, cross]
    decide

/-- The hypotheses of `c138_straight_circle` are met by a ball that rolls over a vertex of the floor. -/
example : ∃ (m : Manifold ℝ) (wm : WorldManifold ℝ), StraightChain floorChain ⟨-1, 0⟩ ∧
    (∀ v ∈ floorChain.vertices, epsilon * epsilon < dist2 (place ⟨⟨0, 0⟩, Rot.identity⟩ v) (place ⟨⟨100, 99 / 100⟩, Rot.identity⟩ (⟨0, 0⟩ : Vec2 ℝ))) ∧
    evaluateShapes (.chain floorChain) 0 ⟨⟨0, 0⟩, Rot.identity⟩ (.circle ⟨1, ⟨0, 0⟩⟩) ⟨⟨100, 99 / 100⟩, Rot.identity⟩ = some m ∧ m.points.length = 1 ∧ m.type = .circles ∧
    worldManifold m ⟨⟨0, 0⟩, Rot.identity⟩ polygonRadius ⟨⟨100, 99 / 100⟩, Rot.identity⟩ 1 = some wm := by
  refine ⟨⟨[.at' ⟨0, 0⟩ ⟨1, 0, 0, 0⟩], ⟨0, 0⟩, ⟨100, 0⟩, .circles⟩, _, floorChain_straight, ?_, ?_, rfl, rfl, rfl⟩
  · intro v hv
    simp only [floorChain, List.mem_cons, List.not_mem_nil, or_false] at hv
    rcases hv with rfl | rfl | rfl <;> norm_num [place, Rot.identity, dist2, epsilon]
  · norm_num [evaluateShapes, floorChain, Chain.getChildEdge, collideEdgeCircle, dot, Xf.mulV, Xf.mulTV, Rot.mulV, Rot.mulTV, Rot.identity, polygonRadius, linearSlop, eVertex]

/-- The hypotheses of `c138_corner_circle` are met by a ball over the top of a roof that meets the edge before the top. -/
example : ∃ (m : Manifold ℝ) (wm : WorldManifold ℝ), Bent (⟨polygonRadius, ⟨5, 0⟩, ⟨0, 0⟩, ⟨10, 0⟩, ⟨-3, -4⟩, true⟩ : Edge ℝ) ⟨-1, 0⟩ ⟨-1, 0⟩ ⟨-3 / 5, -4 / 5⟩ ∧
    collideEdgeCircle (⟨polygonRadius, ⟨5, 0⟩, ⟨0, 0⟩, ⟨10, 0⟩, ⟨-3, -4⟩, true⟩ : Edge ℝ) ⟨⟨0, 0⟩, Rot.identity⟩ ⟨1, ⟨0, 0⟩⟩ ⟨⟨-3 / 10, 9 / 10⟩, Rot.identity⟩ = some m ∧ m.points.length = 1 ∧ m.type = .circles ∧
    worldManifold m ⟨⟨0, 0⟩, Rot.identity⟩ polygonRadius ⟨⟨-3 / 10, 9 / 10⟩, Rot.identity⟩ 1 = some wm := by
  refine ⟨⟨[.at' ⟨0, 0⟩ ⟨1, 0, 0, 0⟩], ⟨0, 0⟩, ⟨0, 0⟩, .circles⟩, _, ⟨rfl, by norm_num [dot], ⟨5, ?_⟩, ⟨5, ?_⟩, ⟨5, ?_⟩⟩, ?_, rfl, rfl, rfl⟩
  · exact ⟨by norm_num [epsilon], by ext <;> norm_num⟩
  · exact ⟨by norm_num [epsilon], by ext <;> norm_num⟩
  · exact ⟨by norm_num [epsilon], by ext <;> norm_num⟩
  · norm_num [collideEdgeCircle, dot, Xf.mulV, Xf.mulTV, Rot.mulV, Rot.mulTV, Rot.identity, polygonRadius, linearSlop, eVertex]

/-- The hypotheses of `c138_behind` are met by a box half sunk into the floor. -/
example : Onward ⟨-1, 0⟩ (⟨200, 0⟩ : Vec2 ℝ) ⟨100, 0⟩ ∧
    dot ((Rot.identity : Rot ℝ).mulV (rightOf ⟨-1, 0⟩)) (place ⟨⟨150, -1 / 10⟩, Rot.identity⟩ (Polygon.default.setAsBox 1 1 : Polygon ℝ).centroid - place ⟨⟨0, 0⟩, Rot.identity⟩ ⟨200, 0⟩) < 0 := by
  refine ⟨⟨100, by norm_num [epsilon], by ext <;> norm_num⟩, ?_⟩
  norm_num [place, rightOf, Rot.mulV, Rot.identity, dot, Polygon.setAsBox, Polygon.default]

/-- The hypotheses of `c138_valley` are met by a box that lies in a trough. -/
example : ∃ (m : Manifold ℝ) (wm : WorldManifold ℝ), Bent (⟨polygonRadius, ⟨100, 0⟩, ⟨0, 0⟩, ⟨160, 80⟩, ⟨-60, 80⟩, true⟩ : Edge ℝ) ⟨-3 / 5, -4 / 5⟩ ⟨-1, 0⟩ ⟨-3 / 5, 4 / 5⟩ ∧
    cross (⟨-3 / 5, -4 / 5⟩ : Vec2 ℝ) ⟨-1, 0⟩ < 0 ∧ cross (⟨-1, 0⟩ : Vec2 ℝ) ⟨-3 / 5, 4 / 5⟩ < 0 ∧
    collideEdgePolygon (⟨polygonRadius, ⟨100, 0⟩, ⟨0, 0⟩, ⟨160, 80⟩, ⟨-60, 80⟩, true⟩ : Edge ℝ) ⟨⟨0, 0⟩, Rot.identity⟩ (Polygon.default.setAsBox 1 1) ⟨⟨50, 99 / 100⟩, Rot.identity⟩ = some m ∧ m.points.length = 2 ∧
    worldManifold m ⟨⟨0, 0⟩, Rot.identity⟩ polygonRadius ⟨⟨50, 99 / 100⟩, Rot.identity⟩ polygonRadius = some wm := by
  have hs : Real.sqrt 10000 = 100 := by
    rw [show (10000 : ℝ) = 100 ^ 2 from by norm_num]; exact Real.sqrt_sq (by norm_num)
  refine ⟨⟨[.at' ⟨-1, -1⟩ ⟨0, 0, 1, 0⟩, .at' ⟨1, -1⟩ ⟨0, 1, 1, 0⟩], ⟨0, 1⟩, ⟨100, 0⟩, .faceA⟩, _, ⟨rfl, by norm_num [dot], ⟨100, ?_⟩, ⟨100, ?_⟩, ⟨100, ?_⟩⟩, by norm_num [cross], by norm_num [cross], ?_, rfl, rfl⟩
  · exact ⟨by norm_num [epsilon], by ext <;> norm_num⟩
  · exact ⟨by norm_num [epsilon], by ext <;> norm_num⟩
  · exact ⟨by norm_num [epsilon], by ext <;> norm_num⟩
  · norm_num [Polygon.setAsBox, Polygon.default, boxVerts, boxNormals, collideEdgePolygon, computeEdgeSeparation, edgeAxisStep,
      deepest, computePolygonSeparation, primaryAxis, clipToEdge, mostAntiParallel', clipTwice, clipSegmentToLine, clipPush, List.range_succ, List.range'_succ, psGet, dot, Xf.mulV,
      Xf.mulT, Xf.mulTV, Rot.mulV, Rot.mulT, Rot.mulTV, Rot.identity, epsilon, polygonRadius, linearSlop, maxFlt, nextIndex, Vec2.normalize, Vec2.length,
      Elem.sqrt, hs, b2min, eVertex, eFace, ManifoldPoint.at', Feature.swap, cross]
    decide

end B2.Props
