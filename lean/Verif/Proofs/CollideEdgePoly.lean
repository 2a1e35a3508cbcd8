import Verif.Proofs.CollideSound

/-!
# Edge against polygon
-/
namespace B2
open Spec
set_option linter.unusedSectionVars false
section
variable {F : Type} [Field F] [LinearOrder F] [IsStrictOrderedRing F]

/-- The separation of face `i` of the polygon from the edge. -/
def faceSep (verts normals : List (Vec2 F)) (v1 v2 : Vec2 F) (i : Nat) : F :=
  b2min (dot (-psGet normals i) (psGet verts i - v1)) (dot (-psGet normals i) (psGet verts i - v2))

theorem polygonSeparation_spec (verts normals : List (Vec2 F)) (v1 v2 : Vec2 F) :
    let r := computePolygonSeparation verts normals v1 v2;
    -maxFlt ≤ r.separation ∧ (∀ i < verts.length, faceSep verts normals v1 v2 i ≤ r.separation) ∧
    (r = ⟨⟨0, 0⟩, .unknown, none, -maxFlt⟩ ∨
      ∃ i < verts.length, r = ⟨-psGet normals i, .edgeB, some i, faceSep verts normals v1 v2 i⟩) := by
  have key : ∀ (l : List Nat) (st : EPAxis F),
      let r := l.foldl (fun (axis : EPAxis F) i => if faceSep verts normals v1 v2 i > axis.separation then
        { type := .edgeB, index := some i, separation := faceSep verts normals v1 v2 i, normal := -psGet normals i } else axis) st
      st.separation ≤ r.separation ∧ (∀ i ∈ l, faceSep verts normals v1 v2 i ≤ r.separation) ∧
      (r = st ∨ ∃ i ∈ l, r = ⟨-psGet normals i, .edgeB, some i, faceSep verts normals v1 v2 i⟩) := by
    intro l
    induction l with
    | nil => intro st; simp
    | cons i l ih =>
      intro st
      simp only [List.foldl_cons]
      obtain ⟨h1, h2, h3⟩ := ih (if faceSep verts normals v1 v2 i > st.separation then
        { type := .edgeB, index := some i, separation := faceSep verts normals v1 v2 i, normal := -psGet normals i } else st)
      split_ifs at h1 h2 h3 ⊢ with hc
      · refine ⟨hc.le.trans h1, ?_, ?_⟩
        · intro j hj
          rcases List.mem_cons.mp hj with rfl | hj
          · exact h1
          · exact h2 j hj
        · right
          rcases h3 with h3 | ⟨j, hj, h3⟩
          · exact ⟨i, by simp, h3⟩
          · exact ⟨j, List.mem_cons_of_mem _ hj, h3⟩
      · refine ⟨h1, ?_, ?_⟩
        · intro j hj
          rcases List.mem_cons.mp hj with rfl | hj
          · exact (not_lt.mp hc).trans h1
          · exact h2 j hj
        · rcases h3 with h3 | ⟨j, hj, h3⟩
          · exact .inl h3
          · exact .inr ⟨j, List.mem_cons_of_mem _ hj, h3⟩
  obtain ⟨h1, h2, h3⟩ := key (List.range verts.length) ⟨⟨0, 0⟩, .unknown, none, -maxFlt⟩
  refine ⟨h1, fun i hi => h2 i (List.mem_range.mpr hi), ?_⟩
  rcases h3 with h3 | ⟨i, hi, h3⟩
  · exact .inl h3
  · exact .inr ⟨i, List.mem_range.mp hi, h3⟩

/-- When no two vertices are `MAX_FLT` apart, the axis of the edge is one of its two normals. -/
theorem edgeSeparation_spec {verts : List (Vec2 F)} {v1 n : Vec2 F} (hn : dot n n = 1)
    (hr : ∀ u ∈ verts, ∀ v ∈ verts, dist2 u v < maxFlt * maxFlt) :
    let r := computeEdgeSeparation verts v1 n;
    -maxFlt < r.separation ∧ r.type = .edgeA ∧ (r.normal = n ∨ r.normal = -n) ∧ r.separation = deepest verts r.normal v1 ∧
    deepest verts n v1 ≤ r.separation ∧ deepest verts (-n) v1 ≤ r.separation := by
  have hm := maxFlt_pos (F := F)
  have hex : ∀ m : Vec2 F, deepest verts m v1 ≤ -maxFlt → ∃ v ∈ verts, dot m (v - v1) ≤ -maxFlt := by
    intro m h
    obtain ⟨-, -, h3⟩ := foldMin_spec (fun v => dot m (v - v1)) verts maxFlt
    change deepest verts m v1 = _ ∨ ∃ v ∈ verts, deepest verts m v1 = _ at h3
    rcases h3 with h3 | ⟨v, hv, h3⟩
    · rw [h3] at h; linarith
    · rw [h3] at h; exact ⟨v, hv, h⟩
  have h1 : -maxFlt < deepest verts n v1 ∨ -maxFlt < deepest verts (-n) v1 := by
    by_contra hc
    push Not at hc
    obtain ⟨u, hu, h3⟩ := hex n hc.1
    obtain ⟨v, hv, h4⟩ := hex (-n) hc.2
    have h5 := hr v hv u hu
    rw [← sub_dist2] at h5
    have h6 : dot n (v - u) * dot n (v - u) ≤ dot n n * dot (v - u) (v - u) := by
      simp only [dot]; nlinarith [mul_self_nonneg (n.x * (v - u).y - n.y * (v - u).x)]
    have h7 : dot n (v - u) = -dot (-n) (v - v1) - dot n (u - v1) := by
      simp only [dot, Vec2.neg_x, Vec2.neg_y, Vec2.sub_x, Vec2.sub_y]; ring
    rw [hn, one_mul] at h6
    nlinarith
  have hd : ∀ axis : EPAxis F, ∀ j m, edgeAxisStep verts v1 axis j m =
      if deepest verts m v1 > axis.separation then { axis with index := some j, separation := deepest verts m v1, normal := m } else axis := fun _ _ _ => rfl
  intro r
  have hr' : r = computeEdgeSeparation verts v1 n := rfl
  simp only [computeEdgeSeparation, hd] at hr'
  by_cases h2 : -maxFlt < deepest verts n v1
  · rw [if_pos h2] at hr'
    simp only [] at hr'
    split_ifs at hr' with hc
    · rw [hr']; exact ⟨h2.trans hc, rfl, .inr rfl, rfl, hc.le, le_refl _⟩
    · rw [hr']; exact ⟨h2, rfl, .inl rfl, rfl, le_refl _, not_lt.mp hc⟩
  · have h3 := h1.resolve_left h2
    rw [if_neg h2] at hr'
    simp only [] at hr'
    rw [if_pos h3] at hr'
    rw [hr']
    exact ⟨h3, rfl, .inr rfl, rfl, (not_lt.mp h2).trans h3.le, le_refl _⟩

/-- The axis is that of the edge or that of a face; the latter only if it is better than the former. -/
theorem primaryAxis_spec [Elem F] {a : Edge F} {r : F} {e1 : Vec2 F} {ea pa p : EPAxis F} (h : primaryAxis a r e1 ea pa = some p) :
    p = ea ∨ (p = pa ∧ pa.separation - r > 98 / 100 * (ea.separation - r) + 1 / 1000) := by
  simp only [primaryAxis] at h
  split_ifs at h <;> simp_all

theorem clipToEdge_sound [Elem F] [ElemLaws F] {a : Edge F} {b : Polygon F} (hb : ProperPolygon b) {xfA xfB : Xf F} (rA : IsRot xfA.q) (rB : IsRot xfB.q)
    {n : Vec2 F} (hn : dot n n = 1) (hperp : dot n (a.v2 - a.v1) = 0) (e1 : Vec2 F) (r : F) :
    ∃ m, clipToEdge r a e1 n (b.verts.map (xfA.mulT xfB).mulV) (b.normals.map (xfA.mulT xfB).q.mulV) (xfA.mulT xfB) = some m ∧
      m.points.length ≤ 2 ∧ m.type = .faceA ∧ (m.points ≠ [] → FaceSound [a.v1, a.v2] xfA b.verts xfB r m) := by
  have hxr : IsRot (xfA.mulT xfB).q := mulT_rot rA rB
  set xf := xfA.mulT xfB with hxf
  simp only [clipToEdge, List.length_map]
  set i1 := mostAntiParallel' n (b.normals.map xf.q.mulV) b.verts.length
  have hi1l : i1 < b.verts.length := mostAntiParallel'_lt _ _ (by have := hb.convex.1; omega)
  have hi2l := nextIndex_lt hi1l
  rw [psGet_map _ hi1l, psGet_map _ hi2l]
  obtain ⟨rr, hr, hsp⟩ := clipTwice_spec (⟨xf.mulV (psGet b.verts i1), ⟨⟨0, UInt8.ofNat i1, eFace, eVertex⟩⟩⟩ : ClipVertex F)
    ⟨xf.mulV (psGet b.verts (nextIndex i1 b.verts.length)), ⟨⟨0, UInt8.ofNat (nextIndex i1 b.verts.length), eFace, eVertex⟩⟩⟩
    (-e1) (dot (-e1) a.v1) 0 e1 (dot e1 a.v2) 1
  rw [hr, Option.bind_some]
  match rr, hsp with
  | none, _ => exact ⟨_, rfl, by simp [Manifold.default], rfl, fun h => absurd rfl h⟩
  | some (c, d), hsp =>
    obtain ⟨s1, s2, -⟩ := hsp c d rfl
    simp only [] at s1 s2
    have hsub : ∀ x, Hull [xf.mulV (psGet b.verts i1), xf.mulV (psGet b.verts (nextIndex i1 b.verts.length))] x → Hull b.verts (unplace xf x) := by
      intro x hx
      apply hull_unplace hxr
      refine hull_pair_sub ?_ ?_ hx
      · exact .vertex (List.mem_map_of_mem (List.mem_of_getElem? (psGet_some hi1l)))
      · exact .vertex (List.mem_map_of_mem (List.mem_of_getElem? (psGet_some hi2l)))
    refine ⟨_, rfl, length_filter_map_le _ _ _ _, rfl, fun _ => ⟨hn, .vertex (by simp), ?_, ?_, ?_⟩⟩
    · intro x hx
      obtain ⟨t, -, -, rfl⟩ := hull_pair hx
      have : dot n (onLine a.v1 a.v2 t - a.v1) = t * dot n (a.v2 - a.v1) := by simp only [dot, onLine, Vec2.sub_x, Vec2.sub_y]; ring
      simp only []; rw [this, hperp, mul_zero]
    · intro p hpm
      obtain ⟨c', hc', -, rfl⟩ := mem_filter_pair hpm
      simp only [ManifoldPoint.at', mulTV_unplace]
      rcases hc' with rfl | rfl
      · exact hsub _ s1
      · exact hsub _ s2
    · intro p hpm q hq
      obtain ⟨c', -, hle, rfl⟩ := mem_filter_pair hpm
      simp only [ManifoldPoint.at', mulTV_unplace] at hq
      rw [← place_mulT rA (unplace xf c'.v), ← hxf, place_unplace hxr] at hq
      have hqc : q = c'.v := by rw [← unplace_place rA q, hq, unplace_place rA]
      simp only [decide_eq_true_eq] at hle
      simp only []; rw [hqc]; exact hle

theorem clipToFace_sound [Elem F] [ElemLaws F] {a : Edge F} {b : Polygon F} (hb : ProperPolygon b) {xfA xfB : Xf F} (rA : IsRot xfA.q) (rB : IsRot xfB.q)
    {i1 : Nat} (hi : i1 < b.verts.length) (r : F) :
    ∃ m, clipToFace r a (some i1) b (b.verts.map (xfA.mulT xfB).mulV) (b.normals.map (xfA.mulT xfB).q.mulV) = some m ∧
      m.points.length ≤ 2 ∧ m.type = .faceB ∧ (m.points ≠ [] → FaceSound b.verts xfB [a.v1, a.v2] xfA r m) := by
  have hxr : IsRot (xfA.mulT xfB).q := mulT_rot rA rB
  have hin : i1 < b.normals.length := by rw [hb.len]; exact hi
  simp only [clipToFace, List.length_map, Option.bind_some, psGet_map _ hi, psGet_map _ (nextIndex_lt hi), psGet_map _ hin]
  set xf := xfA.mulT xfB with hxf
  set n := xf.q.mulV (psGet b.normals i1) with hn
  obtain ⟨rr, hr, hsp⟩ := clipTwice_spec (⟨a.v2, ⟨⟨1, UInt8.ofNat i1, eVertex, eFace⟩⟩⟩ : ClipVertex F) ⟨a.v1, ⟨⟨0, UInt8.ofNat i1, eVertex, eFace⟩⟩⟩
    ⟨n.y, -n.x⟩ (dot ⟨n.y, -n.x⟩ (xf.mulV (psGet b.verts i1))) i1 (-⟨n.y, -n.x⟩)
    (dot (-⟨n.y, -n.x⟩) (xf.mulV (psGet b.verts (nextIndex i1 b.verts.length)))) (nextIndex i1 b.verts.length)
  rw [hr, Option.bind_some]
  match rr, hsp with
  | none, _ => exact ⟨_, rfl, by simp [Manifold.default], rfl, fun h => absurd rfl h⟩
  | some (c, d), hsp =>
    obtain ⟨s1, s2, -⟩ := hsp c d rfl
    simp only [] at s1 s2
    have hsub : ∀ x, Hull [a.v2, a.v1] x → Hull [a.v1, a.v2] x := fun x hx =>
      hull_pair_sub (.vertex (by simp)) (.vertex (by simp)) hx
    refine ⟨_, rfl, length_filter_map_le _ _ _ _, rfl, fun _ => ⟨(hb.face hi).choose_spec.2.2, ProperPolygon.vert_hull hi, fun x hx => hb.below hi hx, ?_, ?_⟩⟩
    · intro p hpm
      obtain ⟨c', hc', -, rfl⟩ := mem_filter_pair hpm
      simp only [ManifoldPoint.at']
      rcases hc' with rfl | rfl
      · exact hsub _ s1
      · exact hsub _ s2
    · intro p hpm q hq
      obtain ⟨c', -, hle, rfl⟩ := mem_filter_pair hpm
      simp only [ManifoldPoint.at'] at hq
      rw [← place_mulT rA q, ← hxf] at hq
      have hqc : c'.v = place xf q := by rw [← unplace_place rA c'.v, ← hq, unplace_place rA]
      simp only [decide_eq_true_eq] at hle
      rw [hqc, place_eq, place_sub] at hle
      simp only []
      rw [hn, rotV_dot hxr] at hle
      exact hle

theorem collideEdgePolygon_sound [Elem F] [ElemLaws F] {a : Edge F} {b : Polygon F} (ha : 0 ≤ a.radius) (hb0 : 0 ≤ b.radius)
    (hl : epsilon * epsilon ≤ dist2 a.v1 a.v2) (hb : ProperPolygon b)
    {xfA xfB : Xf F} (rA : IsRot xfA.q) (rB : IsRot xfB.q) (hrange : ∀ u ∈ b.verts, ∀ v ∈ b.verts, dist2 u v < maxFlt * maxFlt) :
    ∃ m, collideEdgePolygon a xfA b xfB = some m ∧ m.points.length ≤ 2 ∧ (m.type = .circles → m.points = []) ∧
      (m.type = .faceA → m.points ≠ [] → FaceSound [a.v1, a.v2] xfA b.verts xfB (a.radius + b.radius) m) ∧
      (m.type = .faceB → m.points ≠ [] → FaceSound b.verts xfB [a.v1, a.v2] xfA (a.radius + b.radius) m) := by
  have hdef : (Manifold.default : Manifold F).points.length ≤ 2 ∧ ((Manifold.default : Manifold F).type = .circles → (Manifold.default : Manifold F).points = []) ∧
      ((Manifold.default : Manifold F).type = .faceA → (Manifold.default : Manifold F).points ≠ [] → FaceSound [a.v1, a.v2] xfA b.verts xfB (a.radius + b.radius) Manifold.default) ∧
      ((Manifold.default : Manifold F).type = .faceB → (Manifold.default : Manifold F).points ≠ [] → FaceSound b.verts xfB [a.v1, a.v2] xfA (a.radius + b.radius) Manifold.default) :=
    ⟨by simp [Manifold.default], fun _ => rfl, fun _ h => absurd rfl h, fun _ h => absurd rfl h⟩
  obtain ⟨u1, u2, u3⟩ := normalize_unit (d := a.v2 - a.v1) (s := epsilon) (le_refl _) (by rw [sub_dist2, dist2_comm]; exact hl)
  simp only [collideEdgePolygon]
  set e1 := (a.v2 - a.v1).normalize.1
  have hal := along_unit u1 u2 (le_refl _) u3.symm
  have hn1 : dot (⟨e1.y, -e1.x⟩ : Vec2 F) ⟨e1.y, -e1.x⟩ = 1 := by rw [← u1]; simp only [dot]; ring
  have hperp : dot (⟨e1.y, -e1.x⟩ : Vec2 F) (a.v2 - a.v1) = 0 := by
    rw [hal]; simp only [dot, Vec2.smul_x, Vec2.smul_y]; ring
  obtain ⟨p1, p2, p3⟩ := polygonSeparation_spec (b.verts.map (xfA.mulT xfB).mulV) (b.normals.map (xfA.mulT xfB).q.mulV) a.v1 a.v2
  obtain ⟨q1, q2, q3, -⟩ := edgeSeparation_spec (verts := b.verts.map (xfA.mulT xfB).mulV) (v1 := a.v1) hn1 (by
    intro u hu v hv
    obtain ⟨x, hx, rfl⟩ := List.mem_map.mp hu
    obtain ⟨w, hw, rfl⟩ := List.mem_map.mp hv
    rw [place_eq, place_eq, dist2_place (mulT_rot rA rB)]; exact hrange x hx w hw)
  set pa := computePolygonSeparation (b.verts.map (xfA.mulT xfB).mulV) (b.normals.map (xfA.mulT xfB).q.mulV) a.v1 a.v2
  set ea := computeEdgeSeparation (b.verts.map (xfA.mulT xfB).mulV) a.v1 ⟨e1.y, -e1.x⟩
  have hm := maxFlt_pos (F := F)
  rw [add_comm b.radius]
  split_ifs
  · exact ⟨_, rfl, hdef⟩
  · exact ⟨_, rfl, hdef⟩
  · exact ⟨_, rfl, hdef⟩
  · rcases hpr : primaryAxis a (a.radius + b.radius) e1 ea pa with _ | p
    · exact ⟨_, rfl, hdef⟩
    · simp only []
      rcases primaryAxis_spec hpr with rfl | ⟨rfl, hgt⟩
      · rw [if_pos q2]
        obtain ⟨m, h1, h2, h3, h4⟩ := clipToEdge_sound (a := a) hb rA rB (n := ea.normal)
          (by rcases q3 with h | h <;> rw [h]
              · exact hn1
              · rw [← hn1]; simp only [dot, Vec2.neg_x, Vec2.neg_y]; ring)
          (by rcases q3 with h | h <;> rw [h]
              · exact hperp
              · rw [← neg_eq_zero, ← hperp]; simp only [dot, Vec2.neg_x, Vec2.neg_y]; ring) e1 (a.radius + b.radius)
        refine ⟨m, h1, h2, ?_, fun _ h => h4 h, ?_⟩
        · intro h; rw [h3] at h; cases h
        · intro h; rw [h3] at h; cases h
      · rcases p3 with p3 | ⟨i, hi, p3⟩
        · rw [p3] at hgt
          exfalso
          simp only [] at hgt
          linarith
        · rw [if_neg (by rw [p3]; exact fun h => by cases h), show pa.index = some i from by rw [p3]]
          rw [List.length_map] at hi
          obtain ⟨m, h1, h2, h3, h4⟩ := clipToFace_sound (a := a) hb rA rB hi (a.radius + b.radius)
          refine ⟨m, h1, h2, ?_, ?_, fun _ h => h4 h⟩
          · intro h; rw [h3] at h; cases h
          · intro h; rw [h3] at h; cases h

end
end B2
