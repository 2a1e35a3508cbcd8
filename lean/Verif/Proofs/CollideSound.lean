import Verif.Proofs.CollideClip

/-!
# Every contact manifold is sound
-/
namespace B2
open Spec
set_option linter.unusedSectionVars false
section
variable {F : Type} [Field F] [LinearOrder F] [IsStrictOrderedRing F]

/-! ## Frames -/

theorem rotV_dot {q : Rot F} (h : IsRot q) (u v : Vec2 F) : dot (q.mulV u) (q.mulV v) = dot u v := by
  simp only [IsRot] at h
  simp only [dot, Rot.mulV]; linear_combination (u.x * v.x + u.y * v.y) * h

theorem place_sub (xf : Xf F) (u v : Vec2 F) : place xf u - place xf v = xf.q.mulV (u - v) := by
  ext <;> simp only [place, Rot.mulV, Vec2.sub_x, Vec2.sub_y] <;> ring

theorem mulT_rot {a b : Rot F} (ha : IsRot a) (hb : IsRot b) : IsRot (a.mulT b) := by
  simp only [IsRot] at *
  simp only [Rot.mulT]
  linear_combination (b.c * b.c + b.s * b.s) * ha + hb

theorem place_mulT {a b : Xf F} (ha : IsRot a.q) (v : Vec2 F) : place a (place (a.mulT b) v) = place b v := by
  simp only [IsRot] at ha
  ext
  · simp only [place, Xf.mulT, Rot.mulT, Rot.mulTV, Vec2.sub_x, Vec2.sub_y]
    linear_combination (b.q.c * v.x - b.q.s * v.y + b.p.x - a.p.x) * ha
  · simp only [place, Xf.mulT, Rot.mulT, Rot.mulTV, Vec2.sub_x, Vec2.sub_y]
    linear_combination (b.q.s * v.x + b.q.c * v.y + b.p.y - a.p.y) * ha

theorem rot_mulT {a b : Rot F} (ha : IsRot a) (v : Vec2 F) : a.mulV ((a.mulT b).mulV v) = b.mulV v := by
  simp only [IsRot] at ha
  ext
  · simp only [Rot.mulT, Rot.mulV]; linear_combination (b.c * v.x - b.s * v.y) * ha
  · simp only [Rot.mulT, Rot.mulV]; linear_combination (b.s * v.x + b.c * v.y) * ha

theorem rot_mulTV {q : Rot F} (h : IsRot q) (v : Vec2 F) : q.mulV (q.mulTV v) = v := by
  simp only [IsRot] at h
  ext
  · simp only [Rot.mulV, Rot.mulTV]; linear_combination v.x * h
  · simp only [Rot.mulV, Rot.mulTV]; linear_combination v.y * h

theorem hull_unplace {xf : Xf F} (h : IsRot xf.q) {vs : List (Vec2 F)} {y : Vec2 F} (hy : Hull (vs.map (place xf)) y) : Hull vs (unplace xf y) := by
  induction hy with
  | vertex hv =>
    obtain ⟨w, hw, rfl⟩ := List.mem_map.mp hv
    rw [unplace_place h]; exact .vertex hw
  | @between a b t _ _ t0 t1 iha ihb =>
    have : unplace xf (onLine a b t) = onLine (unplace xf a) (unplace xf b) t := by
      ext <;> simp only [unplace, onLine, Rot.mulTV, Vec2.sub_x, Vec2.sub_y] <;> ring
    rw [this]; exact .between iha ihb t0 t1

theorem psGet_map {l : List (Vec2 F)} {i : Nat} (f : Vec2 F → Vec2 F) (h : i < l.length) : psGet (l.map f) i = f (psGet l i) := by
  rw [psGet_eq h, psGet_eq (by rw [List.length_map]; exact h), List.getElem_map]

/-! ## Loops -/

/-- A loop for the greatest value. -/
theorem argmax_spec (s : Nat → F) (l : List Nat) (st : Nat × F) :
    let r := l.foldl (fun (st : Nat × F) i => if s i > st.2 then (i, s i) else st) st
    st.2 ≤ r.2 ∧ (∀ i ∈ l, s i ≤ r.2) ∧ (r = st ∨ (r.1 ∈ l ∧ r.2 = s r.1)) := by
  induction l generalizing st with
  | nil => simp
  | cons i l ih =>
    simp only [List.foldl_cons]
    obtain ⟨h1, h2, h3⟩ := ih (if s i > st.2 then (i, s i) else st)
    split_ifs at h1 h2 h3 ⊢ with hc
    · refine ⟨hc.le.trans h1, ?_, ?_⟩
      · intro j hj
        rcases List.mem_cons.mp hj with rfl | hj
        · exact h1
        · exact h2 j hj
      · right
        rcases h3 with h3 | ⟨h3, h4⟩
        · rw [h3]; simp
        · exact ⟨List.mem_cons_of_mem _ h3, h4⟩
    · refine ⟨h1, ?_, ?_⟩
      · intro j hj
        rcases List.mem_cons.mp hj with rfl | hj
        · exact (not_lt.mp hc).trans h1
        · exact h2 j hj
      · rcases h3 with h3 | ⟨h3, h4⟩
        · exact .inl h3
        · exact .inr ⟨List.mem_cons_of_mem _ h3, h4⟩

/-- A loop for the least value. -/
theorem argmin_spec (s : Nat → F) (l : List Nat) (st : Nat × F) :
    let r := l.foldl (fun (st : Nat × F) i => if s i < st.2 then (i, s i) else st) st
    r.2 ≤ st.2 ∧ (∀ i ∈ l, r.2 ≤ s i) ∧ (r = st ∨ (r.1 ∈ l ∧ r.2 = s r.1)) := by
  induction l generalizing st with
  | nil => simp
  | cons i l ih =>
    simp only [List.foldl_cons]
    obtain ⟨h1, h2, h3⟩ := ih (if s i < st.2 then (i, s i) else st)
    split_ifs at h1 h2 h3 ⊢ with hc
    · refine ⟨h1.trans hc.le, ?_, ?_⟩
      · intro j hj
        rcases List.mem_cons.mp hj with rfl | hj
        · exact h1
        · exact h2 j hj
      · right
        rcases h3 with h3 | ⟨h3, h4⟩
        · rw [h3]; simp
        · exact ⟨List.mem_cons_of_mem _ h3, h4⟩
    · refine ⟨h1, ?_, ?_⟩
      · intro j hj
        rcases List.mem_cons.mp hj with rfl | hj
        · exact h1.trans (not_lt.mp hc)
        · exact h2 j hj
      · rcases h3 with h3 | ⟨h3, h4⟩
        · exact .inl h3
        · exact .inr ⟨List.mem_cons_of_mem _ h3, h4⟩

/-- A loop for the least of some values and a start. -/
theorem foldMin_spec (s : Vec2 F → F) (l : List (Vec2 F)) (st : F) :
    let r := l.foldl (fun si v => if s v < si then s v else si) st
    r ≤ st ∧ (∀ v ∈ l, r ≤ s v) ∧ (r = st ∨ ∃ v ∈ l, r = s v) := by
  induction l generalizing st with
  | nil => simp
  | cons v l ih =>
    simp only [List.foldl_cons]
    obtain ⟨h1, h2, h3⟩ := ih (if s v < st then s v else st)
    split_ifs at h1 h2 h3 ⊢ with hc
    · refine ⟨h1.trans hc.le, ?_, ?_⟩
      · intro w hw
        rcases List.mem_cons.mp hw with rfl | hw
        · exact h1
        · exact h2 w hw
      · right
        rcases h3 with h3 | ⟨w, h3, h4⟩
        · exact ⟨v, by simp, h3⟩
        · exact ⟨w, List.mem_cons_of_mem _ h3, h4⟩
    · refine ⟨h1, ?_, ?_⟩
      · intro w hw
        rcases List.mem_cons.mp hw with rfl | hw
        · exact h1.trans (not_lt.mp hc)
        · exact h2 w hw
      · rcases h3 with h3 | ⟨w, h3, h4⟩
        · exact .inl h3
        · exact .inr ⟨w, List.mem_cons_of_mem _ h3, h4⟩

theorem findMaxSeparation_lt (p1 : Polygon F) (xf1 : Xf F) (p2 : Polygon F) (xf2 : Xf F) (h : p1.verts ≠ []) :
    (findMaxSeparation p1 xf1 p2 xf2).1 < p1.verts.length := by
  have hl : 0 < p1.verts.length := List.length_pos_iff.mpr h
  obtain ⟨-, -, h3⟩ := argmax_spec (fun i => p2.verts.foldl (fun si v =>
      if dot ((xf2.mulT xf1).q.mulV (psGet p1.normals i)) (v - (xf2.mulT xf1).mulV (psGet p1.verts i)) < si then
        dot ((xf2.mulT xf1).q.mulV (psGet p1.normals i)) (v - (xf2.mulT xf1).mulV (psGet p1.verts i)) else si) maxFlt)
    (List.range p1.verts.length) (0, -maxFlt)
  simp only [findMaxSeparation]
  rcases h3 with h3 | ⟨h3, -⟩
  · rw [h3]; exact hl
  · exact List.mem_range.mp h3

theorem mostAntiParallel_lt (normal : Vec2 F) (normals : List (Vec2 F)) {n : Nat} (h : 0 < n) : mostAntiParallel normal normals n < n := by
  obtain ⟨-, -, h3⟩ := argmin_spec (fun i => dot normal (psGet normals i)) (List.range n) (0, maxFlt)
  simp only [mostAntiParallel]
  rcases h3 with h3 | ⟨h3, -⟩
  · rw [h3]; exact h
  · exact List.mem_range.mp h3

theorem mostAntiParallel'_lt (normal : Vec2 F) (normals : List (Vec2 F)) {n : Nat} (h : 0 < n) : mostAntiParallel' normal normals n < n := by
  obtain ⟨-, -, h3⟩ := argmin_spec (fun i => dot normal (psGet normals i)) (List.range' 1 (n - 1)) (0, dot normal (psGet normals 0))
  simp only [mostAntiParallel']
  rcases h3 with h3 | ⟨h3, -⟩
  · rw [h3]; exact h
  · have := List.mem_range'_1.mp h3; omega

/-! ## Polygons -/

theorem length_filter_map_le {α β : Type} (a b : α) (p : α → Bool) (f : α → β) : (([a, b].filter p).map f).length ≤ 2 := by
  rw [List.length_map]; exact List.length_filter_le _ _

theorem mem_filter_pair {α β : Type} {a b : α} {p : α → Bool} {f : α → β} {x : β} (h : x ∈ ([a, b].filter p).map f) :
    ∃ c, (c = a ∨ c = b) ∧ p c = true ∧ x = f c := by
  obtain ⟨c, hc, rfl⟩ := List.mem_map.mp h
  rw [List.mem_filter] at hc
  exact ⟨c, by simpa using hc.1, hc.2, rfl⟩

/-- The frame of the reference face: `localTangent` is a unit vector and the polygon is behind the face. -/
theorem face_frame [Elem F] [ElemLaws F] {p : Polygon F} (hp : ProperPolygon p) {i : Nat} (hi : i < p.verts.length) :
    let v1 := psGet p.verts i
    let v2 := psGet p.verts (nextIndex i p.verts.length)
    let t := (v2 - v1).normalize.1
    dot t t = 1 ∧ crossVS t 1 = psGet p.normals i ∧ 0 < dot (v2 - v1) t ∧ v2 - v1 = dot (v2 - v1) t * t := by
  intro v1 v2 t
  obtain ⟨k, hk, hn, hnn⟩ := hp.face hi
  have hl := hp.long _ _ (ProperPolygon.nextTo hi)
  obtain ⟨u1, u2, u3⟩ := normalize_unit (d := v2 - v1) (s := epsilon) (le_refl _) (by rw [sub_dist2, dist2_comm]; exact hl)
  obtain ⟨l, hl0, e1, -⟩ := normalize_scale (v2 - v1)
  have he : (0 : F) < epsilon := eps_pos
  have hdd : 0 < dot (v2 - v1) (v2 - v1) := by rw [sub_dist2, dist2_comm]; exact (mul_pos he he).trans_le hl
  have hpos : 0 < dot (v2 - v1) t := by
    rcases lt_or_eq_of_le u2 with h | h
    · exact h
    · rw [← h] at u3; rw [← u3] at hdd; simp at hdd
  refine ⟨u1, ?_, hpos, along_unit u1 u2 (le_refl _) u3.symm⟩
  have hkl : k = l := by
    have h1 : k * k * dot (v2 - v1) (v2 - v1) = 1 := by
      rw [← hnn, hn]; simp only [dot]; ring
    have h2 : l * l * dot (v2 - v1) (v2 - v1) = 1 := by
      rw [← u1]; change _ = dot (v2 - v1).normalize.1 (v2 - v1).normalize.1; rw [e1]; simp only [dot]; ring
    have h3 : (k - l) * ((k + l) * dot (v2 - v1) (v2 - v1)) = 0 := by linear_combination h1 - h2
    rcases mul_eq_zero.mp h3 with h | h
    · linarith
    · exact absurd h (mul_pos (by linarith) hdd).ne'
  change crossVS (v2 - v1).normalize.1 1 = _
  rw [e1, hn, hkl]
  ext <;> simp only [crossVS] <;> ring

theorem midpoint_hull {vs : List (Vec2 F)} {a b : Vec2 F} (ha : Hull vs a) (hb : Hull vs b) : Hull vs ((1 / 2 : F) * (a + b)) := by
  rw [show (1 / 2 : F) * (a + b) = onLine a b (1 / 2) from by
    ext <;> simp only [onLine, Vec2.smul_x, Vec2.smul_y, Vec2.add_x, Vec2.add_y] <;> ring]
  exact .between ha hb (by norm_num) (by norm_num)

theorem Spec.ProperPolygon.mid_height {p : Polygon F} (hp : ProperPolygon p) {i : Nat} (hi : i < p.verts.length) (x : Vec2 F) :
    dot (psGet p.normals i) (x - (1 / 2 : F) * (psGet p.verts i + psGet p.verts (nextIndex i p.verts.length))) = faceHeight p i x := by
  have e1 := hp.height_next hi x
  have e2 : faceHeight p i x = dot (psGet p.normals i) (x - psGet p.verts i) := rfl
  simp only [dot, Vec2.sub_x, Vec2.sub_y, Vec2.add_x, Vec2.add_y, Vec2.smul_x, Vec2.smul_y] at e1 e2 ⊢
  linear_combination (-1 / 2 : F) * e1 - 1 / 2 * e2

/-- The second half of `b2_collide_polygons`. -/
theorem clipPolygons_sound [Elem F] [ElemLaws F] {p1 p2 : Polygon F} (h1 : ProperPolygon p1) (h2 : ProperPolygon p2)
    {xf1 xf2 : Xf F} (r1 : IsRot xf1.q) (r2 : IsRot xf2.q) {edge1 : Nat} (he : edge1 < p1.verts.length) (r : F) (flip : Bool) :
    ∃ m, clipPolygons r p1 xf1 edge1 p2 xf2 flip = some m ∧ m.points.length ≤ 2 ∧ m.type = (if flip then .faceB else .faceA) ∧
      (m.points ≠ [] → m.localNormal = psGet p1.normals edge1 ∧ FaceSound p1.verts xf1 p2.verts xf2 r m) := by
  simp only [clipPolygons, findIncidentEdge, if_pos he, Option.bind_some]
  set i1 := mostAntiParallel (xf2.q.mulTV (xf1.q.mulV (psGet p1.normals edge1))) p2.normals p2.verts.length with hi1
  have hi1l : i1 < p2.verts.length := mostAntiParallel_lt _ _ (by have := h2.convex.1; omega)
  have hi2l := nextIndex_lt hi1l
  obtain ⟨f1, f2, f3, f4⟩ := face_frame h1 he
  set t := (psGet p1.verts (nextIndex edge1 p1.verts.length) - psGet p1.verts edge1).normalize.1
  obtain ⟨rr, hr, hsp⟩ := clipTwice_spec (⟨xf2.mulV (psGet p2.verts i1), ⟨⟨UInt8.ofNat edge1, UInt8.ofNat i1, eFace, eVertex⟩⟩⟩ : ClipVertex F)
    ⟨xf2.mulV (psGet p2.verts (nextIndex i1 p2.verts.length)), ⟨⟨UInt8.ofNat edge1, UInt8.ofNat (nextIndex i1 p2.verts.length), eFace, eVertex⟩⟩⟩
    (-xf1.q.mulV t) (-dot (xf1.q.mulV t) (xf1.mulV (psGet p1.verts edge1)) + r) edge1 (xf1.q.mulV t)
    (dot (xf1.q.mulV t) (xf1.mulV (psGet p1.verts (nextIndex edge1 p1.verts.length))) + r) (nextIndex edge1 p1.verts.length)
  rw [hr, Option.bind_some]
  match rr, hsp with
  | none, _ => exact ⟨_, rfl, by simp [Manifold.default], rfl, fun h => absurd rfl h⟩
  | some (c, d), hsp =>
    obtain ⟨s1, s2, -⟩ := hsp c d rfl
    simp only [] at s1 s2
    refine ⟨_, rfl, length_filter_map_le _ _ _ _, rfl, fun _ => ⟨f2, ?_⟩⟩
    have hv1 := ProperPolygon.vert_hull (p := p1) he
    have hv2 := ProperPolygon.vert_hull (p := p1) (nextIndex_lt he)
    have hsub : ∀ x, Hull [xf2.mulV (psGet p2.verts i1), xf2.mulV (psGet p2.verts (nextIndex i1 p2.verts.length))] x → Hull p2.verts (unplace xf2 x) := by
      intro x hx
      apply hull_unplace r2
      refine hull_pair_sub ?_ ?_ hx
      · exact .vertex (List.mem_map_of_mem (List.mem_of_getElem? (psGet_some hi1l)))
      · exact .vertex (List.mem_map_of_mem (List.mem_of_getElem? (psGet_some hi2l)))
    have hcr : crossVS (xf1.q.mulV t) 1 = xf1.q.mulV (psGet p1.normals edge1) := by
      rw [← f2]; ext <;> simp only [crossVS, Rot.mulV] <;> ring
    refine ⟨?_, midpoint_hull hv1 hv2, ?_, ?_, ?_⟩
    · simp only []; rw [f2]; exact (h1.face he).choose_spec.2.2
    · intro x hx; simp only []; rw [f2, h1.mid_height he]; exact h1.below he hx
    · intro p hpm
      obtain ⟨c', hc', -, rfl⟩ := mem_filter_pair hpm
      simp only [ManifoldPoint.at', mulTV_unplace]
      rcases hc' with rfl | rfl
      · exact hsub _ s1
      · exact hsub _ s2
    · intro p hpm q hq
      obtain ⟨c', -, hle, rfl⟩ := mem_filter_pair hpm
      simp only [ManifoldPoint.at', mulTV_unplace, place_unplace r2] at hq
      simp only [decide_eq_true_eq] at hle
      simp only []
      rw [hcr, ← hq] at hle
      rw [f2, h1.mid_height he]
      refine le_trans (le_of_eq ?_) hle
      rw [faceHeight, ← rotV_dot r1, ← place_sub]
      simp only [place_eq, dot, Vec2.sub_x, Vec2.sub_y]; ring

theorem sound_default (a : Shape F) (i : Nat) (xfA : Xf F) (b : Shape F) (xfB : Xf F) : Spec.Manifold.Sound a i xfA b xfB Manifold.default :=
  ⟨by simp [Manifold.default], fun _ h => absurd rfl h, fun _ h => absurd rfl h, fun _ h => absurd rfl h⟩

theorem collidePolygons_sound [Elem F] [ElemLaws F] {a b : Polygon F} (ha : ProperPolygon a) (hb : ProperPolygon b)
    {xfA xfB : Xf F} (rA : IsRot xfA.q) (rB : IsRot xfB.q) (i : Nat) :
    ∃ m, collidePolygons a xfA b xfB = some m ∧ Spec.Manifold.Sound (.polygon a) i xfA (.polygon b) xfB m := by
  have hna : a.verts ≠ [] := by intro h; have := ha.convex.1; rw [h] at this; simp at this
  have hnb : b.verts ≠ [] := by intro h; have := hb.convex.1; rw [h] at this; simp at this
  simp only [collidePolygons]
  split_ifs
  · exact ⟨_, rfl, sound_default _ _ _ _ _⟩
  · exact ⟨_, rfl, sound_default _ _ _ _ _⟩
  · obtain ⟨m, hm, h1, h2, h3⟩ := clipPolygons_sound hb ha rB rA (findMaxSeparation_lt b xfB a xfA hnb) (a.radius + b.radius) true
    refine ⟨m, hm, h1, ?_, ?_, ?_⟩
    · intro h; rw [h2] at h; simp at h
    · intro h; rw [h2] at h; simp at h
    · intro _ h; exact (h3 h).2
  · obtain ⟨m, hm, h1, h2, h3⟩ := clipPolygons_sound ha hb rA rB (findMaxSeparation_lt a xfA b xfB hna) (a.radius + b.radius) false
    refine ⟨m, hm, h1, ?_, ?_, ?_⟩
    · intro h; rw [h2] at h; simp at h
    · intro _ h; exact (h3 h).2
    · intro h; rw [h2] at h; simp at h

end
end B2
