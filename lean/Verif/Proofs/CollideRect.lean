import Verif.Proofs.CollideSat
import Verif.Spec.Rectangle
import Mathlib.Tactic.IntervalCases

/-!
# Lemmas about the contacts of rectangles
-/
namespace B2
open Spec
set_option linter.unusedSectionVars false
section
variable {F : Type} [Field F] [LinearOrder F] [IsStrictOrderedRing F]

/-! ## Clipping to a strip -/

theorem hull_pair_le {a b x n : Vec2 F} (hx : Hull [a, b] x) {o : F} (ha : dot n a ≤ o) (hb : dot n b ≤ o) : dot n x ≤ o := by
  induction hx with
  | vertex hv =>
    simp only [List.mem_cons, List.not_mem_nil, or_false] at hv
    rcases hv with rfl | rfl
    · exact ha
    · exact hb
  | @between c d t _ _ t0 t1 iha ihb =>
    have : dot n (onLine c d t) = (1 - t) * dot n c + t * dot n d := by simp only [dot, onLine]; ring
    rw [this]
    nlinarith [mul_le_mul_of_nonneg_left iha (sub_nonneg.mpr t1), mul_le_mul_of_nonneg_left ihb t0]

/-- An edge that runs against `t` and is not beyond either side of the strip leaves a piece that reaches from side to side
as far as the edge does. -/
theorem clipTwice_strip {c0 c1 : ClipVertex F} {t : Vec2 F} {lo hi : F} (i1 i2 : Nat) (hlh : lo < hi) (h01 : dot t c1.v < dot t c0.v)
    (h0 : lo < dot t c0.v) (h1 : dot t c1.v < hi) :
    ∃ c d, clipTwice c0 c1 (-t) (-lo) i1 t hi i2 = some (some (c, d)) ∧ Hull [c0.v, c1.v] c.v ∧ Hull [c0.v, c1.v] d.v ∧
      (∃ x, (x = c ∨ x = d) ∧ dot t x.v ≤ max (dot t c1.v) lo) ∧ (∃ x, (x = c ∨ x = d) ∧ min (dot t c0.v) hi ≤ dot t x.v) := by
  have hneg : ∀ v : Vec2 F, dot (-t) v = -dot t v := by intro v; simp only [dot, Vec2.neg_x, Vec2.neg_y]; ring
  -- the first clip
  have hA : ∃ a b, clipSegmentToLine c0 c1 (-t) (-lo) i1 = some [a, b] ∧ a = c0 ∧ dot t b.v = max (dot t c1.v) lo := by
    rcases clip_cases c0 c1 (-t) (-lo) i1 with ⟨-, a2, a3⟩ | ⟨a, c, ha, a3, -, a5, -⟩ | ⟨h, -⟩
    · rw [hneg] at a2
      exact ⟨c0, c1, a3, rfl, (max_eq_left (by linarith)).symm⟩
    · rw [hneg, hneg] at ha; rw [hneg] at a5
      rcases ha with ⟨rfl, -, h⟩ | ⟨-, h, h'⟩
      · exact ⟨_, c, a3, rfl, by rw [max_eq_right (by linarith)]; linarith⟩
      · linarith
    · rw [hneg, hneg] at h
      rcases h with ⟨h, -⟩ | ⟨h, -⟩ | ⟨h, -⟩ <;> linarith
  obtain ⟨a, b, hab, rfl, hb⟩ := hA
  have hbl : dot t b.v < dot t a.v := by rw [hb]; exact max_lt h01 h0
  have hbh : dot t b.v < hi := by rw [hb]; exact max_lt h1 hlh
  obtain ⟨g1, g2, -⟩ := clip_two hab
  have hB : ∃ c d, clipSegmentToLine a b t hi i2 = some [c, d] ∧
      (∃ x, (x = c ∨ x = d) ∧ dot t x.v ≤ dot t b.v) ∧ (∃ x, (x = c ∨ x = d) ∧ min (dot t a.v) hi ≤ dot t x.v) := by
    rcases clip_cases a b t hi i2 with ⟨a1, a2, a3⟩ | ⟨e, c, he, a3, -, a5, -⟩ | ⟨h, -⟩
    · exact ⟨a, b, a3, ⟨b, .inr rfl, le_refl _⟩, ⟨a, .inl rfl, min_le_left _ _⟩⟩
    · rcases he with ⟨-, h, h'⟩ | ⟨rfl, h, h'⟩
      · linarith
      · exact ⟨e, c, a3, ⟨e, .inl rfl, le_refl _⟩, ⟨c, .inr rfl, by rw [a5]; exact min_le_right _ _⟩⟩
    · rcases h with ⟨-, h⟩ | ⟨-, h⟩ | ⟨-, h⟩ <;> linarith
  obtain ⟨c, d, hcd, k1, k2⟩ := hB
  obtain ⟨q1, q2, -⟩ := clip_two hcd
  refine ⟨c, d, by simp only [clipTwice, hab, hcd, Option.bind_some], hull_pair_sub g1 g2 q1, hull_pair_sub g1 g2 q2, ?_, k2⟩
  obtain ⟨x, hx, h⟩ := k1
  exact ⟨x, hx, h.trans_eq hb⟩

/-! ## Quarter turns -/

/-- A quarter turn to the left. -/
def qturn (v : Vec2 F) : Vec2 F := ⟨-v.y, v.x⟩

/-- The next normal of a rectangle. -/
theorem Spec.IsRectangle.normal_next {p : Polygon F} {size : F} (h : IsRectangle p size) {i : Nat} (hi : i < 4) :
    psGet p.normals (nextIndex i 4) = qturn (psGet p.normals i) := by
  have hi' : i < p.verts.length := by rw [h.four]; exact hi
  have hn' := nextIndex_lt hi'
  obtain ⟨k, hk, e1, u1⟩ := h.proper.face hi'
  obtain ⟨l, hl, e2, u2⟩ := h.proper.face hn'
  have hc := h.proper.normals_turn hi'
  have hr := h.right _ _ _ (ProperPolygon.nextTo hi') (ProperPolygon.nextTo hn')
  have hd : dot (psGet p.normals i) (psGet p.normals (nextIndex i p.verts.length)) = 0 := by
    rw [e1, e2]; simp only [dot, Vec2.sub_x, Vec2.sub_y]; linear_combination k * l * hr
  rw [h.four] at *
  clear e1 e2 hr
  generalize psGet p.normals i = n at *
  generalize psGet p.normals (nextIndex i 4) = m at *
  simp only [dot, cross] at *
  have hc1 : n.x * m.y - n.y * m.x = 1 := by
    have : (n.x * m.y - n.y * m.x) * (n.x * m.y - n.y * m.x) = 1 := by
      linear_combination (m.x * m.x + m.y * m.y) * u1 + u2 - (n.x * m.x + n.y * m.y) * hd
    nlinarith
  ext <;> simp only [qturn]
  · linear_combination n.x * hd - n.y * hc1 - m.x * u1
  · linear_combination n.y * hd + n.x * hc1 - m.y * u1

/-- Placed normal and vertex. -/
def wn (p : Polygon F) (xf : Xf F) (i : Nat) : Vec2 F := xf.q.mulV (psGet p.normals i)
def wv (p : Polygon F) (xf : Xf F) (i : Nat) : Vec2 F := xf.mulV (psGet p.verts i)

theorem faceHeight_world {xf : Xf F} (r : IsRot xf.q) (p : Polygon F) (i : Nat) (x : Vec2 F) :
    faceHeight p i (unplace xf x) = dot (wn p xf i) (x - wv p xf i) := by
  rw [faceHeight, ← rotV_dot r, ← place_sub, place_unplace r]
  rfl

/-- What is needed of a side of a placed rectangle: its normal `n`, and that the next and the last side are at right angles to it. -/
structure Side (p : Polygon F) (xf : Xf F) (i : Nat) (n a b : Vec2 F) : Prop where
  unit : dot n n = 1
  n0 : wn p xf i = n
  n1 : wn p xf (nextIndex i 4) = qturn n
  n2 : wn p xf (nextIndex (nextIndex i 4) 4) = -n
  n3 : wn p xf (nextIndex (nextIndex (nextIndex i 4) 4) 4) = -qturn n
  front : ∀ x, Hull p.verts (unplace xf x) → dot n x ≤ dot n a
  right : ∀ x, Hull p.verts (unplace xf x) → dot (qturn n) x ≤ dot (qturn n) b
  left : ∀ x, Hull p.verts (unplace xf x) → dot (qturn n) a ≤ dot (qturn n) x
  edge : ∃ L : F, 0 < L ∧ b = a + L * qturn n
  ha : wv p xf i = a
  hb : wv p xf (nextIndex i 4) = b

theorem qturn_rot (q : Rot F) (v : Vec2 F) : q.mulV (qturn v) = qturn (q.mulV v) := by
  ext <;> simp only [qturn, Rot.mulV] <;> ring

theorem qturn_qturn (v : Vec2 F) : qturn (qturn v) = -v := by ext <;> simp [qturn]
theorem qturn_neg (v : Vec2 F) : qturn (-v) = -qturn v := by ext <;> simp [qturn]

theorem nextIndex4 {i : Nat} (hi : i < 4) : nextIndex (nextIndex (nextIndex (nextIndex i 4) 4) 4) 4 = i := by
  interval_cases i <;> rfl

theorem Spec.IsRectangle.side {p : Polygon F} {size : F} (h : IsRectangle p size) {xf : Xf F} (r : IsRot xf.q) {i : Nat} (hi : i < 4) :
    Side p xf i (wn p xf i) (wv p xf i) (wv p xf (nextIndex i 4)) := by
  have l4 := h.four
  have i1 : nextIndex i 4 < 4 := nextIndex_lt hi
  have i2 : nextIndex (nextIndex i 4) 4 < 4 := nextIndex_lt i1
  have i3 : nextIndex (nextIndex (nextIndex i 4) 4) 4 < 4 := nextIndex_lt i2
  have e1 : ∀ j < 4, wn p xf (nextIndex j 4) = qturn (wn p xf j) := fun j hj => by
    rw [wn, h.normal_next hj, qturn_rot]; rfl
  have n1 := e1 i hi
  have n2 : wn p xf (nextIndex (nextIndex i 4) 4) = -wn p xf i := by rw [e1 _ i1, n1, qturn_qturn]
  have n3 : wn p xf (nextIndex (nextIndex (nextIndex i 4) 4) 4) = -qturn (wn p xf i) := by rw [e1 _ i2, n2, qturn_neg]
  have hbel : ∀ j < 4, ∀ x, Hull p.verts (unplace xf x) → dot (wn p xf j) (x - wv p xf j) ≤ 0 := fun j hj x hx => by
    rw [← faceHeight_world r]; exact h.proper.below (by rw [l4]; exact hj) hx
  have hsub : ∀ n x y : Vec2 F, dot n (x - y) = dot n x - dot n y := by intro n x y; simp only [dot, Vec2.sub_x, Vec2.sub_y]; ring
  refine ⟨?_, rfl, n1, n2, n3, ?_, ?_, ?_, ?_, rfl, rfl⟩
  · rw [wn, rotV_dot r]
    obtain ⟨_, -, -, h⟩ := h.proper.face (i := i) (by rw [l4]; exact hi)
    exact h
  · intro x hx
    have := hbel i hi x hx
    rw [hsub] at this; linarith
  · intro x hx
    have := hbel _ i1 x hx
    rw [hsub, n1] at this; linarith
  · intro x hx
    have hp : faceHeight p (nextIndex (nextIndex (nextIndex i 4) 4) 4) (unplace xf x) ≤ 0 := h.proper.below (by rw [l4]; exact i3) hx
    have hq := h.proper.height_next (i := nextIndex (nextIndex (nextIndex i 4) 4) 4) (by rw [l4]; exact i3) (unplace xf x)
    rw [l4, nextIndex4 hi, ← rotV_dot r, ← place_sub, place_unplace r] at hq
    rw [hq] at hp
    change dot (wn p xf _) (x - wv p xf i) ≤ 0 at hp
    rw [n3, hsub] at hp
    simp only [dot, Vec2.neg_x, Vec2.neg_y] at hp ⊢
    linarith
  · obtain ⟨k, hk, e, -⟩ := h.proper.face (i := i) (by rw [l4]; exact hi)
    rw [l4] at e
    refine ⟨1 / k, by positivity, ?_⟩
    have hk' := hk.ne'
    ext <;> simp only [wv, wn, Xf.mulV, Rot.mulV, qturn, e, Vec2.add_x, Vec2.add_y, Vec2.smul_x, Vec2.smul_y, Vec2.sub_x, Vec2.sub_y] <;> field_simp <;> ring


/-! ## In the frame of the reference face -/

/-- The point of the incident edge over a common point. -/
theorem over_common {mu tau x0 y0 L xq yq : F} (hu : mu * mu + tau * tau = 1) (hmu : mu < 0)
    (hm : mu * yq - tau * xq ≤ mu * y0 - tau * x0) (h1 : tau * y0 + mu * x0 ≤ tau * yq + mu * xq)
    (h2 : tau * yq + mu * xq ≤ tau * (y0 + L * tau) + mu * (x0 + L * mu)) :
    ∃ l, 0 ≤ l ∧ l ≤ L ∧ y0 + l * tau ≤ yq ∧ (tau ≤ 0 → xq ≤ x0 + l * mu) ∧ (0 ≤ tau → x0 + l * mu ≤ xq) := by
  have hh : 0 ≤ (mu * y0 - tau * x0) - (mu * yq - tau * xq) := sub_nonneg.mpr hm
  set h := (mu * y0 - tau * x0) - (mu * yq - tau * xq) with hd
  refine ⟨tau * (yq - y0) + mu * (xq - x0), by linarith, ?_, ?_, ?_, ?_⟩
  · have : L * (mu * mu + tau * tau) = L := by rw [hu, mul_one]
    linarith
  · have e : y0 + (tau * (yq - y0) + mu * (xq - x0)) * tau = yq + h * mu := by
      rw [hd]; linear_combination (yq - y0) * hu
    rw [e]; nlinarith
  · intro ht
    have e : x0 + (tau * (yq - y0) + mu * (xq - x0)) * mu = xq - h * tau := by
      rw [hd]; linear_combination (xq - x0) * hu
    rw [e]; nlinarith
  · intro ht
    have e : x0 + (tau * (yq - y0) + mu * (xq - x0)) * mu = xq - h * tau := by
      rw [hd]; linear_combination (xq - x0) * hu
    rw [e]; nlinarith

/-- If the incident edge were beyond the right end, the incident rectangle would have a face with a clearly greater separation. -/
theorem sat_right {mu tau x1 y1 H W r s e xu yu : F} (hu : mu * mu + tau * tau = 1) (hmu : mu ≤ -(1 / 2)) (ht : tau ≤ 0) (hx : W + r ≤ x1)
    (hy : y1 ≤ H) (hs : s ≤ y1 - H) (hyu : yu ≤ H) (hxu : xu ≤ W) (hr : 0 < r) (he : e < r / 2)
    (h : tau * yu + mu * xu - (tau * y1 + mu * x1) ≤ s + e) : False := by
  have a1 : tau * H ≤ tau * yu := mul_le_mul_of_nonpos_left hyu ht
  have a2 : mu * W ≤ mu * xu := mul_le_mul_of_nonpos_left hxu (by linarith)
  have a3 : mu * x1 ≤ mu * (W + r) := mul_le_mul_of_nonpos_left hx (by linarith)
  have a4 : -1 ≤ tau := by nlinarith [mul_self_nonneg mu]
  have a5 : 0 ≤ (1 + tau) * (H - y1) := mul_nonneg (by linarith) (by linarith)
  have a6 : mu * r ≤ -(1 / 2) * r := mul_le_mul_of_nonneg_right hmu hr.le
  nlinarith

theorem sat_left {mu tau x0 y0 H W r s e xu yu : F} (hu : mu * mu + tau * tau = 1) (hmu : mu ≤ -(1 / 2)) (ht : 0 ≤ tau) (hx : x0 ≤ W - r)
    (hy : y0 ≤ H) (hs : s ≤ y0 - H) (hyu : yu ≤ H) (hxu : W ≤ xu) (hr : 0 < r) (he : e < r / 2)
    (h : -(tau * yu + mu * xu) + (tau * y0 + mu * x0) ≤ s + e) : False := by
  refine sat_right (mu := mu) (tau := -tau) (x1 := -x0) (y1 := y0) (H := H) (W := -W) (r := r) (s := s) (e := e) (xu := -xu) (yu := yu)
    (by linarith) hmu (by linarith) (by linarith) hy hs hyu (by linarith) hr he (by linarith)

theorem mostAntiParallel_le {n : Vec2 F} {ns : List (Vec2 F)} {k : Nat} (hk : 0 < k) (hlt : ∀ i < k, dot n (psGet ns i) < maxFlt) :
    ∀ j < k, dot n (psGet ns (mostAntiParallel n ns k)) ≤ dot n (psGet ns j) := by
  obtain ⟨-, h2, h3⟩ := argmin_spec (fun i => dot n (psGet ns i)) (List.range k) (0, maxFlt)
  intro j hj
  have := h2 j (List.mem_range.mpr hj)
  simp only [mostAntiParallel]
  rcases h3 with h3 | ⟨-, h3⟩
  · rw [h3] at this
    exact absurd (hlt j hj) (not_lt.mpr this)
  · rw [← h3]; exact this

theorem hull_vertex_le (n : Vec2 F) {vs : List (Vec2 F)} {x : Vec2 F} (hx : Hull vs x) : ∃ v ∈ vs, dot n v ≤ dot n x := by
  induction hx with
  | vertex hv => exact ⟨_, hv, le_refl _⟩
  | @between c d t _ _ t0 t1 iha ihb =>
    obtain ⟨v, hv, h⟩ := iha
    obtain ⟨w, hw, h'⟩ := ihb
    have e : dot n (onLine c d t) = (1 - t) * dot n c + t * dot n d := by simp only [dot, onLine]; ring
    rcases le_total (dot n c) (dot n d) with hcd | hcd
    · exact ⟨v, hv, by rw [e]; nlinarith⟩
    · exact ⟨w, hw, by rw [e]; nlinarith⟩

theorem low_of {mu tau Y y0 X x0 l : F} (hmu : mu < 0) (e0 : mu * Y - tau * X = mu * y0 - tau * x0) (h : tau * (x0 + l * mu) ≤ tau * X) :
    Y ≤ y0 + l * tau := by
  by_contra hc
  have h1 := mul_neg_of_neg_of_pos hmu (sub_pos.mpr (not_le.mp hc))
  have h2 : mu * (Y - (y0 + l * tau)) = tau * X - tau * (x0 + l * mu) := by linear_combination e0
  linarith

set_option maxHeartbeats 1000000 in
theorem clipPolygons_rect [Elem F] [ElemLaws F] {p1 p2 : Polygon F} {z1 z2 : F} (h1 : IsRectangle p1 z1) (h2 : IsRectangle p2 z2)
    {xf1 xf2 : Xf F} (r1 : IsRot xf1.q) (r2 : IsRot xf2.q) {edge1 : Nat} (he : edge1 < 4) {r s e : F} (flip : Bool) (hr : 0 < r) (hre : e < r / 2)
    {q : Vec2 F} (q1 : Hull p1.verts (unplace xf1 q)) (q2 : Hull p2.verts (unplace xf2 q))
    (F1 : ∀ v ∈ p2.verts, s ≤ heightOver p1 xf1 xf2 edge1 v)
    (F2 : ∀ j < 4, ∃ u ∈ p1.verts, heightOver p2 xf2 xf1 j u ≤ s + e) :
    ∃ m, clipPolygons r p1 xf1 edge1 p2 xf2 flip = some m ∧ m.points ≠ [] := by
  have l1 := h1.four
  have l2 := h2.four
  have hed : edge1 < p1.verts.length := by rw [l1]; exact he
  simp only [clipPolygons, findIncidentEdge, if_pos hed, Option.bind_some]
  obtain ⟨-, f2, -, -⟩ := face_frame h1.proper hed
  set lt := (psGet p1.verts (nextIndex edge1 p1.verts.length) - psGet p1.verts edge1).normalize.1
  have hS1 := h1.side r1 he
  set n := wn p1 xf1 edge1 with hn
  have htan : xf1.q.mulV lt = qturn n := by
    rw [hn, wn, ← f2]; ext <;> simp only [qturn, crossVS, Rot.mulV] <;> ring
  have hnor : crossVS (qturn n) 1 = n := by
    ext <;> simp [qturn, crossVS]
  have hmax : (1 : F) < maxFlt := by norm_num [maxFlt]
  set i1 := mostAntiParallel (xf2.q.mulTV (xf1.q.mulV (psGet p1.normals edge1))) p2.normals p2.verts.length with hi1
  have hi1l : i1 < 4 := by rw [← l2]; exact mostAntiParallel_lt _ _ (by omega)
  have hdot : ∀ j, dot (xf2.q.mulTV (xf1.q.mulV (psGet p1.normals edge1))) (psGet p2.normals j) = dot n (wn p2 xf2 j) := by
    intro j; rw [← rotV_dot r2, rot_mulTV r2]; rfl
  have hunit : ∀ j < 4, dot (wn p2 xf2 j) (wn p2 xf2 j) = 1 := fun j hj => (h2.side r2 hj).unit
  have hanti : ∀ j < 4, dot n (wn p2 xf2 i1) ≤ dot n (wn p2 xf2 j) := by
    intro j hj
    have := mostAntiParallel_le (n := xf2.q.mulTV (xf1.q.mulV (psGet p1.normals edge1))) (ns := p2.normals) (k := p2.verts.length) (by omega)
      (fun i hi => by
        rw [hdot]
        have a := hunit i (by omega)
        have b := hS1.unit
        simp only [dot] at a b ⊢
        have c := mul_self_nonneg (n.x - (wn p2 xf2 i).x)
        have d := mul_self_nonneg (n.y - (wn p2 xf2 i).y)
        nlinarith) j (by omega)
    rw [hdot, hdot] at this
    exact this
  have hS2 := h2.side r2 hi1l
  have j1 : nextIndex i1 4 < 4 := nextIndex_lt hi1l
  have j3 : nextIndex (nextIndex (nextIndex i1 4) 4) 4 < 4 := nextIndex_lt (nextIndex_lt j1)
  have t1 := hanti _ j1
  have t3 := hanti _ j3
  rw [hS2.n1] at t1
  rw [hS2.n3] at t3
  set m := wn p2 xf2 i1 with hm
  rw [l1, l2, htan, hnor]
  change ∃ m', (clipTwice (⟨wv p2 xf2 i1, _⟩ : ClipVertex F) ⟨wv p2 xf2 (nextIndex i1 4), _⟩ (-qturn n) (-dot (qturn n) (wv p1 xf1 edge1) + r) edge1
    (qturn n) (dot (qturn n) (wv p1 xf1 (nextIndex edge1 4)) + r) (nextIndex edge1 4)).bind _ = some m' ∧ _
  set a := wv p1 xf1 edge1 with hA
  set b := wv p1 xf1 (nextIndex edge1 4) with hB
  obtain ⟨La, hLa, eab⟩ := hS1.edge
  obtain ⟨L, hL, ecd⟩ := hS2.edge
  set c0 := wv p2 xf2 i1 with hc0
  set c1 := wv p2 xf2 (nextIndex i1 4) with hc1
  -- coordinates
  have hnn := hS1.unit
  have hmm := hS2.unit
  obtain ⟨mu, hmu⟩ : ∃ mu, dot n m = mu := ⟨_, rfl⟩
  obtain ⟨tau, htau⟩ : ∃ tau, dot n (qturn m) = tau := ⟨_, rfl⟩
  have hu : mu * mu + tau * tau = 1 := by
    rw [← hmu, ← htau]; simp only [dot, qturn] at hnn hmm ⊢; linear_combination hmm * (n.x * n.x + n.y * n.y) + hnn
  have hng : ∀ u v : Vec2 F, dot u (-v) = -dot u v := by intro u v; simp only [dot, Vec2.neg_x, Vec2.neg_y]; ring
  rw [hmu, htau] at t1
  rw [hng, hmu, htau] at t3
  have hmu0 : mu < 0 := by
    rcases lt_or_ge mu 0 with h | h
    · exact h
    · have : mu = 0 := by linarith
      have : tau = 0 := by linarith
      simp_all
  have hmu1 : mu ≤ -(1 / 2) := by
    have : tau * tau ≤ mu * mu := by nlinarith
    nlinarith
  have em : ∀ v, dot m v = mu * dot n v - tau * dot (qturn n) v := by
    intro v; rw [← hmu, ← htau]; simp only [dot, qturn] at hnn ⊢; linear_combination (-(m.x * v.x + m.y * v.y)) * hnn
  have et : ∀ v, dot (qturn m) v = tau * dot n v + mu * dot (qturn n) v := by
    intro v; rw [← hmu, ← htau]; simp only [dot, qturn] at hnn ⊢; linear_combination (-(-m.y * v.x + m.x * v.y)) * hnn
  have ex1 : dot (qturn n) c1 = dot (qturn n) c0 + L * mu := by
    rw [ecd, ← hmu]; simp only [dot, qturn, Vec2.add_x, Vec2.add_y, Vec2.smul_x, Vec2.smul_y]; ring
  have ey1 : dot n c1 = dot n c0 + L * tau := by
    rw [ecd, ← htau]; simp only [dot, qturn, Vec2.add_x, Vec2.add_y, Vec2.smul_x, Vec2.smul_y]; ring
  have exb : dot (qturn n) b = dot (qturn n) a + La := by
    rw [eab]; simp only [dot, qturn, Vec2.add_x, Vec2.add_y, Vec2.smul_x, Vec2.smul_y] at hnn ⊢; linear_combination La * hnn
  have k1 := hS2.front q q2
  have k2 := hS2.left q q2
  have k3 := hS2.right q q2
  rw [em, em] at k1
  rw [et, et] at k2 k3
  rw [ex1, ey1] at k3
  obtain ⟨l, hl0, hlL, o1, o2, o3⟩ := over_common hu hmu0 k1 k2 k3
  have m1 := hS1.front q q1
  have m2 := hS1.left q q1
  have m3 := hS1.right q q1
  have hvert : ∀ u ∈ p1.verts, Hull p1.verts (unplace xf1 (place xf1 u)) := fun u hu => by
    rw [unplace_place r1]; exact .vertex hu
  have hF1 : ∀ j < 4, s ≤ dot n (wv p2 xf2 j) - dot n a := by
    intro j hj
    have := F1 (psGet p2.verts j) (List.mem_of_getElem? (psGet_some (by omega)))
    rw [heightOver, faceHeight_world r1] at this
    refine this.trans (le_of_eq ?_)
    simp only [dot, Vec2.sub_x, Vec2.sub_y, wv, place_eq, ← hn, hA]; ring
  have hF2 : ∀ j < 4, ∃ u, Hull p1.verts (unplace xf1 u) ∧ dot (wn p2 xf2 j) u - dot (wn p2 xf2 j) (wv p2 xf2 j) ≤ s + e := by
    intro j hj
    obtain ⟨u, hu, h⟩ := F2 j hj
    refine ⟨place xf1 u, hvert u hu, ?_⟩
    rw [heightOver, faceHeight_world r2] at h
    refine le_trans (le_of_eq ?_) h
    simp only [dot, Vec2.sub_x, Vec2.sub_y]; ring
  have hmuL : L * mu < 0 := mul_neg_of_pos_of_neg hL hmu0
  have hlmu : L * mu ≤ l * mu := mul_le_mul_of_nonpos_right hlL hmu0.le
  have hlmu0 : l * mu ≤ 0 := mul_nonpos_of_nonneg_of_nonpos hl0 hmu0.le
  have hright : dot (qturn n) c1 < dot (qturn n) b + r := by
    by_contra hcon
    have hcon := not_lt.mp hcon
    rcases le_total tau 0 with ht | ht
    · obtain ⟨u, hu1, hu2⟩ := hF2 _ j1
      rw [hS2.n1, et, et] at hu2
      have hlt : L * tau ≤ l * tau := mul_le_mul_of_nonpos_right hlL ht
      exact sat_right hu hmu1 ht hcon (by rw [ey1]; linarith) (hF1 _ j1) (hS1.front u hu1) (hS1.right u hu1) hr hre hu2
    · have := o3 ht
      rw [ex1] at hcon; linarith
  have hleft : dot (qturn n) a - r < dot (qturn n) c0 := by
    by_contra hcon
    have hcon := not_lt.mp hcon
    rcases le_total 0 tau with ht | ht
    · obtain ⟨u, hu1, hu2⟩ := hF2 _ j3
      have hh := h2.proper.height_next (i := nextIndex (nextIndex (nextIndex i1 4) 4) 4) (by rw [l2]; exact j3) (unplace xf2 u)
      rw [l2, nextIndex4 hi1l, ← rotV_dot r2, ← place_sub, place_unplace r2, faceHeight_world r2] at hh
      have hw : dot (wn p2 xf2 (nextIndex (nextIndex (nextIndex i1 4) 4) 4)) u -
          dot (wn p2 xf2 (nextIndex (nextIndex (nextIndex i1 4) 4) 4)) (wv p2 xf2 (nextIndex (nextIndex (nextIndex i1 4) 4) 4)) =
          dot (-qturn m) (u - c0) := by
        rw [← hS2.n3]
        refine Eq.trans ?_ (hh.trans rfl)
        simp only [dot, Vec2.sub_x, Vec2.sub_y]; ring
      rw [hw] at hu2
      have hlt : 0 ≤ l * tau := mul_nonneg hl0 ht
      have e0 := et u
      have e0' := et c0
      refine sat_left hu hmu1 ht (x0 := dot (qturn n) c0) (y0 := dot n c0) hcon (by linarith) (hF1 _ hi1l) (hS1.front u hu1) (hS1.left u hu1) hr hre ?_
      rw [← e0, ← e0']
      refine le_trans (le_of_eq ?_) hu2
      simp only [dot, Vec2.sub_x, Vec2.sub_y, Vec2.neg_x, Vec2.neg_y]; ring
    · have := o2 ht
      linarith
  have hlo : -dot (qturn n) a + r = -(dot (qturn n) a - r) := by ring
  rw [hlo]
  obtain ⟨c, d, hcd, g1, g2, ⟨x, hx, hxl⟩, ⟨y, hy, hyl⟩⟩ := clipTwice_strip (c0 := (⟨c0, ⟨⟨UInt8.ofNat edge1, UInt8.ofNat i1, eFace, eVertex⟩⟩⟩ : ClipVertex F))
    (c1 := ⟨c1, ⟨⟨UInt8.ofNat edge1, UInt8.ofNat (nextIndex i1 4), eFace, eVertex⟩⟩⟩) (t := qturn n) (lo := dot (qturn n) a - r)
    (hi := dot (qturn n) b + r) edge1 (nextIndex edge1 4) (by rw [exb]; linarith) (by simp only []; rw [ex1]; linarith) hleft hright
  rw [hcd, Option.bind_some]
  refine ⟨_, rfl, ?_⟩
  simp only [] at g1 g2 hxl hyl ⊢
  have hon : ∀ z : ClipVertex F, (z = c ∨ z = d) → mu * dot n z.v - tau * dot (qturn n) z.v = mu * dot n c0 - tau * dot (qturn n) c0 := by
    intro z hz
    have hz' : Hull [c0, c1] z.v := by
      rcases hz with rfl | rfl
      · exact g1
      · exact g2
    have e10 : dot m c1 = dot m c0 := by rw [em, em, ex1, ey1]; ring
    have hngl : ∀ u v : Vec2 F, dot (-u) v = -dot u v := by intro u v; simp only [dot, Vec2.neg_x, Vec2.neg_y]; ring
    have a1 := hull_pair_le (n := m) hz' (le_refl _) e10.le
    have a2 := hull_pair_le (n := -m) hz' (le_refl _) (by rw [hngl, hngl, e10])
    rw [hngl, hngl] at a2
    rw [← em, ← em]; linarith
  have hlow : ∃ z : ClipVertex F, (z = c ∨ z = d) ∧ dot n z.v ≤ dot n c0 + l * tau := by
    rcases le_total tau 0 with ht | ht
    · refine ⟨x, hx, ?_⟩
      have e0 := hon x hx
      have hxx : dot (qturn n) x.v ≤ dot (qturn n) c0 + l * mu := hxl.trans (max_le (by rw [ex1]; linarith) (by linarith [o2 ht]))
      exact low_of hmu0 e0 (mul_le_mul_of_nonpos_left hxx ht)
    · refine ⟨y, hy, ?_⟩
      have e0 := hon y hy
      have hyy : dot (qturn n) c0 + l * mu ≤ dot (qturn n) y.v := le_trans (le_min (by linarith) (by linarith [o3 ht])) hyl
      exact low_of hmu0 e0 (mul_le_mul_of_nonneg_left hyy ht)
  obtain ⟨z, hz, hzl⟩ := hlow
  intro hnil
  rw [List.map_eq_nil_iff, List.filter_eq_nil_iff] at hnil
  refine hnil z (by rcases hz with rfl | rfl <;> simp) ?_
  simp only [decide_eq_true_eq]
  have : dot n (xf1.mulV (psGet p1.verts edge1)) = dot n a := rfl
  linarith

/-! ## The separations of overlapping rectangles -/

theorem dot_sub (n x y : Vec2 F) : dot n (x - y) = dot n x - dot n y := by simp only [dot, Vec2.sub_x, Vec2.sub_y]; ring
theorem dot_neg_left (n x : Vec2 F) : dot (-n) x = -dot n x := by simp only [dot, Vec2.neg_x, Vec2.neg_y]; ring

theorem dot_unit_ge {n d : Vec2 F} {z : F} (hz : 0 ≤ z) (hn : dot n n = 1) (hd : dot d d ≤ z * z) : -z ≤ dot n d := by
  have h : dot n d * dot n d ≤ z * z := by
    have e : dot n d * dot n d = dot n n * dot d d - cross n d * cross n d := by simp only [dot, cross]; ring
    rw [e, hn]; nlinarith [mul_self_nonneg (cross n d)]
  nlinarith

theorem low_in_hull {vs : List (Vec2 F)} {z : F} (hz : 0 ≤ z) (hs : ∀ a ∈ vs, ∀ b ∈ vs, dist2 a b ≤ z * z) {n : Vec2 F} (hn : dot n n = 1)
    {v x : Vec2 F} (hv : v ∈ vs) (hx : Hull vs x) : -z ≤ dot n (x - v) := by
  obtain ⟨w, hw, h⟩ := hull_vertex_le n hx
  have := dot_unit_ge hz hn (d := w - v) (by rw [sub_dist2]; exact hs w hw v hv)
  rw [dot_sub] at this ⊢
  linarith

theorem findMaxSeparation_overlap {p1 p2 : Polygon F} {z1 z2 : F} (h1 : IsRectangle p1 z1) (h2 : IsRectangle p2 z2) (hz : z1 + z2 < maxFlt)
    {xf1 xf2 : Xf F} (r1 : IsRot xf1.q) (r2 : IsRot xf2.q) {q : Vec2 F} (q1 : Hull p1.verts (unplace xf1 q)) (q2 : Hull p2.verts (unplace xf2 q)) :
    -maxFlt < (findMaxSeparation p1 xf1 p2 xf2).2 ∧ (findMaxSeparation p1 xf1 p2 xf2).2 ≤ 0 := by
  have hM : (0 : F) < maxFlt := by norm_num [maxFlt]
  have hsplit : ∀ i v, heightOver p1 xf1 xf2 i v = dot (xf2.q.mulTV (wn p1 xf1 i)) (v - unplace xf2 q) + faceHeight p1 i (unplace xf1 q) := by
    intro i v
    rw [heightOver, faceHeight_world r1, faceHeight_world r1, ← rotV_dot r2 (xf2.q.mulTV (wn p1 xf1 i)) (v - unplace xf2 q), rot_mulTV r2, ← place_sub, place_unplace r2, dot_sub, dot_sub, dot_sub]
    ring
  have hx : findMaxSeparation p1 xf1 p2 xf2 = (List.range p1.verts.length).foldl (fun (st : Nat × F) i =>
      if p2.verts.foldl (fun si v => if heightOver p1 xf1 xf2 i v < si then heightOver p1 xf1 xf2 i v else si) maxFlt > st.2 then
        (i, p2.verts.foldl (fun si v => if heightOver p1 xf1 xf2 i v < si then heightOver p1 xf1 xf2 i v else si) maxFlt) else st) (0, -maxFlt) := by
    simp only [findMaxSeparation, heightOver_eq r1 r2]
  obtain ⟨a1, a2, a3⟩ := argmax_spec (fun i => p2.verts.foldl (fun si v => if heightOver p1 xf1 xf2 i v < si then heightOver p1 xf1 xf2 i v else si) maxFlt)
    (List.range p1.verts.length) (0, -maxFlt)
  simp only [] at a1 a2 a3
  rw [← hx] at a1 a2 a3
  constructor
  · have hlt : 0 < p1.verts.length := by rw [h1.four]; norm_num
    refine lt_of_lt_of_le ?_ (a2 0 (List.mem_range.mpr hlt))
    obtain ⟨-, -, g⟩ := foldMin_spec (heightOver p1 xf1 xf2 0) p2.verts maxFlt
    rcases g with g | ⟨v, hv, g⟩
    · rw [g]; linarith
    · rw [g, hsplit]
      obtain ⟨_, -, -, u⟩ := h1.proper.face hlt
      have b1 := low_in_hull h1.nonneg h1.small u (List.mem_of_getElem? (psGet_some hlt)) q1
      have un : dot (-xf2.q.mulTV (wn p1 xf1 0)) (-xf2.q.mulTV (wn p1 xf1 0)) = 1 := by
        have := (h1.side r1 (i := 0) (by norm_num)).unit
        rw [← this, ← rotV_dot r2 (-_) (-_)]
        have e : xf2.q.mulV (-xf2.q.mulTV (wn p1 xf1 0)) = -(wn p1 xf1 0) := by
          have e0 : ∀ w : Vec2 F, xf2.q.mulV (-w) = -xf2.q.mulV w := by
            intro w; ext <;> simp only [Rot.mulV, Vec2.neg_x, Vec2.neg_y] <;> ring
          rw [e0, rot_mulTV r2]
        rw [e]; simp only [dot, Vec2.neg_x, Vec2.neg_y]; ring
      have b2 := low_in_hull h2.nonneg h2.small un hv q2
      rw [dot_neg_left, dot_sub] at b2
      rw [dot_sub, faceHeight]
      linarith
  · rcases a3 with a3 | ⟨a3, a4⟩
    · rw [a3]; simp only []; linarith
    · have hi := List.mem_range.mp a3
      obtain ⟨-, g, -⟩ := foldMin_spec (heightOver p1 xf1 xf2 (findMaxSeparation p1 xf1 p2 xf2).1) p2.verts maxFlt
      obtain ⟨v, hv, h⟩ := hull_vertex_le (xf2.q.mulTV (wn p1 xf1 (findMaxSeparation p1 xf1 p2 xf2).1)) q2
      have := g v hv
      rw [hsplit, dot_sub] at this
      have hb := h1.proper.below hi q1
      rw [a4]; linarith

theorem collidePolygons_rect [Elem F] [ElemLaws F] {a b : Polygon F} {zA zB : F} (ha : IsRectangle a zA) (hb : IsRectangle b zB) (hz : zA + zB < maxFlt)
    {xfA xfB : Xf F} (rA : IsRot xfA.q) (rB : IsRot xfB.q) (hr : linearSlop ≤ a.radius + b.radius)
    {q : Vec2 F} (q1 : Hull a.verts (unplace xfA q)) (q2 : Hull b.verts (unplace xfB q)) :
    ∃ m, collidePolygons a xfA b xfB = some m ∧ m.points ≠ [] := by
  have hl : (0 : F) < linearSlop := by norm_num [linearSlop]
  have hM : (0 : F) < maxFlt := by norm_num [maxFlt]
  obtain ⟨s1, s2⟩ := findMaxSeparation_overlap ha hb hz rA rB q1 q2
  obtain ⟨t1, t2⟩ := findMaxSeparation_overlap hb ha (by rwa [add_comm]) rB rA q2 q1
  obtain ⟨u1, u2⟩ := findMaxSeparation_spec rA rB a b rfl (s2.trans_lt hM)
  obtain ⟨v1, v2⟩ := findMaxSeparation_spec rB rA b a rfl (t2.trans_lt hM)
  have ea := findMaxSeparation_lt a xfA b xfB (by intro h; have := ha.four; rw [h] at this; simp at this)
  have eb := findMaxSeparation_lt b xfB a xfA (by intro h; have := hb.four; rw [h] at this; simp at this)
  rw [ha.four] at ea u1
  rw [hb.four] at eb v1
  simp only [collidePolygons]
  rw [if_neg (by linarith), if_neg (by linarith)]
  split
  · rename_i hlt
    refine clipPolygons_rect hb ha rB rA eb (e := 1 / 10 * linearSlop) true (by linarith) (by linarith) q2 q1 (v2 t1) ?_
    intro j hj
    obtain ⟨u, hu, h⟩ := u1 j hj
    exact ⟨u, hu, by linarith⟩
  · rename_i hlt
    refine clipPolygons_rect ha hb rA rB ea (e := 1 / 10 * linearSlop) false (by linarith) (by linarith) q1 q2 (u2 s1) ?_
    intro j hj
    obtain ⟨u, hu, h⟩ := v1 j hj
    exact ⟨u, hu, by linarith⟩

end
end B2
