import Verif.Proofs.CollideRect
import Verif.Proofs.CollideEdgePoly

/-!
# Lemmas about the contacts of rectangles with edges
-/
namespace B2
open Spec
set_option linter.unusedSectionVars false
section
variable {F : Type} [Field F] [LinearOrder F] [IsStrictOrderedRing F]

theorem hull_pair_ge {a b x n : Vec2 F} (hx : Hull [a, b] x) {o : F} (ha : o ≤ dot n a) (hb : o ≤ dot n b) : o ≤ dot n x := by
  have := hull_pair_le (n := -n) (o := -o) hx (by rw [dot_neg_left]; linarith) (by rw [dot_neg_left]; linarith)
  rw [dot_neg_left] at this; linarith

/-- A piece of a segment with a point properly behind the line is left with all its points behind the line. -/
theorem clip_keep {v0 v1 : ClipVertex F} {n : Vec2 F} {o : F} (idx : Nat) {z : Vec2 F} (hz : Hull [v0.v, v1.v] z) (hlt : dot n z < o) :
    ∃ a b, clipSegmentToLine v0 v1 n o idx = some [a, b] ∧ ∀ y, Hull [v0.v, v1.v] y → dot n y ≤ o → Hull [a.v, b.v] y := by
  have part : ∀ {p q c : Vec2 F} {t : F}, 0 < t → c = onLine p q t → dot n p < o → dot n c = o → o < dot n q →
      ∀ s, 0 ≤ s → dot n (onLine p q s) ≤ o → Hull [p, c] (onLine p q s) := by
    intro p q c t t0 hc hp hco hq s s0 hs
    have hlin : ∀ s, dot n (onLine p q s) = dot n p + s * (dot n q - dot n p) := by intro s; simp only [dot, onLine]; ring
    rw [hc, hlin] at hco
    rw [hlin] at hs
    have hst : s ≤ t := by
      by_contra h
      have := mul_lt_mul_of_pos_right (not_le.mp h) (show 0 < dot n q - dot n p by linarith)
      linarith
    have e : onLine p q s = onLine p c (s / t) := by
      have ht := t0.ne'
      rw [hc]; ext <;> simp only [onLine] <;> field_simp
      · ring
      · ring
    rw [e]
    exact .between (.vertex (by simp)) (.vertex (by simp)) (div_nonneg s0 t0.le) ((div_le_one t0).mpr hst)
  have swap : ∀ (p q : Vec2 F) (s : F), onLine p q s = onLine q p (1 - s) := by
    intro p q s; ext <;> simp only [onLine] <;> ring
  rcases clip_cases v0 v1 n o idx with ⟨-, -, h⟩ | ⟨a, c, ha, h, -, hco, t, t0, t1, hc⟩ | ⟨h, -⟩
  · exact ⟨v0, v1, h, fun y hy _ => hy⟩
  · refine ⟨a, c, h, fun y hy hle => ?_⟩
    obtain ⟨s, s0, s1, rfl⟩ := hull_pair hy
    rcases ha with ⟨rfl, h1, h2⟩ | ⟨rfl, h1, h2⟩
    · exact part t0 hc h1 hco h2 s s0 hle
    · rw [swap] at hc hle ⊢
      exact part (sub_pos.mpr t1) hc h1 hco h2 (1 - s) (sub_nonneg.mpr s1) hle
  · exfalso
    have : o ≤ dot n z := by
      apply hull_pair_ge hz
      · rcases h with ⟨h, -⟩ | ⟨h, -⟩ | ⟨h, -⟩
        · exact h.ge
        · exact h.le
        · exact h.le
      · rcases h with ⟨-, h⟩ | ⟨-, h⟩ | ⟨-, h⟩
        · exact h.le
        · exact h.ge
        · exact h.le
    linarith

theorem clipTwice_keep {c0 c1 : ClipVertex F} {n1 n2 : Vec2 F} {o1 o2 : F} (i1 i2 : Nat) {z : Vec2 F} (hz : Hull [c0.v, c1.v] z) (h1 : dot n1 z < o1)
    (h2 : dot n2 z < o2) :
    ∃ c d, clipTwice c0 c1 n1 o1 i1 n2 o2 i2 = some (some (c, d)) ∧
      ∀ y, Hull [c0.v, c1.v] y → dot n1 y ≤ o1 → dot n2 y ≤ o2 → Hull [c.v, d.v] y := by
  obtain ⟨a, b, e1, k1⟩ := clip_keep i1 hz h1
  obtain ⟨c, d, e2, k2⟩ := clip_keep i2 (k1 z hz h1.le) h2
  exact ⟨c, d, by simp only [clipTwice, e1, e2, Option.bind_some], fun y hy y1 y2 => k2 y (k1 y hy y1) y2⟩

theorem Spec.IsRectangle.side_back {p : Polygon F} {size : F} (h : IsRectangle p size) {xf : Xf F} (r : IsRot xf.q) {i : Nat} (hi : i < 4) (x : Vec2 F) :
    dot (wn p xf (nextIndex (nextIndex (nextIndex i 4) 4) 4)) (x - wv p xf (nextIndex (nextIndex (nextIndex i 4) 4) 4)) = dot (-qturn (wn p xf i)) (x - wv p xf i) := by
  have hS := h.side r hi
  have i3 : nextIndex (nextIndex (nextIndex i 4) 4) 4 < 4 := nextIndex_lt (nextIndex_lt (nextIndex_lt hi))
  have hh := h.proper.height_next (i := nextIndex (nextIndex (nextIndex i 4) 4) 4) (by rw [h.four]; exact i3) (unplace xf x)
  rw [h.four, nextIndex4 hi, ← rotV_dot r, ← place_sub, place_unplace r, faceHeight_world r] at hh
  rw [hh, ← hS.n3]
  rfl

/-- The point of the incident edge over a common point that is deep in the rectangle. -/
theorem over_deep {mu tau x0 y0 L xq yq : F} (hu : mu * mu + tau * tau = 1) (hmu : mu < 0)
    (hm : mu * yq - tau * xq ≤ mu * y0 - tau * x0) (h1 : tau * y0 + mu * x0 < tau * yq + mu * xq)
    (h2 : tau * yq + mu * xq < tau * (y0 + L * tau) + mu * (x0 + L * mu)) :
    ∃ l, 0 < l ∧ l < L ∧ y0 + l * tau ≤ yq ∧ (tau ≤ 0 → xq ≤ x0 + l * mu) ∧ (0 ≤ tau → x0 + l * mu ≤ xq) := by
  have hh : 0 ≤ (mu * y0 - tau * x0) - (mu * yq - tau * xq) := sub_nonneg.mpr hm
  set h := (mu * y0 - tau * x0) - (mu * yq - tau * xq) with hd
  refine ⟨tau * (yq - y0) + mu * (xq - x0), by linarith, ?_, ?_, ?_, ?_⟩
  · have : L * (mu * mu + tau * tau) = L := by rw [hu, mul_one]
    linarith
  · have e : y0 + (tau * (yq - y0) + mu * (xq - x0)) * tau = yq + h * mu := by
      rw [hd]; linear_combination (yq - y0) * hu
    rw [e]; nlinarith
  · intro ht
    have e : x0 + (tau * (yq - y0) + mu * (xq - x0)) * mu = xq - h * tau := by
      rw [hd]; linear_combination (xq - x0) * hu
    rw [e]; nlinarith
  · intro ht
    have e : x0 + (tau * (yq - y0) + mu * (xq - x0)) * mu = xq - h * tau := by
      rw [hd]; linear_combination (xq - x0) * hu
    rw [e]; nlinarith

/-- If the incident edge were beyond the end of the edge, the side face of the rectangle would have been the reference. -/
theorem deep_right {mu tau x1 y1 H W r s xq f d : F} (hu : mu * mu + tau * tau = 1) (hmu : mu < 0) (ht : tau ≤ 0) (htm : mu ≤ tau)
    (hd : d = H - y1) (hx : W ≤ x1) (hs : s ≤ -d) (hxq : xq ≤ W) (hr3 : r ≤ 3 / 100)
    (hf : tau * d + mu * (W - x1) ≤ f) (hnot : f - r ≤ 98 / 100 * (s - r) + 1 / 1000)
    (hq : tau * d + mu * (xq - x1) ≤ -(1 / 200)) : False := by
  have a1 : 0 ≤ mu * (W - x1) := mul_nonneg_of_nonpos_of_nonpos hmu.le (by linarith)
  have a2 : 0 ≤ mu * (xq - x1) := mul_nonneg_of_nonpos_of_nonpos hmu.le (by linarith)
  have a3 : -(71 / 100) ≤ tau := by nlinarith
  have a4 : 0 < d := by
    by_contra h
    have := mul_nonneg_of_nonpos_of_nonpos ht (not_lt.mp h)
    linarith
  have a5 : -(71 / 100) * d ≤ tau * d := mul_le_mul_of_nonneg_right a3 a4.le
  linarith

/-- A point of the incident edge that is over the edge and not above it. -/
theorem within_strip {mu tau x0 y0 L l xq A B : F} (hmu : mu < 0) (hl0 : 0 < l) (hlL : l < L) (hA : A ≤ xq) (hB : xq ≤ B)
    (hr : x0 + L * mu < B) (hlft : A < x0) (o2 : tau ≤ 0 → xq ≤ x0 + l * mu) (o3 : 0 ≤ tau → x0 + l * mu ≤ xq) :
    ∃ k, 0 ≤ k ∧ k ≤ L ∧ A ≤ x0 + k * mu ∧ x0 + k * mu ≤ B ∧ y0 + k * tau ≤ y0 + l * tau := by
  have hm := hmu.ne
  rcases le_total tau 0 with ht | ht
  · rcases le_or_gt (x0 + l * mu) B with h | h
    · exact ⟨l, hl0.le, hlL.le, hA.trans (o2 ht), h, le_refl _⟩
    · have e : (B - x0) / mu * mu = B - x0 := div_mul_cancel₀ _ hm
      have g1 : l < (B - x0) / mu := by rw [lt_div_iff_of_neg hmu]; linarith
      have g2 : (B - x0) / mu < L := by rw [div_lt_iff_of_neg hmu]; linarith
      refine ⟨(B - x0) / mu, hl0.le.trans g1.le, g2.le, by rw [e]; linarith, by rw [e]; linarith, ?_⟩
      have := mul_le_mul_of_nonpos_right g1.le ht
      linarith
  · rcases le_or_gt A (x0 + l * mu) with h | h
    · exact ⟨l, hl0.le, hlL.le, h, (o3 ht).trans hB, le_refl _⟩
    · have e : (A - x0) / mu * mu = A - x0 := div_mul_cancel₀ _ hm
      have g1 : (A - x0) / mu < l := by rw [div_lt_iff_of_neg hmu]; linarith
      have g2 : 0 < (A - x0) / mu := div_pos_of_neg_of_neg (by linarith) hmu
      refine ⟨(A - x0) / mu, g2.le, g1.le.trans hlL.le, by rw [e]; linarith, by rw [e]; linarith, ?_⟩
      have := mul_le_mul_of_nonneg_right g1.le ht
      linarith

theorem interior_strip {mu x0 L A B : F} (hmu : mu < 0) (hL : 0 < L) (hAB : A < B) (hr : x0 + L * mu < B) (hlft : A < x0) :
    ∃ k, 0 ≤ k ∧ k ≤ L ∧ A < x0 + k * mu ∧ x0 + k * mu < B := by
  have hm := hmu.ne
  have hLm : L * mu < 0 := mul_neg_of_pos_of_neg hL hmu
  set c := (max (x0 + L * mu) A + min x0 B) / 2 with hc
  have h1 : max (x0 + L * mu) A < min x0 B := max_lt (lt_min (by linarith) hr) (lt_min hlft hAB)
  have c1 : max (x0 + L * mu) A < c := by rw [hc]; linarith
  have c2 : c < min x0 B := by rw [hc]; linarith
  have e : (c - x0) / mu * mu = c - x0 := div_mul_cancel₀ _ hm
  have d1 := lt_of_le_of_lt (le_max_left _ _) c1
  have d2 := lt_of_le_of_lt (le_max_right _ _) c1
  have d3 := lt_of_lt_of_le c2 (min_le_left _ _)
  have d4 := lt_of_lt_of_le c2 (min_le_right _ _)
  refine ⟨(c - x0) / mu, (div_pos_of_neg_of_neg (by linarith) hmu).le, ?_, by rw [e]; linarith, by rw [e]; linarith⟩
  rw [div_le_iff_of_neg hmu]; linarith

theorem mostAntiParallel'_le {n : Vec2 F} {ns : List (Vec2 F)} {k : Nat} (hk : 0 < k) :
    ∀ j < k, dot n (psGet ns (mostAntiParallel' n ns k)) ≤ dot n (psGet ns j) := by
  obtain ⟨h1, h2, h3⟩ := argmin_spec (fun i => dot n (psGet ns i)) (List.range' 1 (k - 1)) (0, dot n (psGet ns 0))
  intro j hj
  simp only [mostAntiParallel']
  have hle : (List.foldl (fun (st : Nat × F) i => if dot n (psGet ns i) < st.2 then (i, dot n (psGet ns i)) else st) (0, dot n (psGet ns 0)) (List.range' 1 (k - 1))).2 ≤ dot n (psGet ns j) := by
    rcases Nat.eq_zero_or_pos j with rfl | hj0
    · exact h1
    · exact h2 j (List.mem_range'_1.mpr ⟨hj0, by omega⟩)
  rcases h3 with h3 | ⟨-, h3⟩
  · rw [h3] at hle ⊢; exact hle
  · rw [← h3]; exact hle


/-- The edge in the frame of its normal `n`: its ends are at `A` and `B`, and the two clips are to the strip between them. -/
theorem edge_frame {a : Edge F} {e1 n : Vec2 F} (u1 : dot e1 e1 = 1) {La : F} (hLa : 0 < La) (hal : a.v2 = a.v1 + La * e1)
    (hn : n = ⟨e1.y, -e1.x⟩ ∨ n = -(⟨e1.y, -e1.x⟩ : Vec2 F)) :
    dot n n = 1 ∧ (∀ x, Hull [a.v1, a.v2] x → dot n x = dot n a.v1) ∧
    ∃ A B, A < B ∧ (∀ x, Hull [a.v1, a.v2] x → A ≤ dot (qturn n) x ∧ dot (qturn n) x ≤ B) ∧
      (∀ x, A ≤ dot (qturn n) x → dot (qturn n) x ≤ B → dot (-e1) x ≤ dot (-e1) a.v1 ∧ dot e1 x ≤ dot e1 a.v2) ∧
      (∀ x, A < dot (qturn n) x → dot (qturn n) x < B → dot (-e1) x < dot (-e1) a.v1 ∧ dot e1 x < dot e1 a.v2) := by
  have ef : dot e1 a.v2 = dot e1 a.v1 + La := by
    rw [hal]; simp only [dot, Vec2.add_x, Vec2.add_y, Vec2.smul_x, Vec2.smul_y] at u1 ⊢; linear_combination La * u1
  have hs : ∀ x, Hull [a.v1, a.v2] x → dot e1 a.v1 ≤ dot e1 x ∧ dot e1 x ≤ dot e1 a.v2 := fun x hx =>
    ⟨hull_pair_ge hx (le_refl _) (by linarith), hull_pair_le hx (by linarith) (le_refl _)⟩
  have hnn : dot n n = 1 := by
    rcases hn with rfl | rfl <;> (rw [← u1]; simp only [dot, Vec2.neg_x, Vec2.neg_y]; ring)
  have hny : dot n a.v2 = dot n a.v1 := by
    rw [hal]; rcases hn with rfl | rfl <;> (simp only [dot, Vec2.neg_x, Vec2.neg_y, Vec2.add_x, Vec2.add_y, Vec2.smul_x, Vec2.smul_y]; ring)
  refine ⟨hnn, fun x hx => le_antisymm (hull_pair_le hx (le_refl _) hny.le) (hull_pair_ge hx (le_refl _) hny.ge), ?_⟩
  rcases hn with rfl | rfl
  · have e : qturn (⟨e1.y, -e1.x⟩ : Vec2 F) = e1 := by ext <;> simp [qturn]
    rw [e]
    refine ⟨dot e1 a.v1, dot e1 a.v2, by linarith, hs, fun x h1 h2 => ⟨?_, h2⟩, fun x h1 h2 => ⟨?_, h2⟩⟩
    · rw [dot_neg_left, dot_neg_left]; linarith
    · rw [dot_neg_left, dot_neg_left]; linarith
  · have e : qturn (-(⟨e1.y, -e1.x⟩ : Vec2 F)) = -e1 := by ext <;> simp [qturn]
    rw [e]
    simp only [dot_neg_left]
    refine ⟨-dot e1 a.v2, -dot e1 a.v1, by linarith, fun x hx => ?_, fun x h1 h2 => ?_, fun x h1 h2 => ?_⟩
    · obtain ⟨k1, k2⟩ := hs x hx
      constructor <;> linarith
    · constructor <;> linarith
    · constructor <;> linarith

set_option maxHeartbeats 1000000 in
theorem clipToEdge_rect {b : Polygon F} {z : F} (hb : IsRectangle b z) {xf : Xf F} (hrot : IsRot xf.q) {a : Edge F} {e1 n : Vec2 F} (u1 : dot e1 e1 = 1)
    {La : F} (hLa : 0 < La) (hal : a.v2 = a.v1 + La * e1) (hn : n = ⟨e1.y, -e1.x⟩ ∨ n = -(⟨e1.y, -e1.x⟩ : Vec2 F)) {r s : F} (hr0 : 0 ≤ r) (hr3 : r ≤ 3 / 100)
    {q : Vec2 F} (hq : Hull [a.v1, a.v2] q) (deep : ∀ i < 4, dot (wn b xf i) (q - wv b xf i) ≤ -(1 / 200))
    (F1 : ∀ j < 4, s ≤ dot n (wv b xf j - a.v1))
    (F2 : ∀ j < 4, ∃ v, (v = a.v1 ∨ v = a.v2) ∧ dot (wn b xf j) (v - wv b xf j) - r ≤ 98 / 100 * (s - r) + 1 / 1000) :
    ∃ m, clipToEdge r a e1 n (b.verts.map xf.mulV) (b.normals.map xf.q.mulV) xf = some m ∧ m.points ≠ [] := by
  obtain ⟨hnn, hflat, A, B, hAB, hends, hstrip, hstrip'⟩ := edge_frame u1 hLa hal hn
  have l4 := hb.four
  have hl4 : b.normals.length = 4 := by rw [hb.proper.len, l4]
  simp only [clipToEdge, List.length_map, l4]
  set i1 := mostAntiParallel' n (b.normals.map xf.q.mulV) 4 with hi1
  have hi1l : i1 < 4 := mostAntiParallel'_lt _ _ (by norm_num)
  have j1 : nextIndex i1 4 < 4 := nextIndex_lt hi1l
  have j3 : nextIndex (nextIndex (nextIndex i1 4) 4) 4 < 4 := nextIndex_lt (nextIndex_lt j1)
  have hgn : ∀ j < 4, psGet (b.normals.map xf.q.mulV) j = wn b xf j := fun j hj => psGet_map _ (by rw [hl4]; exact hj)
  have hgv : ∀ j < 4, psGet (b.verts.map xf.mulV) j = wv b xf j := fun j hj => psGet_map _ (by rw [l4]; exact hj)
  have hanti : ∀ j < 4, dot n (wn b xf i1) ≤ dot n (wn b xf j) := by
    intro j hj
    have := mostAntiParallel'_le (n := n) (ns := b.normals.map xf.q.mulV) (k := 4) (by norm_num) j hj
    rw [← hi1, hgn _ hi1l, hgn _ hj] at this
    exact this
  have hS2 := hb.side hrot hi1l
  have t1 := hanti _ j1
  have t3 := hanti _ j3
  rw [hS2.n1] at t1
  rw [hS2.n3] at t3
  have dm := deep i1 hi1l
  have d1 := deep _ j1
  have d3 := deep _ j3
  rw [hb.side_back hrot hi1l] at d3
  rw [hS2.n1] at d1
  obtain ⟨vr, hvr, fr⟩ := F2 _ j1
  obtain ⟨vl, hvl, fl⟩ := F2 _ j3
  rw [hb.side_back hrot hi1l] at fl
  rw [hS2.n1] at fr
  have s0 := F1 _ hi1l
  have s1 := F1 _ j1
  rw [hgv _ hi1l, hgv _ j1]
  obtain ⟨L, hL, ecd⟩ := hS2.edge
  have hmm := hS2.unit
  generalize wn b xf i1 = m at *
  generalize wv b xf i1 = c0 at *
  generalize wv b xf (nextIndex i1 4) = c1 at *
  obtain ⟨mu, hmu⟩ : ∃ mu, dot n m = mu := ⟨_, rfl⟩
  obtain ⟨tau, htau⟩ : ∃ tau, dot n (qturn m) = tau := ⟨_, rfl⟩
  have hu : mu * mu + tau * tau = 1 := by
    rw [← hmu, ← htau]; simp only [dot, qturn] at hnn hmm ⊢; linear_combination hmm * (n.x * n.x + n.y * n.y) + hnn
  have hng : ∀ u v : Vec2 F, dot u (-v) = -dot u v := by intro u v; simp only [dot, Vec2.neg_x, Vec2.neg_y]; ring
  rw [hmu, htau] at t1
  rw [hng, hmu, htau] at t3
  have hmu0 : mu < 0 := by
    rcases lt_or_ge mu 0 with h | h
    · exact h
    · have : mu = 0 := by linarith
      have : tau = 0 := by linarith
      simp_all
  have em : ∀ v, dot m v = mu * dot n v - tau * dot (qturn n) v := by
    intro v; rw [← hmu, ← htau]; simp only [dot, qturn] at hnn ⊢; linear_combination (-(m.x * v.x + m.y * v.y)) * hnn
  have et : ∀ v, dot (qturn m) v = tau * dot n v + mu * dot (qturn n) v := by
    intro v; rw [← hmu, ← htau]; simp only [dot, qturn] at hnn ⊢; linear_combination (-(-m.y * v.x + m.x * v.y)) * hnn
  have ex : ∀ k : F, dot (qturn n) (c0 + k * qturn m) = dot (qturn n) c0 + k * mu := by
    intro k; rw [← hmu]; simp only [dot, qturn, Vec2.add_x, Vec2.add_y, Vec2.smul_x, Vec2.smul_y]; ring
  have ey : ∀ k : F, dot n (c0 + k * qturn m) = dot n c0 + k * tau := by
    intro k; rw [← htau]; simp only [dot, qturn, Vec2.add_x, Vec2.add_y, Vec2.smul_x, Vec2.smul_y]; ring
  have ex1 := ex L
  have ey1 := ey L
  rw [← ecd] at ex1 ey1
  obtain ⟨qA, qB⟩ := hends q hq
  have qH := hflat q hq
  have hvH : ∀ v, v = a.v1 ∨ v = a.v2 → dot n v = dot n a.v1 ∧ A ≤ dot (qturn n) v ∧ dot (qturn n) v ≤ B := by
    rintro v (rfl | rfl)
    · exact ⟨rfl, hends _ (.vertex (by simp))⟩
    · exact ⟨hflat _ (.vertex (by simp)), hends _ (.vertex (by simp))⟩
  obtain ⟨vr1, -, vr3⟩ := hvH vr hvr
  obtain ⟨vl1, vl2, -⟩ := hvH vl hvl
  rw [dot_sub, em, em] at dm
  rw [dot_sub, et, et] at d1 fr
  rw [dot_neg_left, dot_sub, et, et] at d3 fl
  rw [dot_sub] at s0 s1
  rw [qH] at dm d1 d3
  rw [vr1] at fr
  rw [vl1] at fl
  set H := dot n a.v1
  set xq := dot (qturn n) q
  set x0 := dot (qturn n) c0
  set y0 := dot n c0
  have dx1 := ex1
  have dy1 := ey1
  obtain ⟨l, hl0, hlL, o1, o2, o3⟩ := over_deep (x0 := x0) (y0 := y0) (L := L) (xq := xq) (yq := H) hu hmu0 (by linarith) (by linarith)
    (by rw [← dx1, ← dy1]; linarith)
  have hlmu : L * mu < l * mu := mul_lt_mul_of_neg_right hlL hmu0
  have hlmu0 : l * mu < 0 := mul_neg_of_pos_of_neg hl0 hmu0
  have hright : x0 + L * mu < B := by
    rcases le_total tau 0 with ht | ht
    · by_contra hcon
      have hcon := not_lt.mp hcon
      have w1 : mu * B ≤ mu * dot (qturn n) vr := mul_le_mul_of_nonpos_left vr3 hmu0.le
      exact deep_right (H := H) (x1 := x0 + L * mu) (y1 := y0 + L * tau) (W := B) (s := s) (r := r) (xq := xq)
        (f := tau * H + mu * dot (qturn n) vr - (tau * dot n c1 + mu * dot (qturn n) c1)) hu hmu0 ht (by linarith) rfl hcon
        (by rw [← dy1]; linarith) qB hr3 (by rw [dx1, dy1]; linarith) fr (by rw [dx1, dy1] at d1; linarith)
    · have := o3 ht; linarith
  have hleft : A < x0 := by
    rcases le_total 0 tau with ht | ht
    · by_contra hcon
      have hcon := not_lt.mp hcon
      have w1 : mu * dot (qturn n) vl ≤ mu * A := mul_le_mul_of_nonpos_left vl2 hmu0.le
      exact deep_right (mu := mu) (tau := -tau) (x1 := -x0) (y1 := y0) (W := -A) (s := s) (r := r) (xq := -xq) (H := H)
        (f := -(tau * H + mu * dot (qturn n) vl - (tau * y0 + mu * x0))) (by linarith) hmu0 (by linarith) (by linarith) rfl (by linarith)
        (by linarith) (by linarith) hr3 (by linarith) fl (by linarith)
    · have := o2 ht; linarith
  have hon : ∀ k : F, 0 ≤ k → k ≤ L → Hull [c0, c1] (c0 + k * qturn m) := by
    intro k k0 kL
    have e : c0 + k * qturn m = onLine c0 c1 (k / L) := by
      have := hL.ne'
      rw [ecd]; ext <;> simp only [onLine, Vec2.add_x, Vec2.add_y, Vec2.smul_x, Vec2.smul_y] <;> field_simp <;> ring
    rw [e]
    exact .between (.vertex (by simp)) (.vertex (by simp)) (div_nonneg k0 hL.le) ((div_le_one hL).mpr kL)
  obtain ⟨k, k0, kL, kA, kB⟩ := interior_strip hmu0 hL hAB hright hleft
  rw [← ex k] at kA kB
  obtain ⟨g1, g2⟩ := hstrip' _ kA kB
  obtain ⟨c, d, hcd, keep⟩ := clipTwice_keep (c0 := (⟨c0, ⟨⟨0, UInt8.ofNat i1, eFace, eVertex⟩⟩⟩ : ClipVertex F))
    (c1 := ⟨c1, ⟨⟨0, UInt8.ofNat (nextIndex i1 4), eFace, eVertex⟩⟩⟩) 0 1 (hon k k0 kL) g1 g2
  rw [hcd, Option.bind_some]
  refine ⟨_, rfl, ?_⟩
  obtain ⟨k', k0', kL', kA', kB', kY⟩ := within_strip (y0 := y0) hmu0 hl0 hlL qA qB hright hleft o2 o3
  rw [← ex k'] at kA' kB'
  rw [← ey k'] at kY
  obtain ⟨g1', g2'⟩ := hstrip _ kA' kB'
  obtain ⟨v, hv, hvl⟩ := hull_vertex_le n (keep _ (hon k' k0' kL') g1' g2')
  intro hnil
  rw [List.map_eq_nil_iff, List.filter_eq_nil_iff] at hnil
  have hz : ∃ z : ClipVertex F, (z = c ∨ z = d) ∧ dot n z.v ≤ H := by
    simp only [List.mem_cons, List.not_mem_nil, or_false] at hv
    rcases hv with rfl | rfl
    · exact ⟨c, .inl rfl, by linarith⟩
    · exact ⟨d, .inr rfl, by linarith⟩
  obtain ⟨z, hz, hzl⟩ := hz
  refine hnil z (by rcases hz with rfl | rfl <;> simp) ?_
  simp only [decide_eq_true_eq]
  rw [dot_sub]
  linarith

theorem clipToFace_rect {b : Polygon F} {z : F} (hb : IsRectangle b z) {xf : Xf F} (hrot : IsRot xf.q) {a : Edge F} {r : F} (hr0 : 0 ≤ r)
    {q : Vec2 F} (hq : Hull [a.v1, a.v2] q) (deep : ∀ i < 4, dot (wn b xf i) (q - wv b xf i) ≤ -(1 / 200)) {i : Nat} (hi : i < 4) :
    ∃ m, clipToFace r a (some i) b (b.verts.map xf.mulV) (b.normals.map xf.q.mulV) = some m ∧ m.points ≠ [] := by
  have l4 := hb.four
  have hl4 : b.normals.length = 4 := by rw [hb.proper.len, l4]
  have j1 : nextIndex i 4 < 4 := nextIndex_lt hi
  have j3 : nextIndex (nextIndex (nextIndex i 4) 4) 4 < 4 := nextIndex_lt (nextIndex_lt j1)
  have hgn : psGet (b.normals.map xf.q.mulV) i = wn b xf i := psGet_map _ (by rw [hl4]; exact hi)
  have hgv : ∀ j < 4, psGet (b.verts.map xf.mulV) j = wv b xf j := fun j hj => psGet_map _ (by rw [l4]; exact hj)
  simp only [clipToFace, List.length_map, l4, Option.bind_some, hgn, hgv _ hi, hgv _ j1]
  have hS := hb.side hrot hi
  have dm := deep i hi
  have d1 := deep _ j1
  have d3 := deep _ j3
  rw [hb.side_back hrot hi] at d3
  rw [hS.n1] at d1
  have e1 : (⟨(wn b xf i).y, -(wn b xf i).x⟩ : Vec2 F) = -qturn (wn b xf i) := by ext <;> simp [qturn]
  rw [e1]
  have e2 : -(-qturn (wn b xf i)) = qturn (wn b xf i) := by ext <;> simp
  rw [e2]
  rw [dot_sub] at d1 d3 dm
  have hq' : Hull [a.v2, a.v1] q := hull_pair_sub (.vertex (by simp)) (.vertex (by simp)) hq
  obtain ⟨c, d, hcd, keep⟩ := clipTwice_keep (c0 := (⟨a.v2, ⟨⟨1, UInt8.ofNat i, eVertex, eFace⟩⟩⟩ : ClipVertex F))
    (c1 := ⟨a.v1, ⟨⟨0, UInt8.ofNat i, eVertex, eFace⟩⟩⟩) (n1 := -qturn (wn b xf i)) (n2 := qturn (wn b xf i)) (o1 := dot (-qturn (wn b xf i)) (wv b xf i))
    (o2 := dot (qturn (wn b xf i)) (wv b xf (nextIndex i 4))) i (nextIndex i 4) hq' (by linarith) (by linarith)
  rw [hcd, Option.bind_some]
  refine ⟨_, rfl, ?_⟩
  obtain ⟨v, hv, hvl⟩ := hull_vertex_le (wn b xf i) (keep q hq' (by linarith) (by linarith))
  intro hnil
  rw [List.map_eq_nil_iff, List.filter_eq_nil_iff] at hnil
  have hz : ∃ z : ClipVertex F, (z = c ∨ z = d) ∧ dot (wn b xf i) z.v ≤ dot (wn b xf i) q := by
    simp only [List.mem_cons, List.not_mem_nil, or_false] at hv
    rcases hv with rfl | rfl
    · exact ⟨c, .inl rfl, hvl⟩
    · exact ⟨d, .inr rfl, hvl⟩
  obtain ⟨z, hz, hzl⟩ := hz
  refine hnil z (by rcases hz with rfl | rfl <;> simp) ?_
  simp only [decide_eq_true_eq]
  rw [dot_sub]
  linarith

theorem collideEdgePolygon_rect [Elem F] [ElemLaws F] {a : Edge F} (h2 : a.oneSided = false) (hl : epsilon * epsilon ≤ dist2 a.v1 a.v2)
    {b : Polygon F} {z : F} (hb : IsRectangle b z) (hz : z < maxFlt) {xfA xfB : Xf F} (rA : IsRot xfA.q) (rB : IsRot xfB.q)
    (hr0 : 0 ≤ b.radius + a.radius) (hr3 : b.radius + a.radius ≤ 3 / 100)
    {q : Vec2 F} (hq : Hull [a.v1, a.v2] q) (deep : ∀ i < 4, faceHeight b i (unplace (xfA.mulT xfB) q) ≤ -(1 / 200)) :
    ∃ m, collideEdgePolygon a xfA b xfB = some m ∧ m.points ≠ [] := by
  obtain ⟨u1, u2, u3⟩ := normalize_unit (d := a.v2 - a.v1) (s := epsilon) (le_refl _) (by rw [sub_dist2, dist2_comm]; exact hl)
  have hrot : IsRot (xfA.mulT xfB).q := mulT_rot rA rB
  have l4 := hb.four
  have hl4 : b.normals.length = 4 := by rw [hb.proper.len, l4]
  simp only [collideEdgePolygon]
  rw [if_neg (by rw [h2]; simp)]
  set e1 := (a.v2 - a.v1).normalize.1
  have hal := along_unit u1 u2 (le_refl _) u3.symm
  have hn1 : dot (⟨e1.y, -e1.x⟩ : Vec2 F) ⟨e1.y, -e1.x⟩ = 1 := by rw [← u1]; simp only [dot]; ring
  set xf := xfA.mulT xfB with hxf
  have hpos : 0 < dot (a.v2 - a.v1) e1 := by
    have he : (0 : F) < epsilon := eps_pos
    have hdd : 0 < dot (a.v2 - a.v1) (a.v2 - a.v1) := by rw [sub_dist2, dist2_comm]; exact (mul_pos he he).trans_le hl
    rcases lt_or_eq_of_le u2 with h | h
    · exact h
    · rw [← h] at u3; rw [← u3] at hdd; simp at hdd
  have hal' : a.v2 = a.v1 + dot (a.v2 - a.v1) e1 * e1 := by
    rw [← hal]; ext <;> simp
  have deep' : ∀ i < 4, dot (wn b xf i) (q - wv b xf i) ≤ -(1 / 200) := fun i hi => by
    rw [← faceHeight_world hrot]; exact deep i hi
  have hM := maxFlt_pos (F := F)
  have hrange : ∀ u ∈ b.verts.map xf.mulV, ∀ v ∈ b.verts.map xf.mulV, dist2 u v < maxFlt * maxFlt := by
    intro u hu v hv
    obtain ⟨x, hx, rfl⟩ := List.mem_map.mp hu
    obtain ⟨w, hw, rfl⟩ := List.mem_map.mp hv
    rw [place_eq, place_eq, dist2_place hrot]
    exact (hb.small x hx w hw).trans_lt (mul_lt_mul'' hz hz hb.nonneg hb.nonneg)
  obtain ⟨p1, p2, p3⟩ := polygonSeparation_spec (b.verts.map xf.mulV) (b.normals.map xf.q.mulV) a.v1 a.v2
  obtain ⟨q1, q2, q3, q4, -⟩ := edgeSeparation_spec (verts := b.verts.map xf.mulV) (v1 := a.v1) hn1 hrange
  set pa := computePolygonSeparation (b.verts.map xf.mulV) (b.normals.map xf.q.mulV) a.v1 a.v2
  set ea := computeEdgeSeparation (b.verts.map xf.mulV) a.v1 ⟨e1.y, -e1.x⟩
  obtain ⟨nn, hflat, -⟩ := edge_frame u1 hpos hal' q3
  have hin : Hull b.verts (unplace xf q) := hb.proper.hull_of_below fun i hi => (deep i (by rw [← l4]; exact hi)).trans (by norm_num)
  -- the separations are not positive
  obtain ⟨-, dmin, -⟩ := foldMin_spec (fun v => dot ea.normal (v - a.v1)) (b.verts.map xf.mulV) maxFlt
  change ∀ v ∈ b.verts.map xf.mulV, deepest (b.verts.map xf.mulV) ea.normal a.v1 ≤ dot ea.normal (v - a.v1) at dmin
  rw [← q4] at dmin
  have es : ea.separation ≤ 0 := by
    obtain ⟨v, hv, hle⟩ := hull_vertex_le (xf.q.mulTV ea.normal) hin
    have := dmin _ (List.mem_map_of_mem hv)
    have e : dot (xf.q.mulTV ea.normal) (v - unplace xf q) = dot ea.normal (xf.mulV v - q) := by
      rw [← rotV_dot hrot, rot_mulTV hrot, ← place_sub, place_unplace hrot]; rfl
    rw [dot_sub, dot_sub] at e
    rw [dot_sub, ← hflat q hq] at this
    linarith
  have hfs : ∀ i < 4, faceSep (b.verts.map xf.mulV) (b.normals.map xf.q.mulV) a.v1 a.v2 i =
      b2min (dot (wn b xf i) (a.v1 - wv b xf i)) (dot (wn b xf i) (a.v2 - wv b xf i)) := by
    intro i hi
    rw [faceSep, psGet_map _ (by rw [hl4]; exact hi), psGet_map _ (by rw [l4]; exact hi)]
    have : ∀ x, dot (-xf.q.mulV (psGet b.normals i)) (xf.mulV (psGet b.verts i) - x) = dot (wn b xf i) (x - wv b xf i) := by
      intro x; simp only [dot, wn, wv, Vec2.neg_x, Vec2.neg_y, Vec2.sub_x, Vec2.sub_y]; ring
    rw [this, this]
  have ps : pa.separation ≤ 0 := by
    rcases p3 with p3 | ⟨i, hi, p3⟩
    · rw [p3]; simp only []; linarith
    · rw [List.length_map, l4] at hi
      rw [p3]; simp only []
      rw [hfs i hi]
      obtain ⟨v, hv, hle⟩ := hull_vertex_le (wn b xf i) hq
      have := deep' i hi
      rw [dot_sub] at this
      simp only [List.mem_cons, List.not_mem_nil, or_false] at hv
      simp only [b2min, dot_sub]
      rcases hv with rfl | rfl <;> split_ifs <;> linarith
  rw [if_neg (by linarith), if_neg (by linarith)]
  have hpr : primaryAxis a (b.radius + a.radius) e1 ea pa =
      some (if pa.separation - (b.radius + a.radius) > 98 / 100 * (ea.separation - (b.radius + a.radius)) + 1 / 1000 then pa else ea) := by
    simp only [primaryAxis, h2, Bool.false_eq_true, if_false]
  rw [hpr]
  simp only []
  by_cases hc : pa.separation - (b.radius + a.radius) > 98 / 100 * (ea.separation - (b.radius + a.radius)) + 1 / 1000
  · rw [if_pos hc]
    rcases p3 with p3 | ⟨i, hi, p3⟩
    · rw [p3] at hc; exfalso; simp only [] at hc; linarith
    · rw [List.length_map, l4] at hi
      rw [if_neg (by rw [p3]; exact fun h => by cases h), show pa.index = some i from by rw [p3]]
      exact clipToFace_rect hb hrot hr0 hq deep' hi
  · rw [if_neg hc, if_pos q2]
    have hc := not_lt.mp hc
    refine clipToEdge_rect hb hrot u1 hpos hal' q3 (s := ea.separation) hr0 hr3 hq deep' ?_ ?_
    · intro j hj
      exact dmin _ (List.mem_map_of_mem (List.mem_of_getElem? (psGet_some (by rw [l4]; exact hj))))
    · intro j hj
      have := p2 j (by rw [List.length_map, l4]; exact hj)
      rw [hfs j hj] at this
      simp only [b2min] at this
      split_ifs at this
      · exact ⟨a.v1, .inl rfl, by linarith⟩
      · exact ⟨a.v2, .inr rfl, by linarith⟩

end
end B2
