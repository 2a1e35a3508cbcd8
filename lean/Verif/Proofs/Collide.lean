import Verif.Spec.Collide
import Verif.Proofs.Shapes
import Verif.Proofs.Distance
import Verif.Proofs.PolygonSet

/-!
# Lemmas about contact manifolds
-/
namespace B2
open Spec
set_option linter.unusedSectionVars false
section
variable {F : Type} [Field F] [LinearOrder F] [IsStrictOrderedRing F]

/-! ## Discs -/

theorem dot_le_mul {u w : Vec2 F} {r s : F} (hr : 0 ≤ r) (hs : 0 ≤ s) (hu : dot u u ≤ r * r) (hw : dot w w ≤ s * s) :
    dot u w ≤ r * s := by
  have h1 : dot u w * dot u w ≤ dot u u * dot w w := by
    simp only [dot]; nlinarith [mul_self_nonneg (u.x * w.y - u.y * w.x)]
  have h2 : dot u u * dot w w ≤ (r * r) * (s * s) := by
    apply mul_le_mul hu hw (dot_self_nonneg _) (mul_self_nonneg _)
  have h3 : dot u w ^ 2 ≤ (r * s) ^ 2 := by nlinarith
  exact (abs_le_of_sq_le_sq' h3 (mul_nonneg hr hs)).2

/-- Two discs have a point in common exactly if their centres are not farther apart than the sum of the radii. -/
theorem discs_meet {p q : Vec2 F} {r s : F} (hr : 0 ≤ r) (hs : 0 ≤ s) :
    (∃ x, dist2 p x ≤ r * r ∧ dist2 q x ≤ s * s) ↔ dist2 p q ≤ (r + s) * (r + s) := by
  constructor
  · rintro ⟨x, h1, h2⟩
    rw [← sub_dist2] at h1 h2
    have h3 := dot_le_mul (u := p - x) (w := -(q - x)) hr hs h1 (by
      have : dot (-(q - x)) (-(q - x)) = dot (q - x) (q - x) := by simp only [dot, Vec2.neg_x, Vec2.neg_y]; ring
      rw [this]; exact h2)
    have h4 : dist2 p q = dot (p - x) (p - x) + dot (q - x) (q - x) + 2 * dot (p - x) (-(q - x)) := by
      simp only [dist2, dot, Vec2.sub_x, Vec2.sub_y, Vec2.neg_x, Vec2.neg_y]; ring
    rw [h4]; nlinarith
  · intro h
    rcases eq_or_lt_of_le (add_nonneg hr hs) with h0 | h0
    · have hr0 : r = 0 := by linarith
      have hs0 : s = 0 := by linarith
      subst hr0; subst hs0
      refine ⟨q, by simpa using h, by simp [dist2]⟩
    · have hd : dist2 p q / (r + s) / (r + s) ≤ 1 := by
        rw [div_div, div_le_one (by positivity)]; exact h
      have h1 : dist2 p (onLine p q (r / (r + s))) = r * r * (dist2 p q / (r + s) / (r + s)) := by
        simp only [dist2, onLine]; field_simp; ring
      have h2 : dist2 q (onLine p q (r / (r + s))) = s * s * (dist2 p q / (r + s) / (r + s)) := by
        simp only [dist2, onLine]; field_simp; ring
      refine ⟨onLine p q (r / (r + s)), ?_, ?_⟩
      · rw [h1]; nlinarith [mul_self_nonneg r]
      · rw [h2]; nlinarith [mul_self_nonneg s]

theorem hull_singleton {p x : Vec2 F} (h : Hull [p] x) : x = p := by
  induction h with
  | vertex hv => simpa using hv
  | between _ _ _ _ iha ihb => subst iha; subst ihb; ext <;> simp [onLine]

/-- A rounded shape and a disc. -/
theorem touching_circle {a : Shape F} {i : Nat} {xfA xfB : Xf F} {b : Circle F} (ha : 0 ≤ skin a) (hb : 0 ≤ b.radius) :
    Touching a i xfA (.circle b) xfB ↔ ∃ x, Hull (childPoints a i) x ∧
      dist2 (place xfA x) (place xfB b.p) ≤ (skin a + b.radius) * (skin a + b.radius) := by
  constructor
  · rintro ⟨y, ⟨x, hx, hxy⟩, z, hz, hzy⟩
    obtain rfl := hull_singleton hz
    exact ⟨x, hx, (discs_meet ha hb).mp ⟨y, hxy, hzy⟩⟩
  · rintro ⟨x, hx, hd⟩
    obtain ⟨y, h1, h2⟩ := (discs_meet ha hb).mpr hd
    exact ⟨y, ⟨x, hx, h1⟩, b.p, .vertex (by simp [childPoints]), h2⟩

theorem dist2_place {xf : Xf F} (h : IsRot xf.q) (a b : Vec2 F) : dist2 (place xf a) (place xf b) = dist2 a b := by
  simp only [IsRot] at h
  simp only [dist2, place]
  linear_combination ((a.x - b.x) * (a.x - b.x) + (a.y - b.y) * (a.y - b.y)) * h

theorem dist2_unplace {xf : Xf F} (h : IsRot xf.q) (a b : Vec2 F) : dist2 (place xf a) b = dist2 a (unplace xf b) := by
  conv_lhs => rw [← place_unplace h b]
  exact dist2_place h _ _

theorem mulTV_unplace (xf : Xf F) (p : Vec2 F) : xf.mulTV p = unplace xf p := by
  ext <;> simp only [Xf.mulTV, unplace, Rot.mulTV, Vec2.sub_x, Vec2.sub_y]

/-! ## Faces of a polygon -/

theorem nextIndex_mod {i n : Nat} (h : i < n) : nextIndex i n = (i + 1) % n := by
  unfold nextIndex
  split
  · rw [Nat.mod_eq_of_lt (by omega)]
  · have : i + 1 = n := by omega
    rw [this, Nat.mod_self]

theorem nextIndex_lt {i n : Nat} (h : i < n) : nextIndex i n < n := by
  unfold nextIndex; split <;> omega

/-- The index before `i`. -/
theorem prev_index {i n : Nat} (h : i < n) : ∃ j < n, nextIndex j n = i := by
  by_cases h0 : i = 0
  · exact ⟨n - 1, by omega, by unfold nextIndex; rw [if_neg (by omega)]; omega⟩
  · exact ⟨i - 1, by omega, by unfold nextIndex; rw [if_pos (by omega)]; omega⟩

theorem psGet_some {l : List (Vec2 F)} {i : Nat} (h : i < l.length) : l[i]? = some (psGet l i) := by
  rw [psGet_eq h, List.getElem?_eq_getElem h]

theorem Spec.ProperPolygon.nextTo {p : Polygon F} {i : Nat} (hi : i < p.verts.length) :
    NextTo p.verts (psGet p.verts i) (psGet p.verts (nextIndex i p.verts.length)) :=
  ⟨i, psGet_some hi, by rw [← nextIndex_mod hi]; exact psGet_some (nextIndex_lt hi)⟩

/-- The normal of face `i` is its edge turned clockwise and scaled. -/
theorem Spec.ProperPolygon.face {p : Polygon F} (hp : ProperPolygon p) {i : Nat} (hi : i < p.verts.length) :
    ∃ k : F, 0 < k ∧ psGet p.normals i =
      ⟨k * (psGet p.verts (nextIndex i p.verts.length) - psGet p.verts i).y,
        -(k * (psGet p.verts (nextIndex i p.verts.length) - psGet p.verts i).x)⟩ ∧
      dot (psGet p.normals i) (psGet p.normals i) = 1 := by
  obtain ⟨h1, h2, h3⟩ := hp.normal i _ _ _ (psGet_some hi)
    (by rw [← nextIndex_mod hi]; exact psGet_some (nextIndex_lt hi)) (psGet_some (by rw [hp.len]; exact hi))
  set a := psGet p.verts i
  set b := psGet p.verts (nextIndex i p.verts.length)
  set n := psGet p.normals i
  simp only [dot, Vec2.sub_x, Vec2.sub_y] at h1 h2
  simp only [turn, Vec2.add_x, Vec2.add_y, add_sub_cancel_left] at h3
  have he : 0 < (b.x - a.x) * (b.x - a.x) + (b.y - a.y) * (b.y - a.y) := by
    rcases eq_or_lt_of_le (add_nonneg (mul_self_nonneg (b.x - a.x)) (mul_self_nonneg (b.y - a.y))) with h | h
    · exfalso
      have hx : b.x - a.x = 0 := by nlinarith [mul_self_nonneg (b.x - a.x), mul_self_nonneg (b.y - a.y)]
      have hy : b.y - a.y = 0 := by nlinarith [mul_self_nonneg (b.x - a.x), mul_self_nonneg (b.y - a.y)]
      rw [hx, hy] at h3; simp at h3
    · exact h
  refine ⟨((b.y - a.y) * n.x - (b.x - a.x) * n.y) / ((b.x - a.x) * (b.x - a.x) + (b.y - a.y) * (b.y - a.y)),
    div_pos (by linarith) he, ?_, h1⟩
  ext
  · simp only [Vec2.sub_y]; rw [div_mul_eq_mul_div, eq_div_iff he.ne']; linear_combination (b.x - a.x) * h2
  · simp only [Vec2.sub_x]; rw [div_mul_eq_mul_div, ← neg_div, eq_div_iff he.ne']; linear_combination (b.y - a.y) * h2

theorem Spec.ProperPolygon.height_turn {p : Polygon F} (hp : ProperPolygon p) {i : Nat} (hi : i < p.verts.length) :
    ∃ k : F, 0 < k ∧ ∀ q, faceHeight p i q = -(k * turn (psGet p.verts i) (psGet p.verts (nextIndex i p.verts.length)) q) := by
  obtain ⟨k, hk, hn, -⟩ := hp.face hi
  refine ⟨k, hk, fun q => ?_⟩
  simp only [faceHeight, hn, dot, turn, Vec2.sub_x, Vec2.sub_y]; ring

/-- Every point of the polygon is below every face. -/
theorem Spec.ProperPolygon.below {p : Polygon F} (hp : ProperPolygon p) {i : Nat} (hi : i < p.verts.length) {x : Vec2 F}
    (hx : Hull p.verts x) : faceHeight p i x ≤ 0 := by
  have hv : ∀ v ∈ p.verts, faceHeight p i v ≤ 0 := by
    intro v hv
    obtain ⟨k, hk, hh⟩ := hp.height_turn hi
    rw [hh v]
    rcases hp.convex.2.2 _ _ (ProperPolygon.nextTo hi) v hv with rfl | rfl | h
    · simp [turn]
    · have : turn (psGet p.verts i) (psGet p.verts (nextIndex i p.verts.length)) (psGet p.verts (nextIndex i p.verts.length)) = 0 := by
        simp only [turn]; ring
      rw [this]; simp
    · nlinarith
  induction hx with
  | vertex h => exact hv _ h
  | @between a b t _ _ h0 h1 iha ihb =>
    have : faceHeight p i (onLine a b t) = (1 - t) * faceHeight p i a + t * faceHeight p i b := by
      simp only [faceHeight, dot, onLine, Vec2.sub_x, Vec2.sub_y]; ring
    rw [this]; nlinarith

/-- Consecutive vertices turn left. -/
theorem Spec.ProperPolygon.corner {p : Polygon F} (hp : ProperPolygon p) {i : Nat} (hi : i < p.verts.length) :
    0 < turn (psGet p.verts i) (psGet p.verts (nextIndex i p.verts.length))
      (psGet p.verts (nextIndex (nextIndex i p.verts.length) p.verts.length)) := by
  have h3 := hp.convex.1
  have hj := nextIndex_lt hi
  have hk := nextIndex_lt hj
  have hd : ∀ a b, a < p.verts.length → b < p.verts.length → a ≠ b → psGet p.verts a ≠ psGet p.verts b := by
    intro a b ha hb hab h
    rw [psGet_eq ha, psGet_eq hb] at h
    exact hab ((List.Nodup.getElem_inj_iff hp.convex.2.1).mp h)
  rcases hp.convex.2.2 _ _ (ProperPolygon.nextTo hi) _ (List.mem_of_getElem? (psGet_some hk)) with h | h | h
  · refine absurd h (hd _ _ hk hi ?_)
    unfold nextIndex; split_ifs <;> omega
  · refine absurd h (hd _ _ hk hj ?_)
    unfold nextIndex; split_ifs <;> omega
  · exact h

/-- The normals of consecutive faces turn left. -/
theorem Spec.ProperPolygon.normals_turn {p : Polygon F} (hp : ProperPolygon p) {i : Nat} (hi : i < p.verts.length) :
    0 < cross (psGet p.normals i) (psGet p.normals (nextIndex i p.verts.length)) := by
  obtain ⟨k, hk, hn, -⟩ := hp.face hi
  obtain ⟨l, hl, hm, -⟩ := hp.face (nextIndex_lt hi)
  have := hp.corner hi
  rw [hn, hm]
  simp only [turn] at this
  simp only [cross, Vec2.sub_x, Vec2.sub_y]
  have h := mul_pos (mul_pos hk hl) this
  nlinarith

/-! ## The face loop -/

theorem faceLoop_spec (p : Polygon F) (c : Vec2 F) (radius : F) (l : List Nat) (st : Nat × F) :
    (∀ r, faceLoop p c radius l st = some r → (∀ i ∈ l, faceHeight p i c ≤ radius) ∧ st.2 ≤ r.2 ∧
      (∀ i ∈ l, faceHeight p i c ≤ r.2) ∧ (r = st ∨ (r.1 ∈ l ∧ r.2 = faceHeight p r.1 c))) ∧
    (faceLoop p c radius l st = none → ∃ i ∈ l, radius < faceHeight p i c) := by
  induction l generalizing st with
  | nil => exact ⟨fun r h => by simp only [faceLoop, Option.some.injEq] at h; subst h; simp, fun h => by simp [faceLoop] at h⟩
  | cons i l ih =>
    have hs : dot (psGet p.normals i) (c - psGet p.verts i) = faceHeight p i c := rfl
    simp only [faceLoop, hs]
    by_cases h1 : faceHeight p i c > radius
    · rw [if_pos h1]
      exact ⟨fun r h => by simp at h, fun _ => ⟨i, by simp, h1⟩⟩
    · rw [if_neg h1]
      obtain ⟨ih1, ih2⟩ := ih (if faceHeight p i c > st.2 then (i, faceHeight p i c) else st)
      constructor
      · intro r h
        obtain ⟨a1, a2, a3, a4⟩ := ih1 r h
        have b1 : st.2 ≤ r.2 ∧ faceHeight p i c ≤ r.2 := by
          split_ifs at a2 with hc
          · exact ⟨hc.le.trans a2, a2⟩
          · exact ⟨a2, (not_lt.mp hc).trans a2⟩
        refine ⟨fun j hj => ?_, b1.1, fun j hj => ?_, ?_⟩
        · rcases List.mem_cons.mp hj with rfl | hj
          · exact not_lt.mp h1
          · exact a1 j hj
        · rcases List.mem_cons.mp hj with rfl | hj
          · exact b1.2
          · exact a3 j hj
        · rcases a4 with a4 | ⟨a4, a5⟩
          · split_ifs at a4 with hc
            · right; rw [a4]; simp
            · left; exact a4
          · right; exact ⟨List.mem_cons_of_mem _ a4, a5⟩
      · intro h
        obtain ⟨j, hj, hr⟩ := ih2 h
        exact ⟨j, List.mem_cons_of_mem _ hj, hr⟩

/-! ## Regions of a polygon -/

/-- If the point `c` lies in the cone of the normals at the vertex `v`, then `v` is the point of the polygon nearest
to `c`. -/
theorem nearest_vertex {d w m n : Vec2 F} {l k : F} (hl : 0 ≤ l) (hk : 0 ≤ k) (hd : d = l * m + k * n)
    (hm : dot m w ≤ 0) (hn : dot n w ≤ 0) : dot d d ≤ dot (d - w) (d - w) := by
  have h1 : dot d w = l * dot m w + k * dot n w := by rw [hd]; simp only [dot, Vec2.add_x, Vec2.add_y, Vec2.smul_x, Vec2.smul_y]; ring
  have h2 : dot d w ≤ 0 := by rw [h1]; nlinarith
  have h3 : dot (d - w) (d - w) = dot d d - 2 * dot d w + dot w w := by simp only [dot, Vec2.sub_x, Vec2.sub_y]; ring
  rw [h3]; nlinarith [dot_self_nonneg w]

/-- A direction `d` that makes no smaller angle with `m` than with `n` (so `dot m d ≤ dot n d`), is not on the far side
of `n`, and `m` to `n` is a left turn: then `d` is in the cone of `m` and `n`. -/
theorem in_cone {d m n : Vec2 F} (hm : dot m m = 1) (hn : dot n n = 1) (hc : 0 < cross m n) (hd : 0 ≤ cross d n)
    (hmn : dot m d ≤ dot n d) : ∃ l k : F, 0 ≤ l ∧ 0 ≤ k ∧ d = l * m + k * n := by
  have hdec : d = (cross d n / cross m n) * m + (cross m d / cross m n) * n := by
    ext
    · simp only [Vec2.add_x, Vec2.smul_x]; rw [div_mul_eq_mul_div, div_mul_eq_mul_div, ← add_div, eq_div_iff hc.ne']
      simp only [cross]; ring
    · simp only [Vec2.add_y, Vec2.smul_y]; rw [div_mul_eq_mul_div, div_mul_eq_mul_div, ← add_div, eq_div_iff hc.ne']
      simp only [cross]; ring
  set l := cross d n / cross m n
  set k := cross m d / cross m n
  have hl : 0 ≤ l := div_nonneg hd hc.le
  have hlt : dot m n < 1 := by
    have h1 : dot m n * dot m n + cross m n * cross m n = 1 := by
      have : dot m n * dot m n + cross m n * cross m n = dot m m * dot n n := by simp only [dot, cross]; ring
      rw [this, hm, hn]; norm_num
    nlinarith [mul_pos hc hc]
  have e1 : dot m d = l + k * dot m n := by
    rw [hdec]
    have : dot m (l * m + k * n) = l * dot m m + k * dot m n := by simp only [dot, Vec2.add_x, Vec2.add_y, Vec2.smul_x, Vec2.smul_y]; ring
    rw [this, hm]; ring
  have e2 : dot n d = l * dot m n + k := by
    rw [hdec]
    have : dot n (l * m + k * n) = l * dot m n + k * dot n n := by simp only [dot, Vec2.add_x, Vec2.add_y, Vec2.smul_x, Vec2.smul_y]; ring
    rw [this, hn]; ring
  refine ⟨l, k, hl, ?_, hdec⟩
  rw [e1, e2] at hmn
  by_contra hk; push Not at hk
  nlinarith

/-- The mirror image of `in_cone`. -/
theorem in_cone' {d m n : Vec2 F} (hm : dot m m = 1) (hn : dot n n = 1) (hc : 0 < cross n m) (hd : 0 ≤ cross n d)
    (hmn : dot m d ≤ dot n d) : ∃ l k : F, 0 ≤ l ∧ 0 ≤ k ∧ d = l * m + k * n := by
  obtain ⟨l, k, hl, hk, h⟩ := in_cone (d := ⟨d.x, -d.y⟩) (m := ⟨m.x, -m.y⟩) (n := ⟨n.x, -n.y⟩)
    (by simp only [dot] at hm ⊢; linarith) (by simp only [dot] at hn ⊢; linarith)
    (by simp only [cross] at hc ⊢; linarith) (by simp only [cross] at hd ⊢; linarith)
    (by simp only [dot] at hmn ⊢; linarith)
  refine ⟨l, k, hl, hk, ?_⟩
  have hx := congrArg Vec2.x h
  have hy := congrArg Vec2.y h
  simp only [Vec2.add_x, Vec2.add_y, Vec2.smul_x, Vec2.smul_y] at hx hy
  ext
  · simp only [Vec2.add_x, Vec2.smul_x]; linarith
  · simp only [Vec2.add_y, Vec2.smul_y]; linarith

theorem Spec.ProperPolygon.height_next {p : Polygon F} (hp : ProperPolygon p) {i : Nat} (hi : i < p.verts.length) (q : Vec2 F) :
    faceHeight p i q = dot (psGet p.normals i) (q - psGet p.verts (nextIndex i p.verts.length)) := by
  obtain ⟨k, hk, hn, -⟩ := hp.face hi
  rw [faceHeight, hn]
  simp only [dot, Vec2.sub_x, Vec2.sub_y]; ring

theorem Spec.ProperPolygon.vert_hull {p : Polygon F} {i : Nat} (hi : i < p.verts.length) : Hull p.verts (psGet p.verts i) :=
  .vertex (List.mem_of_getElem? (psGet_some hi))

/-- The nearest point of the polygon when face `i` has the greatest height and `c` is before its first vertex. -/
theorem Spec.ProperPolygon.nearest_first {p : Polygon F} (hp : ProperPolygon p) {i : Nat} (hi : i < p.verts.length) {c : Vec2 F}
    (hmax : ∀ j < p.verts.length, faceHeight p j c ≤ faceHeight p i c)
    (hu : dot (c - psGet p.verts i) (psGet p.verts (nextIndex i p.verts.length) - psGet p.verts i) ≤ 0) {x : Vec2 F}
    (hx : Hull p.verts x) : dist2 c (psGet p.verts i) ≤ dist2 c x := by
  obtain ⟨j, hj, hji⟩ := prev_index hi
  obtain ⟨k, hk, hn, h1⟩ := hp.face hi
  obtain ⟨-, -, -, h2⟩ := hp.face hj
  have hc := hp.normals_turn hj
  rw [hji] at hc
  have e1 : faceHeight p i c = dot (psGet p.normals i) (c - psGet p.verts i) := rfl
  have e2 := hp.height_next hj c
  rw [hji] at e2
  have hcr : 0 ≤ cross (c - psGet p.verts i) (psGet p.normals i) := by
    have : cross (c - psGet p.verts i) (psGet p.normals i) =
        -(k * dot (c - psGet p.verts i) (psGet p.verts (nextIndex i p.verts.length) - psGet p.verts i)) := by
      rw [hn]; simp only [cross, dot, Vec2.sub_x, Vec2.sub_y]; ring
    rw [this]; nlinarith
  obtain ⟨l, r, hl, hr, hd⟩ := in_cone h2 h1 hc hcr (by rw [← e1, ← e2]; exact hmax j hj)
  have b1 := hp.below hi hx
  have b2 := hp.below hj hx
  rw [hp.height_next hj, hji] at b2
  have := nearest_vertex (w := x - psGet p.verts i) hl hr hd b2 b1
  have e3 : dot (c - psGet p.verts i - (x - psGet p.verts i)) (c - psGet p.verts i - (x - psGet p.verts i)) = dist2 c x := by
    simp only [dot, dist2, Vec2.sub_x, Vec2.sub_y]; ring
  rw [e3, sub_dist2] at this
  exact this

/-- The same when `c` is past its second vertex. -/
theorem Spec.ProperPolygon.nearest_second {p : Polygon F} (hp : ProperPolygon p) {i : Nat} (hi : i < p.verts.length) {c : Vec2 F}
    (hmax : ∀ j < p.verts.length, faceHeight p j c ≤ faceHeight p i c)
    (hu : dot (c - psGet p.verts (nextIndex i p.verts.length)) (psGet p.verts i - psGet p.verts (nextIndex i p.verts.length)) ≤ 0)
    {x : Vec2 F} (hx : Hull p.verts x) : dist2 c (psGet p.verts (nextIndex i p.verts.length)) ≤ dist2 c x := by
  have hj := nextIndex_lt hi
  obtain ⟨k, hk, hn, h1⟩ := hp.face hi
  obtain ⟨-, -, -, h2⟩ := hp.face hj
  have hc := hp.normals_turn hi
  have e1 := hp.height_next hi c
  have e2 : faceHeight p (nextIndex i p.verts.length) c =
    dot (psGet p.normals (nextIndex i p.verts.length)) (c - psGet p.verts (nextIndex i p.verts.length)) := rfl
  have hcr : 0 ≤ cross (psGet p.normals i) (c - psGet p.verts (nextIndex i p.verts.length)) := by
    have : cross (psGet p.normals i) (c - psGet p.verts (nextIndex i p.verts.length)) =
        -(k * dot (c - psGet p.verts (nextIndex i p.verts.length)) (psGet p.verts i - psGet p.verts (nextIndex i p.verts.length))) := by
      rw [hn]; simp only [cross, dot, Vec2.sub_x, Vec2.sub_y]; ring
    rw [this]; nlinarith
  obtain ⟨l, r, hl, hr, hd⟩ := in_cone' h2 h1 hc hcr (by rw [← e1, ← e2]; exact hmax _ hj)
  have b1 := hp.below hi hx
  have b2 := hp.below hj hx
  rw [hp.height_next hi] at b1
  have := nearest_vertex (w := x - psGet p.verts (nextIndex i p.verts.length)) hl hr hd b2 b1
  have e3 : dot (c - psGet p.verts (nextIndex i p.verts.length) - (x - psGet p.verts (nextIndex i p.verts.length)))
      (c - psGet p.verts (nextIndex i p.verts.length) - (x - psGet p.verts (nextIndex i p.verts.length))) = dist2 c x := by
    simp only [dot, dist2, Vec2.sub_x, Vec2.sub_y]; ring
  rw [e3, sub_dist2] at this
  exact this

/-- Whatever is below a face is at least as far from `c` as the face is. -/
theorem height_le_dist {n c x v : Vec2 F} (hn : dot n n = 1) (h0 : 0 ≤ dot n (c - v)) (hx : dot n (x - v) ≤ 0) :
    dot n (c - v) * dot n (c - v) ≤ dist2 c x := by
  have h1 : dot n (c - v) ≤ dot n (c - x) := by
    have : dot n (c - x) = dot n (c - v) - dot n (x - v) := by simp only [dot, Vec2.sub_x, Vec2.sub_y]; ring
    rw [this]; linarith
  have h2 : dot n (c - x) * dot n (c - x) ≤ dot n n * dot (c - x) (c - x) := by
    simp only [dot]; nlinarith [mul_self_nonneg (n.x * (c - x).y - n.y * (c - x).x)]
  rw [hn, one_mul, sub_dist2] at h2
  exact (mul_self_le_mul_self h0 h1).trans h2

/-- When `c` is over the interior of face `i`, its foot on the face is at distance the height. -/
theorem Spec.ProperPolygon.foot {p : Polygon F} (hp : ProperPolygon p) {i : Nat} (hi : i < p.verts.length) {c : Vec2 F}
    (h1 : 0 ≤ dot (c - psGet p.verts i) (psGet p.verts (nextIndex i p.verts.length) - psGet p.verts i))
    (h2 : 0 ≤ dot (c - psGet p.verts (nextIndex i p.verts.length)) (psGet p.verts i - psGet p.verts (nextIndex i p.verts.length))) :
    ∃ x, Hull p.verts x ∧ dist2 c x = faceHeight p i c * faceHeight p i c := by
  obtain ⟨k, hk, hn, h3⟩ := hp.face hi
  have ha := ProperPolygon.vert_hull (p := p) hi
  have hb := ProperPolygon.vert_hull (p := p) (nextIndex_lt hi)
  rw [faceHeight]
  set a := psGet p.verts i
  set b := psGet p.verts (nextIndex i p.verts.length)
  rw [hn] at h3 ⊢
  simp only [dot, Vec2.sub_x, Vec2.sub_y] at h1 h2 h3 ⊢
  set E := (b.x - a.x) * (b.x - a.x) + (b.y - a.y) * (b.y - a.y) with hE
  have hkE : k * k * E = 1 := by rw [hE]; linarith
  have hEp : 0 < E := by
    by_contra hc; push Not at hc
    nlinarith [mul_pos hk hk]
  set N := (c.x - a.x) * (b.x - a.x) + (c.y - a.y) * (b.y - a.y) with hN
  refine ⟨onLine a b (N / E), .between ha hb (div_nonneg h1 hEp.le) ?_, ?_⟩
  · rw [div_le_one hEp]; nlinarith
  · simp only [dist2, onLine]
    have ht : N / E * E = N := div_mul_cancel₀ _ hEp.ne'
    set t := N / E
    have h4 : (c.x - (a.x + t * (b.x - a.x))) * (c.x - (a.x + t * (b.x - a.x))) + (c.y - (a.y + t * (b.y - a.y))) * (c.y - (a.y + t * (b.y - a.y)))
        = (c.x - a.x) * (c.x - a.x) + (c.y - a.y) * (c.y - a.y) - 2 * t * N + t * (t * E) := by rw [hN, hE]; ring
    rw [h4, ht]
    have h5 : k * k = 1 / E := by field_simp; linarith
    have h6 : (k * (b.y - a.y) * (c.x - a.x) + -(k * (b.x - a.x)) * (c.y - a.y)) * (k * (b.y - a.y) * (c.x - a.x) + -(k * (b.x - a.x)) * (c.y - a.y))
        = (k * k) * (((c.x - a.x) * (c.x - a.x) + (c.y - a.y) * (c.y - a.y)) * E - N * N) := by rw [hN, hE]; ring
    rw [h6, h5]
    have h7 : N * N = t * E * N := by rw [ht]
    rw [h7]; field_simp; ring

/-! ## The hull of a proper polygon is the intersection of its half-planes -/

theorem sign_change (f : Nat → F) (m : Nat) (h1 : 0 ≤ f 1) (hm : f (m + 2) ≤ 0) : ∃ i, 1 ≤ i ∧ i + 1 ≤ m + 2 ∧ 0 ≤ f i ∧ f (i + 1) ≤ 0 := by
  induction m with
  | zero => exact ⟨1, le_refl _, le_refl _, h1, hm⟩
  | succ m ih =>
    rcases le_total (f (m + 2)) 0 with h | h
    · obtain ⟨i, a, b, c, d⟩ := ih h
      exact ⟨i, a, by omega, c, d⟩
    · exact ⟨m + 2, by omega, by omega, h, hm⟩

theorem turn_swap (a b p : Vec2 F) : turn b a p = -turn a b p := by simp only [turn]; ring

theorem tri_hull {vs : List (Vec2 F)} {a b c q : Vec2 F} (ha : Hull vs a) (hb : Hull vs b) (hc : Hull vs c)
    (h0 : 0 < turn a b c) (h1 : 0 ≤ turn a b q) (h2 : 0 ≤ turn b c q) (h3 : 0 ≤ turn c a q) : Hull vs q := by
  have hs : turn b c q + turn c a q + turn a b q = turn a b c := by simp only [turn]; ring
  have hq : q = (turn b c q / turn a b c) * a + (turn c a q / turn a b c) * b + (turn a b q / turn a b c) * c := by
    have key : turn a b c * q.x = turn b c q * a.x + turn c a q * b.x + turn a b q * c.x ∧
        turn a b c * q.y = turn b c q * a.y + turn c a q * b.y + turn a b q * c.y := by
      constructor <;> simp only [turn] <;> ring
    ext
    · simp only [Vec2.add_x, Vec2.smul_x]; field_simp; linarith [key.1]
    · simp only [Vec2.add_y, Vec2.smul_y]; field_simp; linarith [key.2]
  have hsum : turn b c q / turn a b c + turn c a q / turn a b c + turn a b q / turn a b c = 1 := by
    rw [← add_div, ← add_div, hs, div_self h0.ne']
  set x := turn b c q / turn a b c with hx
  set y := turn c a q / turn a b c with hy
  set z := turn a b q / turn a b c with hz
  have px : 0 ≤ x := div_nonneg h2 h0.le
  have py : 0 ≤ y := div_nonneg h3 h0.le
  have pz : 0 ≤ z := div_nonneg h1 h0.le
  rw [hq]
  rcases eq_or_lt_of_le px with h | h
  · rw [← h] at hsum ⊢
    have : (0 : F) * a + y * b + z * c = y * b + z * c := by ext <;> simp
    rw [this]
    exact hull_mix2 hb hc py pz (by linarith)
  · exact hull_mix3 ha hb hc h py pz hsum

/-- A point below all faces of a proper polygon is a point of its hull. -/
theorem Spec.ProperPolygon.hull_of_below {p : Polygon F} (hp : ProperPolygon p) {q : Vec2 F}
    (h : ∀ i < p.verts.length, faceHeight p i q ≤ 0) : Hull p.verts q := by
  obtain ⟨m, hm⟩ : ∃ m, p.verts.length = m + 3 := ⟨p.verts.length - 3, by have := hp.convex.1; omega⟩
  have ht : ∀ i < p.verts.length, 0 ≤ turn (psGet p.verts i) (psGet p.verts (nextIndex i p.verts.length)) q := by
    intro i hi
    obtain ⟨k, hk, hh⟩ := hp.height_turn hi
    have := h i hi
    rw [hh] at this
    by_contra hc; push Not at hc
    nlinarith
  obtain ⟨i, i1, i2, i3, i4⟩ := sign_change (fun i => turn (psGet p.verts 0) (psGet p.verts i) q) m
    (by have := ht 0 (by omega); rw [nextIndex, if_pos (by omega)] at this; exact this)
    (by
      have := ht (m + 2) (by omega)
      rw [nextIndex, if_neg (by omega)] at this
      rw [turn_swap]; linarith)
  have hi := ht i (by omega)
  have hc := hp.convex.2.2 _ _ (ProperPolygon.nextTo (p := p) (i := i) (by omega)) _ (List.mem_of_getElem? (psGet_some (l := p.verts) (i := 0) (by omega)))
  have hn : nextIndex i p.verts.length = i + 1 := by rw [nextIndex, if_pos (by omega)]
  rw [hn] at hi hc
  have hd : ∀ a b, a < p.verts.length → b < p.verts.length → a ≠ b → psGet p.verts a ≠ psGet p.verts b := by
    intro a b ha hb hab h
    rw [psGet_eq ha, psGet_eq hb] at h
    exact hab ((List.Nodup.getElem_inj_iff hp.convex.2.1).mp h)
  have hc : 0 < turn (psGet p.verts i) (psGet p.verts (i + 1)) (psGet p.verts 0) := by
    rcases hc with hc | hc | hc
    · exact absurd hc (hd _ _ (by omega) (by omega) (by omega))
    · exact absurd hc (hd _ _ (by omega) (by omega) (by omega))
    · exact hc
  refine tri_hull (ProperPolygon.vert_hull (p := p) (i := i) (by omega)) (ProperPolygon.vert_hull (p := p) (i := i + 1) (by omega))
    (ProperPolygon.vert_hull (p := p) (i := 0) (by omega)) hc hi ?_ i3
  rw [turn_swap]; linarith

/-! ## Polygon and circle -/

theorem normalize_unit [Elem F] [ElemLaws F] {d : Vec2 F} {s : F} (hs : epsilon ≤ s) (hd : s * s ≤ dot d d) :
    dot d.normalize.1 d.normalize.1 = 1 ∧ 0 ≤ dot d d.normalize.1 ∧ dot d d.normalize.1 * dot d d.normalize.1 = dot d d := by
  have he : (0 : F) < epsilon := eps_pos
  have hl : epsilon ≤ d.length := by
    by_contra hc; push Not at hc
    have := mul_self_lt_mul_self (length_nonneg d) (hc.trans_le hs)
    rw [length_sq] at this; linarith
  obtain ⟨k, hk, h1, h2⟩ := normalize_scale d
  have h3 := h2 hl
  have h4 : k * k * dot d d = 1 := by rw [← length_sq]; linear_combination (k * d.length + 1) * h3
  have e1 : dot d.normalize.1 d.normalize.1 = k * k * dot d d := by rw [h1]; simp only [dot]; ring
  have e2 : dot d d.normalize.1 = k * dot d d := by rw [h1]; simp only [dot]; ring
  refine ⟨by rw [e1, h4], by rw [e2]; exact mul_nonneg hk.le (dot_self_nonneg _), ?_⟩
  rw [e2]; linear_combination dot d d * h4

/-- A vector that is as long as its component along a unit vector is a multiple of it. -/
theorem along_unit {d n : Vec2 F} {h : F} (hn : dot n n = 1) (h0 : 0 ≤ h) (h1 : h ≤ dot d n) (h2 : dot d d = h * h) : d = h * n := by
  have e : dot (d - h * n) (d - h * n) = dot d d - 2 * h * dot d n + h * h * dot n n := by
    simp only [dot, Vec2.sub_x, Vec2.sub_y, Vec2.smul_x, Vec2.smul_y]; ring
  have : dot (d - h * n) (d - h * n) ≤ 0 := by rw [e, h2, hn]; nlinarith
  simp only [dot] at this
  have hx : (d - h * n).x = 0 := by nlinarith [mul_self_nonneg (d - h * n).x, mul_self_nonneg (d - h * n).y]
  have hy : (d - h * n).y = 0 := by nlinarith [mul_self_nonneg (d - h * n).x, mul_self_nonneg (d - h * n).y]
  ext
  · simp only [Vec2.sub_x] at hx; linarith
  · simp only [Vec2.sub_y] at hy; linarith

theorem eq_add_of_sub {c x w : Vec2 F} (h : c - x = w) : c = x + w := by
  rw [← h]; ext <;> simp only [Vec2.add_x, Vec2.add_y, Vec2.sub_x, Vec2.sub_y] <;> ring

/-- From a point whose foot is inside a segment the segment is nearer than its end. -/
theorem nearer_inside {a b q : Vec2 F} (h : 0 < dot (b - a) (b - q)) : ∃ y, Hull [a, b] y ∧ dist2 q y < dist2 q b := by
  have hE : 0 < dist2 a b := by
    rcases lt_or_eq_of_le (show 0 ≤ dist2 a b from by
      simp only [dist2]; nlinarith [mul_self_nonneg (a.x - b.x), mul_self_nonneg (a.y - b.y)]) with h' | h'
    · exact h'
    · simp only [dist2] at h'
      have h1 : b.x - a.x = 0 := by nlinarith [mul_self_nonneg (a.x - b.x), mul_self_nonneg (a.y - b.y)]
      have h2 : b.y - a.y = 0 := by nlinarith [mul_self_nonneg (a.x - b.x), mul_self_nonneg (a.y - b.y)]
      simp only [dot, Vec2.sub_x, Vec2.sub_y, h1, h2] at h
      linarith
  have e : ∀ t, dist2 q (onLine b a t) = dist2 q b - 2 * t * dot (b - a) (b - q) + t * t * dist2 a b := by
    intro t; simp only [dist2, onLine, dot, Vec2.sub_x, Vec2.sub_y]; ring
  rcases le_total (dot (b - a) (b - q)) (dist2 a b) with hle | hle
  · refine ⟨onLine b a (dot (b - a) (b - q) / dist2 a b), .between (.vertex (by simp)) (.vertex (by simp))
      (div_nonneg h.le hE.le) ((div_le_one hE).mpr hle), ?_⟩
    rw [e]
    have hd : dot (b - a) (b - q) / dist2 a b * dist2 a b = dot (b - a) (b - q) := div_mul_cancel₀ _ hE.ne'
    have hp := div_pos h hE
    generalize dot (b - a) (b - q) / dist2 a b = t at hd hp ⊢
    rw [← hd]; nlinarith [mul_pos (mul_pos hp hp) hE]
  · refine ⟨a, .vertex (by simp), ?_⟩
    have := e 1
    rw [show onLine b a 1 = a from by ext <;> simp [onLine]] at this
    rw [this]; linarith

/-- The plane through the nearest point of a hull, across the direction to the point it is nearest to, supports the hull. -/
theorem nearest_supports {vs : List (Vec2 F)} {c v n : Vec2 F} {h : F} (hv : Hull vs v) (hh : 0 < h) (hc : c = v + h * n)
    (hnear : ∀ x, Hull vs x → dist2 c v ≤ dist2 c x) {x : Vec2 F} (hx : Hull vs x) : dot n (x - v) ≤ 0 := by
  by_contra hcon
  push Not at hcon
  have h1 : dot (v - x) (v - c) = h * dot n (x - v) := by
    rw [hc]; simp only [dot, Vec2.sub_x, Vec2.sub_y, Vec2.add_x, Vec2.add_y, Vec2.smul_x, Vec2.smul_y]; ring
  obtain ⟨y, hy, hlt⟩ := nearer_inside (a := x) (b := v) (q := c) (by rw [h1]; exact mul_pos hh hcon)
  have hyv : Hull vs y := by
    clear hlt
    induction hy with
    | vertex hm =>
      simp only [List.mem_cons, List.not_mem_nil, or_false] at hm
      rcases hm with rfl | rfl
      · exact hx
      · exact hv
    | between _ _ t0 t1 iha ihb => exact .between iha ihb t0 t1
  exact absurd (hnear y hyv) (not_le.mpr hlt)

theorem polyCircle_spec [Elem F] [ElemLaws F] {a : Polygon F} (hp : ProperPolygon a) {b : Circle F} {xfA xfB : Xf F}
    (hr : 0 ≤ a.radius + b.radius) :
    let c := unplace xfA (place xfB b.p)
    let m := collidePolygonCircle a xfA b xfB
    (m.points = [] ∧ ∀ x, Hull a.verts x → (a.radius + b.radius) * (a.radius + b.radius) < dist2 c x) ∨
    ∃ n q : Vec2 F, m = faceCircle n q b.p ∧ (dot n n = 1 ∧ Hull a.verts q ∧ ∀ x, Hull a.verts x → dot n (x - q) ≤ 0) ∧
      (((∃ i < a.verts.length, epsilon ≤ faceHeight a i c) ∧ 0 ≤ dot (c - q) n ∧ dot (c - q) n ≤ a.radius + b.radius ∧
        (∃ x, Hull a.verts x ∧ c = x + dot (c - q) n * n) ∧
        ∀ x, Hull a.verts x → dot (c - q) n * dot (c - q) n ≤ dist2 c x) ∨
      ((∀ i < a.verts.length, faceHeight a i c < epsilon) ∧ ∃ i < a.verts.length, n = psGet a.normals i ∧
        dot (c - q) n = faceHeight a i c ∧ faceHeight a i c ≤ a.radius + b.radius ∧
        ((∃ j < a.verts.length, -maxFlt < faceHeight a j c) → ∀ j < a.verts.length, faceHeight a j c ≤ faceHeight a i c))) := by
  intro c m
  have h3 := hp.convex.1
  have he : (0 : F) < epsilon := eps_pos
  obtain ⟨s1, s2⟩ := faceLoop_spec a c (a.radius + b.radius) (List.range a.verts.length) (0, -maxFlt)
  have hmf : (0 : F) < maxFlt := by unfold maxFlt; norm_num
  have hm : m = collidePolygonCircle a xfA b xfB := rfl
  simp only [collidePolygonCircle, mulTV_unplace, place_eq] at hm
  rw [show unplace xfA (place xfB b.p) = c from rfl] at hm
  rcases hl : faceLoop a c (a.radius + b.radius) (List.range a.verts.length) (0, -maxFlt) with _ | ⟨i, s⟩
  · left
    rw [hl] at hm
    simp only [] at hm
    refine ⟨by rw [hm]; rfl, fun x hx => ?_⟩
    obtain ⟨i, hi, hri⟩ := s2 hl
    rw [List.mem_range] at hi
    obtain ⟨-, -, -, hn⟩ := hp.face hi
    exact lt_of_lt_of_le (mul_self_lt_mul_self hr hri) (height_le_dist hn (hr.trans hri.le) (hp.below hi hx))
  · have hmid : ∀ i < a.verts.length, Hull a.verts ((1 / 2 : F) * (psGet a.verts i + psGet a.verts (nextIndex i a.verts.length))) ∧
        ∀ x, Hull a.verts x →
          dot (psGet a.normals i) (x - (1 / 2 : F) * (psGet a.verts i + psGet a.verts (nextIndex i a.verts.length))) ≤ 0 := by
      intro i hi
      constructor
      · rw [show (1 / 2 : F) * (psGet a.verts i + psGet a.verts (nextIndex i a.verts.length)) =
          onLine (psGet a.verts i) (psGet a.verts (nextIndex i a.verts.length)) (1 / 2) from by
          ext <;> simp only [onLine, Vec2.smul_x, Vec2.smul_y, Vec2.add_x, Vec2.add_y] <;> ring]
        exact .between (ProperPolygon.vert_hull hi) (ProperPolygon.vert_hull (nextIndex_lt hi)) (by norm_num) (by norm_num)
      · intro x hx
        have e1 := hp.height_next hi x
        have e2 : faceHeight a i x = dot (psGet a.normals i) (x - psGet a.verts i) := rfl
        have e3 := hp.below hi hx
        have : dot (psGet a.normals i) (x - (1 / 2 : F) * (psGet a.verts i + psGet a.verts (nextIndex i a.verts.length))) = faceHeight a i x := by
          simp only [dot, Vec2.sub_x, Vec2.sub_y, Vec2.add_x, Vec2.add_y, Vec2.smul_x, Vec2.smul_y] at e1 e2 ⊢
          linear_combination (-1 / 2 : F) * e1 - 1 / 2 * e2
        rw [this]; exact e3
    obtain ⟨a1, a2, a3, a4⟩ := s1 _ hl
    rw [hl] at hm
    simp only [] at hm a2 a3 a4
    by_cases hs : s < epsilon
    · right
      rw [if_pos hs] at hm
      have hi : i < a.verts.length := by
        rcases a4 with a4 | ⟨a4, -⟩
        · rw [Prod.mk.injEq] at a4; omega
        · exact List.mem_range.mp a4
      obtain ⟨k, hk, hn, hnn⟩ := hp.face hi
      refine ⟨_, _, hm, ⟨hnn, hmid i hi⟩, .inr ⟨fun j hj => lt_of_le_of_lt (a3 j (List.mem_range.mpr hj)) hs, i, hi, rfl, ?_, a1 i (List.mem_range.mpr hi), ?_⟩⟩
      · have e1 := hp.height_next hi c
        have e2 : faceHeight a i c = dot (psGet a.normals i) (c - psGet a.verts i) := rfl
        simp only [dot, Vec2.sub_x, Vec2.sub_y, Vec2.add_x, Vec2.add_y, Vec2.smul_x, Vec2.smul_y] at e1 e2 ⊢
        linear_combination (-1 / 2 : F) * e1 - 1 / 2 * e2
      · rintro ⟨j, hj, hjm⟩ l hl'
        rcases a4 with a4 | ⟨-, a4⟩
        · rw [Prod.mk.injEq] at a4
          have := a3 j (List.mem_range.mpr hj)
          rw [a4.2] at this
          exact absurd hjm (not_lt.mpr this)
        · rw [← a4]; exact a3 l (List.mem_range.mpr hl')
    · rw [if_neg hs] at hm
      have hs' : epsilon ≤ s := not_lt.mp hs
      obtain ⟨hi, hsi⟩ : i < a.verts.length ∧ s = faceHeight a i c := by
        rcases a4 with a4 | ⟨a4, a5⟩
        · rw [Prod.mk.injEq] at a4; linarith [a4.2]
        · exact ⟨List.mem_range.mp a4, a5⟩
      have hmax : ∀ j < a.verts.length, faceHeight a j c ≤ faceHeight a i c := fun j hj => by
        rw [← hsi]; exact a3 j (List.mem_range.mpr hj)
      have hout : ∃ i < a.verts.length, epsilon ≤ faceHeight a i c := ⟨i, hi, by rw [← hsi]; exact hs'⟩
      obtain ⟨k, hk, hn, hnn⟩ := hp.face hi
      have hsr : s ≤ a.radius + b.radius := by rw [hsi]; exact a1 i (List.mem_range.mpr hi)
      have hvd : ∀ {x}, Hull a.verts x → s * s ≤ dist2 c x := fun {x} hx => by
        have := height_le_dist (c := c) hnn (by change 0 ≤ faceHeight a i c; rw [← hsi]; linarith) (hp.below hi hx)
        rw [hsi]; exact this
      have hv1 := ProperPolygon.vert_hull (p := a) hi
      have hv2 := ProperPolygon.vert_hull (p := a) (nextIndex_lt hi)
      -- the vertex regions
      have hvert : ∀ v, Hull a.verts v → (∀ x, Hull a.verts x → dist2 c v ≤ dist2 c x) →
          m = (if distanceV2 c v > (a.radius + b.radius) * (a.radius + b.radius) then Manifold.default
            else faceCircle (c - v).normalize.1 v b.p) →
          (m.points = [] ∧ ∀ x, Hull a.verts x → (a.radius + b.radius) * (a.radius + b.radius) < dist2 c x) ∨
          ∃ n q : Vec2 F, m = faceCircle n q b.p ∧ (dot n n = 1 ∧ Hull a.verts q ∧ ∀ x, Hull a.verts x → dot n (x - q) ≤ 0) ∧ (0 ≤ dot (c - q) n ∧ dot (c - q) n ≤ a.radius + b.radius ∧
            (∃ x, Hull a.verts x ∧ c = x + dot (c - q) n * n) ∧
            ∀ x, Hull a.verts x → dot (c - q) n * dot (c - q) n ≤ dist2 c x) := by
        intro v hv hnear hmv
        have hdv : distanceV2 c v = dist2 c v := sub_dist2 c v
        rw [hdv] at hmv
        by_cases hgt : dist2 c v > (a.radius + b.radius) * (a.radius + b.radius)
        · left
          rw [if_pos hgt] at hmv
          exact ⟨by rw [hmv]; rfl, fun x hx => lt_of_lt_of_le hgt (hnear x hx)⟩
        · right
          rw [if_neg hgt] at hmv
          obtain ⟨u1, u2, u3⟩ := normalize_unit (d := c - v) hs' (by rw [sub_dist2]; exact hvd hv)
          rw [sub_dist2] at u3
          have hal := eq_add_of_sub (along_unit u1 u2 (le_refl _) (by rw [sub_dist2, u3]))
          have hpos : 0 < dot (c - v) (c - v).normalize.1 := by
            rcases lt_or_eq_of_le u2 with h | h
            · exact h
            · rw [← h] at u3
              have h1 := hvd hv
              rw [← u3] at h1
              have h2 : 0 < s * s := mul_pos (by linarith) (by linarith)
              linarith
          refine ⟨_, _, hmv, ⟨u1, hv, fun x hx => nearest_supports hv hpos hal hnear hx⟩, u2, ?_, ⟨v, hv, hal⟩, fun x hx => by rw [u3]; exact hnear x hx⟩
          by_contra hc; push Not at hc
          have := mul_self_lt_mul_self hr hc
          rw [u3] at this; exact hgt this
      by_cases hu1 : dot (c - psGet a.verts i) (psGet a.verts (nextIndex i a.verts.length) - psGet a.verts i) ≤ 0
      · rw [if_pos hu1] at hm
        rcases hvert _ hv1 (fun x hx => hp.nearest_first hi hmax hu1 hx) hm with h | ⟨n, q, h1, h2, h3⟩
        · exact .inl h
        · exact .inr ⟨n, q, h1, h2, .inl ⟨hout, h3⟩⟩
      · rw [if_neg hu1] at hm
        by_cases hu2 : dot (c - psGet a.verts (nextIndex i a.verts.length)) (psGet a.verts i - psGet a.verts (nextIndex i a.verts.length)) ≤ 0
        · rw [if_pos hu2] at hm
          rcases hvert _ hv2 (fun x hx => hp.nearest_second hi hmax hu2 hx) hm with h | ⟨n, q, h1, h2, h3⟩
          · exact .inl h
          · exact .inr ⟨n, q, h1, h2, .inl ⟨hout, h3⟩⟩
        · rw [if_neg hu2] at hm
          have hface : dot (c - (1 / 2 : F) * (psGet a.verts i + psGet a.verts (nextIndex i a.verts.length))) (psGet a.normals i) = faceHeight a i c := by
            have e1 := hp.height_next hi c
            have e2 : faceHeight a i c = dot (psGet a.normals i) (c - psGet a.verts i) := rfl
            simp only [dot, Vec2.sub_x, Vec2.sub_y, Vec2.add_x, Vec2.add_y, Vec2.smul_x, Vec2.smul_y] at e1 e2 ⊢
            linear_combination (-1 / 2 : F) * e1 - 1 / 2 * e2
          rw [hface, ← hsi, if_neg (not_lt.mpr hsr)] at hm
          right
          refine ⟨_, _, hm, ⟨hnn, hmid i hi⟩, .inl ⟨hout, ?_⟩⟩
          rw [hface, ← hsi]
          obtain ⟨x, hx, hxd⟩ := hp.foot hi (not_le.mp hu1).le (not_le.mp hu2).le
          have hbx := hp.below hi hx
          have hcx : s ≤ dot (c - x) (psGet a.normals i) := by
            rw [hsi]
            have : dot (c - x) (psGet a.normals i) = faceHeight a i c - faceHeight a i x := by
              simp only [faceHeight, dot, Vec2.sub_x, Vec2.sub_y]; ring
            rw [this]; linarith
          exact ⟨by linarith, hsr, ⟨x, hx, eq_add_of_sub (along_unit hnn (by linarith) hcx (by rw [sub_dist2, hxd, hsi]))⟩, fun x hx => hvd hx⟩

end
end B2
