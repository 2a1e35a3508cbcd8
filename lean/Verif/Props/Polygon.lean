import Verif.Proofs.PolygonSet

/-!
# Properties C59, C60: building a polygon, its mass
-/
namespace B2.Props
open Spec
set_option linter.unusedSectionVars false
section
variable {F : Type} [Field F] [LinearOrder F] [IsStrictOrderedRing F]

/-- No two of the points are closer than half the slop. -/
def Apart (vs : List (Vec2 F)) : Prop := vs.Pairwise fun a b => (linearSlop / 2) * (linearSlop / 2) ≤ dist2 a b

theorem apart_iff (vs : List (Vec2 F)) : Apart vs ↔ vs.Pairwise fun a b => weldDist ≤ dist2 b a := by
  unfold Apart
  have : ∀ a b : Vec2 F, ((linearSlop / 2) * (linearSlop / 2) ≤ dist2 a b ↔ weldDist ≤ dist2 b a) := by
    intro a b; rw [dist2_comm]; unfold weldDist
    rw [show (linearSlop / 2 * (linearSlop / 2) : F) = 1 / 2 * linearSlop * (1 / 2 * linearSlop) by ring]
  simp only [this]

/-- The wrapped hull as a list of points. -/
theorem hull_points {ps : List (Vec2 F)} {r : List Nat}
    (hE : ∀ i a b, r[i]? = some a → r[(i + 1) % r.length]? = some b → IsEdge ps a b) {a b : Vec2 F}
    (h : NextTo (r.map (psGet ps)) a b) :
    ∃ ia ib, ia ∈ r ∧ ib ∈ r ∧ a = psGet ps ia ∧ b = psGet ps ib ∧ IsEdge ps ia ib := by
  obtain ⟨i, h1, h2⟩ := h
  rw [List.getElem?_map, Option.map_eq_some_iff] at h1
  rw [List.length_map, List.getElem?_map, Option.map_eq_some_iff] at h2
  obtain ⟨ia, hia, rfl⟩ := h1
  obtain ⟨ib, hib, rfl⟩ := h2
  exact ⟨ia, ib, List.mem_of_getElem? hia, List.mem_of_getElem? hib, rfl, rfl, hE i ia ib hia hib⟩

theorem hull_convex {ps : List (Vec2 F)} (hd : Distinct ps) {r : List Nat} (hnd : r.Nodup)
    (hx : ∀ k ∈ r, k < ps.length ∧ Exposed ps k)
    (hE : ∀ i a b, r[i]? = some a → r[(i + 1) % r.length]? = some b → IsEdge ps a b) (h3 : 3 ≤ r.length) :
    ConvexCCW (r.map (psGet ps)) := by
  refine ⟨by simpa using h3, ?_, fun a b hab p hp => ?_⟩
  · refine (List.nodup_map_iff_inj_on hnd).mpr fun i hi j hj he => hd i j (hx i hi).1 (hx j hj).1 he
  · obtain ⟨ia, ib, hia, hib, rfl, rfl, he⟩ := hull_points hE hab
    obtain ⟨k, hk, rfl⟩ := List.mem_map.mp hp
    by_cases hka : k = ia
    · left; rw [hka]
    by_cases hkb : k = ib
    · right; left; rw [hkb]
    right; right
    have hl := he.left k (hx k hk).1
    rw [turn_eq] at hl
    refine lt_of_le_of_ne hl fun h0 => ?_
    obtain ⟨μ, k1, k2, k3, k4⟩ := between_of_edge hd (hx ia hia).1 (hx ia hia).2 he (hx k hk).1 h0.symm hkb
    exact exposed_not_between (hx k hk).2 (hx ia hia).1 he.lt (Ne.symm hka) (Ne.symm hkb) (k4 hka) k2 k3

theorem epsilon_weld : (epsilon * epsilon : F) < weldDist := by unfold epsilon weldDist linearSlop; norm_num

/-- What `set` does, when the input has the right size and enough points survive the welding. -/
theorem set_eq [Elem F] (p : Polygon F) (vs : List (Vec2 F)) (h3 : 3 ≤ vs.length) (h8 : vs.length ≤ 8)
    (hw : 3 ≤ (weld vs).length) :
    ∃ r : List Nat, r.Nodup ∧ r ≠ [] ∧ (∀ k ∈ r, k < (weld vs).length ∧ Exposed (weld vs) k) ∧
      (∀ i a b, r[i]? = some a → r[(i + 1) % r.length]? = some b → IsEdge (weld vs) a b) ∧
      p.set vs = if 3 ≤ r.length then
        (computeCentroid (r.map (psGet (weld vs)))).map fun c =>
          { p with verts := r.map (psGet (weld vs)), centroid := c,
                   normals := (cyclicPairs (r.map (psGet (weld vs)))).map fun pr => (crossVS (pr.2 - pr.1) 1).normalize.1 }
        else none := by
  obtain ⟨w1, w2, w3, w4, w5⟩ := weld_spec vs
  have hd := distinct_of_pairwise w3
  obtain ⟨r, h1, h2, h4, h5, h6⟩ := wrap_spec hd (by omega) (by omega)
  refine ⟨r, h2, h4, h5, h6, ?_⟩
  have hedge : ((cyclicPairs (r.map (psGet (weld vs)))).map fun pr => pr.2 - pr.1).all
      (fun e : Vec2 F => decide (e.lengthSquared > (epsilon * epsilon : F))) = true := by
    rw [List.all_eq_true]
    intro e he
    obtain ⟨⟨a, b⟩, hab, rfl⟩ := List.mem_map.mp he
    obtain ⟨ia, ib, hia, hib, rfl, rfl, hE⟩ := hull_points h6 (mem_cyclicPairs.mp hab)
    rw [decide_eq_true_iff]
    exact lt_of_lt_of_le epsilon_weld (pairwise_get w3 hE.lt (h5 ia hia).1 hE.ne)
  unfold Polygon.set
  have g1 : 3 ≤ vs.length ∧ vs.length ≤ maxPolygonVertices := ⟨h3, h8⟩
  have g2 : ¬ (weld vs).length < 3 := by omega
  simp only [h1, g1, g2, hedge, Option.bind_eq_bind, Option.bind_some]
  by_cases g3 : 3 ≤ r.length
  · have g4 : ¬ r.length < 3 := by omega
    simp only [g3, g4]
    cases computeCentroid (r.map (psGet (weld vs))) with
    | none => simp
    | some c => simp
  · have g4 : r.length < 3 := by omega
    simp [g3, g4]

theorem normal_spec [Elem F] [ElemLaws F] {e : Vec2 F} (h : epsilon * epsilon < e.lengthSquared) :
    let n := (crossVS e 1).normalize.1
    dot n n = 1 ∧ ∃ k : F, 0 < k ∧ n = ⟨k * e.y, -(k * e.x)⟩ := by
  have he : (0 : F) < epsilon := by unfold epsilon; positivity
  have hc : crossVS e 1 = ⟨e.y, -e.x⟩ := by ext <;> simp [crossVS]
  obtain ⟨k, hk, h1, h2⟩ := normalize_scale (crossVS e 1)
  have hsq : (crossVS e 1).length * (crossVS e 1).length = e.lengthSquared := by
    rw [hc, Vec2.length, ElemLaws.mul_self_sqrt _ (by nlinarith [mul_self_nonneg e.x, mul_self_nonneg e.y])]
    simp only [Vec2.lengthSquared]; ring
  have hl : epsilon ≤ (crossVS e 1).length := by
    by_contra hcc; push Not at hcc
    have h0 := ElemLaws.sqrt_nonneg ((crossVS e 1).x * (crossVS e 1).x + (crossVS e 1).y * (crossVS e 1).y)
    change 0 ≤ (crossVS e 1).length at h0
    have := mul_self_lt_mul_self h0 hcc
    rw [hsq] at this; exact absurd h (not_lt.mpr this.le)
  have h3 := h2 hl
  intro n
  have hn : n = ⟨k * e.y, -(k * e.x)⟩ := by
    simp only [n, h1, hc]; ext <;> simp [mul_comm]
  refine ⟨?_, k, hk, hn⟩
  rw [hn]
  simp only [dot]
  have h4 : k * k * e.lengthSquared = 1 := by
    rw [← hsq]; linear_combination (k * (crossVS e 1).length + 1) * h3
  simp only [Vec2.lengthSquared] at h4
  linear_combination h4

/-- **C59**: when `set` returns, the polygon's vertices are among the given points, in strictly convex counter-clockwise
order; every given point is within half the slop of a kept point, and every kept point lies in the polygon; each
face's normal is the outward unit normal of its edge; no point is dropped if they are all at least that far apart. -/
theorem c59_hull [Elem F] [ElemLaws F] (p p' : Polygon F) (vs : List (Vec2 F)) (h : p.set vs = some p') :
    ConvexCCW p'.verts ∧ p'.radius = p.radius ∧
    (∃ kept : List (Vec2 F), (∀ k ∈ kept, k ∈ vs) ∧ (Apart vs → kept = vs) ∧
      (∀ v ∈ vs, ∃ k ∈ kept, dist2 v k < (linearSlop / 2) * (linearSlop / 2)) ∧ (∀ v ∈ p'.verts, v ∈ kept) ∧
      (∀ k ∈ kept, ∀ a b, NextTo p'.verts a b → 0 ≤ turn a b k) ∧ ∀ k ∈ kept, InPoly p' k) ∧
    p'.normals.length = p'.verts.length ∧
    ∀ (i : Nat) (a b n : Vec2 F), p'.verts[i]? = some a → p'.verts[(i + 1) % p'.verts.length]? = some b →
      p'.normals[i]? = some n → dot n n = 1 ∧ dot n (b - a) = 0 ∧ turn a b (a + n) < 0 := by
  have hsz : (3 ≤ vs.length ∧ vs.length ≤ 8) ∧ 3 ≤ (weld vs).length := by
    by_contra hc
    by_cases h1 : 3 ≤ vs.length ∧ vs.length ≤ maxPolygonVertices
    · have h2 : (weld vs).length < 3 := by
        by_contra h2; exact hc ⟨h1, by omega⟩
      simp [Polygon.set, h1, h2] at h
    · simp only [Polygon.set, h1, not_false_eq_true, if_true] at h
      simp at h
  obtain ⟨⟨g3, g8⟩, gw⟩ := hsz
  obtain ⟨r, hnd, hne, hx, hE, hs⟩ := set_eq p vs g3 g8 gw
  obtain ⟨w1, w2, w3, w4, w5⟩ := weld_spec vs
  have hd := distinct_of_pairwise w3
  rw [hs] at h
  split at h
  swap
  · cases h
  rename_i hr3
  rw [Option.map_eq_some_iff] at h
  obtain ⟨c, -, rfl⟩ := h
  have hlen : ∀ a b, NextTo (r.map (psGet (weld vs))) a b → epsilon * epsilon < (b - a).lengthSquared := by
    intro a b hab
    obtain ⟨ia, ib, hia, hib, rfl, rfl, he⟩ := hull_points hE hab
    exact lt_of_lt_of_le epsilon_weld (pairwise_get w3 he.lt (hx ia hia).1 he.ne)
  have hturn : ∀ k ∈ weld vs, ∀ a b, NextTo (r.map (psGet (weld vs))) a b → 0 ≤ turn a b k := by
    intro k hk a b hab
    obtain ⟨ia, ib, hia, hib, rfl, rfl, he⟩ := hull_points hE hab
    obtain ⟨j, hj, rfl⟩ := List.mem_iff_getElem.mp hk
    have := he.left j hj
    rw [turn_eq, psGet_eq hj] at this
    exact this
  refine ⟨hull_convex hd hnd hx hE hr3, rfl, ⟨weld vs, w1, fun ha => w5 ((apart_iff vs).mp ha), ?_, ?_, hturn, ?_⟩, ?_, ?_⟩
  · intro v hv
    obtain ⟨k, hk, hdk⟩ := w2 v hv
    refine ⟨k, hk, lt_of_lt_of_eq hdk ?_⟩
    unfold weldDist; ring
  · intro v hv
    obtain ⟨k, hk, rfl⟩ := List.mem_map.mp hv
    rw [psGet_eq (hx k hk).1]; exact List.getElem_mem _
  · intro k hk vn hvn
    simp only at hvn
    obtain ⟨i, hi⟩ := List.mem_iff_getElem?.mp hvn
    rw [List.getElem?_zip_eq_some] at hi
    obtain ⟨h1, h2⟩ := hi
    rw [List.getElem?_map (l := cyclicPairs _), Option.map_eq_some_iff] at h2
    obtain ⟨⟨a, b⟩, h2, h3⟩ := h2
    have hab : NextTo (r.map (psGet (weld vs))) a b := mem_cyclicPairs.mp (List.mem_of_getElem? h2)
    rw [cyclicPairs_eq, List.getElem?_zip_eq_some] at h2
    have : vn.1 = a := by rw [h1] at h2; simpa using h2.1
    obtain ⟨-, k', hk', hn⟩ := normal_spec (hlen a b hab)
    have ht := hturn k hk a b hab
    simp only at h3
    rw [this, ← h3, hn]
    simp only [turn] at ht
    simp only [Vec2.sub_x, Vec2.sub_y]
    nlinarith [mul_nonneg hk'.le ht]
  · simp [cyclicPairs_eq]
  · intro i a b n ha hb hn
    simp only at ha hb hn
    have hab : NextTo (r.map (psGet (weld vs))) a b := ⟨i, ha, hb⟩
    have hil := (List.getElem?_eq_some_iff.mp ha).1
    have hcp : (cyclicPairs (r.map (psGet (weld vs))))[i]? = some (a, b) := by
      rw [cyclicPairs_eq, List.getElem?_zip_eq_some, List.getElem?_rotate hil]; exact ⟨ha, hb⟩
    rw [List.getElem?_map, hcp] at hn
    simp only [Option.map_some, Option.some.injEq] at hn
    have hl := hlen a b hab
    obtain ⟨h1, k', hk', hn'⟩ := normal_spec hl
    rw [← hn]
    refine ⟨h1, ?_, ?_⟩
    · rw [hn']; simp only [dot]; ring
    · rw [hn']
      have h0 : 0 < (b - a).lengthSquared := lt_of_le_of_lt (mul_self_nonneg _) hl
      simp only [Vec2.lengthSquared, Vec2.sub_x, Vec2.sub_y] at h0
      simp only [turn, Vec2.add_x, Vec2.add_y, Vec2.sub_x, Vec2.sub_y]
      have := mul_pos hk' h0
      linarith

/-- **C59**: the wrapping never runs out of its bound and never misses a face: for 3 to 8 points that are far enough
apart and not all on one line, `set` succeeds whenever the hull has area more than `EPSILON`. -/
theorem c59_total [Elem F] [ElemLaws F] (p : Polygon F) (vs : List (Vec2 F)) (h3 : 3 ≤ vs.length) (h8 : vs.length ≤ 8)
    (ha : Apart vs) (a b c : Vec2 F) (hma : a ∈ vs) (hmb : b ∈ vs) (hmc : c ∈ vs) (hnc : turn a b c ≠ 0) :
    ∃ hull : List (Vec2 F), ConvexCCW hull ∧ (∀ v ∈ hull, v ∈ vs) ∧
      (∀ v ∈ vs, ∀ a b, NextTo hull a b → 0 ≤ turn a b v) ∧
      (epsilon < shoelace hull → ∃ p', p.set vs = some p' ∧ p'.verts = hull) ∧
      (¬ epsilon < shoelace hull → p.set vs = none) := by
  obtain ⟨w1, w2, w3, w4, w5⟩ := weld_spec vs
  have hw := w5 ((apart_iff vs).mp ha)
  obtain ⟨r, hnd, hne, hx, hE, hs⟩ := set_eq p vs h3 h8 (by rw [hw]; exact h3)
  rw [hw] at hx hE hs w3
  have hd := distinct_of_pairwise w3
  have hr3 : 3 ≤ r.length := by
    by_contra hc
    match r, hc, hne with
    | [x], _, _ =>
      exact (hE 0 x x rfl (by simp)).ne rfl
    | [x, y], _, _ =>
      have e1 := hE 0 x y rfl (by simp)
      have e2 := hE 1 y x rfl (by simp)
      have hline : ∀ v ∈ vs, cross (psGet vs y - psGet vs x) (v - psGet vs x) = 0 := by
        intro v hv
        obtain ⟨j, hj, rfl⟩ := List.mem_iff_getElem.mp hv
        have a1 := e1.left j hj
        have a2 := e2.left j hj
        rw [psGet_eq hj] at a1 a2
        have : cross (psGet vs x - psGet vs y) (vs[j] - psGet vs y) = -cross (psGet vs y - psGet vs x) (vs[j] - psGet vs x) := by
          simp only [cross, Vec2.sub_x, Vec2.sub_y]; ring
        rw [this] at a2; linarith
      have hD : (psGet vs y - psGet vs x).lengthSquared ≠ 0 :=
        lenSq_ne fun hc => e1.ne (hd _ _ e1.lt e2.lt hc)
      obtain ⟨μa, qa, -⟩ := parallel hD (hline a hma)
      obtain ⟨μb, qb, -⟩ := parallel hD (hline b hmb)
      obtain ⟨μc, qc, -⟩ := parallel hD (hline c hmc)
      apply hnc
      have ax := congrArg Vec2.x qa; have ay := congrArg Vec2.y qa
      have bx := congrArg Vec2.x qb; have by' := congrArg Vec2.y qb
      have cx := congrArg Vec2.x qc; have cy := congrArg Vec2.y qc
      simp only [Vec2.sub_x, Vec2.sub_y, Vec2.smul_x, Vec2.smul_y] at ax ay bx by' cx cy
      have e1 : b.x - a.x = (μb - μa) * ((psGet vs y).x - (psGet vs x).x) := by linear_combination bx - ax
      have e2 : b.y - a.y = (μb - μa) * ((psGet vs y).y - (psGet vs x).y) := by linear_combination by' - ay
      have e3 : c.x - a.x = (μc - μa) * ((psGet vs y).x - (psGet vs x).x) := by linear_combination cx - ax
      have e4 : c.y - a.y = (μc - μa) * ((psGet vs y).y - (psGet vs x).y) := by linear_combination cy - ay
      simp only [turn, e1, e2, e3, e4]; ring
    | [], _, h => exact h rfl
    | x :: y :: z :: l, hc, _ => simp at hc
  rw [if_pos hr3] at hs
  obtain ⟨s, hcen⟩ := computeCentroid_eq (r.map (psGet vs)) (by simpa using hr3)
  refine ⟨r.map (psGet vs), hull_convex hd hnd hx hE hr3, ?_, ?_, fun he => ?_, fun he => ?_⟩
  · intro v hv
    obtain ⟨k, hk, rfl⟩ := List.mem_map.mp hv
    rw [psGet_eq (hx k hk).1]; exact List.getElem_mem _
  · intro v hv a b hab
    obtain ⟨ia, ib, hia, hib, rfl, rfl, he⟩ := hull_points hE hab
    obtain ⟨j, hj, rfl⟩ := List.mem_iff_getElem.mp hv
    have := he.left j hj
    rw [turn_eq, psGet_eq hj] at this
    exact this
  · rw [if_pos he] at hcen
    rw [hs, hcen]; exact ⟨_, rfl, rfl⟩
  · rw [if_neg he] at hcen
    rw [hs, hcen]; rfl

/-- **C59**: `validate` accepts every polygon made by `set`. -/
theorem c59_validate [Elem F] [ElemLaws F] (p p' : Polygon F) (vs : List (Vec2 F)) (h : p.set vs = some p') :
    p'.validate = true := by
  obtain ⟨⟨h3, hnd, hc⟩, -⟩ := c59_hull p p' vs h
  unfold Polygon.validate
  simp only [List.all_eq_true, List.mem_range]
  intro i hi j hj
  generalize hi2 : (if i < p'.verts.length - 1 then i + 1 else 0) = i2
  have hi2l : i2 < p'.verts.length := by rw [← hi2]; split <;> omega
  have hmod : (i + 1) % p'.verts.length = i2 := by
    rw [← hi2]; split
    · exact Nat.mod_eq_of_lt (by omega)
    · rw [show i + 1 = p'.verts.length by omega, Nat.mod_self]
  have hnx : NextTo p'.verts (psGet p'.verts i) (psGet p'.verts i2) := by
    refine ⟨i, ?_, ?_⟩
    · rw [psGet_eq hi]; exact List.getElem?_eq_getElem hi
    · rw [hmod, psGet_eq hi2l]; exact List.getElem?_eq_getElem hi2l
  split
  · rfl
  · rename_i hne
    push Not at hne
    rw [psGet_eq hj]
    rw [psGet_eq hi, psGet_eq hi2l] at hnx ⊢
    rcases hc _ _ hnx _ (List.getElem_mem hj) with h1 | h1 | h1
    · exact absurd ((List.Nodup.getElem_inj_iff hnd).mp h1) hne.1
    · exact absurd ((List.Nodup.getElem_inj_iff hnd).mp h1) hne.2
    · simp only [Bool.not_eq_true', decide_eq_false_iff_not, not_lt]
      rw [turn_eq]; exact h1.le

/-! ## C60: mass of a polygon -/

/-- First moment of the lamina bounded by the cyclic list, x component (Green's formula). -/
def momentX (l : List (Vec2 F)) : F :=
  1 / 6 * ((l.zip (l.rotate 1)).map fun ab => (ab.1.x + ab.2.x) * (ab.1.x * ab.2.y - ab.1.y * ab.2.x)).sum
/-- First moment, y component. -/
def momentY (l : List (Vec2 F)) : F :=
  1 / 6 * ((l.zip (l.rotate 1)).map fun ab => (ab.1.y + ab.2.y) * (ab.1.x * ab.2.y - ab.1.y * ab.2.x)).sum
/-- Second polar moment about the origin. -/
def momentII (l : List (Vec2 F)) : F :=
  1 / 12 * ((l.zip (l.rotate 1)).map fun ab => (ab.1.x * ab.1.x + ab.1.x * ab.2.x + ab.2.x * ab.2.x +
    (ab.1.y * ab.1.y + ab.1.y * ab.2.y + ab.2.y * ab.2.y)) * (ab.1.x * ab.2.y - ab.1.y * ab.2.x)).sum

theorem mass_fold (s : Vec2 F) (m : List (Vec2 F × Vec2 F)) (acc : Vec2 F × F × F) :
    m.foldl (fun (acc : Vec2 F × F × F) pr =>
      let e1 := pr.1 - s
      let e2 := pr.2 - s
      let d := cross e1 e2
      let triangleArea := 1 / 2 * d
      let intx2 := e1.x * e1.x + e2.x * e1.x + e2.x * e2.x
      let inty2 := e1.y * e1.y + e2.y * e1.y + e2.y * e2.y
      (acc.1 + (triangleArea * (1 / 3)) * (e1 + e2), acc.2.1 + triangleArea,
        acc.2.2 + (1 / 4 * (1 / 3) * d) * (intx2 + inty2))) acc =
    (⟨acc.1.x + (m.map fun ab => 1 / 6 * cross (ab.1 - s) (ab.2 - s) * (ab.1.x + ab.2.x - 2 * s.x)).sum,
      acc.1.y + (m.map fun ab => 1 / 6 * cross (ab.1 - s) (ab.2 - s) * (ab.1.y + ab.2.y - 2 * s.y)).sum⟩,
      acc.2.1 + (m.map fun ab => 1 / 2 * cross (ab.1 - s) (ab.2 - s)).sum,
      acc.2.2 + (m.map fun ab => 1 / 12 * cross (ab.1 - s) (ab.2 - s) *
        (dot (ab.1 - s) (ab.1 - s) + dot (ab.1 - s) (ab.2 - s) + dot (ab.2 - s) (ab.2 - s))).sum) := by
  induction m generalizing acc with
  | nil => simp
  | cons ab m ih =>
    rw [List.foldl_cons, ih]
    simp only [List.map_cons, List.sum_cons, Prod.mk.injEq, Vec2.mk.injEq, cross, dot, Vec2.sub_x, Vec2.sub_y, Vec2.add_x,
      Vec2.add_y, Vec2.smul_x, Vec2.smul_y]
    refine ⟨⟨?_, ?_⟩, ?_, ?_⟩ <;> ring

theorem momentX_eq (s : Vec2 F) (l : List (Vec2 F)) :
    ((cyclicPairs l).map fun ab => 1 / 6 * cross (ab.1 - s) (ab.2 - s) * (ab.1.x + ab.2.x - 2 * s.x)).sum =
      momentX l - shoelace l * s.x := by
  rw [cyclic_sum_eq l _ (fun ab => 1 / 6 * ((ab.1.x + ab.2.x) * (ab.1.x * ab.2.y - ab.1.y * ab.2.x)) +
      (-s.x * (1 / 2)) * (ab.1.x * ab.2.y - ab.1.y * ab.2.x))
    (fun v => 1 / 6 * (cross s v * v.x - 2 * s.x * cross s v))
    (fun a b => by simp only [cross, Vec2.sub_x, Vec2.sub_y]; ring), sum_map_add, sum_map_mul, sum_map_mul, cyclicPairs_eq]
  unfold momentX shoelace; ring

theorem momentY_eq (s : Vec2 F) (l : List (Vec2 F)) :
    ((cyclicPairs l).map fun ab => 1 / 6 * cross (ab.1 - s) (ab.2 - s) * (ab.1.y + ab.2.y - 2 * s.y)).sum =
      momentY l - shoelace l * s.y := by
  rw [cyclic_sum_eq l _ (fun ab => 1 / 6 * ((ab.1.y + ab.2.y) * (ab.1.x * ab.2.y - ab.1.y * ab.2.x)) +
      (-s.y * (1 / 2)) * (ab.1.x * ab.2.y - ab.1.y * ab.2.x))
    (fun v => 1 / 6 * (cross s v * v.y - 2 * s.y * cross s v))
    (fun a b => by simp only [cross, Vec2.sub_x, Vec2.sub_y]; ring), sum_map_add, sum_map_mul, sum_map_mul, cyclicPairs_eq]
  unfold momentY shoelace; ring

theorem momentII_eq (s : Vec2 F) (l : List (Vec2 F)) :
    ((cyclicPairs l).map fun ab => 1 / 12 * cross (ab.1 - s) (ab.2 - s) *
        (dot (ab.1 - s) (ab.1 - s) + dot (ab.1 - s) (ab.2 - s) + dot (ab.2 - s) (ab.2 - s))).sum =
      momentII l - 2 * (s.x * momentX l + s.y * momentY l) + shoelace l * dot s s := by
  rw [cyclic_sum_eq l _ (fun ab => 1 / 12 * ((ab.1.x * ab.1.x + ab.1.x * ab.2.x + ab.2.x * ab.2.x +
        (ab.1.y * ab.1.y + ab.1.y * ab.2.y + ab.2.y * ab.2.y)) * (ab.1.x * ab.2.y - ab.1.y * ab.2.x)) +
      ((-s.x * (1 / 3)) * ((ab.1.x + ab.2.x) * (ab.1.x * ab.2.y - ab.1.y * ab.2.x)) +
       ((-s.y * (1 / 3)) * ((ab.1.y + ab.2.y) * (ab.1.x * ab.2.y - ab.1.y * ab.2.x)) +
        (dot s s * (1 / 2)) * (ab.1.x * ab.2.y - ab.1.y * ab.2.x))))
    (fun v => 1 / 12 * (cross s v * (dot v v - 3 * dot s v + 3 * dot s s)))
    (fun a b => by simp only [cross, dot, Vec2.sub_x, Vec2.sub_y]; ring), sum_map_add, sum_map_add, sum_map_add,
    sum_map_mul, sum_map_mul, sum_map_mul, sum_map_mul, cyclicPairs_eq]
  unfold momentII momentX momentY shoelace; ring

/-- **C60**: the mass data of a polygon are those of the uniform lamina with that boundary: mass is density times area,
the center is the first moment divided by the area, the inertia is density times the second moment about the origin
(so the choice of the reference vertex and the parallel-axis shift cancel out). -/
theorem c60_polygon_mass (p : Polygon F) (density : F) (md : MassData F) (h : p.computeMass density = some md) :
    md.mass = density * shoelace p.verts ∧ shoelace p.verts * md.center.x = momentX p.verts ∧
    shoelace p.verts * md.center.y = momentY p.verts ∧ md.i = density * momentII p.verts ∧
    epsilon < shoelace p.verts := by
  have he : (0 : F) < epsilon := by unfold epsilon; positivity
  unfold Polygon.computeMass at h
  by_cases h3 : p.verts.length ≥ 3
  swap
  · simp [h3] at h
  obtain ⟨s, hs⟩ : ∃ s, p.verts[0]? = some s := ⟨_, List.getElem?_eq_getElem (by omega)⟩
  rw [hs] at h
  simp only [Option.bind_eq_bind, Option.bind_some, mass_fold, zero_add, area_eq, momentX_eq, momentY_eq, momentII_eq, h3] at h
  by_cases hA : shoelace p.verts > epsilon
  swap
  · simp [hA] at h
  have hpos : 0 < shoelace p.verts := he.trans hA
  simp only [hA, not_true_eq_false, if_false, pure, Option.some.injEq] at h
  rw [← h]
  simp only [Vec2.add_x, Vec2.add_y, Vec2.smul_x, Vec2.smul_y, dot]
  refine ⟨trivial, ?_, ?_, ?_, hA⟩
  · field_simp; ring
  · field_simp; ring
  · field_simp; ring

/-- **C60**: mass data exist for every polygon of area more than `EPSILON`. -/
theorem c60_total (p : Polygon F) (density : F) (h3 : 3 ≤ p.verts.length) (hA : epsilon < shoelace p.verts) :
    ∃ md, p.computeMass density = some md := by
  unfold Polygon.computeMass
  obtain ⟨s, hs⟩ : ∃ s, p.verts[0]? = some s := ⟨_, List.getElem?_eq_getElem (by omega)⟩
  rw [hs]
  simp only [Option.bind_eq_bind, Option.bind_some, mass_fold, zero_add, area_eq]
  simp [h3, hA]

/-- **C60**: the centroid stored by `set` is the center of mass. -/
theorem c60_centroid (l : List (Vec2 F)) (c : Vec2 F) (h : computeCentroid l = some c) :
    shoelace l * c.x = momentX l ∧ shoelace l * c.y = momentY l := by
  have he : (0 : F) < epsilon := by unfold epsilon; positivity
  by_cases h3 : 3 ≤ l.length
  swap
  · simp [computeCentroid, h3] at h
  obtain ⟨s, hs⟩ := computeCentroid_eq l h3
  rw [hs] at h
  split at h
  swap
  · cases h
  rename_i hA
  have hpos : 0 < shoelace l := he.trans hA
  simp only [Option.some.injEq] at h
  rw [← h, momentX_eq, momentY_eq]
  simp only [Vec2.add_x, Vec2.add_y, Vec2.smul_x, Vec2.smul_y]
  constructor <;> field_simp <;> ring

/-- **C60**: for a box the familiar numbers come out: mass `4 hx hy`, center 0, inertia `m (hx² + hy²) / 3`. -/
theorem c60_box (p : Polygon F) (hx hy density : F) (hA : epsilon < 4 * hx * hy) :
    ∃ md, (p.setAsBox hx hy).computeMass density = some md ∧ md.mass = density * (4 * hx * hy) ∧ md.center = ⟨0, 0⟩ ∧
      md.i = md.mass * (hx * hx + hy * hy) / 3 := by
  have he : (0 : F) < epsilon := by unfold epsilon; positivity
  have hs : shoelace (p.setAsBox hx hy).verts = 4 * hx * hy := by
    simp [shoelace, Polygon.setAsBox, boxVerts]; ring
  obtain ⟨md, hmd⟩ := c60_total (p.setAsBox hx hy) density (by simp [Polygon.setAsBox, boxVerts]) (by rw [hs]; exact hA)
  obtain ⟨h1, h2, h3, h4, -⟩ := c60_polygon_mass _ _ _ hmd
  refine ⟨md, hmd, by rw [h1, hs], ?_, ?_⟩
  · have hne : (4 * hx * hy : F) ≠ 0 := ne_of_gt (he.trans hA)
    have mx : momentX (p.setAsBox hx hy).verts = 0 := by
      simp [momentX, Polygon.setAsBox, boxVerts]; ring
    have my : momentY (p.setAsBox hx hy).verts = 0 := by
      simp [momentY, Polygon.setAsBox, boxVerts]; ring
    rw [hs, mx] at h2
    rw [hs, my] at h3
    ext
    · exact (mul_eq_zero.mp h2).resolve_left hne
    · exact (mul_eq_zero.mp h3).resolve_left hne
  · rw [h4, h1, hs]
    simp [momentII, Polygon.setAsBox, boxVerts]; ring

/-- Five points, one inside: the inner one is dropped. -/
noncomputable example : ∃ p', (Polygon.default : Polygon ℝ).set [⟨0, 0⟩, ⟨2, 0⟩, ⟨1, 1⟩, ⟨2, 2⟩, ⟨0, 2⟩] = some p' ∧
    p'.verts = [⟨2, 0⟩, ⟨2, 2⟩, ⟨0, 2⟩, ⟨0, 0⟩] := by
  norm_num [Polygon.set, weld, distanceV2, dot, linearSlop, maxPolygonVertices, rightMost, List.range', wrapLoop, wrapNext, wrapStep,
    psGet, cross, Vec2.lengthSquared, cyclicPairs, epsilon, computeCentroid, Polygon.default]

end
end B2.Props
