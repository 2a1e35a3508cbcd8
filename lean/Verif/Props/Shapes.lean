import Verif.Proofs.Shapes

/-!
# Properties C49-C52, C55: shapes
-/
namespace B2.Props
open Spec
set_option linter.unusedSectionVars false
section
variable {F : Type} [Field F] [LinearOrder F] [IsStrictOrderedRing F]

/-- **C49**: the box of a child contains every point of the placed child, for every kind of shape. -/
theorem c49_contains (s : Shape F) (i n : Nat) (xf : Xf F) (box : AABB F) (hr : 0 ≤ skin s) (hn : s.childCount = some n)
    (hi : i < n) (h : s.computeAabb xf i = some box) (p : Vec2 F) (hp : ShapePoint s i xf p) : InBox box p := by
  obtain ⟨q, hq, hd⟩ := hp
  have hne : childPoints s i ≠ [] := fun he => hull_nil q (by rw [he] at hq; exact hq)
  obtain ⟨b, rfl, hb, -⟩ := computeAabb_isBoxOf hn hi hne h
  exact disc_inBox hr (hull_inBox hb hq) hd

/-- **C49**: the box is tight: every box that contains the points of the child contains it. -/
theorem c49_tight (s : Shape F) (i n : Nat) (xf : Xf F) (box : AABB F) (hn : s.childCount = some n)
    (hi : i < n) (hne : childPoints s i ≠ []) (h : s.computeAabb xf i = some box) (c : AABB F)
    (hc : ∀ p, ShapePoint s i xf p → InBox c p) :
    c.lo.x ≤ box.lo.x ∧ box.hi.x ≤ c.hi.x ∧ c.lo.y ≤ box.lo.y ∧ box.hi.y ≤ c.hi.y := by
  obtain ⟨b, rfl, -, hb⟩ := computeAabb_isBoxOf hn hi hne h
  have key : ∀ v ∈ childPoints s i, InBox ⟨c.lo + ⟨skin s, skin s⟩, c.hi - ⟨skin s, skin s⟩⟩ (place xf v) := by
    intro v hv
    have hp : ∀ d : Vec2 F, d.x * d.x + d.y * d.y ≤ skin s * skin s → InBox c (place xf v + d) := fun d hd =>
      hc _ ⟨v, .vertex hv, by simp only [dist2, Vec2.add_x, Vec2.add_y]; nlinarith⟩
    obtain ⟨h1, -, -, -⟩ := hp ⟨-skin s, 0⟩ (by simp)
    obtain ⟨-, h2, -, -⟩ := hp ⟨skin s, 0⟩ (by simp)
    obtain ⟨-, -, h3, -⟩ := hp ⟨0, -skin s⟩ (by simp)
    obtain ⟨-, -, -, h4⟩ := hp ⟨0, skin s⟩ (by simp)
    simp only [Vec2.add_x, Vec2.add_y] at h1 h2 h3 h4
    refine ⟨?_, ?_, ?_, ?_⟩ <;> simp only [Vec2.sub_x, Vec2.sub_y, Vec2.add_x, Vec2.add_y] <;> linarith
  obtain ⟨h1, h2, h3, h4⟩ := hb _ key
  simp only [Vec2.sub_x, Vec2.sub_y, Vec2.add_x, Vec2.add_y] at *
  exact ⟨by linarith, by linarith, by linarith, by linarith⟩

/-- **C49**: computing the box of a child never panics. -/
theorem c49_total (s : Shape F) (i n : Nat) (xf : Xf F) (hn : s.childCount = some n) (hi : i < n) :
    ∃ box, s.computeAabb xf i = some box := by
  cases s with
  | circle c => exact ⟨_, rfl⟩
  | edge e => exact ⟨_, rfl⟩
  | polygon p => exact ⟨_, rfl⟩
  | chain c =>
    simp only [Shape.childCount, Chain.childCount] at hn
    split at hn
    · cases hn
    · cases hn
      obtain ⟨a, b, h1, h2⟩ := chain_ends (c := c) (i := i) (by omega)
      simp [Shape.computeAabb, Chain.computeAabb, h1]

/-- A quarter turned triangle and a point of it. -/
example :
    let s : Shape ℚ := .polygon ⟨1 / 100, ⟨0, 0⟩, [⟨0, 0⟩, ⟨2, 0⟩, ⟨0, 1⟩], []⟩
    let xf : Xf ℚ := ⟨⟨5, 5⟩, ⟨1, 0⟩⟩
    0 ≤ skin s ∧ s.childCount = some 1 ∧ ShapePoint s 0 xf ⟨5, 6⟩ := by
  refine ⟨by norm_num [skin], rfl, ⟨1, 0⟩, ?_, by norm_num [dist2, place, skin]⟩
  have : (⟨1, 0⟩ : Vec2 ℚ) = onLine ⟨0, 0⟩ ⟨2, 0⟩ (1 / 2) := by norm_num [onLine]
  rw [this]
  exact .between (.vertex (by simp [childPoints])) (.vertex (by simp [childPoints])) (by norm_num) (by norm_num)

/-! ## C51: the circle -/

/-- **C51**: a reported hit is at a fraction between 0 and the maximum, on the circle, and every earlier point of
the ray is outside; the normal is the outward direction, of length 1. -/
theorem c51_sound [Elem F] [ElemLaws F] (c : Circle F) (xf : Xf F) (i : RayIn F) (out : RayOut F)
    (h : c.rayCast i xf = some out) :
    let o := place xf c.p
    let hit := onLine i.p1 i.p2 out.fraction
    0 ≤ out.fraction ∧ out.fraction ≤ i.maxFraction ∧ dist2 hit o = c.radius * c.radius ∧
    (∀ t, 0 ≤ t → t < out.fraction → c.radius * c.radius < dist2 (onLine i.p1 i.p2 t) o) ∧
    (epsilon ≤ c.radius → out.normal = ⟨(hit.x - o.x) / c.radius, (hit.y - o.y) / c.radius⟩) := by
  have he : (0 : F) < epsilon := by unfold epsilon; positivity
  intro o hit
  unfold Circle.rayCast at h
  have ho : xf.p + xf.q.mulV c.p = o := by ext <;> simp only [o, place, Rot.mulV, Vec2.add_x, Vec2.add_y] <;> ring
  simp only [ho] at h
  set s := i.p1 - o with hs
  set r := i.p2 - i.p1 with hr
  set b := dot s s - c.radius * c.radius with hb
  set sg := dot s r * dot s r - dot r r * b with hsg
  split at h
  · cases h
  rename_i h1
  push Not at h1
  obtain ⟨h0, hrr⟩ := h1
  have hrp : 0 < dot r r := lt_of_lt_of_le he hrr
  have hq0 := ElemLaws.sqrt_nonneg sg
  have hq := ElemLaws.mul_self_sqrt sg h0
  split at h
  swap
  · cases h
  rename_i h2
  cases h
  obtain ⟨ha, hm⟩ := h2
  set q := Elem.sqrt sg with hqd
  set f := -(dot s r + q) / dot r r with hf
  have hfr : f * dot r r = -(dot s r + q) := by rw [hf]; field_simp
  have dist : ∀ t, dot r r * (dist2 (onLine i.p1 i.p2 t) o - c.radius * c.radius) = (dot r r * t + dot s r) * (dot r r * t + dot s r) - q * q := by
    intro t; rw [hq, hsg, hb]
    simp only [dist2, onLine, dot, hs, hr, Vec2.sub_x, Vec2.sub_y]; ring
  have hon : dist2 hit o = c.radius * c.radius := by
    have := dist f
    rw [mul_comm (dot r r) f, hfr] at this
    have h2 : dot r r * (dist2 hit o - c.radius * c.radius) = 0 := by rw [this]; ring
    rcases mul_eq_zero.mp h2 with h3 | h3
    · exact absurd h3 (ne_of_gt hrp)
    · linarith
  refine ⟨div_nonneg ha hrp.le, (div_le_iff₀ hrp).mpr hm, hon, ?_, ?_⟩
  · intro t _ ht
    have h3 : dot r r * t + dot s r < -q := by
      have : t * dot r r < f * dot r r := mul_lt_mul_of_pos_right ht hrp
      rw [hfr] at this; linarith
    have h4 : 0 < dot r r * (dist2 (onLine i.p1 i.p2 t) o - c.radius * c.radius) := by rw [dist t]; nlinarith
    have := (mul_pos_iff_of_pos_left hrp).mp h4
    linarith
  · intro hR
    have hRp : 0 < c.radius := lt_of_lt_of_le he hR
    have hx : (s + f * r).x = hit.x - o.x := by simp only [hit, onLine, hs, hr, Vec2.add_x, Vec2.sub_x, Vec2.smul_x]; ring
    have hy : (s + f * r).y = hit.y - o.y := by simp only [hit, onLine, hs, hr, Vec2.add_y, Vec2.sub_y, Vec2.smul_y]; ring
    have hlen : (s + f * r).length = c.radius := by
      have h5 : (s + f * r).length * (s + f * r).length = c.radius * c.radius := by
        rw [← hon, Vec2.length, hx, hy]
        rw [ElemLaws.mul_self_sqrt _ (by nlinarith [mul_self_nonneg (hit.x - o.x), mul_self_nonneg (hit.y - o.y)])]
        rfl
      exact (mul_self_inj (ElemLaws.sqrt_nonneg _) hRp.le).mp h5
    simp only [Vec2.normalize, hlen, if_neg (not_lt.mpr hR), hx, hy]
    ext <;> simp [div_eq_mul_inv]

/-- **C51**: a ray that starts outside and reaches the circle at some fraction between 0 and the maximum is reported,
if its squared length is at least `EPSILON`. -/
theorem c51_complete [Elem F] [ElemLaws F] (c : Circle F) (xf : Xf F) (i : RayIn F) (t : F)
    (hlen : epsilon ≤ dist2 i.p2 i.p1) (hout : c.radius * c.radius < dist2 i.p1 (place xf c.p)) (ht0 : 0 ≤ t)
    (htm : t ≤ i.maxFraction) (hin : dist2 (onLine i.p1 i.p2 t) (place xf c.p) ≤ c.radius * c.radius) :
    ∃ out, c.rayCast i xf = some out := by
  have he : (0 : F) < epsilon := by unfold epsilon; positivity
  unfold Circle.rayCast
  set o := place xf c.p with ho'
  have ho : xf.p + xf.q.mulV c.p = o := by ext <;> simp only [o, place, Rot.mulV, Vec2.add_x, Vec2.add_y] <;> ring
  simp only [ho]
  set s := i.p1 - o with hs
  set r := i.p2 - i.p1 with hr
  set b := dot s s - c.radius * c.radius with hb
  set sg := dot s r * dot s r - dot r r * b with hsg
  have hrr : epsilon ≤ dot r r := by
    refine hlen.trans (le_of_eq ?_); simp only [dist2, dot, hr, Vec2.sub_x, Vec2.sub_y]
  have hrp : 0 < dot r r := lt_of_lt_of_le he hrr
  have hbp : 0 < b := by
    rw [hb]; have : dot s s = dist2 i.p1 o := by simp only [dist2, dot, hs, Vec2.sub_x, Vec2.sub_y]
    linarith
  have dist : ∀ t, dot r r * (dist2 (onLine i.p1 i.p2 t) o - c.radius * c.radius) = (dot r r * t + dot s r) * (dot r r * t + dot s r) - sg := by
    intro t; rw [hsg, hb]
    simp only [dist2, onLine, dot, hs, hr, Vec2.sub_x, Vec2.sub_y]; ring
  have h1 : (dot r r * t + dot s r) * (dot r r * t + dot s r) ≤ sg := by
    have := dist t
    have h2 : dot r r * (dist2 (onLine i.p1 i.p2 t) o - c.radius * c.radius) ≤ 0 :=
      mul_nonpos_of_nonneg_of_nonpos hrp.le (by linarith)
    linarith
  have hsg0 : 0 ≤ sg := (mul_self_nonneg _).trans h1
  have hq0 := ElemLaws.sqrt_nonneg sg
  have hq := ElemLaws.mul_self_sqrt sg hsg0
  rw [if_neg (by push Not; exact ⟨hsg0, hrr⟩)]
  set q := Elem.sqrt sg
  have habs : |dot r r * t + dot s r| ≤ q := abs_le_of_sq_le_sq (by nlinarith) hq0
  rw [abs_le] at habs
  have hcq : q * q < dot s r * dot s r := by rw [hq, hsg]; nlinarith
  have hneg : dot s r < -q := by
    by_contra hc; push Not at hc
    have hrt : 0 ≤ dot r r * t := mul_nonneg hrp.le ht0
    nlinarith [habs.2]
  have hm : dot r r * t ≤ i.maxFraction * dot r r := by
    rw [mul_comm (dot r r)]; exact mul_le_mul_of_nonneg_right htm hrp.le
  rw [if_pos ⟨by linarith, by linarith [habs.1]⟩]
  exact ⟨_, rfl⟩

noncomputable example : ∃ out, (⟨1, ⟨0, 0⟩⟩ : Circle ℝ).rayCast ⟨⟨-3, 0⟩, ⟨3, 0⟩, 1⟩ ⟨⟨0, 0⟩, Rot.identity⟩ = some out :=
  c51_complete _ _ _ (1 / 3) (by norm_num [epsilon, dist2]) (by norm_num [dist2, place, Rot.identity]) (by norm_num)
    (by norm_num) (by norm_num [dist2, place, Rot.identity, onLine])

/-! ## C52: the edge -/

/-- The ray cast of an edge in the edge's own frame. -/
theorem edge_rayCast_iff [Elem F] [ElemLaws F] (e : Edge F) (xf : Xf F) (i : RayIn F) :
    let p1 := unplace xf i.p1
    let p2 := unplace xf i.p2
    ∃ k : F, 0 < k ∧ (epsilon ≤ (e.v2 - e.v1).length → k * (e.v2 - e.v1).length = 1) ∧
    let n : Vec2 F := ⟨(e.v2.y - e.v1.y) * k, -(e.v2.x - e.v1.x) * k⟩
    let num := dot n (e.v1 - p1)
    let den := dot n (p2 - p1)
    ∀ out : RayOut F, (e.rayCast i xf = some out ↔
      ¬ (e.oneSided = true ∧ num > 0) ∧ den ≠ 0 ∧ out.fraction = num / den ∧ 0 ≤ out.fraction ∧
      out.fraction ≤ i.maxFraction ∧ dot (e.v2 - e.v1) (e.v2 - e.v1) ≠ 0 ∧
      0 ≤ dot (p1 + out.fraction * (p2 - p1) - e.v1) (e.v2 - e.v1) / dot (e.v2 - e.v1) (e.v2 - e.v1) ∧
      dot (p1 + out.fraction * (p2 - p1) - e.v1) (e.v2 - e.v1) / dot (e.v2 - e.v1) (e.v2 - e.v1) ≤ 1 ∧
      out.normal = if num > 0 then -(xf.q.mulV n) else xf.q.mulV n) := by
  intro p1 p2
  obtain ⟨k, hk, hn, hl⟩ := normalize_scale (⟨(e.v2 - e.v1).y, -(e.v2 - e.v1).x⟩ : Vec2 F)
  have hlen : (⟨(e.v2 - e.v1).y, -(e.v2 - e.v1).x⟩ : Vec2 F).length = (e.v2 - e.v1).length := by
    simp only [Vec2.length]; congr 1; ring
  rw [hlen] at hl
  refine ⟨k, hk, hl, ?_⟩
  intro n num den out
  have hn' : (⟨(e.v2 - e.v1).y, -(e.v2 - e.v1).x⟩ : Vec2 F).normalize.1 = n := hn
  unfold Edge.rayCast
  simp only [hn']
  change (if e.oneSided = true ∧ num > 0 then none else if den = 0 then none else
    if num / den < 0 ∨ i.maxFraction < num / den then none else
    if dot (e.v2 - e.v1) (e.v2 - e.v1) = 0 then none else
    if dot (p1 + num / den * (p2 - p1) - e.v1) (e.v2 - e.v1) / dot (e.v2 - e.v1) (e.v2 - e.v1) < 0 ∨
      1 < dot (p1 + num / den * (p2 - p1) - e.v1) (e.v2 - e.v1) / dot (e.v2 - e.v1) (e.v2 - e.v1) then none else
    some ({ fraction := num / den, normal := if num > 0 then -(xf.q.mulV n) else xf.q.mulV n } : RayOut F)) = some out ↔ _
  constructor
  · intro h
    split at h
    · cases h
    rename_i h1
    split at h
    · cases h
    rename_i h2
    split at h
    · cases h
    rename_i h3
    split at h
    · cases h
    rename_i h4
    split at h
    · cases h
    rename_i h5
    push Not at h3 h5
    cases h
    exact ⟨h1, h2, rfl, h3.1, h3.2, h4, h5.1, h5.2, rfl⟩
  · rintro ⟨h1, h2, h3, h4, h5, h6, h7, h8, h9⟩
    rw [h3] at h4 h5 h7 h8
    rw [if_neg h1, if_neg h2, if_neg (by push Not; exact ⟨h4, h5⟩), if_neg h6, if_neg (by push Not; exact ⟨h7, h8⟩)]
    obtain ⟨nn, ff⟩ := out
    simp only at h3 h9
    rw [h3, h9]

/-- Which side of the directed line `a b` the point `p` is on: positive on the right, the front of an edge. -/
def side (a b p : Vec2 F) : F := (b.y - a.y) * (p.x - a.x) - (b.x - a.x) * (p.y - a.y)

/-- **C52**: a reported hit is at a fraction between 0 and the maximum and lies on the placed segment; the normal is
perpendicular to the edge, points against a ray that does not start on the edge, and has length 1 unless the edge is shorter than `EPSILON`; a
one-sided edge is only hit by rays that start in front of it (or on its line). -/
theorem c52_sound [Elem F] [ElemLaws F] (e : Edge F) (xf : Xf F) (hq : IsRot xf.q) (i : RayIn F) (out : RayOut F)
    (h : e.rayCast i xf = some out) :
    0 ≤ out.fraction ∧ out.fraction ≤ i.maxFraction ∧
    (∃ s, 0 ≤ s ∧ s ≤ 1 ∧ onLine i.p1 i.p2 out.fraction = onLine (place xf e.v1) (place xf e.v2) s) ∧
    dot out.normal (place xf e.v2 - place xf e.v1) = 0 ∧
    (0 < out.fraction → dot out.normal (i.p2 - i.p1) < 0) ∧
    (epsilon ≤ (e.v2 - e.v1).length → dot out.normal out.normal = 1) ∧
    (e.oneSided = true → 0 ≤ side (place xf e.v1) (place xf e.v2) i.p1) := by
  obtain ⟨k, hk, hkl, hiff⟩ := edge_rayCast_iff e xf i
  simp only at hiff
  obtain ⟨h1, h2, h3, h4, h5, h6, h7, h8, h9⟩ := (hiff out).mp h
  have e1 : place xf (unplace xf i.p1) = i.p1 := place_unplace hq _
  have e2 : place xf (unplace xf i.p2) = i.p2 := place_unplace hq _
  simp only [IsRot] at hq
  generalize unplace xf i.p1 = p1 at *
  generalize unplace xf i.p2 = p2 at *
  set n : Vec2 F := ⟨(e.v2.y - e.v1.y) * k, -(e.v2.x - e.v1.x) * k⟩ with hn
  set num := dot n (e.v1 - p1) with hnum
  set den := dot n (p2 - p1) with hden
  have hfd : out.fraction * den = num := by rw [h3]; field_simp
  set rr := dot (e.v2 - e.v1) (e.v2 - e.v1) with hrr
  set S := dot (p1 + out.fraction * (p2 - p1) - e.v1) (e.v2 - e.v1) / rr with hS
  have hSr : S * rr = dot (p1 + out.fraction * (p2 - p1) - e.v1) (e.v2 - e.v1) := by rw [hS]; field_simp
  -- the hit point is on the line of the edge
  have hperp : (e.v2.y - e.v1.y) * (p1.x + out.fraction * (p2.x - p1.x) - e.v1.x) -
      (e.v2.x - e.v1.x) * (p1.y + out.fraction * (p2.y - p1.y) - e.v1.y) = 0 := by
    have : k * ((e.v2.y - e.v1.y) * (p1.x + out.fraction * (p2.x - p1.x) - e.v1.x) -
      (e.v2.x - e.v1.x) * (p1.y + out.fraction * (p2.y - p1.y) - e.v1.y)) = 0 := by
      simp only [hnum, hden, hn, dot, Vec2.sub_x, Vec2.sub_y] at hfd
      linear_combination hfd
    rcases mul_eq_zero.mp this with h' | h'
    · exact absurd h' (ne_of_gt hk)
    · exact h'
  have hpt : onLine p1 p2 out.fraction = onLine e.v1 e.v2 S := by
    simp only [hrr, dot, Vec2.sub_x, Vec2.sub_y, Vec2.add_x, Vec2.add_y, Vec2.smul_x, Vec2.smul_y] at hSr h6
    have hx : rr * ((onLine p1 p2 out.fraction).x - (onLine e.v1 e.v2 S).x) = 0 := by
      simp only [onLine, hrr, dot, Vec2.sub_x, Vec2.sub_y]
      linear_combination (e.v2.y - e.v1.y) * hperp - (e.v2.x - e.v1.x) * hSr
    have hy : rr * ((onLine p1 p2 out.fraction).y - (onLine e.v1 e.v2 S).y) = 0 := by
      simp only [onLine, hrr, dot, Vec2.sub_x, Vec2.sub_y]
      linear_combination -(e.v2.x - e.v1.x) * hperp - (e.v2.y - e.v1.y) * hSr
    ext
    · rcases mul_eq_zero.mp hx with h' | h'
      · exact absurd h' (by simpa only [hrr, dot, Vec2.sub_x, Vec2.sub_y] using h6)
      · linarith
    · rcases mul_eq_zero.mp hy with h' | h'
      · exact absurd h' (by simpa only [hrr, dot, Vec2.sub_x, Vec2.sub_y] using h6)
      · linarith
  have hnorm : ∃ σ : F, σ * σ = 1 ∧ out.normal = σ * xf.q.mulV n ∧ (0 < out.fraction → σ * den < 0) := by
    by_cases hp : num > 0
    · rw [if_pos hp] at h9
      have : 0 < out.fraction * den := by rw [hfd]; exact hp
      have hd : 0 < den := by
        by_contra hc; push Not at hc
        nlinarith [mul_nonpos_of_nonneg_of_nonpos h4 hc]
      refine ⟨-1, by ring, ?_, fun _ => by linarith⟩
      rw [h9]; ext <;> simp
    · rw [if_neg hp] at h9
      push Not at hp
      refine ⟨1, by ring, ?_, ?_⟩
      · rw [h9]; ext <;> simp
      · intro hf
        by_contra hc; push Not at hc
        rw [one_mul] at hc
        have : 0 < out.fraction * den := mul_pos hf (lt_of_le_of_ne hc (Ne.symm h2))
        rw [hfd] at this; linarith
  obtain ⟨σ, hσ, hno, hneg⟩ := hnorm
  refine ⟨h4, h5, ⟨S, h7, h8, ?_⟩, ?_, ?_, ?_, ?_⟩
  · rw [← e1, ← e2, ← place_onLine, ← place_onLine, hpt]
  · rw [hno]
    simp only [dot, place, hn, Rot.mulV, Vec2.smul_x, Vec2.smul_y, Vec2.sub_x, Vec2.sub_y]; ring
  · intro hf
    have : dot out.normal (i.p2 - i.p1) = σ * den := by
      rw [← e1, ← e2, hno, hden]
      simp only [dot, place, hn, Rot.mulV, Vec2.smul_x, Vec2.smul_y, Vec2.sub_x, Vec2.sub_y]
      linear_combination σ * k * ((e.v2.y - e.v1.y) * (p2.x - p1.x) - (e.v2.x - e.v1.x) * (p2.y - p1.y)) * hq
    rw [this]; exact hneg hf
  · intro hl
    have h10 := hkl hl
    have h11 := ElemLaws.mul_self_sqrt ((e.v2 - e.v1).x * (e.v2 - e.v1).x + (e.v2 - e.v1).y * (e.v2 - e.v1).y)
      (by nlinarith [mul_self_nonneg (e.v2 - e.v1).x, mul_self_nonneg (e.v2 - e.v1).y])
    change (e.v2 - e.v1).length * (e.v2 - e.v1).length = _ at h11
    simp only [Vec2.sub_x, Vec2.sub_y] at h11
    rw [hno]
    simp only [dot, hn, Rot.mulV, Vec2.smul_x, Vec2.smul_y]
    have h12 : k * k * ((e.v2.x - e.v1.x) * (e.v2.x - e.v1.x) + (e.v2.y - e.v1.y) * (e.v2.y - e.v1.y)) = 1 := by
      rw [← h11]; linear_combination (k * (e.v2 - e.v1).length + 1) * h10
    linear_combination (xf.q.c * xf.q.c + xf.q.s * xf.q.s) * σ * σ * h12 + σ * σ * hq + hσ
  · intro ho
    have hle : num ≤ 0 := by by_contra hc; push Not at hc; exact h1 ⟨ho, hc⟩
    have : k * side (place xf e.v1) (place xf e.v2) i.p1 = -num := by
      rw [← e1]
      simp only [side, place, hnum, hn, dot, Vec2.sub_x, Vec2.sub_y]
      linear_combination k * ((e.v2.y - e.v1.y) * (p1.x - e.v1.x) - (e.v2.x - e.v1.x) * (p1.y - e.v1.y)) * hq
    have h13 : 0 ≤ k * side (place xf e.v1) (place xf e.v2) i.p1 := by rw [this]; linarith
    exact nonneg_of_mul_nonneg_right h13 hk

/-- **C52**: a ray that crosses the edge (from the front, if the edge is one-sided) is reported, at the fraction of the
crossing. -/
theorem c52_complete [Elem F] [ElemLaws F] (e : Edge F) (xf : Xf F) (hq : IsRot xf.q) (i : RayIn F) (t s : F)
    (h0 : 0 ≤ t) (hm : t ≤ i.maxFraction) (hs0 : 0 ≤ s) (hs1 : s ≤ 1)
    (hx : onLine i.p1 i.p2 t = onLine (place xf e.v1) (place xf e.v2) s)
    (hcross : cross (i.p2 - i.p1) (place xf e.v2 - place xf e.v1) ≠ 0)
    (hside : e.oneSided = true → 0 ≤ side (place xf e.v1) (place xf e.v2) i.p1) :
    ∃ out, e.rayCast i xf = some out ∧ out.fraction = t := by
  have e1 : place xf (unplace xf i.p1) = i.p1 := place_unplace hq _
  have e2 : place xf (unplace xf i.p2) = i.p2 := place_unplace hq _
  obtain ⟨k, hk, -, hiff⟩ := edge_rayCast_iff e xf i
  simp only at hiff
  have hx' : onLine (unplace xf i.p1) (unplace xf i.p2) t = onLine e.v1 e.v2 s := by
    rw [← unplace_onLine, hx, ← place_onLine, unplace_place hq]
  generalize unplace xf i.p1 = p1 at *
  generalize unplace xf i.p2 = p2 at *
  simp only [IsRot] at hq
  have hc' : (e.v2.y - e.v1.y) * (p2.x - p1.x) - (e.v2.x - e.v1.x) * (p2.y - p1.y) ≠ 0 := by
    intro hc; apply hcross
    rw [← e1, ← e2]
    simp only [cross, place, Vec2.sub_x, Vec2.sub_y]
    linear_combination (xf.q.c * xf.q.c + xf.q.s * xf.q.s) * hc
  have hX : p1.x + t * (p2.x - p1.x) = e.v1.x + s * (e.v2.x - e.v1.x) := congrArg Vec2.x hx'
  have hY : p1.y + t * (p2.y - p1.y) = e.v1.y + s * (e.v2.y - e.v1.y) := congrArg Vec2.y hx'
  have hrr : dot (e.v2 - e.v1) (e.v2 - e.v1) ≠ 0 := by
    simp only [dot, Vec2.sub_x, Vec2.sub_y]
    intro hz
    have hz1 : e.v2.x - e.v1.x = 0 := by nlinarith [mul_self_nonneg (e.v2.x - e.v1.x), mul_self_nonneg (e.v2.y - e.v1.y), mul_self_eq_zero.mp (le_antisymm (by nlinarith [mul_self_nonneg (e.v2.y - e.v1.y)]) (mul_self_nonneg (e.v2.x - e.v1.x)))]
    have hz2 : e.v2.y - e.v1.y = 0 := by nlinarith [mul_self_eq_zero.mp (le_antisymm (by nlinarith [mul_self_nonneg (e.v2.x - e.v1.x)]) (mul_self_nonneg (e.v2.y - e.v1.y)))]
    apply hc'; rw [hz1, hz2]; ring
  set n : Vec2 F := ⟨(e.v2.y - e.v1.y) * k, -(e.v2.x - e.v1.x) * k⟩ with hn
  set num := dot n (e.v1 - p1) with hnum
  set den := dot n (p2 - p1) with hden'
  have key : ¬ (e.oneSided = true ∧ num > 0) ∧ den ≠ 0 ∧ t = num / den ∧
      dot (p1 + t * (p2 - p1) - e.v1) (e.v2 - e.v1) / dot (e.v2 - e.v1) (e.v2 - e.v1) = s := by
    have hden : den = k * ((e.v2.y - e.v1.y) * (p2.x - p1.x) - (e.v2.x - e.v1.x) * (p2.y - p1.y)) := by
      simp only [hden', hn, dot, Vec2.sub_x, Vec2.sub_y]; ring
    have hd0 : den ≠ 0 := by rw [hden]; exact mul_ne_zero (ne_of_gt hk) hc'
    refine ⟨?_, hd0, ?_, ?_⟩
    · rintro ⟨ho, hp⟩
      have h1 := hside ho
      rw [← e1] at h1
      have : k * side (place xf e.v1) (place xf e.v2) (place xf p1) = -num := by
        simp only [side, place, hnum, hn, dot, Vec2.sub_x, Vec2.sub_y]
        linear_combination k * ((e.v2.y - e.v1.y) * (p1.x - e.v1.x) - (e.v2.x - e.v1.x) * (p1.y - e.v1.y)) * hq
      nlinarith [mul_nonneg hk.le h1]
    · rw [eq_div_iff hd0]
      simp only [hden', hnum, hn, dot, Vec2.sub_x, Vec2.sub_y]
      linear_combination (e.v2.y - e.v1.y) * k * hX - (e.v2.x - e.v1.x) * k * hY
    · rw [div_eq_iff hrr]
      simp only [dot, Vec2.sub_x, Vec2.sub_y, Vec2.add_x, Vec2.add_y, Vec2.smul_x, Vec2.smul_y]
      linear_combination (e.v2.x - e.v1.x) * hX + (e.v2.y - e.v1.y) * hY
  obtain ⟨k1, k2, k3, k4⟩ := key
  exact ⟨⟨_, t⟩, (hiff _).mpr ⟨k1, k2, k3, h0, hm, hrr, by rw [k4]; exact hs0, by rw [k4]; exact hs1, rfl⟩, rfl⟩

noncomputable example : ∃ out, (Edge.default.setOneSided ⟨-1, 0⟩ ⟨0, 0⟩ ⟨2, 0⟩ ⟨3, 0⟩ : Edge ℝ).rayCast
    ⟨⟨6, 6⟩, ⟨4, 6⟩, 1⟩ ⟨⟨5, 5⟩, ⟨1, 0⟩⟩ = some out ∧ out.fraction = 1 / 2 :=
  c52_complete _ _ (by norm_num [IsRot]) _ (1 / 2) (1 / 2) (by norm_num) (by norm_num) (by norm_num) (by norm_num)
    (by norm_num [onLine, place, Edge.setOneSided]) (by norm_num [cross, place, Edge.setOneSided])
    (by norm_num [side, place, Edge.setOneSided])

/-! ## C50: the polygon -/

/-- The full claim for a ray whose part before fraction `lo` is ignored (`lo = 0` is the claim of C50): a ray that is
outside at `lo` is reported with fraction `f` exactly when it enters the polygon at `f`, within the maximum. -/
def CastSpec (lo : F) (p : Polygon F) (xf : Xf F) (i : RayIn F) : Prop :=
  ¬ InPolyAt p xf (onLine i.p1 i.p2 lo) →
  ∀ f, (∃ n, p.rayCast i xf = some (some ⟨n, f⟩)) ↔
    lo ≤ f ∧ f ≤ i.maxFraction ∧ InPolyAt p xf (onLine i.p1 i.p2 f) ∧
    ∀ t, lo ≤ t → t < f → ¬ InPolyAt p xf (onLine i.p1 i.p2 t)

/-- **C50 is false of the code**: the ray from (-1.1, 0) along (10, 0) enters the box of half width 1 at fraction 0.01
and is not reported. -/
theorem c50_false : ∃ (i : RayIn ℚ), ¬ CastSpec 0 (Polygon.default.setAsBox 1 1) ⟨⟨0, 0⟩, Rot.identity⟩ i := by
  refine ⟨⟨⟨-11 / 10, 0⟩, ⟨89 / 10, 0⟩, 1⟩, fun h => ?_⟩
  have hin : ∀ q : Vec2 ℚ, InPolyAt (Polygon.default.setAsBox 1 1) ⟨⟨0, 0⟩, Rot.identity⟩ q →
      -1 ≤ q.x := by
    rintro q ⟨l, hl, rfl⟩
    have := hl (⟨-1, 1⟩, ⟨-1, 0⟩) (by simp [Polygon.setAsBox, boxVerts, boxNormals])
    simp [place, Rot.identity] at this ⊢
    linarith
  have h0 : ¬ InPolyAt (Polygon.default.setAsBox 1 1) ⟨⟨0, 0⟩, Rot.identity⟩
      (onLine (⟨-11 / 10, 0⟩ : Vec2 ℚ) ⟨89 / 10, 0⟩ 0) := fun hc => by
    have := hin _ hc; norm_num [onLine] at this
  obtain ⟨n, hn⟩ := (h h0 (1 / 100)).mpr ⟨by norm_num, by norm_num,
    ⟨⟨-1, 0⟩, by norm_num [InPoly, Polygon.setAsBox, boxVerts, boxNormals], by norm_num [place, onLine, Rot.identity]⟩,
    fun t h0 h1 hc => by have := hin _ hc; norm_num [onLine] at this; linarith⟩
  have hz : (Polygon.default.setAsBox 1 1 : Polygon ℚ).rayCast ⟨⟨-11 / 10, 0⟩, ⟨89 / 10, 0⟩, 1⟩ ⟨⟨0, 0⟩, Rot.identity⟩ =
      some none := by
    norm_num [Polygon.rayCast, Polygon.setAsBox, boxVerts, boxNormals, polyCastLoop, polyCastStep, dot, Rot.identity,
      Rot.mulTV]
  rw [hz] at hn; cases hn

/-- Being on the inner side of all given faces. -/
def Inner (l : List (Vec2 F × Vec2 F)) (p1 d : Vec2 F) (t : F) : Prop :=
  ∀ vn ∈ l, t * dot vn.2 d ≤ dot vn.2 (vn.1 - p1)

/-- One face cuts the interval of fractions. -/
theorem polyCastStep_spec (p1 d : Vec2 F) (st : PolyCast F) (v n : Vec2 F) :
    match polyCastStep p1 d st v n with
    | none => ∀ t, st.lower ≤ t → t ≤ st.upper → ¬ t * dot n d ≤ dot n (v - p1)
    | some st' => st'.lower ≤ st'.upper ∧ st'.upper ≤ st.upper ∧ st.lower ≤ st'.lower ∧
        (∀ t, st.lower ≤ t → t ≤ st.upper → (t * dot n d ≤ dot n (v - p1) ↔ st'.lower ≤ t ∧ t ≤ st'.upper)) ∧
        ((st'.lower = st.lower ∧ st'.index = st.index) ∨
         (st.lower < st'.lower ∧ st'.index = some n ∧ dot n d < 0 ∧ st'.lower * dot n d = dot n (v - p1))) := by
  unfold polyCastStep
  generalize dot n d = den
  generalize dot n (v - p1) = num
  simp only
  by_cases h0 : den = 0
  · rw [if_pos h0]
    by_cases h1 : num < 0
    · rw [if_pos h1]; intro t _ _; rw [h0]; simpa using h1
    · rw [if_neg h1, Option.bind_some]
      push Not at h1
      by_cases h2 : st.upper < st.lower
      · rw [if_pos h2]; intro t a b; linarith
      · rw [if_neg h2]
        refine ⟨not_lt.mp h2, le_refl _, le_refl _, fun t a b => ?_, Or.inl ⟨rfl, rfl⟩⟩
        rw [h0]; simp [h1, a, b]
  · rw [if_neg h0]
    by_cases h1 : den < 0 ∧ num < st.lower * den
    · rw [if_pos h1, Option.bind_some]
      have hlow : st.lower < num / den := by rw [lt_div_iff_of_neg h1.1]; exact h1.2
      have hq : num / den * den = num := by field_simp
      simp only
      by_cases h2 : st.upper < num / den
      · rw [if_pos h2]; intro t a b
        rw [← div_le_iff_of_neg h1.1]; intro hc; linarith
      · rw [if_neg h2]
        refine ⟨not_lt.mp h2, le_refl _, hlow.le, fun t a b => ?_, Or.inr ⟨hlow, rfl, h1.1, hq⟩⟩
        rw [← div_le_iff_of_neg h1.1]; simp [b]
    · rw [if_neg h1]
      by_cases h2 : den > 0 ∧ num < st.upper * den
      · rw [if_pos h2, Option.bind_some]
        have hup : num / den < st.upper := by rw [div_lt_iff₀ h2.1]; exact h2.2
        simp only
        by_cases h3 : num / den < st.lower
        · rw [if_pos h3]; intro t a b
          rw [← le_div_iff₀ h2.1]; intro hc; linarith
        · rw [if_neg h3]
          refine ⟨not_lt.mp h3, hup.le, le_refl _, fun t a b => ?_, Or.inl ⟨rfl, rfl⟩⟩
          rw [← le_div_iff₀ h2.1]; simp [a]
      · rw [if_neg h2, Option.bind_some]
        by_cases h3 : st.upper < st.lower
        · rw [if_pos h3]; intro t a b; linarith
        · rw [if_neg h3]
          refine ⟨not_lt.mp h3, le_refl _, le_refl _, fun t a b => ?_, Or.inl ⟨rfl, rfl⟩⟩
          have : t * den ≤ num := by
            rcases lt_or_gt_of_ne h0 with hd | hd
            · have : st.lower * den ≤ num := by by_contra hc; exact h1 ⟨hd, not_le.mp hc⟩
              nlinarith
            · have : st.upper * den ≤ num := by by_contra hc; exact h2 ⟨hd, not_le.mp hc⟩
              nlinarith
          simp [this, a, b]

/-- All faces. -/
theorem polyCastLoop_spec (p1 d : Vec2 F) (l : List (Vec2 F × Vec2 F)) (st : PolyCast F) :
    match polyCastLoop p1 d l st with
    | none => ∀ t, st.lower ≤ t → t ≤ st.upper → ¬ Inner l p1 d t
    | some st' => (l ≠ [] → st'.lower ≤ st'.upper) ∧ st'.upper ≤ st.upper ∧ st.lower ≤ st'.lower ∧
        (∀ t, st.lower ≤ t → t ≤ st.upper → (Inner l p1 d t ↔ st'.lower ≤ t ∧ t ≤ st'.upper)) ∧
        ((st'.lower = st.lower ∧ st'.index = st.index) ∨
         (st.lower < st'.lower ∧ ∃ vn ∈ l, st'.index = some vn.2 ∧ dot vn.2 d < 0 ∧
            st'.lower * dot vn.2 d = dot vn.2 (vn.1 - p1))) := by
  induction l generalizing st with
  | nil =>
    simp only [polyCastLoop]
    exact ⟨fun h => absurd rfl h, le_refl _, le_refl _, fun t a b => by simp [Inner, a, b], by simp⟩
  | cons vn l ih =>
    have h := polyCastStep_spec p1 d st vn.1 vn.2
    simp only [polyCastLoop]
    cases hs : polyCastStep p1 d st vn.1 vn.2 with
    | none =>
      rw [hs] at h
      simp only [Option.bind_none]
      intro t a b hc
      exact h t a b (hc vn (by simp))
    | some st1 =>
      rw [hs] at h
      simp only [Option.bind_some]
      simp only at h
      obtain ⟨h1, h2, h3, h4, h5⟩ := h
      have i := ih st1
      cases hl : polyCastLoop p1 d l st1 with
      | none =>
        rw [hl] at i
        simp only at i ⊢
        intro t a b hc
        obtain ⟨k1, k2⟩ := (h4 t a b).mp (hc vn (by simp))
        exact i t k1 k2 fun w hw => hc w (List.mem_cons_of_mem _ hw)
      | some st2 =>
        rw [hl] at i
        simp only at i ⊢
        obtain ⟨i1, i2, i3, i4, i5⟩ := i
        refine ⟨fun _ => ?_, i2.trans h2, h3.trans i3, fun t a b => ?_, ?_⟩
        · cases l with
          | nil => simp only [polyCastLoop, Option.some.injEq] at hl; rw [← hl]; exact h1
          | cons _ _ => exact i1 (by simp)
        · constructor
          · intro hc
            obtain ⟨k1, k2⟩ := (h4 t a b).mp (hc vn (by simp))
            exact (i4 t k1 k2).mp fun w hw => hc w (List.mem_cons_of_mem _ hw)
          · rintro ⟨k1, k2⟩ w hw
            have k3 := i3.trans k1
            have k4 := k2.trans i2
            rcases List.mem_cons.mp hw with rfl | hw
            · exact (h4 t a b).mpr ⟨k3, k4⟩
            · exact (i4 t k3 k4).mpr ⟨k1, k2⟩ w hw
        · rcases i5 with ⟨i6, i7⟩ | ⟨i6, w, hw, i7⟩
          · rcases h5 with ⟨h6, h7⟩ | ⟨h6, h7, h8, h9⟩
            · left; exact ⟨i6.trans h6, i7.trans h7⟩
            · right; exact ⟨by rw [i6]; exact h6, vn, by simp, i7.trans h7, h8, by rw [i6]; exact h9⟩
          · right; exact ⟨lt_of_le_of_lt h3 i6, w, by simp [hw], i7⟩

theorem inner_iff (p : Polygon F) (xf : Xf F) (hq : IsRot xf.q) (i : RayIn F) (t : F) :
    InPolyAt p xf (onLine i.p1 i.p2 t) ↔
      Inner (p.verts.zip p.normals) (unplace xf i.p1) (unplace xf i.p2 - unplace xf i.p1) t := by
  constructor
  · rintro ⟨l, hl, he⟩ vn hvn
    have := hl vn hvn
    have h2 : l = onLine (unplace xf i.p1) (unplace xf i.p2) t := by
      rw [← unplace_onLine, ← he, unplace_place hq]
    rw [h2] at this
    simp only [onLine] at this
    simp only [dot, Vec2.sub_x, Vec2.sub_y]; linarith
  · intro h
    refine ⟨onLine (unplace xf i.p1) (unplace xf i.p2) t, fun vn hvn => ?_, ?_⟩
    · have := h vn hvn
      simp only [dot, Vec2.sub_x, Vec2.sub_y] at this
      simp only [onLine]; linarith
    · rw [← unplace_onLine, place_unplace hq]

/-- What the ray cast answers. -/
theorem poly_rayCast_cases (p : Polygon F) (xf : Xf F) (hq : IsRot xf.q) (i : RayIn F) (hne : p.verts.zip p.normals ≠ []) :
    (∃ n f, p.rayCast i xf = some (some ⟨n, f⟩) ∧ 32 / 1000 < f ∧ f ≤ i.maxFraction ∧
      InPolyAt p xf (onLine i.p1 i.p2 f) ∧ (∀ t, 32 / 1000 ≤ t → t < f → ¬ InPolyAt p xf (onLine i.p1 i.p2 t)) ∧
      ∃ vn ∈ p.verts.zip p.normals, n = xf.q.mulV vn.2 ∧ dot n (i.p2 - i.p1) < 0 ∧
        dot n (onLine i.p1 i.p2 f - place xf vn.1) = 0) ∨
    (p.rayCast i xf = some none ∧ ((InPolyAt p xf (onLine i.p1 i.p2 (32 / 1000))) ∨
      ∀ t, 32 / 1000 ≤ t → t ≤ i.maxFraction → ¬ InPolyAt p xf (onLine i.p1 i.p2 t))) := by
  have h := polyCastLoop_spec (unplace xf i.p1) (unplace xf i.p2 - unplace xf i.p1) (p.verts.zip p.normals)
    ⟨32 / 1000, i.maxFraction, none⟩
  have hin := inner_iff p xf hq i
  have hr : p.rayCast i xf = match polyCastLoop (unplace xf i.p1) (unplace xf i.p2 - unplace xf i.p1)
      (p.verts.zip p.normals) ⟨32 / 1000, i.maxFraction, none⟩ with
    | none => some none
    | some st => if 0 ≤ st.lower ∧ st.lower ≤ i.maxFraction then
        match st.index with
        | some n => some (some { fraction := st.lower, normal := xf.q.mulV n })
        | none => some none
      else none := rfl
  rw [hr]
  cases hl : polyCastLoop (unplace xf i.p1) (unplace xf i.p2 - unplace xf i.p1)
      (p.verts.zip p.normals) ⟨32 / 1000, i.maxFraction, none⟩ with
  | none =>
    rw [hl] at h
    exact Or.inr ⟨rfl, Or.inr fun t a b => by rw [hin]; exact h t a b⟩
  | some st =>
    rw [hl] at h
    simp only at h ⊢
    obtain ⟨h1, h2, h3, h4, h5⟩ := h
    have h1 := h1 hne
    have hpos : (0 : F) < 32 / 1000 := by norm_num
    have hg : 0 ≤ st.lower ∧ st.lower ≤ i.maxFraction := ⟨hpos.le.trans h3, h1.trans h2⟩
    rw [if_pos hg]
    rcases h5 with ⟨h6, h7⟩ | ⟨h6, vn, hvn, h7, h8, h9⟩
    · rw [h7]
      right
      refine ⟨rfl, Or.inl ?_⟩
      rw [hin, h4 _ (le_refl _) (by rw [← h6]; exact hg.2)]
      exact ⟨h6.le, by rw [← h6]; exact h1⟩
    · rw [h7]
      left
      refine ⟨_, _, rfl, h6, hg.2, ?_, ?_, vn, hvn, rfl, ?_, ?_⟩
      · rw [hin, h4 _ h6.le hg.2]; exact ⟨le_refl _, h1⟩
      · intro t a b
        rw [hin, h4 _ a (b.le.trans hg.2)]
        rintro ⟨c, -⟩; exact absurd c (not_le.mpr b)
      · refine lt_of_eq_of_lt ?_ h8
        simp only [IsRot] at hq
        simp only [dot, unplace, Rot.mulV, Rot.mulTV, Vec2.sub_x, Vec2.sub_y]; ring
      · simp only [IsRot] at hq
        simp only [dot, unplace, Rot.mulTV, Vec2.sub_x, Vec2.sub_y] at h9
        simp only [dot, onLine, place, Rot.mulV, Vec2.sub_x, Vec2.sub_y]
        linear_combination h9 - (vn.2.x * vn.1.x + vn.2.y * vn.1.y) * hq

/-- **C50**, the part that holds: the code treats the ray as if it started at fraction 0.032. Missing: entries
at fractions up to 0.032 (`c50_false`). -/
theorem c50_partial (p : Polygon F) (xf : Xf F) (hq : IsRot xf.q) (i : RayIn F) : CastSpec (32 / 1000) p xf i := by
  intro hout f
  have hne : p.verts.zip p.normals ≠ [] := by
    intro he; apply hout
    rw [inner_iff p xf hq i, he]
    intro vn hvn; cases hvn
  rcases poly_rayCast_cases p xf hq i hne with ⟨n, g, hr, h1, h2, h3, h4, -⟩ | ⟨hr, h⟩
  · rw [hr]
    constructor
    · rintro ⟨n', hn'⟩
      simp only [Option.some.injEq, RayOut.mk.injEq] at hn'
      rw [← hn'.2]
      exact ⟨h1.le, h2, h3, h4⟩
    · rintro ⟨k1, k2, k3, k4⟩
      refine ⟨n, ?_⟩
      have : g = f := by
        rcases lt_trichotomy g f with hl | hl | hl
        · exact absurd h3 (k4 g h1.le hl)
        · exact hl
        · exact absurd k3 (h4 f k1 hl)
      rw [this]
  · rw [hr]
    constructor
    · rintro ⟨n', hn'⟩; simp at hn'
    · rintro ⟨k1, k2, k3, k4⟩
      rcases h with h | h
      · exact absurd h hout
      · exact absurd k3 (h f k1 k2)

/-- **C50**: the reported normal is the normal of a face that the hit point lies on and that the ray enters through. -/
theorem c50_normal (p : Polygon F) (xf : Xf F) (hq : IsRot xf.q) (i : RayIn F) (out : RayOut F)
    (h : p.rayCast i xf = some (some out)) :
    ∃ vn ∈ p.verts.zip p.normals, out.normal = xf.q.mulV vn.2 ∧ dot out.normal (i.p2 - i.p1) < 0 ∧
      dot out.normal (onLine i.p1 i.p2 out.fraction - place xf vn.1) = 0 := by
  have hne : p.verts.zip p.normals ≠ [] := by
    intro he
    simp only [Polygon.rayCast, he, polyCastLoop] at h
    split at h <;> simp at h
  rcases poly_rayCast_cases p xf hq i hne with ⟨n, g, hr, -, -, -, -, h5⟩ | ⟨hr, -⟩
  · rw [hr] at h
    simp only [Option.some.injEq] at h
    rw [← h]; exact h5
  · rw [hr] at h; cases h

/-- **C50**: the assertion at the end of the polygon ray cast never fires for a polygon with at least one face. -/
theorem c50_total (p : Polygon F) (xf : Xf F) (hq : IsRot xf.q) (i : RayIn F) (hne : p.verts.zip p.normals ≠ []) :
    p.rayCast i xf ≠ none := by
  rcases poly_rayCast_cases p xf hq i hne with ⟨n, g, hr, -⟩ | ⟨hr, -⟩ <;> rw [hr] <;> simp

/-- A ray that hits the unit box from the left at fraction 1/2. -/
example : ∃ n, (Polygon.default.setAsBox 1 1 : Polygon ℚ).rayCast ⟨⟨-2, 0⟩, ⟨0, 0⟩, 1⟩ ⟨⟨0, 0⟩, Rot.identity⟩ =
    some (some ⟨n, 1 / 2⟩) := ⟨⟨-1, 0⟩, by
  norm_num [Polygon.rayCast, Polygon.setAsBox, boxVerts, boxNormals, polyCastLoop, polyCastStep, dot, Rot.identity,
      Rot.mulTV, Rot.mulV]⟩

/-! ## C55: chains -/

theorem spaced_iff (vs : List (Vec2 F)) : spaced vs = true ↔
    ∀ (i : Nat) (h : i + 1 < vs.length), linearSlop * linearSlop < dist2 vs[i] vs[i + 1] := by
  induction vs with
  | nil => simp [spaced]
  | cons a l ih =>
    cases l with
    | nil => simp [spaced]
    | cons b l =>
      have hd : ∀ a b : Vec2 F, distanceV2 a b = dist2 a b := fun a b => rfl
      simp only [spaced, Bool.and_eq_true, decide_eq_true_iff, gt_iff_lt, hd]
      rw [ih]
      constructor
      · rintro ⟨h1, h2⟩ i h
        cases i with
        | zero => exact h1
        | succ i => exact h2 i (by simpa using h)
      · intro h
        exact ⟨h 0 (by simp), fun i hi => h (i + 1) (by simpa using hi)⟩

/-- **C55**: `create_chain` on a fresh chain accepts exactly the lists of at least two vertices whose neighbours are
further apart than the slop; the chain then has `n - 1` children, child `i` joins vertex `i` to vertex `i + 1`, its
ghost vertices are the neighbours in the chain (the given `prev` and `next` at the two ends), and it is one-sided. -/
theorem c55_chain (vs : List (Vec2 F)) (prev next : Vec2 F) :
    (2 ≤ vs.length ∧ (∀ (i : Nat) (h : i + 1 < vs.length), linearSlop * linearSlop < dist2 vs[i] vs[i + 1]) ↔
      ∃ c, Chain.default.createChain vs prev next = some c) ∧
    ∀ c, Chain.default.createChain vs prev next = some c →
      c.childCount = some (vs.length - 1) ∧
      ∀ i, (∀ h : i + 1 < vs.length, ∃ e, c.getChildEdge i = some e ∧ e.oneSided = true ∧ e.radius = polygonRadius ∧
        e.v1 = vs[i] ∧ e.v2 = vs[i + 1] ∧ e.v0 = (if _h0 : i = 0 then prev else vs[i - 1]) ∧
        e.v3 = if h3 : i + 2 < vs.length then vs[i + 2] else next) ∧
        (¬ i + 1 < vs.length → c.getChildEdge i = none) := by
  have hc : Chain.default.createChain vs prev next = if 2 ≤ vs.length ∧ spaced vs = true then
      some { radius := polygonRadius, vertices := vs, prev := prev, next := next } else none := by
    by_cases h1 : 2 ≤ vs.length <;> by_cases h2 : spaced vs = true <;>
      simp [Chain.createChain, Chain.default, h1, h2]
  rw [hc, ← spaced_iff]
  refine ⟨⟨fun h => ⟨_, if_pos h⟩, fun ⟨c, h⟩ => by by_contra hn; rw [if_neg hn] at h; cases h⟩, fun c h => ?_⟩
  split at h
  swap
  · cases h
  rename_i hv
  simp only [Option.some.injEq] at h
  subst h
  obtain ⟨hv, -⟩ := hv
  refine ⟨by simp only [Chain.childCount]; rw [if_neg (by omega)], fun i => ⟨fun h => ?_, fun h => ?_⟩⟩
  · have hi : i < vs.length := by omega
    have hg : 1 ≤ vs.length ∧ i < vs.length - 1 := by omega
    by_cases h0 : i = 0
    · by_cases h3 : i + 2 < vs.length
      · have h3' : i < vs.length - 2 := by omega
        subst h0
        simp [Chain.getChildEdge, hv, hg, hi, h, h3, h3']
      · have h3' : ¬ i < vs.length - 2 := by omega
        subst h0
        simp [Chain.getChildEdge, hv, hg, hi, h, h3']
        omega
    · have hp : 0 < i := by omega
      have hi' : i - 1 < vs.length := by omega
      by_cases h3 : i + 2 < vs.length
      · have h3' : i < vs.length - 2 := by omega
        simp [Chain.getChildEdge, hv, hg, hi, h, h3, h3', hp, h0, hi']
      · have h3' : ¬ i < vs.length - 2 := by omega
        simp [Chain.getChildEdge, hv, hg, hi, h, h3, h3', hp, h0, hi']
  · have hg : ¬ (1 ≤ vs.length ∧ i < vs.length - 1) := by omega
    simp only [Chain.getChildEdge, hg, not_false_eq_true, if_true, Option.bind_eq_bind, Option.bind_none]

/-- **C55**: `create_loop` on a fresh chain of `n` vertices makes `n` children; child `i` joins vertex `i` to the
next vertex cyclically, and its ghost vertices are the cyclic neighbours. -/
theorem c55_loop (vs : List (Vec2 F)) :
    (3 ≤ vs.length ∧ (∀ (i : Nat) (h : i + 1 < vs.length), linearSlop * linearSlop < dist2 vs[i] vs[i + 1]) ↔
      ∃ c, Chain.default.createLoop vs = some c) ∧
    ∀ c, Chain.default.createLoop vs = some c →
      c.childCount = some vs.length ∧
      ∀ i, i < vs.length → ∃ e, c.getChildEdge i = some e ∧ e.oneSided = true ∧ e.radius = polygonRadius ∧
        vs[i]? = some e.v1 ∧ vs[(i + 1) % vs.length]? = some e.v2 ∧
        vs[(i + vs.length - 1) % vs.length]? = some e.v0 ∧ vs[(i + 2) % vs.length]? = some e.v3 := by
  by_cases hl : 3 ≤ vs.length
  swap
  · have hn : Chain.default.createLoop vs = none := by simp [Chain.createLoop, Chain.default, hl]
    rw [hn]; simp [hl]
  have hv0 : vs[0]? = some vs[0] := List.getElem?_eq_getElem (by omega)
  have hpl : (vs ++ [vs[0]])[(vs ++ [vs[0]]).length - 2]? = some vs[vs.length - 1] := by
    rw [List.length_append, List.length_singleton, show vs.length + 1 - 2 = vs.length - 1 by omega,
      List.getElem?_append_left (by omega), List.getElem?_eq_getElem (by omega)]
  have hnx : (vs ++ [vs[0]])[1]? = some vs[1] := by
    rw [List.getElem?_append_left (by omega), List.getElem?_eq_getElem (by omega)]
  have hc : Chain.default.createLoop vs = if spaced vs = true then
      some { radius := polygonRadius, vertices := vs ++ [vs[0]], prev := vs[vs.length - 1], next := vs[1] } else none := by
    by_cases h2 : spaced vs = true
    · simp only [Chain.createLoop, Chain.default, h2, hl, hv0, Option.bind_eq_bind, Option.bind_some, hpl, hnx]
      simp
    · simp [Chain.createLoop, Chain.default, hl, h2]
  rw [hc, ← spaced_iff]
  refine ⟨⟨fun h => ⟨_, if_pos h.2⟩, fun ⟨c, h⟩ => ⟨hl, by by_contra hn; rw [if_neg hn] at h; cases h⟩⟩, fun c h => ?_⟩
  split at h
  swap
  · cases h
  simp only [Option.some.injEq] at h
  subst h
  refine ⟨by simp [Chain.childCount], fun i hi => ?_⟩
  have hlen : (vs ++ [vs[0]]).length = vs.length + 1 := by simp
  have hg : 1 ≤ vs.length + 1 ∧ i < vs.length + 1 - 1 := by omega
  have g1 : (vs ++ [vs[0]])[i]? = some vs[i] := by
    rw [List.getElem?_append_left hi, List.getElem?_eq_getElem hi]
  have hcyc : ∀ k, k ≤ vs.length → (vs ++ [vs[0]])[k]? = vs[k % vs.length]? := by
    intro k hk
    rcases Nat.lt_or_ge k vs.length with hk' | hk'
    · rw [List.getElem?_append_left hk', Nat.mod_eq_of_lt hk']
    · have : k = vs.length := by omega
      subst this
      rw [List.getElem?_append_right (le_refl _), Nat.mod_self]; simp
  have get : ∀ k, ∃ v, vs[k % vs.length]? = some v := fun k =>
    ⟨_, List.getElem?_eq_getElem (Nat.mod_lt _ (by omega))⟩
  obtain ⟨w2, hw2⟩ := get (i + 1)
  obtain ⟨w3, hw3⟩ := get (i + 2)
  obtain ⟨w0, hw0⟩ := get (i + vs.length - 1)
  have f0 : (if i > 0 then (vs ++ [vs[0]])[i - 1]? else some vs[vs.length - 1]) = some w0 := by
    rw [← hw0]
    by_cases h0 : i > 0
    · rw [if_pos h0, hcyc _ (by omega)]
      congr 1
      rw [show i + vs.length - 1 = i - 1 + vs.length by omega, Nat.add_mod_right]
    · have : i = 0 := by omega
      subst this
      rw [if_neg h0, Nat.zero_add, Nat.mod_eq_of_lt (by omega), List.getElem?_eq_getElem (by omega)]
  have f3 : (if i < vs.length + 1 - 2 then (vs ++ [vs[0]])[i + 2]? else some vs[1]) = some w3 := by
    rw [← hw3]
    by_cases h0 : i < vs.length + 1 - 2
    · rw [if_pos h0, hcyc _ (by omega)]
    · rw [if_neg h0, show i + 2 = 1 + vs.length by omega, Nat.add_mod_right, Nat.mod_eq_of_lt (by omega),
        List.getElem?_eq_getElem (by omega)]
  have f2 : (vs ++ [vs[0]])[i + 1]? = some w2 := by rw [hcyc _ (by omega), hw2]
  refine ⟨⟨polygonRadius, vs[i], w2, w0, w3, true⟩, ?_, rfl, rfl, List.getElem?_eq_getElem hi, hw2, hw0, hw3⟩
  have hg2 : 2 ≤ vs.length + 1 := by omega
  simp only [Chain.getChildEdge, hlen, hg, hg2, g1, f0, f2, f3, Option.bind_eq_bind, Option.bind_some]
  simp

/-- **C55**: a fresh chain has no child count: asking for it panics (an observation about the code). -/
theorem c55_empty_panics : (Chain.default : Chain F).childCount = none := rfl

/-- A triangle as a loop: child 2 closes it, from vertex 2 back to vertex 0. -/
example : ∃ c : Chain ℚ, Chain.default.createLoop [⟨0, 0⟩, ⟨1, 0⟩, ⟨0, 1⟩] = some c ∧ c.childCount = some 3 := by
  obtain ⟨c, hc⟩ := (c55_loop ([⟨0, 0⟩, ⟨1, 0⟩, ⟨0, 1⟩] : List (Vec2 ℚ))).1.mp ⟨by simp, fun i hi => by
    match i with
    | 0 => norm_num [linearSlop, dist2]
    | 1 => norm_num [linearSlop, dist2]
    | i + 2 => simp at hi; omega⟩
  exact ⟨c, hc, ((c55_loop _).2 c hc).1⟩

end
end B2.Props
