import Verif.Proofs.RopeTotal

set_option linter.unusedSectionVars false

namespace B2
open Spec

section
variable {F : Type} [Field F] [LinearOrder F] [IsStrictOrderedRing F] [Elem F] [RopeElem F]

namespace Rope

theorem setP_same {vs : List (RopeVertex F)} {i : Nat} {x : RopeVertex F} (h : vs[i]? = some x) {q : Vec2 F} (hq : q = x.p) : setP vs i q = vs := by
  subst hq
  refine List.ext_getElem? fun j => ?_
  by_cases e : i = j
  · subst e
    simp [setP, List.getElem?_modify, h]
  · exact setP_other _ e

theorem addV_same {vs : List (RopeVertex F)} {i : Nat} {x : RopeVertex F} (h : vs[i]? = some x) {q : Vec2 F} (hq : q = ⟨0, 0⟩) : addV vs i q = vs := by
  subst hq
  refine List.ext_getElem? fun j => ?_
  by_cases e : i = j
  · subst e
    have : x.v + ⟨0, 0⟩ = x.v := by ext <;> simp
    simp [addV, List.getElem?_modify, h, this]
  · exact addV_other _ e

/-- The vertices as they stand at rest. -/
structure RestAt (x : RopeDefVertex F) (pos : Vec2 F) (y : RopeVertex F) : Prop where
  vert : VertOf x y
  p : y.p = x.position + pos
  p0 : y.p0 = y.p
  v : y.v = ⟨0, 0⟩

theorem rest_get {d : RopeDef F} {pos : Vec2 F} {vs : List (RopeVertex F)} (h : List.Forall₂ (fun x y => RestAt x pos y) d.vertices vs) {i : Nat}
    {y : RopeVertex F} (hy : vs[i]? = some y) : ∃ x, d.vertices[i]? = some x ∧ RestAt x pos y := by
  obtain ⟨hk, rfl⟩ := List.getElem?_eq_some_iff.mp hy
  have hk0 : i < d.vertices.length := by rw [h.length_eq]; exact hk
  exact ⟨d.vertices[i], List.getElem?_eq_getElem hk0, (List.forall₂_iff_get.mp h).2 i hk0 hk⟩

theorem eps_pos : (0 : F) < epsilon := by unfold epsilon; positivity

theorem sqrt_sq [ElemLaws F] {h : F} (h0 : 0 ≤ h) : Elem.sqrt (h * h) = h := by
  have a := ElemLaws.mul_self_sqrt (h * h) (mul_nonneg h0 h0)
  have b := ElemLaws.sqrt_nonneg (h * h)
  rcases mul_self_eq_mul_self_iff.mp a with e | e
  · exact e
  · linarith

theorem length_smul [ElemLaws F] {u : Vec2 F} (hu : dot u u = 1) {h : F} (h0 : 0 ≤ h) : (h * u : Vec2 F).length = h := by
  unfold Vec2.length
  have : (h * u : Vec2 F).x * (h * u : Vec2 F).x + (h * u : Vec2 F).y * (h * u : Vec2 F).y = h * h := by
    simp only [Vec2.smul_x, Vec2.smul_y]; unfold dot at hu; linear_combination h * h * hu
  rw [this, sqrt_sq h0]

theorem normalize_smul [ElemLaws F] {u : Vec2 F} (hu : dot u u = 1) {h : F} (h0 : epsilon ≤ h) : (h * u : Vec2 F).normalize = (u, h) := by
  have hp := lt_of_lt_of_le eps_pos h0
  unfold Vec2.normalize
  rw [length_smul hu hp.le]
  rw [if_neg (not_lt.mpr h0)]
  refine Prod.ext ?_ rfl
  ext <;> simp only [Vec2.smul_x, Vec2.smul_y] <;> field_simp

theorem distanceV_smul [ElemLaws F] {u a b : Vec2 F} (hu : dot u u = 1) {h : F} (h0 : 0 ≤ h) (e : b - a = h * u) : distanceV a b = h := by
  unfold distanceV Vec2.length
  have ex := congrArg Vec2.x e
  have ey := congrArg Vec2.y e
  simp only [Vec2.sub_x, Vec2.sub_y, Vec2.smul_x, Vec2.smul_y] at ex ey
  have : (a - b).x * (a - b).x + (a - b).y * (a - b).y = h * h := by
    simp only [Vec2.sub_x, Vec2.sub_y]
    have e1 : a.x - b.x = -(h * u.x) := by linarith
    have e2 : a.y - b.y = -(h * u.y) := by linarith
    rw [e1, e2]; unfold dot at hu; linear_combination h * h * hu
  rw [this, sqrt_sq h0]

theorem create_diff {p : Vec2 F} {x y : RopeDefVertex F} {w : Vec2 F} (e : y.position = x.position + w) :
    (createVertex p y).p - (createVertex p x).p = w := by
  simp only [createVertex, e]
  ext <;> simp only [Vec2.sub_x, Vec2.sub_y, Vec2.add_x, Vec2.add_y] <;> ring

theorem rest_diff {pos : Vec2 F} {x y : RopeDefVertex F} {a b : RopeVertex F} (ha : RestAt x pos a) (hb : RestAt y pos b) {w : Vec2 F}
    (e : y.position = x.position + w) : b.p - a.p = w := by
  rw [ha.p, hb.p, e]
  ext <;> simp only [Vec2.sub_x, Vec2.sub_y, Vec2.add_x, Vec2.add_y] <;> ring

/-- What a stretch constraint sees at rest. -/
theorem stretch_rest [ElemLaws F] {d : RopeDef F} (st : Straight d) {t : RopeTuning F} {pos : Vec2 F} {vs : List (RopeVertex F)}
    (hr : List.Forall₂ (fun x y => RestAt x pos y) d.vertices vs) {k : Nat} {c : RopeStretch F} (hc : StretchOf d t k c) {x1 x2 : RopeVertex F}
    (h1 : vs[c.i1]? = some x1) (h2 : vs[c.i2]? = some x2) :
    ∃ u : Vec2 F, (x2.p - x1.p).normalize = (u, c.l) ∧ x1.p - x1.p0 = ⟨0, 0⟩ ∧ x2.p - x2.p0 = ⟨0, 0⟩ := by
  obtain ⟨u, hu, st⟩ := st
  obtain ⟨c1, l, h, rfl⟩ := hc
  simp only [createStretch, Option.bind_eq_bind, Option.bind_eq_some_iff] at h
  obtain ⟨z1, g1, z2, g2, h⟩ := h
  obtain ⟨a, b, e⟩ := tuneStretch_same t c1
  have hc := Option.some.inj h
  rw [e] at h1 h2
  have i1 : c1.i1 = k := by rw [← hc]
  have i2 : c1.i2 = k + 1 := by rw [← hc]
  have hl : c1.l = distanceV z1.p z2.p := by rw [← hc]
  obtain ⟨y1, f1, r1⟩ := rest_get hr h1
  obtain ⟨y2, f2, r2⟩ := rest_get hr h2
  dsimp only at f1 f2
  rw [i1] at f1
  rw [i2] at f2
  obtain ⟨w1, k1, rfl⟩ := start_get g1
  obtain ⟨w2, k2, rfl⟩ := start_get g2
  rw [f1] at k1; cases k1
  rw [f2] at k2; cases k2
  obtain ⟨hh, he, hp⟩ := st _ _ _ f1 f2
  refine ⟨u, ?_, ?_, ?_⟩
  · rw [rest_diff r1 r2 hp, normalize_smul hu he, e]
    show (u, hh) = (u, c1.l)
    rw [hl, distanceV_smul hu (eps_pos.le.trans he) (create_diff hp)]
  · rw [r1.p0]; ext <;> simp
  · rw [r2.p0]; ext <;> simp

theorem zero_smul' (u : Vec2 F) (p : Vec2 F) : p + (0 : F) * u = p := by ext <;> simp
theorem sub_zero_smul' (u : Vec2 F) (p : Vec2 F) : p - (0 : F) * u = p := by ext <;> simp
theorem dot_zero' (j : Vec2 F) : dot j ⟨0, 0⟩ = 0 := by simp [dot]

theorem stretchPbd_rest [ElemLaws F] {d : RopeDef F} (st : Straight d) {t : RopeTuning F} {pos : Vec2 F} {vs vs' : List (RopeVertex F)}
    (hr : List.Forall₂ (fun x y => RestAt x pos y) d.vertices vs) {k : Nat} {c : RopeStretch F} (hc : StretchOf d t k c)
    (e : stretchPbd t vs c = some vs') : vs' = vs := by
  have ok := hc.ok
  simp only [stretchPbd, Option.bind_eq_bind, Option.bind_eq_some_iff] at e
  obtain ⟨x1, h1, x2, h2, e⟩ := e
  obtain ⟨u, hn, -, -⟩ := stretch_rest st hr hc h1 h2
  rw [hn] at e
  split_ifs at e with hz
  · cases e; rfl
  · cases e
    have n12 : c.i1 ≠ c.i2 := by rw [ok.i2]; omega
    simp only [sub_self, mul_zero, zero_smul', sub_zero_smul']
    rw [setP_same h1 rfl, setP_same h2 rfl]

theorem stretchXpbd_rest [ElemLaws F] {d : RopeDef F} (st : Straight d) {t : RopeTuning F} {pos : Vec2 F} {vs : List (RopeVertex F)} {dt : F}
    {s : List (RopeVertex F) × RopeStretch F}
    (hr : List.Forall₂ (fun x y => RestAt x pos y) d.vertices vs) {k : Nat} {c : RopeStretch F} (hc : StretchOf d t k c) (hl : c.lambda = 0)
    (e : stretchXpbd dt vs c = some s) : s = (vs, c) := by
  simp only [stretchXpbd, Option.bind_eq_bind, Option.bind_eq_some_iff] at e
  obtain ⟨x1, h1, x2, h2, e⟩ := e
  obtain ⟨u, hn, d1, d2⟩ := stretch_rest st hr hc h1 h2
  rw [hn, d1, d2] at e
  split_ifs at e with hz
  · cases e; rfl
  · simp only [Option.bind_eq_some_iff, hl, dot_zero', sub_self, mul_zero, add_zero, neg_zero] at e
    obtain ⟨al, -, si, -, imp, hi, e⟩ := e
    have : imp = 0 := by
      unfold fdiv at hi
      split_ifs at hi
      cases hi; exact zero_div _
    subst this
    cases e
    simp only [mul_zero, zero_smul', add_zero]
    rw [setP_same h1 rfl, setP_same h2 rfl, ← hl]

/-- What a bending constraint sees at rest. -/
theorem bend_rest [ElemLaws F] {d : RopeDef F} (st : Straight d) {t : RopeTuning F} {pos : Vec2 F} {vs : List (RopeVertex F)}
    (hr : List.Forall₂ (fun x y => RestAt x pos y) d.vertices vs) {k : Nat} {c : RopeBend F} (hc : BendOf d t k c) {x1 x2 x3 : RopeVertex F}
    (h1 : vs[c.i1]? = some x1) (h2 : vs[c.i2]? = some x2) (h3 : vs[c.i3]? = some x3) :
    ∃ (u : Vec2 F), dot u u = 1 ∧ epsilon ≤ c.l1 ∧ epsilon ≤ c.l2 ∧ x2.p - x1.p = c.l1 * u ∧ x3.p - x2.p = c.l2 * u ∧
      c.alpha1 = c.l2 / (c.l1 + c.l2) ∧ c.alpha2 = c.l1 / (c.l1 + c.l2) ∧
      x1.p - x1.p0 = ⟨0, 0⟩ ∧ x2.p - x2.p0 = ⟨0, 0⟩ ∧ x3.p - x3.p0 = ⟨0, 0⟩ ∧ x1.v = ⟨0, 0⟩ ∧ x2.v = ⟨0, 0⟩ ∧ x3.v = ⟨0, 0⟩ ∧
      (Even d → c.l1 = c.l2) := by
  obtain ⟨u, hu, st⟩ := st
  obtain ⟨c0, c1, l, h, rfl⟩ := hc
  simp only [createBend, Option.bind_eq_bind, Option.bind_eq_some_iff] at h
  obtain ⟨z1, g1, z2, g2, z3, g3, h⟩ := h
  obtain ⟨a, b, e⟩ := tuneBend_same t c1
  rw [e] at h1 h2 h3
  rw [e]
  obtain ⟨y1, f1, r1⟩ := rest_get hr h1
  obtain ⟨y2, f2, r2⟩ := rest_get hr h2
  obtain ⟨y3, f3, r3⟩ := rest_get hr h3
  dsimp only at f1 f2 f3 ⊢
  have ii : c1.i1 = k ∧ c1.i2 = k + 1 ∧ c1.i3 = k + 2 ∧ c1.l1 = distanceV z1.p z2.p ∧ c1.l2 = distanceV z2.p z3.p := by
    split_ifs at h <;> have hc := Option.some.inj h <;> rw [← hc] <;> exact ⟨rfl, rfl, rfl, rfl, rfl⟩
  obtain ⟨i1, i2, i3, l1, l2⟩ := ii
  rw [i1] at f1
  rw [i2] at f2
  rw [i3] at f3
  obtain ⟨w1, k1, rfl⟩ := start_get g1
  obtain ⟨w2, k2, rfl⟩ := start_get g2
  obtain ⟨w3, k3, rfl⟩ := start_get g3
  rw [f1] at k1; cases k1
  rw [f2] at k2; cases k2
  rw [f3] at k3; cases k3
  obtain ⟨a1, he1, hp1⟩ := st _ _ _ f1 f2
  obtain ⟨a2, he2, hp2⟩ := st _ _ _ f2 f3
  have q1 := eps_pos.trans_le he1
  have q2 := eps_pos.trans_le he2
  have hp3 : y3.position = y1.position + (a1 + a2) * u := by
    rw [hp2, hp1]; ext <;> simp only [Vec2.add_x, Vec2.add_y, Vec2.smul_x, Vec2.smul_y] <;> ring
  have L1 : c1.l1 = a1 := by rw [l1, distanceV_smul hu q1.le (create_diff hp1)]
  have L2 : c1.l2 = a2 := by rw [l2, distanceV_smul hu q2.le (create_diff hp2)]
  have lsq : ∀ h : F, (h * u : Vec2 F).lengthSquared = h * h := by
    intro h
    unfold Vec2.lengthSquared; simp only [Vec2.smul_x, Vec2.smul_y]; unfold dot at hu; linear_combination h * h * hu
  have dsq : ∀ g h : F, dot (g * u : Vec2 F) (h * u) = g * h := by
    intro g h
    unfold dot; simp only [Vec2.smul_x, Vec2.smul_y]; unfold dot at hu; linear_combination g * h * hu
  rw [create_diff hp1, create_diff hp2, create_diff hp3, lsq, lsq, lsq, if_neg (mul_pos (mul_pos q1 q1) (mul_pos q2 q2)).ne',
    if_neg (mul_pos (add_pos q1 q2) (add_pos q1 q2)).ne', dsq, dsq] at h
  have hc := Option.some.inj h
  have A1 : c1.alpha1 = a2 * (a1 + a2) / ((a1 + a2) * (a1 + a2)) := by rw [← hc]
  have A2 : c1.alpha2 = a1 * (a1 + a2) / ((a1 + a2) * (a1 + a2)) := by rw [← hc]
  have qs := (add_pos q1 q2).ne'
  refine ⟨u, hu, by rw [L1]; exact he1, by rw [L2]; exact he2, by rw [L1]; exact rest_diff r1 r2 hp1, by rw [L2]; exact rest_diff r2 r3 hp2,
    by rw [A1, L1, L2]; field_simp, by rw [A2, L1, L2]; field_simp, ?_, ?_, ?_, r1.v, r2.v, r3.v, fun ev => ?_⟩
  · rw [r1.p0]; ext <;> simp
  · rw [r2.p0]; ext <;> simp
  · rw [r3.p0]; ext <;> simp
  · have := ev _ _ _ _ f1 f2 f3
    rw [hp2, hp1] at this
    have hx := congrArg Vec2.x this
    have hy := congrArg Vec2.y this
    simp only [Vec2.sub_x, Vec2.sub_y, Vec2.add_x, Vec2.add_y, Vec2.smul_x, Vec2.smul_y] at hx hy
    unfold dot at hu
    rw [L1, L2]
    linear_combination (-u.x) * hx - u.y * hy + (a1 - a2) * (1 - hu) - (a1 - a2) + (a1 - a2) * hu - (a1 - a2) * hu

theorem bendMove_zero {vs : List (RopeVertex F)} {c : RopeBend F} {x1 x2 x3 : RopeVertex F}
    (h1 : vs[c.i1]? = some x1) (h2 : vs[c.i2]? = some x2) (h3 : vs[c.i3]? = some x3) (j1 j2 j3 : Vec2 F) : bendMove vs c x1 x2 x3 0 j1 j2 j3 = vs := by
  simp only [bendMove, mul_zero, zero_smul']
  rw [setP_same h1 rfl, setP_same h2 rfl, setP_same h3 rfl]

theorem fdiv_zero {a b : F} (h : fdiv 0 a = some b) : b = 0 := by
  unfold fdiv at h
  split_ifs at h
  cases h; exact zero_div _

theorem cross_smul (g h : F) (u : Vec2 F) : cross (g * u : Vec2 F) (h * u) = 0 := by
  simp only [cross, Vec2.smul_x, Vec2.smul_y]; ring
theorem dot_smul {u : Vec2 F} (hu : dot u u = 1) (g h : F) : dot (g * u : Vec2 F) (h * u) = g * h := by
  unfold dot; simp only [Vec2.smul_x, Vec2.smul_y]; unfold dot at hu; linear_combination g * h * hu

theorem bendPbdAngle_rest [ElemLaws F] [RopeLaws F] {d : RopeDef F} (st : Straight d) {t : RopeTuning F} {pos : Vec2 F} {vs vs' : List (RopeVertex F)}
    (hr : List.Forall₂ (fun x y => RestAt x pos y) d.vertices vs) {k : Nat} {c : RopeBend F} (hc : BendOf d t k c)
    (e : bendPbdAngle t vs c = some vs') : vs' = vs := by
  simp only [bendPbdAngle, Option.bind_eq_bind, Option.bind_eq_some_iff] at e
  obtain ⟨x1, h1, x2, h2, x3, h3, e⟩ := e
  obtain ⟨u, hu, q1, q2, d1, d2, -⟩ := bend_rest st hr hc h1 h2 h3
  rw [d1, d2, cross_smul, dot_smul hu, RopeLaws.atan2_zero _ (mul_pos (eps_pos.trans_le q1) (eps_pos.trans_le q2)), mul_zero] at e
  split_ifs at e with hz
  · cases e; rfl
  all_goals
    simp only [Option.bind_eq_some_iff] at e
    obtain ⟨imp, hi, e⟩ := e
    obtain rfl := fdiv_zero hi
    rw [bendMove_zero h1 h2 h3] at e
    cases e; rfl

theorem bendXpbdAngle_rest [ElemLaws F] [RopeLaws F] {d : RopeDef F} (st : Straight d) {t : RopeTuning F} {pos : Vec2 F} {vs : List (RopeVertex F)}
    {dt : F} {s : List (RopeVertex F) × RopeBend F}
    (hr : List.Forall₂ (fun x y => RestAt x pos y) d.vertices vs) {k : Nat} {c : RopeBend F} (hc : BendOf d t k c) (hl : c.lambda = 0)
    (e : bendXpbdAngle t dt vs c = some s) : s = (vs, c) := by
  simp only [bendXpbdAngle, Option.bind_eq_bind, Option.bind_eq_some_iff] at e
  obtain ⟨x1, h1, x2, h2, x3, h3, e⟩ := e
  obtain ⟨u, hu, q1, q2, d1, d2, -, -, z1, z2, z3, -⟩ := bend_rest st hr hc h1 h2 h3
  rw [z1, z2, z3, d1, d2, cross_smul, dot_smul hu, RopeLaws.atan2_zero _ (mul_pos (eps_pos.trans_le q1) (eps_pos.trans_le q2))] at e
  split_ifs at e with ha hb
  · cases e; rfl
  · cases e; rfl
  · simp only [Option.bind_eq_some_iff, hl, dot_zero', mul_zero, add_zero, neg_zero] at e
    obtain ⟨al, -, si, -, imp, hi, e⟩ := e
    obtain rfl := fdiv_zero hi
    rw [bendMove_zero h1 h2 h3, add_zero] at e
    cases e
    rw [← hl]

theorem bendForce_rest [ElemLaws F] [RopeLaws F] {d : RopeDef F} (st : Straight d) {t : RopeTuning F} {pos : Vec2 F} {vs vs' : List (RopeVertex F)}
    {dt : F} (hr : List.Forall₂ (fun x y => RestAt x pos y) d.vertices vs) {k : Nat} {c : RopeBend F} (hc : BendOf d t k c)
    (e : bendForce t dt vs c = some vs') : vs' = vs := by
  simp only [bendForce, Option.bind_eq_bind, Option.bind_eq_some_iff] at e
  obtain ⟨x1, h1, x2, h2, x3, h3, e⟩ := e
  obtain ⟨u, hu, q1, q2, d1, d2, -, -, -, -, -, z1, z2, z3, -⟩ := bend_rest st hr hc h1 h2 h3
  rw [z1, z2, z3, d1, d2, cross_smul, dot_smul hu, RopeLaws.atan2_zero _ (mul_pos (eps_pos.trans_le q1) (eps_pos.trans_le q2))] at e
  have zs : ∀ j : Vec2 F, ((0 : F) * j : Vec2 F) = ⟨0, 0⟩ := fun j => by ext <;> simp
  split_ifs at e with ha hb
  · cases e; rfl
  · cases e; rfl
  · cases e
    simp only [dot_zero', mul_zero, add_zero, zs]
    rw [addV_same h1 rfl, addV_same h2 rfl, addV_same h3 rfl]

theorem bendPbdDistance_rest [ElemLaws F] {d : RopeDef F} (st : Straight d) {t : RopeTuning F} {pos : Vec2 F} {vs vs' : List (RopeVertex F)}
    (hr : List.Forall₂ (fun x y => RestAt x pos y) d.vertices vs) {k : Nat} {c : RopeBend F} (hc : BendOf d t k c) (hm : masses vs = masses (start d))
    (e : bendPbdDistance t vs c = some vs') : vs' = vs := by
  simp only [bendPbdDistance, Option.bind_eq_bind, Option.bind_eq_some_iff] at e
  obtain ⟨x1, h1, x3, h3, e⟩ := e
  obtain ⟨x2, h2, -⟩ := masses_find (vs := vs) (i := c.i2) (by rw [hm]; exact hc.ok.m2)
  obtain ⟨u, hu, q1, q2, d1, d2, -⟩ := bend_rest st hr hc h1 h2 h3
  have d3 : x3.p - x1.p = (c.l1 + c.l2) * u := by
    have : x3.p - x1.p = (x2.p - x1.p) + (x3.p - x2.p) := by
      ext <;> simp only [Vec2.sub_x, Vec2.sub_y, Vec2.add_x, Vec2.add_y] <;> ring
    rw [this, d1, d2]; ext <;> simp only [Vec2.smul_x, Vec2.smul_y, Vec2.add_x, Vec2.add_y] <;> ring
  rw [d3, normalize_smul hu (by have := eps_pos (F := F); linarith)] at e
  split_ifs at e with ha
  · cases e; rfl
  · cases e
    simp only [sub_self, mul_zero, zero_smul', sub_zero_smul']
    rw [setP_same h1 rfl, setP_same h3 rfl]

theorem bendPbdHeight_rest [ElemLaws F] {d : RopeDef F} (st : Straight d) {t : RopeTuning F} {pos : Vec2 F} {vs vs' : List (RopeVertex F)}
    (hr : List.Forall₂ (fun x y => RestAt x pos y) d.vertices vs) {k : Nat} {c : RopeBend F} (hc : BendOf d t k c)
    (e : bendPbdHeight t vs c = some vs') : vs' = vs := by
  simp only [bendPbdHeight, Option.bind_eq_bind, Option.bind_eq_some_iff] at e
  obtain ⟨x1, h1, x2, h2, x3, h3, e⟩ := e
  obtain ⟨u, hu, q1, q2, d1, d2, a1, a2, -⟩ := bend_rest st hr hc h1 h2 h3
  have p1 := eps_pos.trans_le q1
  have p2 := eps_pos.trans_le q2
  have ps := (add_pos p1 p2).ne'
  have z : (c.alpha1 * x1.p + c.alpha2 * x3.p - x2.p : Vec2 F) = (0 : F) * u := by
    have ex := congrArg Vec2.x d1
    have ey := congrArg Vec2.y d1
    have fx := congrArg Vec2.x d2
    have fy := congrArg Vec2.y d2
    simp only [Vec2.sub_x, Vec2.sub_y, Vec2.smul_x, Vec2.smul_y] at ex ey fx fy
    rw [a1, a2]
    ext <;> simp only [Vec2.sub_x, Vec2.sub_y, Vec2.add_x, Vec2.add_y, Vec2.smul_x, Vec2.smul_y]
    · have e1 : x1.p.x = x2.p.x - c.l1 * u.x := by linarith
      have e2 : x3.p.x = x2.p.x + c.l2 * u.x := by linarith
      rw [e1, e2]; field_simp; ring
    · have e1 : x1.p.y = x2.p.y - c.l1 * u.y := by linarith
      have e2 : x3.p.y = x2.p.y + c.l2 * u.y := by linarith
      rw [e1, e2]; field_simp; ring
  rw [z, length_smul hu le_rfl, if_pos rfl] at e
  cases e; rfl

theorem bendPbdTriangle_rest [ElemLaws F] {d : RopeDef F} (st : Straight d) (ev : Even d) {t : RopeTuning F} {pos : Vec2 F} {vs vs' : List (RopeVertex F)}
    (hr : List.Forall₂ (fun x y => RestAt x pos y) d.vertices vs) {k : Nat} {c : RopeBend F} (hc : BendOf d t k c)
    (e : bendPbdTriangle t vs c = some vs') : vs' = vs := by
  simp only [bendPbdTriangle, Option.bind_eq_bind, Option.bind_eq_some_iff] at e
  obtain ⟨x1, h1, x2, h2, x3, h3, w, -, e⟩ := e
  obtain ⟨u, hu, q1, q2, d1, d2, -, -, -, -, -, -, -, -, l⟩ := bend_rest st hr hc h1 h2 h3
  rw [← l ev] at d2
  have z : x2.p - (1 / 3 : F) * (x1.p + x2.p + x3.p) = (⟨0, 0⟩ : Vec2 F) := by
    have ex := congrArg Vec2.x d1
    have ey := congrArg Vec2.y d1
    have fx := congrArg Vec2.x d2
    have fy := congrArg Vec2.y d2
    simp only [Vec2.sub_x, Vec2.sub_y, Vec2.smul_x, Vec2.smul_y] at ex ey fx fy
    ext <;> simp only [Vec2.sub_x, Vec2.sub_y, Vec2.add_x, Vec2.add_y, Vec2.smul_x, Vec2.smul_y] <;> linarith
  rw [z] at e
  cases e
  have zs : ∀ (k : F) (p : Vec2 F), p + k * (⟨0, 0⟩ : Vec2 F) = p := fun k p => by ext <;> simp
  simp only [zs]
  rw [setP_same h1 rfl, setP_same h2 rfl, setP_same h3 rfl]

theorem foldlM_same {C : Type} {P : C → Prop} {vs : List (RopeVertex F)} {f : List (RopeVertex F) → C → Option (List (RopeVertex F))}
    (hf : ∀ c vs', P c → f vs c = some vs' → vs' = vs) :
    ∀ (cs : List C) (vs' : List (RopeVertex F)), (∀ c ∈ cs, P c) → cs.foldlM f vs = some vs' → vs' = vs := by
  intro cs
  induction cs with
  | nil => intro vs' _ e; cases e; rfl
  | cons c cs ih =>
    intro vs' hP e
    simp only [List.foldlM_cons, Option.bind_eq_bind, Option.bind_eq_some_iff] at e
    obtain ⟨v1, e1, e⟩ := e
    obtain rfl := hf _ _ (hP c (by simp)) e1
    exact ih _ (fun x hx => hP x (by simp [hx])) e

theorem loopM_same {C : Type} {P : C → Prop} {vs : List (RopeVertex F)} {f : List (RopeVertex F) → C → Option (List (RopeVertex F) × C)}
    (hf : ∀ c s, P c → f vs c = some s → s = (vs, c)) :
    ∀ (cs : List C) (s : List (RopeVertex F) × List C), (∀ c ∈ cs, P c) → loopM f vs cs = some s → s = (vs, cs) := by
  intro cs
  induction cs with
  | nil => intro vs' _ e; cases e; rfl
  | cons c cs ih =>
    intro vs' hP e
    simp only [loopM, Option.bind_eq_bind, Option.bind_eq_some_iff] at e
    obtain ⟨v1, e1, v2, e2, e⟩ := e
    obtain rfl := hf _ _ (hP c (by simp)) e1
    obtain rfl := ih _ (fun x hx => hP x (by simp [hx])) e2
    cases e; rfl

theorem map_same {α : Type} {f : α → α} {l : List α} (h : ∀ x ∈ l, f x = x) : l.map f = l := by
  induction l with
  | nil => rfl
  | cons x l ih => rw [List.map_cons, h x (by simp), ih fun y hy => h y (by simp [hy])]

structure Resting (d : RopeDef F) (pos : Vec2 F) (r : Rope F) : Prop where
  cons : ConsInv d r
  rest : List.Forall₂ (fun x y => RestAt x pos y) d.vertices r.vertices
  lb : ∀ c ∈ r.bends, c.lambda = 0
  ls : ∀ c ∈ r.stretches, c.lambda = 0

theorem solveBends_rest [ElemLaws F] [RopeLaws F] {d : RopeDef F} (st : Straight d) {pos : Vec2 F} {dt : F} {r r' : Rope F} (h : Resting d pos r)
    (ev : r.tuning.bending = .pbdTriangle → Even d) (e : solveBends dt r = some r') : r' = r := by
  have hm : masses r.vertices = masses (start d) := masses_start d (h.rest.imp fun _ _ h => h.vert)
  have hall : ∀ c ∈ r.bends, (∃ k, BendOf d r.tuning k c) ∧ c.lambda = 0 := fun c hc => by
    obtain ⟨k, hk⟩ := mem_get hc; exact ⟨⟨k, h.cons.bend k c hk⟩, h.lb c hc⟩
  unfold solveBends at e
  cases hb : r.tuning.bending with
  | springAngle => simp only [hb] at e; cases e; rfl
  | pbdAngle =>
    simp only [hb, Option.bind_eq_bind, Option.bind_eq_some_iff] at e
    obtain ⟨vs, e, e'⟩ := e
    obtain rfl := foldlM_same (fun c vs' hc e => by obtain ⟨⟨k, hc⟩, -⟩ := hc; exact bendPbdAngle_rest st h.rest hc e) _ _ hall e
    cases e'; rfl
  | xpbdAngle =>
    simp only [hb] at e
    split_ifs at e
    simp only [Option.bind_eq_bind, Option.bind_eq_some_iff] at e
    obtain ⟨s, e, e'⟩ := e
    obtain rfl := loopM_same (fun c vs' hc e => by obtain ⟨⟨k, hc⟩, hl⟩ := hc; exact bendXpbdAngle_rest st h.rest hc hl e) _ _ hall e
    cases e'; rfl
  | pbdDistance =>
    simp only [hb, Option.bind_eq_bind, Option.bind_eq_some_iff] at e
    obtain ⟨vs, e, e'⟩ := e
    obtain rfl := foldlM_same (fun c vs' hc e => by obtain ⟨⟨k, hc⟩, -⟩ := hc; exact bendPbdDistance_rest st h.rest hc hm e) _ _ hall e
    cases e'; rfl
  | pbdHeight =>
    simp only [hb, Option.bind_eq_bind, Option.bind_eq_some_iff] at e
    obtain ⟨vs, e, e'⟩ := e
    obtain rfl := foldlM_same (fun c vs' hc e => by obtain ⟨⟨k, hc⟩, -⟩ := hc; exact bendPbdHeight_rest st h.rest hc e) _ _ hall e
    cases e'; rfl
  | pbdTriangle =>
    simp only [hb, Option.bind_eq_bind, Option.bind_eq_some_iff] at e
    obtain ⟨vs, e, e'⟩ := e
    obtain rfl := foldlM_same (fun c vs' hc e => by obtain ⟨⟨k, hc⟩, -⟩ := hc; exact bendPbdTriangle_rest st (ev hb) h.rest hc e) _ _ hall e
    cases e'; rfl

theorem solveStretches_rest [ElemLaws F] {d : RopeDef F} (st : Straight d) {pos : Vec2 F} {dt : F} {r r' : Rope F} (h : Resting d pos r)
    (e : solveStretches dt r = some r') : r' = r := by
  have hall : ∀ c ∈ r.stretches, (∃ k, StretchOf d r.tuning k c) ∧ c.lambda = 0 := fun c hc => by
    obtain ⟨k, hk⟩ := mem_get hc; exact ⟨⟨k, h.cons.stretch k c hk⟩, h.ls c hc⟩
  unfold solveStretches at e
  cases hb : r.tuning.stretching with
  | pbd =>
    simp only [hb, Option.bind_eq_bind, Option.bind_eq_some_iff] at e
    obtain ⟨vs, e, e'⟩ := e
    obtain rfl := foldlM_same (fun c vs' hc e => by obtain ⟨⟨k, hc⟩, -⟩ := hc; exact stretchPbd_rest st h.rest hc e) _ _ hall e
    cases e'; rfl
  | xpbd =>
    simp only [hb] at e
    split_ifs at e
    simp only [Option.bind_eq_bind, Option.bind_eq_some_iff] at e
    obtain ⟨s, e, e'⟩ := e
    obtain rfl := loopM_same (fun c vs' hc e => by obtain ⟨⟨k, hc⟩, hl⟩ := hc; exact stretchXpbd_rest st h.rest hc hl e) _ _ hall e
    cases e'; rfl

theorem iterate_rest [ElemLaws F] [RopeLaws F] {d : RopeDef F} (st : Straight d) {pos : Vec2 F} {dt : F} {r : Rope F} (h : Resting d pos r)
    (ev : r.tuning.bending = .pbdTriangle → Even d) : ∀ (n : Nat) (r' : Rope F), iterate dt n r = some r' → r' = r := by
  intro n
  induction n with
  | zero => intro r' e; cases e; rfl
  | succ n ih =>
    intro r' e
    simp only [iterate, Option.bind_eq_bind, Option.bind_eq_some_iff] at e
    obtain ⟨r1, e1, r2, e2, e⟩ := e
    obtain rfl := solveBends_rest st h ev e1
    obtain rfl := solveStretches_rest st h e2
    exact ih _ e

theorem step_rest [ElemLaws F] [RopeLaws F] {d : RopeDef F} (st : Straight d) (hg : d.gravity = ⟨0, 0⟩) {pos : Vec2 F} {dt : F} {n : Nat} {r r' : Rope F}
    (i : Inv d r) (hp : InPlace d pos r) (ev : r.tuning.bending = .pbdTriangle → Even d) (e : r.step dt n pos = some r') :
    r'.vertices = r.vertices ∧ r'.tuning = r.tuning := by
  by_cases h0 : dt = 0
  · simp only [step, h0, if_true] at e; cases e; exact ⟨rfl, rfl⟩
  have hr : List.Forall₂ (fun x y => RestAt x pos y) d.vertices r.vertices := by
    have := i.vert
    unfold InPlace at hp
    generalize d.vertices = ds at this hp
    generalize r.vertices = vs at this hp
    induction this with
    | nil => exact .nil
    | cons a _ ih =>
      cases hp with
      | cons b c => exact .cons ⟨a.1, b.1, a.2, b.2⟩ (ih c)
  simp only [step, h0, if_false, Option.bind_eq_bind, Option.bind_eq_some_iff] at e
  obtain ⟨r1, e1, r2, e2, e⟩ := e
  have hrest : ∀ x ∈ r.vertices, x.bind + pos - x.p0 = ⟨0, 0⟩ ∧ x.v = ⟨0, 0⟩ ∧ x.p0 = x.p := by
    intro x hx
    obtain ⟨k, hk⟩ := mem_get hx
    obtain ⟨y, -, hy⟩ := rest_get hr hk
    refine ⟨?_, hy.v, hy.p0⟩
    rw [hy.p0, hy.p, hy.vert.bind]; ext <;> simp
  have zs : ∀ k : F, (k * (⟨0, 0⟩ : Vec2 F) : Vec2 F) = ⟨0, 0⟩ := fun k => by ext <;> simp
  have hacc : r.vertices.map (accelerate dt (RopeElem.exp (-dt * r.tuning.damping)) r.gravity pos) = r.vertices := by
    refine map_same fun x hx => ?_
    obtain ⟨a, b, -⟩ := hrest x hx
    unfold accelerate
    split_ifs
    · rw [i.gravity, hg, b, zs, zs]
      have : (⟨0, 0⟩ : Vec2 F) + ⟨0, 0⟩ = ⟨0, 0⟩ := by ext <;> simp
      rw [this, ← b]
    · rw [a, zs, ← b]
  have hadv : (r.vertices.map fun x => { x with p := x.p + dt * x.v }) = r.vertices := by
    refine map_same fun x hx => ?_
    obtain ⟨-, b, -⟩ := hrest x hx
    have : x.p + dt * x.v = x.p := by rw [b, zs]; ext <;> simp
    rw [this]
  have hfin : (r.vertices.map fun x => { x with v := (1 / dt) * (x.p - x.p0), p0 := x.p }) = r.vertices := by
    refine map_same fun x hx => ?_
    obtain ⟨-, b, c⟩ := hrest x hx
    have : (1 / dt) * (x.p - x.p0) = x.v := by
      rw [c, b]; ext <;> simp
    rw [this]
    rcases x with ⟨x1, x2, x3, x4, x5⟩
    dsimp only at c
    rw [c]
  rw [hacc] at e1
  have r1e : r1 = r := by
    unfold applyBendForces at e1
    split_ifs at e1
    · simp only [Option.bind_eq_bind, Option.bind_eq_some_iff] at e1
      obtain ⟨vs, e1, e'⟩ := e1
      obtain rfl := foldlM_same (P := fun c => ∃ k, BendOf d r.tuning k c)
        (fun c vs' hc e => by obtain ⟨k, hc⟩ := hc; exact bendForce_rest st hr hc e) _ _
        (fun c hc => by obtain ⟨k, hk⟩ := mem_get hc; exact ⟨k, i.cons.bend k c hk⟩) e1
      cases e'; rfl
    · cases e1; rfl
  subst r1e
  rw [hadv] at e2
  have ci2 := ConsInv.lambdas (r' := { r1 with
      bends := r1.bends.map fun c => { c with lambda := 0 }
      stretches := r1.stretches.map fun c => { c with lambda := 0 } }) i.cons rfl rfl rfl
  obtain rfl := iterate_rest st (r := { r1 with
      bends := r1.bends.map fun c => { c with lambda := 0 }
      stretches := r1.stretches.map fun c => { c with lambda := 0 } }) ⟨ci2, hr, by
        intro c hc; obtain ⟨x, -, rfl⟩ := List.mem_map.mp hc; rfl, by
        intro c hc; obtain ⟨x, -, rfl⟩ := List.mem_map.mp hc; rfl⟩ ev _ _ e2
  cases e
  exact ⟨hfin, rfl⟩

theorem stepMany_rest [ElemLaws F] [RopeLaws F] {d : RopeDef F} (st : Straight d) (hg : d.gravity = ⟨0, 0⟩) {pos : Vec2 F} :
    ∀ (ss : List (F × Nat)) (r r' : Rope F), Inv d r → InPlace d pos r → (r.tuning.bending = .pbdTriangle → Even d) →
      stepMany pos ss r = some r' → r'.vertices = r.vertices := by
  intro ss
  induction ss with
  | nil => intro r r' _ _ _ e; cases e; rfl
  | cons s ss ih =>
    intro r r' i hp ev e
    simp only [stepMany, Option.bind_eq_bind, Option.bind_eq_some_iff] at e
    obtain ⟨r1, e1, e⟩ := e
    obtain ⟨a, b⟩ := step_rest st hg i hp ev e1
    rw [← a]
    exact ih r1 r' (step_inv i e1) (by unfold InPlace; rw [a]; exact hp) (by rw [b]; exact ev) e

end Rope
end
end B2
