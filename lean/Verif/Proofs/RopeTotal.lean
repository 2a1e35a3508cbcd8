import Verif.Proofs.Rope
import Mathlib.Tactic.Positivity

set_option linter.unusedSectionVars false

namespace B2
open Spec

section
variable {F : Type} [Field F] [LinearOrder F] [IsStrictOrderedRing F] [Elem F] [RopeElem F]

namespace Rope

theorem masses_find {vs : List (RopeVertex F)} {i : Nat} {m : F} (h : (masses vs)[i]? = some m) : ∃ x, vs[i]? = some x ∧ x.invMass = m := by
  simp only [masses, List.getElem?_map, Option.map_eq_some_iff] at h
  exact h

theorem mapM_total {α β : Type} {f : α → Option β} : ∀ a : List α, (∀ x ∈ a, ∃ y, f x = some y) → ∃ l, a.mapM f = some l := by
  intro a
  induction a with
  | nil => intro _; exact ⟨[], by simp⟩
  | cons x a ih =>
    intro h
    obtain ⟨y, hy⟩ := h x (by simp)
    obtain ⟨l, hl⟩ := ih fun z hz => h z (by simp [hz])
    exact ⟨y :: l, by simp [List.mapM_cons, hy, hl]⟩

theorem create_total (d : RopeDef F) (r0 : Rope F) (h : 3 ≤ d.vertices.length) : ∃ r, r0.create d = some r := by
  have hl : (d.vertices.map (createVertex d.position)).length = d.vertices.length := List.length_map ..
  have get : ∀ i, i < d.vertices.length → ∃ x, (d.vertices.map (createVertex d.position))[i]? = some x := fun i hi =>
    ⟨_, List.getElem?_eq_getElem (by rw [hl]; exact hi)⟩
  obtain ⟨ss, hs⟩ := mapM_total (f := createStretch (d.vertices.map (createVertex d.position)))
    (List.range ((d.vertices.map (createVertex d.position)).length - 1)) (fun i hi => by
      rw [List.mem_range, hl] at hi
      obtain ⟨x, hx⟩ := get i (by omega)
      obtain ⟨y, hy⟩ := get (i + 1) (by omega)
      simp [createStretch, hx, hy])
  obtain ⟨bs, hb⟩ := mapM_total (f := fun i => createBend (d.vertices.map (createVertex d.position)) ((r0.bends[i]?).getD blankBend) i)
    (List.range ((d.vertices.map (createVertex d.position)).length - 2)) (fun i hi => by
      rw [List.mem_range, hl] at hi
      obtain ⟨x, hx⟩ := get i (by omega)
      obtain ⟨y, hy⟩ := get (i + 1) (by omega)
      obtain ⟨z, hz⟩ := get (i + 2) (by omega)
      simp only [createBend, hx, hy, hz, Option.bind_eq_bind, Option.bind_some]
      split_ifs <;> exact ⟨_, rfl⟩)
  unfold create
  rw [if_neg (by omega)]
  simp only [hs, hb, Option.bind_eq_bind, Option.bind_some]
  exact ⟨_, rfl⟩

theorem lengthSquared_nonneg (a : Vec2 F) : 0 ≤ a.lengthSquared := add_nonneg (mul_self_nonneg _) (mul_self_nonneg _)
theorem dot_self_nonneg' (a : Vec2 F) : 0 ≤ dot a a := add_nonneg (mul_self_nonneg _) (mul_self_nonneg _)

theorem distanceV_ne [ElemLaws F] {a b : Vec2 F} (h : b - a ≠ ⟨0, 0⟩) : 0 < distanceV a b := by
  unfold distanceV Vec2.length
  rcases (ElemLaws.sqrt_nonneg ((a - b).x * (a - b).x + (a - b).y * (a - b).y)).lt_or_eq with l | l
  · exact l
  · exfalso
    have := ElemLaws.mul_self_sqrt ((a - b).x * (a - b).x + (a - b).y * (a - b).y) (add_nonneg (mul_self_nonneg _) (mul_self_nonneg _))
    rw [← l] at this
    have z : (a - b).lengthSquared = 0 := by unfold Vec2.lengthSquared; rw [← this]; ring
    have := sub_zero_eq (lengthSquared_zero z)
    subst this
    exact h (by ext <;> simp)

theorem startMass_nonneg {p : Vec2 F} (x : RopeDefVertex F) : 0 ≤ (createVertex p x).invMass := by
  show 0 ≤ if x.mass > 0 then 1 / x.mass else 0
  split_ifs with h
  · exact (one_div_pos.mpr h).le
  · exact le_rfl
theorem startMass_pos {p : Vec2 F} {x : RopeDefVertex F} (h : 0 < x.mass) : 0 < (createVertex p x).invMass := by
  show 0 < if x.mass > 0 then 1 / x.mass else 0
  rw [if_pos h]; exact one_div_pos.mpr h

/-- What is known of a bending constraint of a supple rope. -/
structure BendGood (t : RopeTuning F) (c : RopeBend F) : Prop where
  m1 : 0 ≤ c.invMass1
  m2 : 0 ≤ c.invMass2
  m3 : 0 ≤ c.invMass3
  some : 0 < c.invMass1 ∨ 0 < c.invMass3
  eff : 0 < c.invEffectiveMass
  spring : 0 < t.bendHertz → 0 < c.spring
  damper : 0 < t.bendHertz → 0 ≤ t.bendDamping → 0 ≤ c.damper

theorem BendOf.good [ElemLaws F] {d : RopeDef F} (hs : SegmentsDistinct d) (hp : Supple d) {t : RopeTuning F} {k : Nat} {c : RopeBend F}
    (h : BendOf d t k c) : BendGood t c := by
  obtain ⟨c0, c1, l, h, rfl⟩ := h
  simp only [createBend, Option.bind_eq_bind, Option.bind_eq_some_iff] at h
  obtain ⟨x1, h1, x2, h2, x3, h3, h⟩ := h
  obtain ⟨y1, g1, rfl⟩ := start_get h1
  obtain ⟨y2, g2, rfl⟩ := start_get h2
  obtain ⟨y3, g3, rfl⟩ := start_get h3
  have n12 := createVertex_ne (p := d.position) (hs _ _ _ g1 g2)
  have n23 := createVertex_ne (p := d.position) (hs _ _ _ g2 g3)
  have q1 := startMass_nonneg (p := d.position) y1
  have q2 := startMass_nonneg (p := d.position) y2
  have q3 := startMass_nonneg (p := d.position) y3
  have q : 0 < (createVertex d.position y1).invMass ∨ 0 < (createVertex d.position y3).invMass :=
    (hp _ _ _ g1 g3).imp startMass_pos startMass_pos
  have pl1 := distanceV_ne n12
  have pl2 := distanceV_ne n23
  have a1 : 0 < ((createVertex d.position y2).p - (createVertex d.position y1).p).lengthSquared :=
    (lengthSquared_nonneg _).lt_of_ne fun e => n12 (lengthSquared_zero e.symm)
  have a2 : 0 < ((createVertex d.position y3).p - (createVertex d.position y2).p).lengthSquared :=
    (lengthSquared_nonneg _).lt_of_ne fun e => n23 (lengthSquared_zero e.symm)
  generalize createVertex d.position y1 = x1 at *
  generalize createVertex d.position y2 = x2 at *
  generalize createVertex d.position y3 = x3 at *
  have eff : 0 < x1.invMass * dot (-((-1 / (x2.p - x1.p).lengthSquared) * (x2.p - x1.p).skew : Vec2 F)) (-((-1 / (x2.p - x1.p).lengthSquared) * (x2.p - x1.p).skew))
      + x2.invMass * dot ((-1 / (x2.p - x1.p).lengthSquared) * (x2.p - x1.p).skew - (1 / (x3.p - x2.p).lengthSquared) * (x3.p - x2.p).skew : Vec2 F)
        ((-1 / (x2.p - x1.p).lengthSquared) * (x2.p - x1.p).skew - (1 / (x3.p - x2.p).lengthSquared) * (x3.p - x2.p).skew)
      + x3.invMass * dot ((1 / (x3.p - x2.p).lengthSquared) * (x3.p - x2.p).skew : Vec2 F) ((1 / (x3.p - x2.p).lengthSquared) * (x3.p - x2.p).skew) := by
    have z1 := mul_nonneg q1 (dot_self_nonneg' (-((-1 / (x2.p - x1.p).lengthSquared) * (x2.p - x1.p).skew : Vec2 F)))
    have z2 := mul_nonneg q2 (dot_self_nonneg' ((-1 / (x2.p - x1.p).lengthSquared) * (x2.p - x1.p).skew - (1 / (x3.p - x2.p).lengthSquared) * (x3.p - x2.p).skew : Vec2 F))
    have z3 := mul_nonneg q3 (dot_self_nonneg' ((1 / (x3.p - x2.p).lengthSquared) * (x3.p - x2.p).skew : Vec2 F))
    rcases q with q | q
    · have : dot (-((-1 / (x2.p - x1.p).lengthSquared) * (x2.p - x1.p).skew : Vec2 F)) (-((-1 / (x2.p - x1.p).lengthSquared) * (x2.p - x1.p).skew))
          = 1 / (x2.p - x1.p).lengthSquared := by
        generalize x2.p - x1.p = e at a1 ⊢
        simp only [dot, Vec2.neg_x, Vec2.neg_y, Vec2.smul_x, Vec2.smul_y, Vec2.skew]
        have := a1.ne'
        field_simp
        unfold Vec2.lengthSquared; ring
      have p1 := mul_pos q (one_div_pos.mpr a1)
      rw [← this] at p1
      linarith
    · have : dot ((1 / (x3.p - x2.p).lengthSquared) * (x3.p - x2.p).skew : Vec2 F) ((1 / (x3.p - x2.p).lengthSquared) * (x3.p - x2.p).skew)
          = 1 / (x3.p - x2.p).lengthSquared := by
        generalize x3.p - x2.p = e at a2 ⊢
        simp only [dot, Vec2.smul_x, Vec2.smul_y, Vec2.skew]
        have := a2.ne'
        field_simp
        unfold Vec2.lengthSquared; ring
      have p1 := mul_pos q (one_div_pos.mpr a2)
      rw [← this] at p1
      linarith
  have tune : ∀ c : RopeBend F, c.invMass1 = x1.invMass → c.invMass2 = x2.invMass → c.invMass3 = x3.invMass → c.l1 = distanceV x1.p x2.p →
      c.l2 = distanceV x2.p x3.p → (0 < t.bendHertz → 0 < (tuneBend t c).spring) ∧
        (0 < t.bendHertz → 0 ≤ t.bendDamping → 0 ≤ (tuneBend t c).damper) := by
    intro c e1 e2 e3 e4 e5
    have p1 : 0 < c.l1 := e4 ▸ pl1
    have p2 : 0 < c.l2 := e5 ▸ pl2
    have sum : 0 < c.invMass1 / (c.l1 * c.l1) + c.invMass2 * (1 / c.l1 + 1 / c.l2) * (1 / c.l1 + 1 / c.l2) + c.invMass3 / (c.l2 * c.l2) := by
      rw [e1, e2, e3]
      have z1 : 0 ≤ x1.invMass / (c.l1 * c.l1) := div_nonneg q1 (mul_pos p1 p1).le
      have z3 : 0 ≤ x3.invMass / (c.l2 * c.l2) := div_nonneg q3 (mul_pos p2 p2).le
      have z2 : 0 ≤ x2.invMass * (1 / c.l1 + 1 / c.l2) * (1 / c.l1 + 1 / c.l2) := by positivity
      rcases q with q | q
      · have := div_pos q (mul_pos p1 p1); linarith
      · have := div_pos q (mul_pos p2 p2); linarith
    have hpi := ElemLaws.pi_pos (F := F)
    simp only [tuneBend]
    rw [if_neg (mul_pos (mul_pos p1 p1) (mul_pos p2 p2)).ne', if_neg sum.ne']
    exact ⟨fun hz => by dsimp only; positivity, fun hz hd => by dsimp only; positivity⟩
  rw [if_neg (mul_pos a1 a2).ne'] at h
  obtain ⟨b1, b2, e⟩ := tuneBend_same t c1
  split_ifs at h with b
  · have hc := Option.some.inj h
    obtain ⟨s1, s2⟩ := tune c1 (by rw [← hc]) (by rw [← hc]) (by rw [← hc]) (by rw [← hc]) (by rw [← hc])
    refine ⟨?_, ?_, ?_, ?_, ?_, s1, s2⟩ <;> rw [e] <;> rw [← hc]
    · exact q1
    · exact q2
    · exact q3
    · exact q
    · exact eff
  · have hc := Option.some.inj h
    obtain ⟨s1, s2⟩ := tune c1 (by rw [← hc]) (by rw [← hc]) (by rw [← hc]) (by rw [← hc]) (by rw [← hc])
    refine ⟨?_, ?_, ?_, ?_, ?_, s1, s2⟩ <;> rw [e] <;> rw [← hc]
    · exact q1
    · exact q2
    · exact q3
    · exact q
    · exact eff

structure StretchGood (t : RopeTuning F) (c : RopeStretch F) : Prop where
  sum : c.invMass1 + c.invMass2 ≠ 0 → 0 < c.invMass1 + c.invMass2
  spring : c.invMass1 + c.invMass2 ≠ 0 → 0 < t.stretchHertz → 0 < c.spring
  damper : c.invMass1 + c.invMass2 ≠ 0 → 0 < t.stretchHertz → 0 ≤ t.stretchDamping → 0 ≤ c.damper

theorem StretchOf.good [ElemLaws F] {d : RopeDef F} {t : RopeTuning F} {k : Nat} {c : RopeStretch F} (h : StretchOf d t k c) : StretchGood t c := by
  obtain ⟨c1, l, h, rfl⟩ := h
  simp only [createStretch, Option.bind_eq_bind, Option.bind_eq_some_iff] at h
  obtain ⟨x1, h1, x2, h2, h⟩ := h
  cases h
  obtain ⟨y1, g1, rfl⟩ := start_get h1
  obtain ⟨y2, g2, rfl⟩ := start_get h2
  have q1 := startMass_nonneg (p := d.position) y1
  have q2 := startMass_nonneg (p := d.position) y2
  have hpi := ElemLaws.pi_pos (F := F)
  have ps : (createVertex d.position y1).invMass + (createVertex d.position y2).invMass ≠ 0 →
    0 < (createVertex d.position y1).invMass + (createVertex d.position y2).invMass := fun h => (add_nonneg q1 q2).lt_of_ne h.symm
  by_cases hz : (createVertex d.position y1).invMass + (createVertex d.position y2).invMass = 0
  · simp only [tuneStretch, hz, if_true]
    exact ⟨fun h => absurd hz h, fun h => absurd hz h, fun h => absurd hz h⟩
  · have := ps hz
    simp only [tuneStretch, hz, if_false]
    exact ⟨fun _ => this, fun _ hh => by dsimp only; positivity, fun _ hh hd => by dsimp only; positivity⟩

theorem fdiv_ok {a b : F} (h : b ≠ 0) : fdiv a b = some (a / b) := if_neg h

theorem stretchPbd_total {t : RopeTuning F} {vs : List (RopeVertex F)} {c : RopeStretch F} (ok : StretchOk (masses vs) c) :
    ∃ vs', stretchPbd t vs c = some vs' := by
  obtain ⟨x1, h1, _⟩ := masses_find ok.m1
  obtain ⟨x2, h2, _⟩ := masses_find ok.m2
  simp only [stretchPbd, h1, h2, Option.bind_eq_bind, Option.bind_some]
  split_ifs <;> exact ⟨_, rfl⟩

theorem stretchXpbd_total {t : RopeTuning F} {dt : F} (hdt : 0 < dt) {vs : List (RopeVertex F)} {c : RopeStretch F} (ok : StretchOk (masses vs) c)
    (g : StretchGood t c) (hh : 0 < t.stretchHertz) (hd : 0 ≤ t.stretchDamping) : ∃ s, stretchXpbd dt vs c = some s := by
  obtain ⟨x1, h1, _⟩ := masses_find ok.m1
  obtain ⟨x2, h2, _⟩ := masses_find ok.m2
  simp only [stretchXpbd, h1, h2, Option.bind_eq_bind, Option.bind_some]
  split_ifs with hz
  · exact ⟨_, rfl⟩
  · have s := g.sum hz
    have p := g.spring hz hh
    have q := g.damper hz hh hd
    rw [fdiv_ok (by positivity), Option.bind_some, fdiv_ok (by positivity), Option.bind_some, fdiv_ok (by positivity), Option.bind_some]
    exact ⟨_, rfl⟩

theorem bendPbdAngle_total {t : RopeTuning F} {vs : List (RopeVertex F)} {c : RopeBend F} (ok : BendOk (masses vs) c) (g : BendGood t c) :
    ∃ vs', bendPbdAngle t vs c = some vs' := by
  obtain ⟨x1, h1, _⟩ := masses_find ok.m1
  obtain ⟨x2, h2, _⟩ := masses_find ok.m2
  obtain ⟨x3, h3, _⟩ := masses_find ok.m3
  simp only [bendPbdAngle, h1, h2, h3, Option.bind_eq_bind, Option.bind_some]
  split_ifs with a b
  · exact ⟨_, rfl⟩
  · rw [fdiv_ok g.eff.ne', Option.bind_some]; exact ⟨_, rfl⟩
  · rw [fdiv_ok b, Option.bind_some]; exact ⟨_, rfl⟩

theorem bendSum_nonneg {t : RopeTuning F} {c : RopeBend F} (g : BendGood t c) (j1 j2 j3 : Vec2 F) : 0 ≤ bendSum t c j1 j2 j3 := by
  unfold bendSum
  have := g.m1; have := g.m2; have := g.m3
  split_ifs
  · exact g.eff.le
  · exact add_nonneg (add_nonneg (mul_nonneg g.m1 (dot_self_nonneg' _)) (mul_nonneg g.m2 (dot_self_nonneg' _))) (mul_nonneg g.m3 (dot_self_nonneg' _))

theorem bendXpbdAngle_total {t : RopeTuning F} {dt : F} (hdt : 0 < dt) {vs : List (RopeVertex F)} {c : RopeBend F} (ok : BendOk (masses vs) c)
    (g : BendGood t c) (hh : 0 < t.bendHertz) (hd : 0 ≤ t.bendDamping) : ∃ s, bendXpbdAngle t dt vs c = some s := by
  obtain ⟨x1, h1, _⟩ := masses_find ok.m1
  obtain ⟨x2, h2, _⟩ := masses_find ok.m2
  obtain ⟨x3, h3, _⟩ := masses_find ok.m3
  simp only [bendXpbdAngle, h1, h2, h3, Option.bind_eq_bind, Option.bind_some]
  split_ifs with a b
  · exact ⟨_, rfl⟩
  · exact ⟨_, rfl⟩
  · have s := (bendSum_nonneg g _ _ _).lt_of_ne (Ne.symm b)
    have p := g.spring hh
    have q := g.damper hh hd
    rw [fdiv_ok (by positivity), Option.bind_some, fdiv_ok (by positivity), Option.bind_some, fdiv_ok (by positivity), Option.bind_some]
    exact ⟨_, rfl⟩

theorem bendForce_total {t : RopeTuning F} {dt : F} {vs : List (RopeVertex F)} {c : RopeBend F} (ok : BendOk (masses vs) c) :
    ∃ vs', bendForce t dt vs c = some vs' := by
  obtain ⟨x1, h1, _⟩ := masses_find ok.m1
  obtain ⟨x2, h2, _⟩ := masses_find ok.m2
  obtain ⟨x3, h3, _⟩ := masses_find ok.m3
  simp only [bendForce, h1, h2, h3, Option.bind_eq_bind, Option.bind_some]
  split_ifs <;> exact ⟨_, rfl⟩

theorem bendPbdDistance_total {t : RopeTuning F} {vs : List (RopeVertex F)} {c : RopeBend F} (ok : BendOk (masses vs) c) :
    ∃ vs', bendPbdDistance t vs c = some vs' := by
  obtain ⟨x1, h1, _⟩ := masses_find ok.m1
  obtain ⟨x3, h3, _⟩ := masses_find ok.m3
  simp only [bendPbdDistance, h1, h3, Option.bind_eq_bind, Option.bind_some]
  split_ifs <;> exact ⟨_, rfl⟩

theorem bendPbdHeight_total {t : RopeTuning F} {vs : List (RopeVertex F)} {c : RopeBend F} (ok : BendOk (masses vs) c) :
    ∃ vs', bendPbdHeight t vs c = some vs' := by
  obtain ⟨x1, h1, _⟩ := masses_find ok.m1
  obtain ⟨x2, h2, _⟩ := masses_find ok.m2
  obtain ⟨x3, h3, _⟩ := masses_find ok.m3
  simp only [bendPbdHeight, h1, h2, h3, Option.bind_eq_bind, Option.bind_some]
  split_ifs <;> exact ⟨_, rfl⟩

theorem bendPbdTriangle_total {t : RopeTuning F} {vs : List (RopeVertex F)} {c : RopeBend F} (ok : BendOk (masses vs) c) (g : BendGood t c) :
    ∃ vs', bendPbdTriangle t vs c = some vs' := by
  obtain ⟨x1, h1, _⟩ := masses_find ok.m1
  obtain ⟨x2, h2, _⟩ := masses_find ok.m2
  obtain ⟨x3, h3, _⟩ := masses_find ok.m3
  have : 0 < c.invMass1 + c.invMass3 + 2 * c.invMass2 := by
    have := g.m1; have := g.m2; have := g.m3
    rcases g.some with h | h <;> linarith
  simp only [bendPbdTriangle, h1, h2, h3, Option.bind_eq_bind, Option.bind_some, fdiv_ok this.ne']
  exact ⟨_, rfl⟩

theorem foldlM_total {C : Type} {P : C → Prop} {ms : List F} {f : List (RopeVertex F) → C → Option (List (RopeVertex F))}
    (hf : ∀ vs c, masses vs = ms → P c → ∃ vs', f vs c = some vs' ∧ masses vs' = ms) :
    ∀ (cs : List C) (vs : List (RopeVertex F)), masses vs = ms → (∀ c ∈ cs, P c) → ∃ vs', cs.foldlM f vs = some vs' := by
  intro cs
  induction cs with
  | nil => intro vs _ _; exact ⟨vs, rfl⟩
  | cons c cs ih =>
    intro vs hm hP
    obtain ⟨v1, e1, m1⟩ := hf _ _ hm (hP c (by simp))
    obtain ⟨v2, e2⟩ := ih v1 m1 (fun x hx => hP x (by simp [hx]))
    exact ⟨v2, by simp [List.foldlM_cons, e1, e2]⟩

theorem loopM_total {C : Type} {P : C → Prop} {ms : List F} {f : List (RopeVertex F) → C → Option (List (RopeVertex F) × C)}
    (hf : ∀ vs c, masses vs = ms → P c → ∃ s, f vs c = some s ∧ masses s.1 = ms) :
    ∀ (cs : List C) (vs : List (RopeVertex F)), masses vs = ms → (∀ c ∈ cs, P c) → ∃ s, loopM f vs cs = some s := by
  intro cs
  induction cs with
  | nil => intro vs _ _; exact ⟨_, rfl⟩
  | cons c cs ih =>
    intro vs hm hP
    obtain ⟨v1, e1, m1⟩ := hf _ _ hm (hP c (by simp))
    obtain ⟨v2, e2⟩ := ih v1.1 m1 (fun x hx => hP x (by simp [hx]))
    exact ⟨_, by simp only [loopM, e1, e2, Option.bind_eq_bind, Option.bind_some]; rfl⟩

theorem solveBends_total [ElemLaws F] {d : RopeDef F} (hs : SegmentsDistinct d) (hp : Supple d) {dt : F} (hdt : 0 < dt) {r : Rope F} (ci : ConsInv d r)
    (hm : masses r.vertices = masses (start d)) (sp : SpringsSet r.tuning) : ∃ r', solveBends dt r = some r' := by
  have hall : ∀ c ∈ r.bends, ∃ k, BendOf d r.tuning k c := fun c hc => by
    obtain ⟨k, hk⟩ := mem_get hc; exact ⟨k, ci.bend k c hk⟩
  unfold solveBends
  cases hb : r.tuning.bending with
  | springAngle => exact ⟨_, rfl⟩
  | pbdAngle =>
    obtain ⟨vs, e⟩ := foldlM_total (f := bendPbdAngle r.tuning) (P := fun c => ∃ k, BendOf d r.tuning k c) (ms := masses (start d)) (by
      rintro vs c hm ⟨k, hc⟩
      obtain ⟨vs', e⟩ := bendPbdAngle_total (t := r.tuning) (by rw [hm]; exact hc.ok) (hc.good hs hp)
      exact ⟨vs', e, (bendPbdAngle_kick (by rw [hm]; exact hc.ok) e).masses.trans hm⟩) _ _ hm hall
    simp only [e, Option.bind_eq_bind, Option.bind_some]; exact ⟨_, rfl⟩
  | xpbdAngle =>
    obtain ⟨s, e⟩ := loopM_total (f := bendXpbdAngle r.tuning dt) (P := fun c => ∃ k, BendOf d r.tuning k c) (ms := masses (start d)) (by
      rintro vs c hm ⟨k, hc⟩
      obtain ⟨s, e⟩ := bendXpbdAngle_total (t := r.tuning) hdt (by rw [hm]; exact hc.ok) (hc.good hs hp) (sp.2 hb).1 (sp.2 hb).2
      exact ⟨s, e, (bendXpbdAngle_kick (by rw [hm]; exact hc.ok) e).1.masses.trans hm⟩) _ _ hm hall
    simp only [hdt, if_true, e, Option.bind_eq_bind, Option.bind_some]; exact ⟨_, rfl⟩
  | pbdDistance =>
    obtain ⟨vs, e⟩ := foldlM_total (f := bendPbdDistance r.tuning) (P := fun c => ∃ k, BendOf d r.tuning k c) (ms := masses (start d)) (by
      rintro vs c hm ⟨k, hc⟩
      obtain ⟨vs', e⟩ := bendPbdDistance_total (t := r.tuning) (vs := vs) (c := c) (by rw [hm]; exact hc.ok)
      exact ⟨vs', e, (bendPbdDistance_kick (by rw [hm]; exact hc.ok) e).masses.trans hm⟩) _ _ hm hall
    simp only [e, Option.bind_eq_bind, Option.bind_some]; exact ⟨_, rfl⟩
  | pbdHeight =>
    obtain ⟨vs, e⟩ := foldlM_total (f := bendPbdHeight r.tuning) (P := fun c => ∃ k, BendOf d r.tuning k c) (ms := masses (start d)) (by
      rintro vs c hm ⟨k, hc⟩
      obtain ⟨vs', e⟩ := bendPbdHeight_total (t := r.tuning) (vs := vs) (c := c) (by rw [hm]; exact hc.ok)
      obtain ⟨g, kk, -⟩ := bendPbdHeight_kick (by rw [hm]; exact hc.ok) e
      exact ⟨vs', e, kk.masses.trans hm⟩) _ _ hm hall
    simp only [e, Option.bind_eq_bind, Option.bind_some]; exact ⟨_, rfl⟩
  | pbdTriangle =>
    obtain ⟨vs, e⟩ := foldlM_total (f := bendPbdTriangle r.tuning) (P := fun c => ∃ k, BendOf d r.tuning k c) (ms := masses (start d)) (by
      rintro vs c hm ⟨k, hc⟩
      obtain ⟨vs', e⟩ := bendPbdTriangle_total (t := r.tuning) (vs := vs) (c := c) (by rw [hm]; exact hc.ok) (hc.good hs hp)
      exact ⟨vs', e, (bendPbdTriangle_kick (by rw [hm]; exact hc.ok) e).masses.trans hm⟩) _ _ hm hall
    simp only [e, Option.bind_eq_bind, Option.bind_some]; exact ⟨_, rfl⟩

theorem solveStretches_total [ElemLaws F] {d : RopeDef F} {dt : F} (hdt : 0 < dt) {r : Rope F} (ci : ConsInv d r)
    (hm : masses r.vertices = masses (start d)) (sp : SpringsSet r.tuning) : ∃ r', solveStretches dt r = some r' := by
  have hall : ∀ c ∈ r.stretches, ∃ k, StretchOf d r.tuning k c := fun c hc => by
    obtain ⟨k, hk⟩ := mem_get hc; exact ⟨k, ci.stretch k c hk⟩
  unfold solveStretches
  cases hb : r.tuning.stretching with
  | pbd =>
    obtain ⟨vs, e⟩ := foldlM_total (f := stretchPbd r.tuning) (P := fun c => ∃ k, StretchOf d r.tuning k c) (ms := masses (start d)) (by
      rintro vs c hm ⟨k, hc⟩
      obtain ⟨vs', e⟩ := stretchPbd_total (t := r.tuning) (vs := vs) (c := c) (by rw [hm]; exact hc.ok)
      exact ⟨vs', e, (stretchPbd_kick (by rw [hm]; exact hc.ok) e).masses.trans hm⟩) _ _ hm hall
    simp only [e, Option.bind_eq_bind, Option.bind_some]; exact ⟨_, rfl⟩
  | xpbd =>
    obtain ⟨s, e⟩ := loopM_total (f := stretchXpbd dt) (P := fun c => ∃ k, StretchOf d r.tuning k c) (ms := masses (start d)) (by
      rintro vs c hm ⟨k, hc⟩
      obtain ⟨s, e⟩ := stretchXpbd_total (t := r.tuning) hdt (vs := vs) (by rw [hm]; exact hc.ok) hc.good (sp.1 hb).1 (sp.1 hb).2
      exact ⟨s, e, (stretchXpbd_kick (by rw [hm]; exact hc.ok) e).1.masses.trans hm⟩) _ _ hm hall
    simp only [hdt, if_true, e, Option.bind_eq_bind, Option.bind_some]; exact ⟨_, rfl⟩

theorem iterate_total [ElemLaws F] {d : RopeDef F} (hs : SegmentsDistinct d) (hp : Supple d) {dt : F} (hdt : 0 < dt) :
    ∀ (n : Nat) (r : Rope F), ConsInv d r → masses r.vertices = masses (start d) → SpringsSet r.tuning → ∃ r', iterate dt n r = some r' := by
  intro n
  induction n with
  | zero => intro r _ _ _; exact ⟨r, rfl⟩
  | succ n ih =>
    intro r ci hm sp
    obtain ⟨r1, e1⟩ := solveBends_total hs hp hdt ci hm sp
    obtain ⟨k1, ci1, t1, g1⟩ := solveBends_kb ci hm e1
    obtain ⟨r2, e2⟩ := solveStretches_total hdt ci1 (k1.masses.trans hm) (by rw [t1]; exact sp)
    obtain ⟨k2, ci2, t2, g2⟩ := solveStretches_kb (bal := True) ci1 (k1.masses.trans hm) e2
    obtain ⟨r3, e3⟩ := ih r2 ci2 ((k2.masses.trans k1.masses).trans hm) (by rw [t2, t1]; exact sp)
    exact ⟨r3, by simp only [iterate, e1, e2, e3, Option.bind_eq_bind, Option.bind_some]⟩

theorem step_total [ElemLaws F] {d : RopeDef F} (hs : SegmentsDistinct d) (hp : Supple d) {dt : F} (hdt : 0 < dt) {r : Rope F} (i : Inv d r)
    (sp : SpringsSet r.tuning) (n : Nat) (pos : Vec2 F) : ∃ r', r.step dt n pos = some r' := by
  set D := RopeElem.exp (-dt * r.tuning.damping) with hD
  have hm1 : Rope.masses (r.vertices.map (accelerate dt D r.gravity pos)) = Rope.masses r.vertices := by
    simp only [Rope.masses, List.map_map]
    refine List.map_congr_left fun x _ => ?_
    simp only [Function.comp, accelerate]; split_ifs <;> rfl
  have ci1 : ConsInv d { r with vertices := r.vertices.map (accelerate dt D r.gravity pos) } := ⟨i.cons.nb, i.cons.ns, i.cons.bend, i.cons.stretch⟩
  obtain ⟨r1, e1⟩ : ∃ r1, applyBendForces dt { r with vertices := r.vertices.map (accelerate dt D r.gravity pos) } = some r1 := by
    unfold applyBendForces
    split_ifs
    · obtain ⟨vs, e⟩ := foldlM_total (f := bendForce r.tuning dt) (P := fun c => ∃ k, BendOf d r.tuning k c) (ms := masses (start d)) (by
        rintro vs c hm ⟨k, hc⟩
        obtain ⟨vs', e⟩ := bendForce_total (t := r.tuning) (dt := dt) (vs := vs) (c := c) (by rw [hm]; exact hc.ok)
        exact ⟨vs', e, (bendForce_kick (by rw [hm]; exact hc.ok) e).masses.trans hm⟩) r.bends _ (hm1.trans i.masses)
        (fun c hc => by obtain ⟨k, hk⟩ := mem_get hc; exact ⟨k, i.cons.bend k c hk⟩)
      simp only [e, Option.bind_eq_bind, Option.bind_some]; exact ⟨_, rfl⟩
    · exact ⟨_, rfl⟩
  obtain ⟨k1, vs, rfl⟩ := applyBendForces_kv ci1 (hm1.trans i.masses) e1
  have ci2 := ConsInv.lambdas (r' := { r with
      vertices := vs.map fun x => { x with p := x.p + dt * x.v }
      bends := r.bends.map fun c => { c with lambda := 0 }
      stretches := r.stretches.map fun c => { c with lambda := 0 } }) i.cons rfl rfl rfl
  have hm2 : Rope.masses (vs.map fun x => { x with p := x.p + dt * x.v }) = Rope.masses vs := by
    simp only [Rope.masses, List.map_map]
    rfl
  obtain ⟨r2, e2⟩ := iterate_total hs hp hdt n _ ci2 (hm2.trans (k1.masses.trans (hm1.trans i.masses))) sp
  simp only [step, hdt.ne', if_false, ← hD, e1, e2, Option.bind_eq_bind, Option.bind_some]
  exact ⟨_, rfl⟩

end Rope
end
end B2
