import Verif.Proofs.RopeTotal

set_option linter.unusedSectionVars false

namespace B2
open Spec

section
variable {F : Type} [Field F] [LinearOrder F] [IsStrictOrderedRing F] [Elem F] [RopeElem F]

namespace Rope

/-- Every constraint of a loop that ends was solved. -/
theorem foldlM_reach {C : Type} {bal : Prop} {P : C → Prop} {ms : List F} {f : List (RopeVertex F) → C → Option (List (RopeVertex F))}
    (hf : ∀ vs c vs', masses vs = ms → P c → f vs c = some vs' → Kb bal vs vs') :
    ∀ (cs : List C) (vs vs' : List (RopeVertex F)), masses vs = ms → (∀ c ∈ cs, P c) → cs.foldlM f vs = some vs' →
      ∀ c ∈ cs, ∃ v1 v2, Kb bal vs v1 ∧ f v1 c = some v2 := by
  intro cs
  induction cs with
  | nil => intro vs vs' _ _ _ c hc; cases hc
  | cons c cs ih =>
    intro vs vs' hm hP e x hx
    simp only [List.foldlM_cons, Option.bind_eq_bind, Option.bind_eq_some_iff] at e
    obtain ⟨v1, e1, e⟩ := e
    rcases List.mem_cons.mp hx with rfl | hx
    · exact ⟨vs, v1, Kb.refl _ _, e1⟩
    · have k := hf _ _ _ hm (hP c (by simp)) e1
      obtain ⟨a, b, ka, kb⟩ := ih _ _ (k.masses.trans hm) (fun x hx => hP x (by simp [hx])) e x hx
      exact ⟨a, b, k.trans ka, kb⟩

theorem loopM_reach {C : Type} {f : List (RopeVertex F) → C → Option (List (RopeVertex F) × C)} :
    ∀ (cs : List C) (vs : List (RopeVertex F)) (s : List (RopeVertex F) × List C), loopM f vs cs = some s →
      ∀ c ∈ cs, ∃ v1 v2, f v1 c = some v2 := by
  intro cs
  induction cs with
  | nil => intro vs s _ c hc; cases hc
  | cons c cs ih =>
    intro vs s e x hx
    simp only [loopM, Option.bind_eq_bind, Option.bind_eq_some_iff] at e
    obtain ⟨v1, e1, v2, e2, e⟩ := e
    rcases List.mem_cons.mp hx with rfl | hx
    · exact ⟨vs, v1, e1⟩
    · exact ih _ _ e2 x hx

theorem Kb.pin {bal : Prop} {vs vs' : List (RopeVertex F)} (k : Kb bal vs vs') {i : Nat} {x y : RopeVertex F} (hx : vs[i]? = some x)
    (hy : vs'[i]? = some y) (h : x.invMass = 0) : y.p = x.p := by
  obtain ⟨g, k, -⟩ := k
  obtain ⟨hi, rfl⟩ := List.getElem?_eq_some_iff.mp hx
  obtain ⟨hj, rfl⟩ := List.getElem?_eq_some_iff.mp hy
  exact ((List.forall₂_iff_get.mp k.still).2 i hi hj).pin h

/-- The rope before the first iteration. -/
theorem step_start {d : RopeDef F} {r r' : Rope F} (i : Inv d r) {dt : F} (h0 : dt ≠ 0) {n : Nat} {pos : Vec2 F} (e : r.step dt n pos = some r') :
    ∃ r1 r2, ConsInv d r1 ∧ masses r1.vertices = masses (start d) ∧ r1.tuning = r.tuning ∧ iterate dt n r1 = some r2 ∧
      List.Forall₂ (fun x y => x.mass ≤ 0 → y.p = x.position + pos) d.vertices r1.vertices := by
  simp only [step, h0, if_false, Option.bind_eq_bind, Option.bind_eq_some_iff] at e
  obtain ⟨r1, e1, r2, e2, e⟩ := e
  have hm1 : Rope.masses (r.vertices.map (accelerate dt (RopeElem.exp (-dt * r.tuning.damping)) r.gravity pos)) = Rope.masses r.vertices := by
    simp only [Rope.masses, List.map_map]
    refine List.map_congr_left fun x _ => ?_
    simp only [Function.comp, accelerate]; split_ifs <;> rfl
  obtain ⟨k1, vs, rfl⟩ := applyBendForces_kv (d := d)
    (r := { r with vertices := r.vertices.map (accelerate dt (RopeElem.exp (-dt * r.tuning.damping)) r.gravity pos) })
    ⟨i.cons.nb, i.cons.ns, i.cons.bend, i.cons.stretch⟩ (hm1.trans i.masses) e1
  have ci2 := ConsInv.lambdas (r' := { r with
      vertices := vs.map fun x => { x with p := x.p + dt * x.v }
      bends := r.bends.map fun c => { c with lambda := 0 }
      stretches := r.stretches.map fun c => { c with lambda := 0 } }) i.cons rfl rfl rfl
  have hm2 : Rope.masses (vs.map fun x => { x with p := x.p + dt * x.v }) = Rope.masses vs := by
    simp only [Rope.masses, List.map_map]
    rfl
  refine ⟨_, r2, ci2, hm2.trans (k1.masses.trans (hm1.trans i.masses)), rfl, e2, ?_⟩
  have a1 := forall₂_map (C := fun x y => x.mass ≤ 0 → y.invMass = 0 ∧ y.p + dt * y.v = x.position + pos)
    (f := accelerate dt (RopeElem.exp (-dt * r.tuning.damping)) r.gravity pos) (fun x y h hx =>
    (by
      have hm : y.invMass = 0 := by rw [h.1.invMass, if_neg (not_lt.mpr hx)]
      simp only [accelerate, hm, lt_irrefl, if_false]
      refine ⟨trivial, ?_⟩
      rw [smul_cancel h0, h.2, h.1.bind]
      ext <;> simp only [Vec2.add_x, Vec2.add_y, Vec2.sub_x, Vec2.sub_y] <;> ring)) i.vert
  have a2 := forall₂_comp (C := fun x y => x.mass ≤ 0 → y.invMass = 0 ∧ y.p + dt * y.v = x.position + pos) (fun x y z h k hx => by
    obtain ⟨a, b⟩ := h hx
    exact ⟨k.invMass.trans a, by rw [k.p, k.pin a]; exact b⟩) a1 k1.still
  exact forall₂_map (C := fun x y => x.mass ≤ 0 → y.p = x.position + pos) (f := fun x => { x with p := x.p + dt * x.v })
    (fun x y h hx => (h hx).2) a2

theorem fixed_mass {d : RopeDef F} {i : Nat} {x : RopeDefVertex F} (h : d.vertices[i]? = some x) (hx : x.mass ≤ 0) :
    (masses (start d))[i]? = some 0 := by
  have : (start d)[i]? = some (createVertex d.position x) := by simp [start, h]
  rw [masses_get this]
  simp only [createVertex, not_lt.mpr hx, if_false]

theorem bends_get {d : RopeDef F} {r : Rope F} (ci : ConsInv d r) {i : Nat} (h : i + 2 < d.vertices.length) :
    ∃ c, r.bends[i]? = some c ∧ BendOf d r.tuning i c ∧ c.i1 = i ∧ c.i2 = i + 1 ∧ c.i3 = i + 2 := by
  have hl : i < r.bends.length := by rw [ci.nb]; omega
  have hg : r.bends[i]? = some r.bends[i] := List.getElem?_eq_getElem hl
  have hb := ci.bend _ _ hg
  have ok := hb.ok
  have h1 : r.bends[i].i1 = i := by
    obtain ⟨c0, c1, l, h, e⟩ := hb
    obtain ⟨a, b, e'⟩ := tuneBend_same r.tuning c1
    rw [e, e']
    exact (createBend_ok h).2
  exact ⟨_, hg, hb, h1, by rw [ok.i2, h1], by rw [ok.i3, h1]⟩

theorem stuck_triangle {d : RopeDef F} {r : Rope F} (i : Inv d r) (ht : r.tuning.bending = .pbdTriangle) {k : Nat} {x y z : RopeDefVertex F}
    (hx : d.vertices[k]? = some x) (hy : d.vertices[k + 1]? = some y) (hz : d.vertices[k + 2]? = some z) (mx : x.mass ≤ 0) (my : y.mass ≤ 0)
    (mz : z.mass ≤ 0) {dt : F} (h0 : dt ≠ 0) (n : Nat) (pos : Vec2 F) : r.step dt (n + 1) pos = none := by
  by_contra hne
  obtain ⟨r', e⟩ := Option.ne_none_iff_exists'.mp hne
  obtain ⟨r1, r2, ci, hm, t1, e2, -⟩ := step_start i h0 e
  simp only [iterate, Option.bind_eq_bind, Option.bind_eq_some_iff] at e2
  obtain ⟨r3, e3, -⟩ := e2
  simp only [solveBends, t1, ht, Option.bind_eq_bind, Option.bind_eq_some_iff] at e3
  obtain ⟨vs, e3, -⟩ := e3
  obtain ⟨c, hc, hb, i1, i2, i3⟩ := bends_get ci (List.getElem?_eq_some_iff.mp hz).1
  obtain ⟨v1, v2, -, e4⟩ := foldlM_reach (bal := True) (P := fun c => ∃ k, BendOf d r1.tuning k c) (by
    rintro vs c vs' hm ⟨k, hc⟩ e
    exact Kb.of (bendPbdTriangle_kick (by rw [hm]; exact hc.ok) e)) _ _ _ hm
    (fun c hc => by obtain ⟨k, hk⟩ := mem_get hc; exact ⟨k, ci.bend k c hk⟩) e3 c (List.mem_of_getElem? hc)
  have ok := hb.ok
  have m1 : c.invMass1 = 0 := by have := ok.m1; rw [i1, fixed_mass hx mx] at this; exact (Option.some.inj this).symm
  have m2 : c.invMass2 = 0 := by have := ok.m2; rw [i2, fixed_mass hy my] at this; exact (Option.some.inj this).symm
  have m3 : c.invMass3 = 0 := by have := ok.m3; rw [i3, fixed_mass hz mz] at this; exact (Option.some.inj this).symm
  simp [bendPbdTriangle, m1, m2, m3, fdiv] at e4

theorem stuck_angle {d : RopeDef F} {r : Rope F} (i : Inv d r) (ht : r.tuning.bending = .pbdAngle) {k : Nat} {x y z : RopeDefVertex F}
    (hi : r.tuning.isometric = false)
    (hx : d.vertices[k]? = some x) (hy : d.vertices[k + 1]? = some y) (hz : d.vertices[k + 2]? = some z) (mx : x.mass ≤ 0) (my : y.mass ≤ 0)
    (mz : z.mass ≤ 0) (nxy : x.position ≠ y.position) (nyz : y.position ≠ z.position) {dt : F} (h0 : dt ≠ 0) (n : Nat) (pos : Vec2 F) :
    r.step dt (n + 1) pos = none := by
  by_contra hne
  obtain ⟨r', e⟩ := Option.ne_none_iff_exists'.mp hne
  obtain ⟨r1, r2, ci, hm, t1, e2, hpin⟩ := step_start i h0 e
  simp only [iterate, Option.bind_eq_bind, Option.bind_eq_some_iff] at e2
  obtain ⟨r3, e3, -⟩ := e2
  simp only [solveBends, t1, ht, Option.bind_eq_bind, Option.bind_eq_some_iff] at e3
  obtain ⟨vs, e3, -⟩ := e3
  obtain ⟨c, hc, hb, i1, i2, i3⟩ := bends_get ci (List.getElem?_eq_some_iff.mp hz).1
  obtain ⟨v1, v2, kb, e4⟩ := foldlM_reach (bal := True) (P := fun c => ∃ k, BendOf d r1.tuning k c) (by
    rintro vs c vs' hm ⟨k, hc⟩ e
    exact Kb.of (bendPbdAngle_kick (by rw [hm]; exact hc.ok) e)) _ _ _ hm
    (fun c hc => by obtain ⟨k, hk⟩ := mem_get hc; exact ⟨k, ci.bend k c hk⟩) e3 c (List.mem_of_getElem? hc)
  have ok := hb.ok
  have m1 : c.invMass1 = 0 := by have := ok.m1; rw [i1, fixed_mass hx mx] at this; exact (Option.some.inj this).symm
  have m2 : c.invMass2 = 0 := by have := ok.m2; rw [i2, fixed_mass hy my] at this; exact (Option.some.inj this).symm
  have m3 : c.invMass3 = 0 := by have := ok.m3; rw [i3, fixed_mass hz mz] at this; exact (Option.some.inj this).symm
  have eff : c.invEffectiveMass = 0 := by
    obtain ⟨c0, c1, l, h, rfl⟩ := hb
    obtain ⟨a, b, e'⟩ := tuneBend_same r1.tuning c1
    rw [e'] at m1 m2 m3 ⊢
    dsimp only at m1 m2 m3 ⊢
    simp only [createBend, Option.bind_eq_bind, Option.bind_eq_some_iff] at h
    obtain ⟨_, _, _, _, _, _, h⟩ := h
    split_ifs at h <;> cases h
    · rfl
    all_goals
      dsimp only at m1 m2 m3 ⊢
      rw [m1, m2, m3]; ring
  have at' : ∀ (j : Nat) (q : RopeDefVertex F) (w : RopeVertex F), d.vertices[j]? = some q → q.mass ≤ 0 → v1[j]? = some w → w.p = q.position + pos := by
    intro j q w hq mq hw
    obtain ⟨hj, rfl⟩ := List.getElem?_eq_some_iff.mp hq
    have hj2 : j < r1.vertices.length := by rw [← hpin.length_eq]; exact hj
    have h1 := (List.forall₂_iff_get.mp hpin).2 j hj hj2 mq
    have h2 : r1.vertices[j]? = some r1.vertices[j] := List.getElem?_eq_getElem hj2
    have hmass : r1.vertices[j].invMass = 0 := by
      have a := masses_get h2
      rw [hm, fixed_mass hq mq] at a
      exact (Option.some.inj a).symm
    rw [kb.pin h2 hw hmass]
    exact h1
  simp only [bendPbdAngle, Option.bind_eq_bind, Option.bind_eq_some_iff] at e4
  obtain ⟨x1, h1, x2, h2, x3, h3, e4⟩ := e4
  rw [i1] at h1
  rw [i2] at h2
  rw [i3] at h3
  have p1 := at' _ _ _ hx mx h1
  have p2 := at' _ _ _ hy my h2
  have p3 := at' _ _ _ hz mz h3
  have ne : ∀ {a b : Vec2 F}, a ≠ b → (b + pos - (a + pos)).lengthSquared ≠ 0 := by
    intro a b h hz
    apply h
    have := sub_zero_eq (lengthSquared_zero hz)
    have hx := congrArg Vec2.x this
    have hy := congrArg Vec2.y this
    simp only [Vec2.add_x, Vec2.add_y] at hx hy
    ext <;> linarith
  have hl : ¬ (bendLengths r.tuning c (x2.p - x1.p) (x3.p - x2.p)).1 * (bendLengths r.tuning c (x2.p - x1.p) (x3.p - x2.p)).2 = 0 := by
    simp only [bendLengths, hi, p1, p2, p3]
    exact mul_ne_zero (ne nxy) (ne nyz)
  have hs : ∀ j1 j2 j3 : Vec2 F, bendSum r.tuning c j1 j2 j3 = 0 := by
    intro j1 j2 j3
    unfold bendSum
    rw [m1, m2, m3, eff]
    split_ifs <;> ring
  rw [if_neg hl] at e4
  simp [hs, eff, fdiv] at e4

theorem stuck_xpbd {d : RopeDef F} {r : Rope F} (i : Inv d r) (ht : r.tuning.stretching = .xpbd) (hh : r.tuning.stretchHertz = 0) {k : Nat}
    {x : RopeDefVertex F} (hx : d.vertices[k]? = some x) (mx : 0 < x.mass) (hn : 2 ≤ d.vertices.length) {dt : F} (h0 : dt ≠ 0) (n : Nat) (pos : Vec2 F) :
    r.step dt (n + 1) pos = none := by
  by_contra hne
  obtain ⟨r', e⟩ := Option.ne_none_iff_exists'.mp hne
  obtain ⟨r1, r2, ci, hm, t1, e2, -⟩ := step_start i h0 e
  simp only [iterate, Option.bind_eq_bind, Option.bind_eq_some_iff] at e2
  obtain ⟨r3, e3, r4, e4, -⟩ := e2
  obtain ⟨k1, ci1, t2, -⟩ := solveBends_kb ci hm e3
  have tt := t2.trans t1
  simp only [solveStretches, tt, ht] at e4
  split_ifs at e4
  simp only [Option.bind_eq_bind, Option.bind_eq_some_iff] at e4
  obtain ⟨s, e4, -⟩ := e4
  have hk := (List.getElem?_eq_some_iff.mp hx).1
  have pm : ∃ m, (masses (start d))[k]? = some m ∧ 0 < m := by
    have : (start d)[k]? = some (createVertex d.position x) := by simp [start, hx]
    exact ⟨_, masses_get this, startMass_pos mx⟩
  obtain ⟨m, hmk, mpos⟩ := pm
  have nonneg : ∀ (j : Nat) (m : F), (masses (start d))[j]? = some m → 0 ≤ m := by
    intro j m hj
    obtain ⟨y, hy, rfl⟩ := masses_find hj
    obtain ⟨z, -, rfl⟩ := start_get hy
    exact startMass_nonneg z
  -- a constraint at the vertex
  have key : ∃ c ∈ r3.stretches, (∃ j, StretchOf d r.tuning j c) ∧ c.invMass1 + c.invMass2 ≠ 0 := by
    have get : ∀ j, j + 1 < d.vertices.length → ∃ c, r3.stretches[j]? = some c ∧ StretchOf d r.tuning j c ∧ c.i1 = j := by
      intro j hj
      have hl : j < r3.stretches.length := by rw [ci1.ns]; omega
      have hg : r3.stretches[j]? = some r3.stretches[j] := List.getElem?_eq_getElem hl
      have hb := ci1.stretch _ _ hg
      rw [tt] at hb
      refine ⟨_, hg, hb, ?_⟩
      obtain ⟨c1, l, h, e⟩ := hb
      obtain ⟨a, b, e'⟩ := tuneStretch_same r.tuning c1
      rw [e, e']
      simp only [createStretch, Option.bind_eq_bind, Option.bind_eq_some_iff] at h
      obtain ⟨_, _, _, _, h⟩ := h
      cases h; rfl
    by_cases hl : k + 1 < d.vertices.length
    · obtain ⟨c, hc, hs, i1⟩ := get k hl
      have ok := hs.ok
      have a := ok.m1
      rw [i1, hmk] at a
      have b := nonneg _ _ ok.m2
      exact ⟨c, List.mem_of_getElem? hc, ⟨k, hs⟩, by rw [← Option.some.inj a]; exact (add_pos_of_pos_of_nonneg mpos b).ne'⟩
    · obtain ⟨c, hc, hs, i1⟩ := get (k - 1) (by omega)
      have ok := hs.ok
      have a := ok.m2
      rw [ok.i2, i1, show k - 1 + 1 = k by omega, hmk] at a
      have b := nonneg _ _ ok.m1
      exact ⟨c, List.mem_of_getElem? hc, ⟨k - 1, hs⟩, by rw [← Option.some.inj a]; exact (add_pos_of_nonneg_of_pos b mpos).ne'⟩
  obtain ⟨c, hc, ⟨j, hs⟩, hsum⟩ := key
  obtain ⟨v1, v2, e5⟩ := loopM_reach _ _ _ e4 c hc
  have spring : c.spring = 0 := by
    obtain ⟨c1, l, -, rfl⟩ := hs
    obtain ⟨a, b, e'⟩ := tuneStretch_same r.tuning c1
    have hs1 : c1.invMass1 + c1.invMass2 ≠ 0 := by rw [e'] at hsum; exact hsum
    simp only [tuneStretch, hs1, if_false, hh]; ring
  simp [stretchXpbd, spring, hsum, fdiv] at e5

end Rope
end
end B2
