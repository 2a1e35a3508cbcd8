import Verif.Spec.WorldQuery
import Verif.Props.Shapes
import Verif.Proofs.Collide
import Verif.Proofs.TreeRayCast
import Verif.Proofs.WorldSteady

/-! Queries and ray casts of a world. -/
namespace B2
set_option linter.unusedSectionVars false
open World Spec Props

section
variable {F : Type} [Field F] [LinearOrder F] [IsStrictOrderedRing F] [Elem F]
variable {env : Env F}

theorem live_iff_child {w : World F} (hw : WInv w) {c : Nat × Nat} : Live w.g c.1 c.2 ↔ Child w c := by
  constructor
  · rintro ⟨b, h1, h2, h3, h4⟩
    exact ⟨b, h1, h2, (hw.body.fixtures b c.1).mpr ⟨h1, h3⟩, _, hw.body.children _ b h1 h3, h4⟩
  · rintro ⟨b, h1, h2, h3, n, h4, h5⟩
    have hb := ((hw.body.fixtures b c.1).mp h3).2
    rw [hw.body.children _ b h1 hb] at h4
    cases h4
    exact ⟨b, h1, h2, hb, h5⟩

section
variable {gh : Nat → Option (Spec.Proxy F (Nat × Nat))} {buf : List Nat} {rep : Set (Nat × Nat)} {w : World F}

theorem childOf_of (pi : PI w.g.fixtures w.bp (Live w.g) gh buf rep) {id : Nat} {p : Spec.Proxy F (Nat × Nat)} (hp : gh id = some p) : w.childOf id = some p.data := by
  obtain ⟨peak, hh⟩ := (bhistInv pi.hist).hist
  unfold World.childOf
  rw [getUserData_of (histInv hh).inv hp]
  simp only [Option.bind_eq_bind, Option.bind_some, (pi.only id p hp).2]
  rfl

theorem fatOf_of (pi : PI w.g.fixtures w.bp (Live w.g) gh buf rep) {id : Nat} {p : Spec.Proxy F (Nat × Nat)} (hp : gh id = some p) {fat : AABB F} : FatOf w p.data fat ↔ fat = p.fat := by
  constructor
  · rintro ⟨q, i, h1, h2, h3⟩
    rw [(pi.only id p hp).2] at h1
    cases h1
    cases h2
    rw [getFat_of pi.hist hp] at h3
    exact (Option.some.inj h3).symm
  · rintro rfl
    exact ⟨_, id, (pi.only id p hp).2, rfl, getFat_of pi.hist hp⟩

/-- Different proxies stand for different children. -/
theorem data_inj (pi : PI w.g.fixtures w.bp (Live w.g) gh buf rep) {id id' : Nat} {p p' : Spec.Proxy F (Nat × Nat)} (hp : gh id = some p) (hp' : gh id' = some p') (h : p.data = p'.data) : id = id' := by
  have h1 := (pi.only id p hp).2
  rw [h, (pi.only id' p' hp').2] at h1
  cases h1
  rfl

/-- Children of a list of live proxies. -/
theorem children_list (pi : PI w.g.fixtures w.bp (Live w.g) gh buf rep) {ids : List Nat} (hn : ids.Nodup) (hl : ∀ i ∈ ids, gh i ≠ none) :
    ∃ cs : List (Nat × Nat), cs.Nodup ∧ List.Forall₂ (fun i c => ∃ p, gh i = some p ∧ p.data = c) ids cs := by
  induction ids with
  | nil => exact ⟨[], .nil, .nil⟩
  | cons i ids ih =>
    obtain ⟨hi, hn'⟩ := List.nodup_cons.mp hn
    obtain ⟨cs, h1, h2⟩ := ih hn' (fun j hj => hl j (List.mem_cons_of_mem _ hj))
    obtain ⟨p, hp⟩ := Option.ne_none_iff_exists'.mp (hl i List.mem_cons_self)
    refine ⟨p.data :: cs, List.nodup_cons.mpr ⟨fun hm => ?_, h1⟩, .cons ⟨p, hp, rfl⟩ h2⟩
    obtain ⟨j, hj, q, hq, hd⟩ : ∃ j ∈ ids, ∃ q, gh j = some q ∧ q.data = p.data := by
      clear ih hn hl h1 hn' hi
      induction h2 with
      | nil => cases hm
      | cons h _ ih =>
        rcases List.mem_cons.mp hm with hm | hm
        · obtain ⟨q, hq, hd⟩ := h
          exact ⟨_, List.mem_cons_self, q, hq, hd.trans hm.symm⟩
        · obtain ⟨j, hj, hr⟩ := ih hm
          exact ⟨j, List.mem_cons_of_mem _ hj, hr⟩
    exact hi (data_inj pi hq hp hd ▸ hj)

theorem children_mem {ids : List Nat} {cs : List (Nat × Nat)} (h : List.Forall₂ (fun i c => ∃ p, gh i = some p ∧ p.data = c) ids cs) (c : Nat × Nat) :
    c ∈ cs ↔ ∃ i ∈ ids, ∃ p, gh i = some p ∧ p.data = c := by
  induction h with
  | nil => simp
  | @cons i d ids cs h _ ih =>
    rw [List.mem_cons, ih]
    constructor
    · rintro (rfl | ⟨j, hj, hr⟩)
      · exact ⟨i, List.mem_cons_self, h⟩
      · exact ⟨j, List.mem_cons_of_mem _ hj, hr⟩
    · rintro ⟨j, hj, p, hp, rfl⟩
      rcases List.mem_cons.mp hj with rfl | hj
      · obtain ⟨q, hq, rfl⟩ := h
        rw [hp] at hq
        cases hq
        exact .inl rfl
      · exact .inr ⟨j, hj, p, hp, rfl⟩
end

/-- A query reports the children whose fat boxes meet the box, until the callback answers false. -/
theorem queryAabb_spec {w : World F} (hw : WInv w) (box : AABB F) :
    ∃ cs : List (Nat × Nat), cs.Nodup ∧ (∀ c, c ∈ cs ↔ Child w c ∧ ∃ fat, FatOf w c fat ∧ Meets fat box) ∧
      ∀ (S : Type) (cb : S → Nat → S × Bool) (s : S), w.queryAabb cb box s = some (callUntil cb s (cs.map (·.1))) := by
  obtain ⟨gh, buf, rep, pi⟩ := hw.prox
  obtain ⟨peak, hh⟩ := (bhistInv pi.hist).hist
  obtain ⟨ids, h1, h2, h3⟩ := query_spec (histInv hh).inv box
  obtain ⟨cs, k1, k2⟩ := children_list pi h1 (fun i hi => by obtain ⟨p, hp, -⟩ := (h2 i).mp hi; rw [hp]; simp)
  refine ⟨cs, k1, fun c => ?_, fun S cb s => ?_⟩
  · rw [children_mem k2]
    constructor
    · rintro ⟨i, hi, p, hp, rfl⟩
      obtain ⟨q, hq, hm⟩ := (h2 i).mp hi
      rw [hp] at hq
      cases hq
      exact ⟨(live_iff_child hw).mp (pi.only i p hp).1, p.fat, (fatOf_of pi hp).mpr rfl, hm⟩
    · rintro ⟨hc, fat, hf, hm⟩
      obtain ⟨id, p, -, a2, a3⟩ := pi.has c.1 c.2 ((live_iff_child hw).mpr hc)
      have a3 : p.data = c := a3
      rw [← a3, fatOf_of pi a2] at hf
      subst hf
      exact ⟨id, (h2 id).mpr ⟨p, a2, hm⟩, p, a2, a3⟩
  · unfold World.queryAabb
    rw [h3, Option.join_some]
    clear h1 h2 h3 k1
    induction k2 generalizing s with
    | nil => rfl
    | cons h _ ih =>
      obtain ⟨p, hp, rfl⟩ := h
      simp only [List.map_cons, callUntil, childOf_of pi hp]
      split
      · exact ih _
      · rfl

theorem bodyOf_child {w : World F} (hw : WInv w) {c : Nat × Nat} (hc : Child w c) :
    ∃ b ∈ w.g.bodyList, (w.g.fixtures c.1).body = some b ∧ w.bodyOf c.1 = some b ∧ c.1 ∈ (w.g.bodies b).fixtures := by
  obtain ⟨b, h1, -, h2, -⟩ := hc
  have := ((hw.body.fixtures b c.1).mp h2).2
  exact ⟨b, h1, this, this, h2⟩

/-- Where fat boxes cover boxes. -/
theorem covered_child {w : World F} (hw : WInv w) (h : AllCovered w) {c : Nat × Nat} (hc : Child w c) {fat box : AABB F} (hf : FatOf w c fat) (hb : BoxOf w c box) : Covers fat box := by
  obtain ⟨b, h1, h2, -, h4⟩ := bodyOf_child hw hc
  obtain ⟨b', k1, k2⟩ := hb
  rw [h2] at k1
  cases k1
  obtain ⟨p, id, a1, a2, a3⟩ := hf
  have hl := (live_iff_child hw).mpr hc
  obtain ⟨gh, buf, rep, pi⟩ := hw.prox
  obtain ⟨id', q, c1, -, -⟩ := pi.has c.1 c.2 hl
  rw [c1] at a1
  cases a1
  cases a2
  obtain ⟨fat', box', d1, d2, d3⟩ := h b h1 c.1 h4 c.2 hl id c1
  rw [a3] at d1
  rw [k2] at d2
  cases d1
  cases d2
  exact d3

/-! ### Ray casts -/
variable [ElemLaws F]

theorem inPoly_hull {p : Polygon F} (hp : ProperPolygon p) {q : Vec2 F} (h : InPoly p q) : Hull p.verts q := by
  refine hp.hull_of_below fun i hi => ?_
  have hi' : i < p.normals.length := by rw [hp.len]; exact hi
  have := h (p.verts[i], p.normals[i]) (List.mem_iff_getElem.mpr ⟨i, by simp [hi, hi'], by simp⟩)
  unfold faceHeight
  simp only [psGet, List.getD_eq_getElem?_getD, List.getElem?_eq_getElem hi, List.getElem?_eq_getElem hi', Option.getD_some, dot, Vec2.sub_x, Vec2.sub_y]
  exact this

theorem zip_ne_nil {p : Polygon F} (hp : ProperPolygon p) : p.verts.zip p.normals ≠ [] := by
  intro h
  have := congrArg List.length h
  rw [List.length_zip, hp.len, min_self, List.length_nil] at this
  have := hp.convex.1
  omega

/-- A ray cast of a shape does not panic; a hit is at a fraction between 0 and the maximum, at a point in the box of the child. -/
theorem shape_cast {s : Shape F} (hs : GoodShape s) {i n : Nat} (hn : s.childCount = some n) (hi : i < n) {xf : Xf F} (hq : IsRot xf.q) (input : RayIn F) :
    s.rayCast input xf i ≠ none ∧ ∀ out box, s.rayCast input xf i = some (some out) → s.computeAabb xf i = some box →
      0 ≤ out.fraction ∧ out.fraction ≤ input.maxFraction ∧ InBox box (onLine input.p1 input.p2 out.fraction) := by
  have seg : ∀ (a b x : Vec2 F) t, 0 ≤ t → t ≤ 1 → x = onLine (place xf a) (place xf b) t → ∃ q, Hull [a, b] q ∧ place xf q = x := by
    intro a b x t h0 h1 hx
    refine ⟨onLine a b t, ?_, ?_⟩
    · have := hull_mix2 (vs := [a, b]) (p := a) (q := b) (a := 1 - t) (b := t) (.vertex (by simp)) (.vertex (by simp)) (by linarith) h0 (by ring)
      convert this using 1
      simp only [onLine, Vec2.ext_iff, Vec2.add_x, Vec2.add_y, Vec2.smul_x, Vec2.smul_y]
      constructor <;> ring
    · rw [hx]
      simp only [onLine, place, Vec2.mk.injEq]
      constructor <;> ring
  cases s with
  | circle c =>
    refine ⟨by simp [Shape.rayCast], fun out box h hb => ?_⟩
    have h' := c51_sound c xf input out (Option.some.inj h)
    refine ⟨h'.1, h'.2.1, c49_contains (.circle c) i n xf box hs hn hi hb _ ⟨c.p, .vertex (by simp [childPoints]), ?_⟩⟩
    have := h'.2.2.1
    rw [show dist2 (place xf c.p) (onLine input.p1 input.p2 out.fraction) = dist2 (onLine input.p1 input.p2 out.fraction) (place xf c.p) from by simp only [dist2]; ring, this]
    exact le_refl _
  | edge e =>
    refine ⟨by simp [Shape.rayCast], fun out box h hb => ?_⟩
    obtain ⟨h1, h2, ⟨t, h3, h4, h5⟩, -⟩ := c52_sound e xf hq input out (Option.some.inj h)
    obtain ⟨q, k1, k2⟩ := seg _ _ _ t h3 h4 h5
    refine ⟨h1, h2, c49_contains (.edge e) i n xf box hs hn hi hb _ ⟨q, k1, ?_⟩⟩
    rw [k2]
    simp only [dist2, sub_self, mul_zero, add_zero]
    exact mul_self_nonneg _
  | polygon p =>
    refine ⟨?_, fun out box h hb => ?_⟩
    · rcases poly_rayCast_cases p xf hq input (zip_ne_nil hs.1) with ⟨m, f, h, -⟩ | ⟨h, -⟩ <;> simp [Shape.rayCast, h]
    · rcases poly_rayCast_cases p xf hq input (zip_ne_nil hs.1) with ⟨m, f, h', h1, h2, ⟨l, h3, h4⟩, -⟩ | ⟨h', -⟩
      · simp only [Shape.rayCast, h', Option.some.injEq] at h
        subst h
        refine ⟨by linarith, h2, c49_contains (.polygon p) i n xf box hs.2 hn hi hb _ ⟨l, inPoly_hull hs.1 h3, ?_⟩⟩
        rw [h4]
        simp only [dist2, sub_self, mul_zero, add_zero]
        exact mul_self_nonneg _
      · simp only [Shape.rayCast, h'] at h
        cases h
  | chain c =>
    have hl : i + 1 < c.vertices.length := by
      simp only [Shape.childCount, Chain.childCount] at hn
      split at hn
      · cases hn
      · cases hn; omega
    obtain ⟨a, b, e1, e2⟩ := chain_ends hl
    refine ⟨by simp [Shape.rayCast, Chain.rayCast, e1], fun out box h hb => ?_⟩
    simp only [Shape.rayCast, Chain.rayCast, e1, Option.bind_eq_bind, Option.bind_some, Option.pure_def, Option.some.injEq] at h
    obtain ⟨h1, h2, ⟨t, h3, h4, h5⟩, -⟩ := c52_sound _ xf hq input out h
    obtain ⟨q, k1, k2⟩ := seg _ _ _ t h3 h4 h5
    refine ⟨h1, h2, c49_contains (.chain c) i n xf box hs hn hi hb _ ⟨q, by rw [childPoints, e2]; exact k1, ?_⟩⟩
    rw [k2]
    simp only [dist2, sub_self, mul_zero, add_zero]
    exact mul_self_nonneg _

/-- The box of a child is not empty. -/
theorem box_valid {s : Shape F} (hs : GoodShape s) {i n : Nat} (hn : s.childCount = some n) (hi : i < n) {xf : Xf F} {box : AABB F} (hb : s.computeAabb xf i = some box) : Valid box := by
  have key : ∀ (hr : 0 ≤ skin s) (v : Vec2 F), v ∈ childPoints s i → Valid box := by
    intro hr v hv
    have := c49_contains s i n xf box hr hn hi hb (place xf v) ⟨v, .vertex hv, by simp only [dist2, sub_self, mul_zero, add_zero]; exact mul_self_nonneg _⟩
    exact ⟨this.1.trans this.2.1, this.2.2.1.trans this.2.2.2⟩
  cases s with
  | circle c => exact key hs c.p (by simp [childPoints])
  | edge e => exact key hs e.v1 (by simp [childPoints])
  | polygon p =>
    obtain ⟨v, hv⟩ := List.exists_mem_of_ne_nil p.verts (fun h => zip_ne_nil hs.1 (by rw [h]; rfl))
    exact key hs.2 v hv
  | chain c =>
    have hl : i + 1 < c.vertices.length := by
      simp only [Shape.childCount, Chain.childCount] at hn
      split at hn
      · cases hn
      · cases hn; omega
    obtain ⟨a, b, e1, e2⟩ := chain_ends hl
    exact key hs a (by rw [childPoints, e2]; simp)

/-- A ray cast, where fat boxes cover boxes. -/
theorem rayCast_world {w : World F} (hw : WInv w) (hcov : AllCovered w) (hrot : ∀ b ∈ w.g.bodyList, IsRot (w.phys b).xf.q) (hgood : ∀ c, Child w c → GoodShape (w.g.fixtures c.1).shape) :
    ∃ cs : List (Nat × Nat), cs.Nodup ∧ (∀ c, c ∈ cs ↔ Child w c) ∧
      ∀ (S : Type) (cb : S → Nat → Vec2 F → Vec2 F → F → S × F) (p1 p2 : Vec2 F) (s : S), p1 ≠ p2 → w.rayCast cb p1 p2 s = some (castHits w cb p1 p2 1 s cs) := by
  obtain ⟨gh, buf, rep, pi⟩ := hw.prox
  obtain ⟨peak, hh⟩ := (bhistInv pi.hist).hist
  have hch : ∀ i p, gh i = some p → Child w p.data := fun i p hp => (live_iff_child hw).mp (pi.only i p hp).1
  -- what is known about the child of a proxy
  have facts : ∀ i p, gh i = some p → ∃ b box, (w.g.fixtures p.data.1).body = some b ∧ w.bodyOf p.data.1 = some b ∧ IsRot (w.phys b).xf.q ∧
      (w.g.fixtures p.data.1).shape.computeAabb (w.phys b).xf p.data.2 = some box ∧ Covers p.fat box ∧ Valid box := by
    intro i p hp
    have hc := hch i p hp
    obtain ⟨b, h1, h2, h3, h4⟩ := bodyOf_child hw hc
    obtain ⟨_, _, _, _, n, hn, hi⟩ := hc
    obtain ⟨box, hb⟩ := c49_total _ p.data.2 n (w.phys b).xf hn hi
    exact ⟨b, box, h2, h3, hrot b h1, hb, covered_child hw hcov (hch i p hp) ((fatOf_of pi hp).mpr rfl) ⟨b, h2, hb⟩, box_valid (hgood _ (hch i p hp)) hn hi hb⟩
  have hval : ∀ i p, gh i = some p → Valid p.fat := by
    intro i p hp
    obtain ⟨b, box, -, -, -, -, h, v⟩ := facts i p hp
    exact ⟨h.1.trans (v.1.trans h.2.2.1), h.2.1.trans (v.2.trans h.2.2.2)⟩
  obtain ⟨ids, h1, h2, h3⟩ := rayCast_spec (histInv hh).inv hval
  obtain ⟨cs, k1, k2⟩ := children_list pi h1 (fun i hi => (h2 i).mp hi)
  refine ⟨cs, k1, fun c => ?_, fun S cb p1 p2 s hne => ?_⟩
  · rw [children_mem k2]
    constructor
    · rintro ⟨i, hi, p, hp, rfl⟩
      exact hch i p hp
    · intro hc
      obtain ⟨id, p, -, a2, a3⟩ := pi.has c.1 c.2 ((live_iff_child hw).mpr hc)
      exact ⟨id, (h2 id).mpr (by rw [a2]; simp), p, a2, a3⟩
  · unfold World.rayCast
    rw [h3 _ _ _ _ hne]
    simp only [Option.bind_eq_bind, Option.bind_some]
    clear h1 h2 h3 k1
    have key : ∀ f : F, 0 < f → ∀ s : S, castOver (fun (s : Option S) input id =>
        match s, (w.childOf id).bind fun c => (w.fixtureRayCast c.1 input c.2).map fun hit => (c.1, hit) with
        | some s, some (f, some out) =>
          let point := (1 - out.fraction) * input.p1 + out.fraction * input.p2
          let r := cb s f point out.normal out.fraction
          (some r.1, r.2)
        | some s, some (_, none) => (some s, input.maxFraction)
        | _, _ => (none, 0)) p1 p2 (fun i => (gh i).map (·.fat)) f (some s) ids = some (castHits w cb p1 p2 f s cs) := by
      induction k2 with
      | nil => intro f _ s; rfl
      | @cons i c ids cs h _ ih =>
        intro f hf s
        obtain ⟨p, hp, rfl⟩ := h
        obtain ⟨b, box, e1, e2, hq, hb, hc, hv⟩ := facts i p hp
        obtain ⟨_, _, _, _, n, hn, hi⟩ := hch i p hp
        obtain ⟨c1, c2⟩ := shape_cast (hgood _ (hch i p hp)) hn hi hq ⟨p1, p2, f⟩
        obtain ⟨hit, ehit⟩ := Option.ne_none_iff_exists'.mp c1
        have hfr : w.fixtureRayCast p.data.1 ⟨p1, p2, f⟩ p.data.2 = some hit := by
          unfold World.fixtureRayCast
          rw [e2]
          exact ehit
        have hst : ∀ out, Struck w p1 p2 f p.data out ↔ hit = some out := by
          intro out
          constructor
          · rintro ⟨b', a1, a2⟩
            rw [e1] at a1
            cases a1
            rw [ehit] at a2
            exact Option.some.inj a2
          · rintro rfl
            exact ⟨b, e1, ehit⟩
        rw [castOver, castHits]
        cases hit with
        | none =>
          rw [dif_neg (by rintro ⟨out, ho⟩; cases (hst out).mp ho)]
          split
          · simp only [childOf_of pi hp, Option.bind_some, hfr, Option.map_some]
            rw [if_neg hf.ne', if_pos hf]
            exact ih f hf s
          · exact ih f hf s
        | some out =>
          obtain ⟨g1, g2, g3⟩ := c2 out box ehit hb
          have hex : ∃ out, Struck w p1 p2 f p.data out := ⟨out, (hst out).mpr rfl⟩
          have hco : hex.choose = out := (Option.some.inj ((hst _).mp hex.choose_spec)).symm
          rw [dif_pos hex, if_pos]
          · simp only [childOf_of pi hp, Option.bind_some, hfr, Option.map_some, hco]
            have hpt : (1 - out.fraction) * p1 + out.fraction * p2 = onLine p1 p2 out.fraction := by
              simp only [onLine, Vec2.ext_iff, Vec2.add_x, Vec2.add_y, Vec2.smul_x, Vec2.smul_y]
              constructor <;> ring
            rw [hpt]
            split
            · rfl
            · split
              · rename_i hr
                exact ih _ hr _
              · exact ih f hf _
          · refine ⟨p.fat, by rw [hp]; rfl, out.fraction / f, div_nonneg g1 hf.le, (div_le_one hf).mpr g2, ?_⟩
            have hol : onLine p1 (onLine p1 p2 f) (out.fraction / f) = onLine p1 p2 out.fraction := by
              simp only [onLine, Vec2.mk.injEq]
              constructor <;> field_simp <;> ring
            rw [hol]
            exact ⟨hc.1.trans g3.1, g3.2.1.trans hc.2.2.1, hc.2.1.trans g3.2.2.1, g3.2.2.2.trans hc.2.2.2⟩
    exact key 1 one_pos s

theorem polyCastStep_index {p1 d v n : Vec2 F} {a b a' b' : PolyCast F} (h1 : a.lower = b.lower) (h2 : a.index = b.index)
    (ea : polyCastStep p1 d a v n = some a') (eb : polyCastStep p1 d b v n = some b') : a'.lower = b'.lower ∧ a'.index = b'.index := by
  obtain ⟨la, ua, ia⟩ := a
  obtain ⟨lb, ub, ib⟩ := b
  simp only at h1 h2
  subst h1 h2
  unfold polyCastStep at ea eb
  simp only at ea eb
  split at ea <;> split at eb <;> try contradiction
  all_goals (repeat' split at ea) <;> (repeat' split at eb) <;> simp_all
  all_goals
    obtain ⟨-, rfl⟩ := ea
    obtain ⟨-, rfl⟩ := eb
    exact ⟨rfl, rfl⟩

theorem polyCastLoop_index (p1 d : Vec2 F) : ∀ (l : List (Vec2 F × Vec2 F)) {a b a' b' : PolyCast F}, a.lower = b.lower → a.index = b.index →
    polyCastLoop p1 d l a = some a' → polyCastLoop p1 d l b = some b' → a'.lower = b'.lower ∧ a'.index = b'.index
  | [], a, b, a', b', h1, h2, ea, eb => by cases ea; cases eb; exact ⟨h1, h2⟩
  | vn :: l, a, b, a', b', h1, h2, ea, eb => by
    simp only [polyCastLoop, Option.bind_eq_some_iff] at ea eb
    obtain ⟨a1, ea1, ea⟩ := ea
    obtain ⟨b1, eb1, eb⟩ := eb
    obtain ⟨k1, k2⟩ := polyCastStep_index h1 h2 ea1 eb1
    exact polyCastLoop_index p1 d l k1 k2 ea eb

/-- The two ends of a ray that hits a polygon decide where it hits. -/
theorem poly_cast_same {p : Polygon F} {xf : Xf F} {p1 p2 : Vec2 F} {f g : F} {o o' : RayOut F} (h : p.rayCast ⟨p1, p2, f⟩ xf = some (some o))
    (h' : p.rayCast ⟨p1, p2, g⟩ xf = some (some o')) : o = o' := by
  unfold Polygon.rayCast at h h'
  dsimp only at h h'
  split at h
  · cases h
  rename_i st hst
  split at h'
  · cases h'
  rename_i st' hst'
  obtain ⟨k1, k2⟩ := polyCastLoop_index _ _ _ (a := ⟨32 / 1000, f, none⟩) (b := ⟨32 / 1000, g, none⟩) rfl rfl hst hst'
  split at h
  · split at h'
    · rw [k1, k2] at h
      split at h
      · rename_i n hn
        rw [hn] at h'
        cases h
        cases h'
        rfl
      · cases h
    · cases h'
  · cases h

/-- Shortening or lengthening the ray keeps a hit that is within it. -/
theorem shape_cast_shorten {s : Shape F} (hs : GoodShape s) {i n : Nat} (hn : s.childCount = some n) (hi : i < n) {xf : Xf F} (hq : IsRot xf.q) {p1 p2 : Vec2 F} {f g : F} {out : RayOut F}
    (h : s.rayCast ⟨p1, p2, f⟩ xf i = some (some out)) (hrg : out.fraction ≤ g) : s.rayCast ⟨p1, p2, g⟩ xf i = some (some out) := by
  have edge : ∀ e : Edge F, e.rayCast ⟨p1, p2, f⟩ xf = some out → e.rayCast ⟨p1, p2, g⟩ xf = some out := by
    intro e h
    unfold Edge.rayCast at h ⊢
    dsimp only at h ⊢
    split at h
    · cases h
    rename_i h1
    split at h
    · cases h
    rename_i h2
    split at h
    · cases h
    rename_i h3
    split at h
    · cases h
    rename_i h4
    split at h
    · cases h
    rename_i h5
    cases h
    dsimp only at hrg
    rw [if_neg h1, if_neg h2, if_neg (not_or.mpr ⟨(not_or.mp h3).1, not_lt.mpr hrg⟩), if_neg h4, if_neg h5]
  cases s with
  | circle c =>
    simp only [Shape.rayCast, Option.some.injEq] at h ⊢
    unfold Circle.rayCast at h ⊢
    dsimp only at h ⊢
    split at h
    · cases h
    rename_i h1
    split at h
    · rename_i h2
      cases h
      dsimp only at hrg
      have hrr : 0 < dot (p2 - p1) (p2 - p1) := lt_of_lt_of_le (by unfold epsilon; positivity) (not_lt.mp (not_or.mp h1).2)
      rw [if_neg h1, if_pos ⟨h2.1, (div_le_iff₀ hrr).mp hrg⟩]
    · cases h
  | edge e => exact congrArg some (edge e (Option.some.inj h))
  | polygon p =>
    simp only [Shape.rayCast] at h ⊢
    rcases poly_rayCast_cases p xf hq ⟨p1, p2, f⟩ (zip_ne_nil hs.1) with ⟨m, t, h', h1, h2, h3, h4, -⟩ | ⟨h', -⟩
    · rw [h'] at h
      cases h
      rcases poly_rayCast_cases p xf hq ⟨p1, p2, g⟩ (zip_ne_nil hs.1) with ⟨m', t', k', -⟩ | ⟨k', hk⟩
      · rw [k', poly_cast_same h' k']
      · rcases hk with hk | hk
        · exact absurd hk (h4 _ (le_refl _) h1)
        · exact absurd h3 (hk t h1.le hrg)
    · rw [h'] at h; cases h
  | chain c =>
    have hl : i + 1 < c.vertices.length := by
      simp only [Shape.childCount, Chain.childCount] at hn
      split at hn
      · cases hn
      · cases hn; omega
    obtain ⟨a, b, e1, e2⟩ := chain_ends hl
    simp only [Shape.rayCast, Chain.rayCast, e1, Option.bind_eq_bind, Option.bind_some, Option.pure_def, Option.some.injEq] at h ⊢
    exact edge _ h

theorem struck_shorten {w : World F} (hw : WInv w) (hrot : ∀ b ∈ w.g.bodyList, IsRot (w.phys b).xf.q) (hgood : ∀ c, Child w c → GoodShape (w.g.fixtures c.1).shape) {c : Nat × Nat} (hc : Child w c)
    {p1 p2 : Vec2 F} {f g : F} {out : RayOut F} (h : Struck w p1 p2 f c out) (hg : out.fraction ≤ g) : Struck w p1 p2 g c out := by
  obtain ⟨b, h1, h2, -, -⟩ := bodyOf_child hw hc
  obtain ⟨b', h3, h4⟩ := h
  rw [h2] at h3
  cases h3
  obtain ⟨_, _, _, _, n, hn, hi⟩ := hc
  exact ⟨b, h2, shape_cast_shorten (hgood c ⟨_, ‹_›, ‹_›, ‹_›, n, hn, hi⟩) hn hi (hrot b h1) h4 hg⟩

theorem struck_range {w : World F} (hw : WInv w) (hrot : ∀ b ∈ w.g.bodyList, IsRot (w.phys b).xf.q) (hgood : ∀ c, Child w c → GoodShape (w.g.fixtures c.1).shape) {c : Nat × Nat} (hc : Child w c)
    {p1 p2 : Vec2 F} {f : F} {out : RayOut F} (h : Struck w p1 p2 f c out) : 0 ≤ out.fraction ∧ out.fraction ≤ f := by
  obtain ⟨b, h1, h2, -, -⟩ := bodyOf_child hw hc
  obtain ⟨b', h3, h4⟩ := h
  rw [h2] at h3
  cases h3
  obtain ⟨_, _, _, _, n, hn, hi⟩ := hc
  obtain ⟨box, hb⟩ := c49_total _ c.2 n (w.phys b).xf hn hi
  have := (shape_cast (hgood c ⟨_, ‹_›, ‹_›, ‹_›, n, hn, hi⟩) hn hi (hrot b h1) ⟨p1, p2, f⟩).2 out box h4 hb
  exact ⟨this.1, this.2.1⟩

theorem struck_unique {w : World F} {p1 p2 : Vec2 F} {f : F} {c : Nat × Nat} {out out' : RayOut F} (h : Struck w p1 p2 f c out) (h' : Struck w p1 p2 f c out') : out = out' := by
  obtain ⟨b, h1, h2⟩ := h
  obtain ⟨b', h3, h4⟩ := h'
  rw [h1] at h3
  cases h3
  rw [h2] at h4
  exact Option.some.inj (Option.some.inj h4)

/-- A callback that never shortens the ray is told of every hit. -/
theorem castHits_all {w : World F} {p1 p2 : Vec2 F} (cs : List (Nat × Nat)) (hn : cs.Nodup) :
    ∃ hits : List ((Nat × Nat) × RayOut F), (hits.map (·.1)).Nodup ∧ (∀ h, h ∈ hits ↔ h.1 ∈ cs ∧ Struck w p1 p2 1 h.1 h.2) ∧
      ∀ (S : Type) (cb : S → Nat → Vec2 F → Vec2 F → F → S × F) (s : S), (∀ s f p n r, (cb s f p n r).2 = 1 ∨ (cb s f p n r).2 < 0) →
        castHits w cb p1 p2 1 s cs = hits.foldl (fun s h => (cb s h.1.1 (onLine p1 p2 h.2.fraction) h.2.normal h.2.fraction).1) s := by
  induction cs with
  | nil => exact ⟨[], .nil, by simp, fun _ _ _ _ => rfl⟩
  | cons c cs ih =>
    obtain ⟨hc, hn'⟩ := List.nodup_cons.mp hn
    obtain ⟨hits, h1, h2, h3⟩ := ih hn'
    by_cases hs : ∃ out, Struck w p1 p2 1 c out
    · refine ⟨(c, hs.choose) :: hits, ?_, ?_, ?_⟩
      · rw [List.map_cons, List.nodup_cons]
        refine ⟨fun hm => ?_, h1⟩
        obtain ⟨h, hm, he⟩ := List.mem_map.mp hm
        have := ((h2 h).mp hm).1
        rw [he] at this
        exact hc this
      · intro h
        rw [List.mem_cons, h2, List.mem_cons]
        constructor
        · rintro (rfl | ⟨k1, k2⟩)
          · exact ⟨.inl rfl, hs.choose_spec⟩
          · exact ⟨.inr k1, k2⟩
        · rintro ⟨k1 | k1, k2⟩
          · left
            obtain ⟨c', o⟩ := h
            simp only at k1 k2
            subst k1
            rw [struck_unique k2 hs.choose_spec]
          · exact .inr ⟨k1, k2⟩
      · intro S cb s hcb
        rw [castHits, dif_pos hs, List.foldl_cons, ← h3 S cb _ hcb]
        dsimp only
        rcases hcb s c.1 (onLine p1 p2 hs.choose.fraction) hs.choose.normal hs.choose.fraction with hr | hr
        · rw [hr, if_neg one_ne_zero, if_pos one_pos]
        · rw [if_neg hr.ne, if_neg (not_lt.mpr hr.le)]
    · refine ⟨hits, h1, fun h => ?_, fun S cb s hcb => ?_⟩
      · rw [h2, List.mem_cons]
        constructor
        · exact fun ⟨k1, k2⟩ => ⟨.inr k1, k2⟩
        · rintro ⟨k1 | k1, k2⟩
          · exact absurd ⟨h.2, k1 ▸ k2⟩ hs
          · exact ⟨k1, k2⟩
      · rw [castHits, dif_neg hs]
        exact h3 S cb s hcb

/-- A hit, as a callback is told of it. -/
abbrev Told (F : Type) := Nat × Vec2 F × Vec2 F × F

/-- A callback that shortens the ray to each hit ends with a nearest hit. -/
theorem castHits_closest {w : World F} {p1 p2 : Vec2 F} (hsh : ∀ c f g out, Child w c → Struck w p1 p2 f c out → out.fraction ≤ g → Struck w p1 p2 g c out)
    (hra : ∀ c f out, Child w c → Struck w p1 p2 f c out → 0 ≤ out.fraction ∧ out.fraction ≤ f) (cs : List (Nat × Nat)) (hcs : ∀ c ∈ cs, Child w c) : ∀ (f : F) (s : Option (Told F)),
    let r := castHits w (fun _ f p n r => (some (f, p, n, r), r)) p1 p2 f s cs
    (r = s ∧ ∀ c ∈ cs, ∀ out, ¬ Struck w p1 p2 f c out) ∨
    ∃ c ∈ cs, ∃ out, Struck w p1 p2 f c out ∧ r = some (c.1, onLine p1 p2 out.fraction, out.normal, out.fraction) ∧ ∀ c' ∈ cs, ∀ out', Struck w p1 p2 f c' out' → out.fraction ≤ out'.fraction := by
  induction cs with
  | nil => intro f s; exact .inl ⟨rfl, by simp⟩
  | cons c cs ih =>
    intro f s
    have ih := ih (fun c hc => hcs c (List.mem_cons_of_mem _ hc))
    have hc := hcs c List.mem_cons_self
    by_cases hs : ∃ out, Struck w p1 p2 f c out
    · right
      have h0 := hra c f _ hc hs.choose_spec
      rw [castHits, dif_pos hs]
      dsimp only
      by_cases hz : hs.choose.fraction = 0
      · rw [if_pos hz]
        refine ⟨c, List.mem_cons_self, _, hs.choose_spec, rfl, fun c' hc' out' h' => ?_⟩
        rw [hz]
        exact (hra c' f out' (hcs c' hc') h').1
      · rw [if_neg hz, if_pos (lt_of_le_of_ne h0.1 (Ne.symm hz))]
        rcases ih hs.choose.fraction (some (c.1, onLine p1 p2 hs.choose.fraction, hs.choose.normal, hs.choose.fraction)) with ⟨k1, k2⟩ | ⟨d, hd, out, k1, k2, k3⟩
        · refine ⟨c, List.mem_cons_self, _, hs.choose_spec, k1, fun c' hc' out' h' => ?_⟩
          rcases List.mem_cons.mp hc' with rfl | hc'
          · exact le_of_eq (congrArg _ (struck_unique hs.choose_spec h'))
          · by_contra hlt
            exact k2 c' hc' out' (hsh c' f _ out' (hcs c' (List.mem_cons_of_mem _ hc')) h' (not_le.mp hlt).le)
        · have hdc := hcs d (List.mem_cons_of_mem _ hd)
          have hle := (hra d _ out hdc k1).2
          refine ⟨d, List.mem_cons_of_mem _ hd, out, hsh d _ f out hdc k1 (hle.trans h0.2), k2, fun c' hc' out' h' => ?_⟩
          rcases List.mem_cons.mp hc' with rfl | hc'
          · rw [← struck_unique hs.choose_spec h']; exact hle
          · by_contra hlt
            exact hlt (k3 c' hc' out' (hsh c' f _ out' (hcs c' (List.mem_cons_of_mem _ hc')) h' ((not_le.mp hlt).le.trans hle)))
    · rw [castHits, dif_neg hs]
      rcases ih f s with ⟨k1, k2⟩ | ⟨d, hd, out, k1, k2, k3⟩
      · left
        refine ⟨k1, fun c' hc' out' h' => ?_⟩
        rcases List.mem_cons.mp hc' with rfl | hc'
        · exact hs ⟨out', h'⟩
        · exact k2 c' hc' out' h'
      · right
        refine ⟨d, List.mem_cons_of_mem _ hd, out, k1, k2, fun c' hc' out' h' => ?_⟩
        rcases List.mem_cons.mp hc' with rfl | hc'
        · exact absurd ⟨out', h'⟩ hs
        · exact k3 c' hc' out' h'

end
end B2
