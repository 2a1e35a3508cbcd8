import Verif.Spec.Draw
import Verif.Proofs.WorldQuery
import Verif.Proofs.CollideSound

/-! # Lemmas about drawing -/
set_option linter.unusedSectionVars false
namespace B2
open Spec

/-- A loop that appends to a list. -/
theorem gather {α D σ : Type} {f : List D → α → Option (List D)} {S : σ → D → Prop} {R : σ → α → Prop} :
    ∀ {l : List α}, (∀ x ∈ l, ∃ r, (∀ s, (∃ d ∈ r, S s d) ↔ R s x) ∧ ∀ acc, f acc x = some (acc ++ r)) →
      ∃ r, (∀ s, (∃ d ∈ r, S s d) ↔ ∃ x ∈ l, R s x) ∧ ∀ acc, l.foldlM f acc = some (acc ++ r)
  | [], _ => ⟨[], by simp, fun acc => by simp⟩
  | x :: l, h => by
    obtain ⟨r1, h1, h2⟩ := h x (by simp)
    obtain ⟨r2, k1, k2⟩ := gather (l := l) fun y hy => h y (by simp [hy])
    refine ⟨r1 ++ r2, fun s => ?_, fun acc => ?_⟩
    · simp only [List.mem_append, List.mem_cons]
      constructor
      · rintro ⟨d, hd | hd, hs⟩
        · exact ⟨x, .inl rfl, (h1 s).mp ⟨d, hd, hs⟩⟩
        · obtain ⟨y, hy, e⟩ := (k1 s).mp ⟨d, hd, hs⟩
          exact ⟨y, .inr hy, e⟩
      · rintro ⟨y, rfl | hy, e⟩
        · obtain ⟨d, hd, hs⟩ := (h1 s).mpr e
          exact ⟨d, .inl hd, hs⟩
        · obtain ⟨d, hd, hs⟩ := (k1 s).mpr ⟨y, hy, e⟩
          exact ⟨d, .inr hd, hs⟩
    · rw [List.foldlM_cons, h2]
      simp only [Option.bind_eq_bind, Option.bind_some]
      rw [k2, List.append_assoc]

section
variable {F : Type} [Field F] [LinearOrder F] [IsStrictOrderedRing F] [Elem F]

theorem hull_place_iff {xf : Xf F} {vs : List (Vec2 F)} {x : Vec2 F} : Hull (vs.map xf.mulV) x ↔ ∃ u, Hull vs u ∧ place xf u = x := by
  constructor
  · intro h
    induction h with
    | vertex hv =>
      obtain ⟨u, hu, rfl⟩ := List.mem_map.mp hv
      exact ⟨u, .vertex hu, rfl⟩
    | between _ _ t0 t1 ih1 ih2 =>
      obtain ⟨u, hu, rfl⟩ := ih1
      obtain ⟨v, hv, rfl⟩ := ih2
      exact ⟨_, .between hu hv t0 t1, place_onLine ..⟩
  · rintro ⟨u, hu, rfl⟩
    induction hu with
    | vertex hv => exact .vertex (List.mem_map.mpr ⟨_, hv, rfl⟩)
    | between _ _ t0 t1 ih1 ih2 =>
      rw [place_onLine]
      exact .between ih1 ih2 t0 t1

theorem drawLine_paints {xf : Xf F} {c col : Colour} {x : Vec2 F} : ∀ (l : List (Vec2 F)) (v : Vec2 F),
    (∃ d ∈ drawLine c (xf.mulV v) (l.map xf.mulV), Paints d col x) ↔ c = col ∧ ∃ i < l.length, ∃ u, Hull (((v :: l).drop i).take 2) u ∧ place xf u = x
  | [], v => by simp [drawLine]
  | a :: l, v => by
    have ih := drawLine_paints (xf := xf) (c := c) (col := col) (x := x) l a
    simp only [List.map_cons, drawLine, List.mem_cons]
    constructor
    · rintro ⟨d, rfl | hd, hp⟩
      · exact ⟨hp.1, 0, by simp, (hull_place_iff (vs := [v, a])).mp hp.2⟩
      · obtain ⟨h1, i, hi, h2⟩ := ih.mp ⟨d, hd, hp⟩
        exact ⟨h1, i + 1, by simpa using hi, by simpa using h2⟩
    · rintro ⟨h1, i, hi, h2⟩
      cases i with
      | zero => exact ⟨_, .inl rfl, h1, (hull_place_iff (vs := [v, a])).mpr h2⟩
      | succ i =>
        obtain ⟨d, hd, hp⟩ := ih.mpr ⟨h1, i, by simpa using hi, by simpa using h2⟩
        exact ⟨d, .inr hd, hp⟩

/-- A shape is drawn as it is. -/
theorem drawShape_paints {s : Shape F} {n : Nat} (hn : s.childCount = some n) (hp : ∀ p, s = .polygon p → p.verts.length ≤ maxPolygonVertices) (xf : Xf F) (c : Colour) :
    ∃ l, drawShape s xf c = some l ∧ ∀ col x, (∃ d ∈ l, Paints d col x) ↔ c = col ∧ ∃ i < n, Bare s i xf x := by
  cases s with
  | circle o =>
    cases hn
    refine ⟨_, rfl, fun col x => ?_⟩
    simp only [List.mem_singleton, exists_eq_left, Paints, Bare]
    exact ⟨fun h => ⟨h.1, 0, by decide, h.2⟩, fun ⟨h, _, _, h2⟩ => ⟨h, h2⟩⟩
  | edge e =>
    cases hn
    refine ⟨_, rfl, fun col x => ?_⟩
    have key : Hull [xf.mulV e.v1, xf.mulV e.v2] x ↔ Bare (.edge e) 0 xf x := hull_place_iff (vs := [e.v1, e.v2])
    constructor
    · rintro ⟨d, hd, hp⟩
      rcases List.mem_cons.mp hd with rfl | hd
      · exact ⟨hp.1, 0, by decide, key.mp hp.2⟩
      · split at hd
        · rcases List.mem_cons.mp hd with rfl | hd
          · exact ⟨hp.1, 0, by decide, key.mp (hp.2 ▸ .vertex (by simp))⟩
          · cases List.mem_singleton.mp hd
            exact ⟨hp.1, 0, by decide, key.mp (hp.2 ▸ .vertex (by simp))⟩
        · cases hd
    · rintro ⟨h, i, hi, h2⟩
      exact ⟨_, List.mem_cons_self .., h, key.mpr h2⟩
  | chain ch =>
    obtain ⟨r, vs, p0, p1⟩ := ch
    cases vs with
    | nil => simp [Shape.childCount, Chain.childCount] at hn
    | cons v l =>
      have hn : n = l.length := by simpa [Shape.childCount, Chain.childCount] using hn.symm
      subst hn
      exact ⟨_, rfl, fun col x => drawLine_paints l v⟩
  | polygon p =>
    cases hn
    refine ⟨_, if_pos (hp p rfl), fun col x => ?_⟩
    simp only [List.mem_singleton, exists_eq_left, Paints, Bare]
    exact ⟨fun h => ⟨h.1, 0, by decide, hull_place_iff.mp h.2⟩, fun ⟨h, _, _, h2⟩ => ⟨h, hull_place_iff.mpr h2⟩⟩

theorem looks_iff (w : World F) (b : Nat) (col : Colour) : w.bodyColour b = col ↔ Looks w b col := by
  constructor
  · rintro rfl
    unfold World.bodyColour World.typeOf World.isAwake
    split
    · rename_i h; exact .massless h.1 h.2
    · rename_i h0
      split
      · rename_i h; exact .disabled h0 h
      · rename_i h1
        have h1 : (w.g.bodies b).enabled = true := by simpa using h1
        split
        · rename_i h; exact .static h1 h
        · split
          · rename_i h; exact .kinematic h1 h
          · rename_i h2 h3
            have h4 : (w.g.bodies b).type = .dynamic := by
              rcases h : (w.g.bodies b).type with _ | _ | _ <;> simp_all
            have h5 : (w.phys b).mass ≠ 0 := fun h => h0 ⟨h4, h⟩
            split
            · rename_i h; exact .asleep h1 h4 h5 h
            · rename_i h; exact .awake h1 h4 h5 (by simpa using h)
  · intro h
    unfold World.bodyColour World.typeOf World.isAwake
    cases h <;> simp_all

theorem drawShapes_shown {w : World F} (hw : WInv w)
    (hp : ∀ b ∈ w.g.bodyList, ∀ f ∈ (w.g.bodies b).fixtures, ∀ p, (w.g.fixtures f).shape = .polygon p → p.verts.length ≤ maxPolygonVertices) :
    ∃ l, w.drawShapes = some l ∧ ShapesShown w l := by
  obtain ⟨r, h1, h2⟩ := gather (l := w.g.bodyList) (S := fun (s : Colour × Vec2 F) d => Paints d s.1 s.2)
    (R := fun s b => Looks w b s.1 ∧ ∃ f ∈ (w.g.bodies b).fixtures, ∃ n i, (w.g.fixtures f).shape.childCount = some n ∧ i < n ∧ Bare (w.g.fixtures f).shape i (w.phys b).xf s.2)
    (f := fun acc b => (w.g.bodies b).fixtures.foldlM (fun acc f => do
      let l ← drawShape (w.g.fixtures f).shape (w.phys b).xf (w.bodyColour b)
      return acc ++ l) acc) (fun b hb => by
    obtain ⟨r, k1, k2⟩ := gather (l := (w.g.bodies b).fixtures) (S := fun (s : Colour × Vec2 F) d => Paints d s.1 s.2)
      (R := fun s f => Looks w b s.1 ∧ ∃ n i, (w.g.fixtures f).shape.childCount = some n ∧ i < n ∧ Bare (w.g.fixtures f).shape i (w.phys b).xf s.2)
      (f := fun acc f => do
        let l ← drawShape (w.g.fixtures f).shape (w.phys b).xf (w.bodyColour b)
        return acc ++ l) (fun f hf => by
      have hn := hw.body.children f b hb ((hw.body.fixtures b f).mp hf).2
      obtain ⟨l, e, hl⟩ := drawShape_paints hn (hp b hb f hf) (w.phys b).xf (w.bodyColour b)
      refine ⟨l, fun s => ?_, fun acc => by rw [e]; rfl⟩
      rw [hl, looks_iff]
      constructor
      · rintro ⟨c1, i, hi, c2⟩
        exact ⟨c1, _, i, hn, hi, c2⟩
      · rintro ⟨c1, n, i, hn', hi, c2⟩
        rw [hn] at hn'; cases hn'
        exact ⟨c1, i, hi, c2⟩)
    refine ⟨r, fun s => ?_, k2⟩
    rw [k1]
    constructor
    · rintro ⟨f, hf, c1, c2⟩; exact ⟨c1, f, hf, c2⟩
    · rintro ⟨c1, f, hf, c2⟩; exact ⟨f, hf, c1, c2⟩)
  exact ⟨r, h2 [], fun col x => h1 (col, x)⟩

theorem drawBoxes_shown {w : World F} (hw : WInv w) : ∃ l, w.drawBoxes = some l ∧ BoxesShown w l := by
  obtain ⟨gh, buf, rep, pi⟩ := hw.prox
  let inner : List (DrawCall F) → ProxyS → Option (List (DrawCall F)) := fun acc p => do
    let id ← p.proxyId
    let box ← w.bp.tree.getFatAabb id
    return acc ++ [.polygon [⟨box.lo.x, box.lo.y⟩, ⟨box.hi.x, box.lo.y⟩, ⟨box.hi.x, box.hi.y⟩, ⟨box.lo.x, box.hi.y⟩] ⟨9, 3, 9⟩]
  obtain ⟨r, h1, h2⟩ := gather (l := w.g.bodyList) (S := fun (s d : DrawCall F) => d = s)
    (R := fun s b => (w.g.bodies b).enabled = true ∧ ∃ f ∈ (w.g.bodies b).fixtures, ∃ i fat, i < (w.g.fixtures f).proxies.length ∧ FatOf w (f, i) fat ∧ s = .polygon (corners fat) ⟨9, 3, 9⟩)
    (f := fun acc b => if (w.g.bodies b).enabled = false then some acc
      else (w.g.bodies b).fixtures.foldlM (fun acc f => (w.g.fixtures f).proxies.foldlM inner acc) acc) (fun b hb => by
    by_cases he : (w.g.bodies b).enabled = false
    · exact ⟨[], fun s => by simp [he], fun acc => by simp [he]⟩
    · have he' : (w.g.bodies b).enabled = true := by simpa using he
      obtain ⟨r, k1, k2⟩ := gather (l := (w.g.bodies b).fixtures) (S := fun (s d : DrawCall F) => d = s)
        (R := fun s f => ∃ i fat, i < (w.g.fixtures f).proxies.length ∧ FatOf w (f, i) fat ∧ s = .polygon (corners fat) ⟨9, 3, 9⟩)
        (f := fun acc f => (w.g.fixtures f).proxies.foldlM inner acc) (fun f hf => by
        have hb' := ((hw.body.fixtures b f).mp hf).2
        have has : ∀ i < (w.g.fixtures f).proxies.length, ∃ id p, (w.g.fixtures f).proxies[i]? = some ⟨some f, i, some id⟩ ∧ gh id = some p ∧ p.data = (f, i) :=
          fun i hi => pi.has f i ⟨b, hb, he', hb', hi⟩
        obtain ⟨r, m1, m2⟩ := gather (l := (w.g.fixtures f).proxies) (S := fun (s d : DrawCall F) => d = s)
          (R := fun s p => ∃ id fat, p.proxyId = some id ∧ w.bp.tree.getFatAabb id = some fat ∧ s = .polygon (corners fat) ⟨9, 3, 9⟩)
          (f := inner) (fun p hp => by
          obtain ⟨i, hi, rfl⟩ := List.getElem_of_mem hp
          obtain ⟨id, q, a1, a2, a3⟩ := has i hi
          have hf : FatOf w q.data q.fat := (fatOf_of pi a2).mpr rfl
          rw [a3] at hf
          obtain ⟨p', id', b1, b2, b3⟩ := hf
          dsimp only at b1
          rw [a1] at b1; cases b1; cases b2
          rw [List.getElem?_eq_getElem hi] at a1
          have a1 := Option.some.inj a1
          refine ⟨[.polygon (corners q.fat) ⟨9, 3, 9⟩], fun s => ?_, fun acc => ?_⟩
          · simp only [List.mem_singleton, exists_eq_left]
            constructor
            · rintro rfl
              exact ⟨id, q.fat, by rw [a1], b3, rfl⟩
            · rintro ⟨id', fat, c1, c2, c3⟩
              rw [a1] at c1; cases c1
              rw [b3] at c2; cases c2
              exact c3.symm
          · simp only [inner, a1, Option.bind_eq_bind, Option.bind_some, b3]
            rfl)
        refine ⟨r, fun s => ?_, m2⟩
        rw [m1]
        constructor
        · rintro ⟨p, hp, id, fat, c1, c2, c3⟩
          obtain ⟨i, hi, rfl⟩ := List.getElem_of_mem hp
          exact ⟨i, fat, hi, ⟨_, id, List.getElem?_eq_getElem hi, c1, c2⟩, c3⟩
        · rintro ⟨i, fat, hi, ⟨p, id, c1, c2, c3⟩, c4⟩
          exact ⟨p, List.mem_of_getElem? c1, id, fat, c2, c3, c4⟩)
      refine ⟨r, fun s => ?_, fun acc => by rw [if_neg he]; exact k2 acc⟩
      rw [k1]
      simp [he'])
  refine ⟨r, h2 [], fun d => ?_⟩
  have := h1 d
  simp only [exists_eq_right] at this
  rw [this]
  constructor
  · rintro ⟨b, hb, he, f, hf, i, fat, hi, c1, c2⟩
    exact ⟨(f, i), fat, (live_iff_child hw).mp ⟨b, hb, he, ((hw.body.fixtures b f).mp hf).2, hi⟩, c1, c2⟩
  · rintro ⟨c, fat, hc, c1, c2⟩
    obtain ⟨b, hb, he, hf, hi⟩ := (live_iff_child hw).mpr hc
    exact ⟨b, hb, he, c.1, (hw.body.fixtures b c.1).mpr ⟨hb, hf⟩, c.2, fat, hi, c1, c2⟩

theorem drawPairs_shown {w : World F} (hw : WInv w) : ∃ l, w.drawPairs = some l ∧ PairsShown w l := by
  have key : ∀ cs : List Nat, (∀ c ∈ cs, c ∈ w.g.contactList) → ∃ l, (∀ acc, cs.foldlM (fun acc c => do
      let k := w.g.contacts c
      let _ ← (w.g.fixtures k.fA).proxies[k.iA]?
      let _ ← (w.g.fixtures k.fB).proxies[k.iB]?
      return acc ++ [DrawCall.segment (w.paabb k.fA k.iA).center (w.paabb k.fB k.iB).center ⟨3, 9, 9⟩]) acc = some (acc ++ l)) ∧
      List.Forall₂ (fun c d => let k := w.g.contacts c
        ∃ col, d = .segment (w.paabb k.fA k.iA).center (w.paabb k.fB k.iB).center col) cs l := by
    intro cs
    induction cs with
    | nil => exact fun _ => ⟨[], fun acc => by simp, .nil⟩
    | cons c cs ih =>
      intro h
      obtain ⟨l, e, hl⟩ := ih fun c hc => h c (by simp [hc])
      obtain ⟨bA, bB, -, -, -, ⟨_, _, _, _, iA⟩, ⟨_, _, _, _, iB⟩, -⟩ := hw.ok c (h c (by simp))
      refine ⟨_ :: l, fun acc => ?_, .cons ⟨⟨3, 9, 9⟩, rfl⟩ hl⟩
      rw [List.foldlM_cons]
      simp only [List.getElem?_eq_getElem iA, List.getElem?_eq_getElem iB, Option.bind_eq_bind, Option.bind_some]
      refine Eq.trans (e _) ?_
      rw [List.append_assoc]; rfl
  obtain ⟨l, e, hl⟩ := key w.g.contactList fun _ h => h
  exact ⟨l, e [], hl⟩

theorem joint_drawn (w : World F) (k : Joint F) : match k with
    | .pulley p => Drawn (k.draw w) p.groundAnchorA (jointEnds w (.pulley p)).1 ∧ Drawn (k.draw w) p.groundAnchorB (jointEnds w (.pulley p)).2
    | k => Drawn (k.draw w) (jointEnds w k).1 (jointEnds w k).2 := by
  have link : ∀ x1 p1 p2 x2 : Vec2 F, DrawCall.segment p1 p2 ⟨5, 8, 8⟩ ∈ drawLink x1 p1 p2 x2 := fun x1 p1 p2 x2 => by simp [drawLink]
  cases k with
  | revolute j => exact ⟨⟨5, 8, 8⟩, List.mem_append_right _ (link ..)⟩
  | prismatic j => exact ⟨⟨4, 4, 4⟩, List.mem_cons_self ..⟩
  | wheel j => exact ⟨⟨4, 4, 4⟩, List.mem_cons_self ..⟩
  | distance j => exact ⟨⟨4, 4, 4⟩, List.mem_append_left _ (List.mem_cons_self ..)⟩
  | weld j => exact ⟨_, link ..⟩
  | friction j => exact ⟨_, link ..⟩
  | motor j => exact ⟨_, link ..⟩
  | gear j => exact ⟨_, link ..⟩
  | pulley j => exact ⟨⟨⟨5, 8, 8⟩, List.mem_cons_self ..⟩, ⟨⟨5, 8, 8⟩, List.mem_cons_of_mem _ (List.mem_cons_self ..)⟩⟩
  | mouse j => exact ⟨⟨8, 8, 8⟩, List.mem_cons_of_mem _ (List.mem_cons_of_mem _ (List.mem_cons_self ..))⟩

theorem drawn_mono {l l' : List (DrawCall F)} (h : ∀ d ∈ l, d ∈ l') {p q : Vec2 F} (hd : Drawn l p q) : Drawn l' p q :=
  let ⟨c, hc⟩ := hd
  ⟨c, h _ hc⟩

theorem ropeDraw_aux (colour : RopeVertex F → Colour) : ∀ (l : List (RopeVertex F)) (v : RopeVertex F), ∃ last, (v :: l).getLast? = some last ∧
    let ds : List (DrawCall F) := ((v :: l).zip l).flatMap (fun x => [.segment x.1.p x.2.p ⟨4, 5, 7⟩, .point x.1.p 5 (colour x.1)]) ++ [.point last.p 5 (colour last)]
    (∀ p q, Drawn ds p q ↔ ∃ (i : Nat) (a b : RopeVertex F), (v :: l)[i]? = some a ∧ l[i]? = some b ∧ p = a.p ∧ q = b.p) ∧
    ∀ p size col, DrawCall.point p size col ∈ ds ↔ size = 5 ∧ ∃ a ∈ v :: l, p = a.p ∧ col = colour a
  | [], v => ⟨v, rfl, fun p q => by simp [Drawn], fun p size col => by simp; tauto⟩
  | u :: l, v => by
    obtain ⟨last, e, h1, h2⟩ := ropeDraw_aux colour l u
    refine ⟨last, by rw [← e]; simp, fun p q => ?_, fun p size col => ?_⟩
    · have := h1 p q
      unfold Drawn at this ⊢
      simp only [List.zip_cons_cons, List.flatMap_cons, List.cons_append, List.nil_append, List.mem_cons, DrawCall.segment.injEq, reduceCtorEq, false_or]
      constructor
      · rintro ⟨c, ⟨rfl, rfl, -⟩ | h⟩
        · exact ⟨0, v, u, rfl, rfl, rfl, rfl⟩
        · obtain ⟨i, a, b, k1, k2, k3⟩ := this.mp ⟨c, h⟩
          exact ⟨i + 1, a, b, k1, k2, k3⟩
      · rintro ⟨i, a, b, k1, k2, k3, k4⟩
        cases i with
        | zero => cases k1; cases k2; exact ⟨_, .inl ⟨k3, k4, rfl⟩⟩
        | succ i =>
          obtain ⟨c, h⟩ := this.mpr ⟨i, a, b, k1, k2, k3, k4⟩
          exact ⟨c, .inr h⟩
    · have := h2 p size col
      simp only [List.zip_cons_cons, List.flatMap_cons, List.cons_append, List.nil_append, List.mem_cons, DrawCall.point.injEq, reduceCtorEq, false_or, exists_eq_or_imp] at this ⊢
      rw [this]
      tauto

theorem ropeDraw_shown {r : Rope F} (h : r.vertices ≠ []) : ∃ l, r.draw = some l ∧ RopeShown r l := by
  obtain ⟨v, l, e⟩ := List.exists_cons_of_ne_nil h
  obtain ⟨last, e1, h1, h2⟩ := ropeDraw_aux (fun v : RopeVertex F => if v.invMass > 0 then ⟨7, 2, 4⟩ else ⟨1, 8, 1⟩) l v
  refine ⟨_, by unfold Rope.draw; simp only [e, e1]; rfl, fun p q => ?_, fun p size col => ?_⟩
  · rw [e]; simpa using h1 p q
  · rw [e]
    refine (h2 p size col).trans (and_congr_right fun _ => exists_congr fun a => and_congr_right fun _ => and_congr_right fun _ => ?_)
    by_cases ha : 0 < a.invMass <;> simp [ha]

theorem hull_corners {a : AABB F} {x : Vec2 F} (h : InBox a x) : Hull (corners a) x := by
  obtain ⟨h1, h2, h3, h4⟩ := h
  have seg : ∀ {lo hi t : F}, lo ≤ t → t ≤ hi → ∃ s, 0 ≤ s ∧ s ≤ 1 ∧ lo + s * (hi - lo) = t := by
    intro lo hi t e1 e2
    rcases eq_or_lt_of_le (e1.trans e2) with e | e
    · exact ⟨0, le_rfl, zero_le_one, by rw [zero_mul, add_zero]; exact le_antisymm e1 (e ▸ e2)⟩
    · have hpos : 0 < hi - lo := sub_pos.mpr e
      refine ⟨(t - lo) / (hi - lo), div_nonneg (by linarith) hpos.le, (div_le_one hpos).mpr (by linarith), ?_⟩
      rw [div_mul_cancel₀ _ hpos.ne']; ring
  obtain ⟨s, s0, s1, es⟩ := seg h1 h2
  obtain ⟨t, t0, t1, et⟩ := seg h3 h4
  have bot : Hull (corners a) (onLine ⟨a.lo.x, a.lo.y⟩ ⟨a.hi.x, a.lo.y⟩ s) := .between (.vertex (by simp [corners])) (.vertex (by simp [corners])) s0 s1
  have top : Hull (corners a) (onLine ⟨a.lo.x, a.hi.y⟩ ⟨a.hi.x, a.hi.y⟩ s) := .between (.vertex (by simp [corners])) (.vertex (by simp [corners])) s0 s1
  have : x = onLine (onLine ⟨a.lo.x, a.lo.y⟩ ⟨a.hi.x, a.lo.y⟩ s) (onLine ⟨a.lo.x, a.hi.y⟩ ⟨a.hi.x, a.hi.y⟩ s) t := by
    ext <;> simp only [onLine]
    · rw [← es]; ring
    · rw [← et]; ring
  rw [this]
  exact .between bot top t0 t1

end
end B2
