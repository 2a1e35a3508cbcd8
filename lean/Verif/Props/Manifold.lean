import Verif.Proofs.CollideEdgePoly
import Verif.Props.Collide
import Verif.Model.World

/-!
# Contact manifolds: what holds for every pair of shapes
-/
namespace B2.Props
open B2 B2.Spec
set_option linter.unusedSectionVars false
section
variable {F : Type} [Field F] [LinearOrder F] [IsStrictOrderedRing F] [Elem F] [ElemLaws F]

theorem sound_edge (e : Edge F) (b : Shape F) (i : Nat) (xfA xfB : Xf F) (hpair : ContactPair (.edge e) b)
    (ha : ProperShape (.edge e) i) (hb : ProperShape b 0) (rA : IsRot xfA.q) (rB : IsRot xfB.q) (hr : InRange b 0) :
    ∃ m, evaluateShapes (.edge e) i xfA b xfB = some m ∧ Spec.Manifold.Sound (.edge e) i xfA b xfB m := by
  obtain ⟨he, hl⟩ := ha
  match b, hpair, hb, hr with
  | .circle b, _, hb, _ =>
    have hb' : 0 ≤ b.radius := hb
    obtain ⟨m, hm, h⟩ := edgeCircle_spec e xfA b xfB
    refine ⟨m, hm, ?_⟩
    rcases h with ⟨h, -⟩ | ⟨-, -, -, x, hx, hd, hmin, ⟨h1, h2, cf, h3⟩ | ⟨h1, h2, ⟨cf, h3⟩, -, h4⟩⟩
    · exact ⟨by rw [h]; simp, fun _ h' => absurd h h', fun _ h' => absurd h h', fun _ h' => absurd h h'⟩
    · refine ⟨by rw [h3]; simp, fun _ _ => ⟨by rw [h3]; rfl, by rw [h2]; exact hx, ?_⟩, ?_, ?_⟩
      · intro p hp
        rw [h3, List.mem_singleton] at hp
        subst hp
        refine ⟨.vertex (by simp [childPoints, ManifoldPoint.at']), ?_⟩
        simp only [ManifoldPoint.at', h2, skin]
        rw [dist2_unplace rA, dist2_comm]; exact hd
      · intro h; rw [h1] at h; cases h
      · intro h; rw [h1] at h; cases h
    · obtain ⟨n1, n2, n3, n4⟩ := h4 hl
      refine ⟨by rw [h3]; simp, ?_, fun _ _ => ⟨n1, ?_, ?_, ?_, ?_⟩, ?_⟩
      · intro h; rw [h1] at h; cases h
      · rw [h2]; exact .vertex (by simp [childPoints])
      · intro x hx
        obtain ⟨t, -, -, rfl⟩ := hull_pair hx
        have : dot m.localNormal (onLine e.v1 e.v2 t - e.v1) = t * dot (e.v2 - e.v1) m.localNormal := by
          simp only [dot, onLine, Vec2.sub_x, Vec2.sub_y]; ring
        rw [h2, this, n2, mul_zero]
      · intro p hp
        rw [h3, List.mem_singleton] at hp
        subst hp
        exact .vertex (by simp [childPoints, ManifoldPoint.at'])
      · intro p hp q hq
        rw [h3, List.mem_singleton] at hp
        subst hp
        simp only [ManifoldPoint.at'] at hq
        have hqu : unplace xfA (place xfB b.p) = q := by rw [← hq, unplace_place rA]
        rw [hqu] at n3 n4 hd
        have hdot : dot m.localNormal (q - m.localPoint) = dot (q - e.v1) m.localNormal := by
          rw [h2]; simp only [dot]; ring
        rw [hdot]
        have hdd : dist2 q x = dot (q - e.v1) m.localNormal * dot (q - e.v1) m.localNormal := by
          have : q - x = dot (q - e.v1) m.localNormal * m.localNormal := by
            ext
            · have := congrArg Vec2.x n4; simp only [Vec2.add_x, Vec2.smul_x] at this; simp only [Vec2.sub_x, Vec2.smul_x]; linarith
            · have := congrArg Vec2.y n4; simp only [Vec2.add_y, Vec2.smul_y] at this; simp only [Vec2.sub_y, Vec2.smul_y]; linarith
          rw [← sub_dist2]
          generalize dot (q - e.v1) m.localNormal = D at this ⊢
          rw [this]
          have : dot (D * m.localNormal) (D * m.localNormal) = D * D * dot m.localNormal m.localNormal := by
            simp only [dot, Vec2.smul_x, Vec2.smul_y]; ring
          rw [this, n1, mul_one]
        rw [hdd] at hd
        have hr0 : 0 ≤ e.radius + b.radius := by linarith
        simp only [skin]
        by_contra hc
        push Not at hc
        exact absurd (mul_self_lt_mul_self hr0 hc) (not_lt.mpr hd)
      · intro h; rw [h1] at h; cases h
  | .polygon b, _, ⟨hb0, hb⟩, hr =>
    obtain ⟨m, hm, h1, h2, h3, h4⟩ := collideEdgePolygon_sound he hb0 hl hb rA rB hr
    exact ⟨m, hm, h1, fun h h' => absurd (h2 h) h', h3, h4⟩

/-- **C79**: no contact evaluation panics, and each gives a manifold fit for the solver: at most two points, which are
points of the incident shape at most the sum of the radii in front of the reference face; a unit normal that leads out of
the reference shape; in a manifold of circles one pair of points that are at most the sum of the radii apart. -/
theorem c79_sound (a b : Shape F) (i : Nat) (xfA xfB : Xf F) (hpair : ContactPair a b) (ha : ProperShape a i) (hb : ProperShape b 0)
    (rA : IsRot xfA.q) (rB : IsRot xfB.q) (hr : InRange b 0) :
    ∃ m, evaluateShapes a i xfA b xfB = some m ∧ Spec.Manifold.Sound a i xfA b xfB m := by
  match a, b, hpair, ha, hb, hr with
  | .circle a, .circle b, _, ha, hb, _ =>
    refine ⟨_, rfl, ?_⟩
    simp only [collideCircles]
    split
    · exact sound_default _ _ _ _ _
    · rename_i h
      refine ⟨by simp, fun _ _ => ⟨rfl, .vertex (by simp [childPoints]), ?_⟩, fun h => (by cases h), fun h => (by cases h)⟩
      intro p hp
      rw [List.mem_singleton] at hp
      subst hp
      refine ⟨.vertex (by simp [childPoints, ManifoldPoint.at']), ?_⟩
      rw [sub_dist2, dist2_comm] at h
      exact not_lt.mp h
  | .polygon a, .circle b, _, ⟨ha0, ha⟩, hb, _ =>
    have hb' : 0 ≤ b.radius := hb
    refine ⟨_, rfl, ?_⟩
    rcases polyCircle_spec ha (b := b) (xfA := xfA) (xfB := xfB) (by linarith) with ⟨h, -⟩ | ⟨n, q, h, ⟨hn, hq, hbe⟩, hc⟩
    · exact ⟨by rw [h]; simp, fun _ h' => absurd h h', fun _ h' => absurd h h', fun _ h' => absurd h h'⟩
    · rw [h]
      refine ⟨by simp [faceCircle], fun h => (by cases h), fun _ _ => ⟨hn, hq, hbe, ?_, ?_⟩, fun h => (by cases h)⟩
      · intro p hp
        simp only [faceCircle, List.mem_singleton] at hp
        subst hp
        exact .vertex (by simp [childPoints, ManifoldPoint.at'])
      · intro p hp y hy
        simp only [faceCircle, List.mem_singleton] at hp
        subst hp
        simp only [ManifoldPoint.at'] at hy
        have hyu : unplace xfA (place xfB b.p) = y := by rw [← hy, unplace_place rA]
        rw [hyu] at hc
        have hdot : dot (faceCircle n q b.p).localNormal (y - (faceCircle n q b.p).localPoint) = dot (y - q) n := by
          simp only [faceCircle, dot]; ring
        rw [hdot]
        rcases hc with ⟨-, -, h1, -⟩ | ⟨-, j, -, -, h1, h2, -⟩
        · exact h1
        · rw [h1]; exact h2
  | .polygon a, .polygon b, _, ⟨ha0, ha⟩, ⟨hb0, hb⟩, _ => exact collidePolygons_sound ha hb rA rB i
  | .edge e, b, hpair, ha, hb, hr => exact sound_edge e b i xfA xfB hpair ha hb rA rB hr
  | .chain ch, b, hpair, ⟨h0, v1, v2, hv1, hv2, hl⟩, hb, hr =>
    obtain ⟨hch, hpts⟩ := chain_child ch i v1 v2 hv1 hv2
    obtain ⟨m, hm, hs⟩ := sound_edge ⟨ch.radius, v1, v2, chainBefore ch i, chainAfter ch i, true⟩ b i xfA xfB
      (by cases b <;> first | exact hpair | trivial) ⟨h0, hl⟩ hb rA rB hr
    refine ⟨m, ?_, ⟨hs.few, ?_, ?_, ?_⟩⟩
    · cases b with
      | circle b => simp only [evaluateShapes, hch, Option.bind_some]; exact hm
      | polygon b => simp only [evaluateShapes, hch, Option.bind_some]; exact hm
      | edge b => exact absurd hpair (by simp [ContactPair])
      | chain b => exact absurd hpair (by simp [ContactPair])
    · rw [hpts]; exact hs.circles
    · rw [hpts]; exact hs.faceA
    · rw [hpts]; exact hs.faceB

theorem face_world_point {xfR : Xf F} (rR : IsRot xfR.q) {ref inc : List (Vec2 F)} {xfI : Xf F} {r1 r2 : F} {m : Manifold F}
    (h : FaceSound ref xfR inc xfI (r1 + r2) m) {p : ManifoldPoint F} (hp : p ∈ m.points) :
    let w := worldPoint (xfI.mulV p.localPoint) (xfR.mulV m.localPoint) (xfR.q.mulV m.localNormal) r1 r2
    dot (w.2.2 - w.2.1) (xfR.q.mulV m.localNormal) ≤ 0 := by
  have h1 := h.near p hp (unplace xfR (place xfI p.localPoint)) (place_unplace rR _)
  rw [← rotV_dot rR, ← place_sub, place_unplace rR] at h1
  have hn := rotV_dot rR m.localNormal m.localNormal
  rw [h.unit] at hn
  simp only [worldPoint, place_eq]
  generalize xfR.q.mulV m.localNormal = N at h1 hn ⊢
  generalize place xfI p.localPoint = P at h1 ⊢
  generalize place xfR m.localPoint = Q at h1 ⊢
  have : dot ((P - r2 * N) - (P + (r1 - dot (P - Q) N) * N)) N = (dot (P - Q) N - r1 - r2) * dot N N := by
    simp only [dot, Vec2.sub_x, Vec2.sub_y, Vec2.add_x, Vec2.add_y, Vec2.smul_x, Vec2.smul_y]; ring
  rw [this, hn, mul_one]
  have : dot N (P - Q) = dot (P - Q) N := by simp only [dot]; ring
  linarith

/-- **C79**: in the world, the normal of a contact is a unit vector and none of its points is separated. -/
theorem c79_world (a b : Shape F) (i : Nat) (xfA xfB : Xf F) (hpair : ContactPair a b) (ha : ProperShape a i) (hb : ProperShape b 0)
    (rA : IsRot xfA.q) (rB : IsRot xfB.q) (hr : InRange b 0) (m : Manifold F)
    (hm : evaluateShapes a i xfA b xfB = some m) (hne : m.points ≠ []) :
    ∃ w, worldManifold m xfA (skin a) xfB (skin b) = some w ∧ dot w.normal w.normal = 1 ∧ w.s1 ≤ 0 ∧ w.s2 ≤ 0 := by
  obtain ⟨m', hm', hs⟩ := c79_sound a b i xfA xfB hpair ha hb rA rB hr
  rw [hm] at hm'
  obtain rfl : m = m' := by simpa using hm'
  have hneg : ∀ v : Vec2 F, dot (-v) (-v) = dot v v := by intro v; simp only [dot, Vec2.neg_x, Vec2.neg_y]; ring
  rcases hty : m.type with _ | _ | _
  · obtain ⟨h1, h2, h3⟩ := hs.circles hty hne
    obtain ⟨p, hp⟩ := List.length_eq_one_iff.mp h1
    obtain ⟨-, hd⟩ := h3 p (by rw [hp]; simp)
    have hsk : 0 ≤ skin a + skin b := by
      have h1 : 0 ≤ skin a := by cases a <;> first | exact ha | exact ha.1
      have h2 : 0 ≤ skin b := by cases b <;> first | exact hb | exact hb.1
      linarith
    set P := place xfA m.localPoint with hP
    set Q := place xfB p.localPoint with hQ
    have hnorm : ∀ N : Vec2 F, dot N N = 1 → dot (Q - skin b * N - (P + skin a * N)) N ≤ 0 := by
      intro N hN
      have e1 : dot (Q - skin b * N - (P + skin a * N)) N = dot (Q - P) N - (skin a + skin b) * dot N N := by
        simp only [dot, Vec2.sub_x, Vec2.sub_y, Vec2.add_x, Vec2.add_y, Vec2.smul_x, Vec2.smul_y]; ring
      have e2 := dot_le_mul (u := Q - P) (w := N) hsk zero_le_one (by rw [sub_dist2, dist2_comm]; exact hd) (by rw [hN, mul_one])
      rw [e1, hN]; linarith
    simp only [worldManifold, hp, hty]
    by_cases hfar : distanceV2 (xfA.mulV m.localPoint) (xfB.mulV p.localPoint) > epsilon * epsilon
    · simp only [if_pos hfar]
      rw [place_eq, place_eq, ← hP, ← hQ] at hfar
      have hdd : epsilon * epsilon ≤ dot (Q - P) (Q - P) := by
        rw [sub_dist2, dist2_comm, ← sub_dist2]; exact hfar.le
      obtain ⟨u1, -, -⟩ := normalize_unit (d := Q - P) (s := epsilon) (le_refl _) hdd
      exact ⟨_, rfl, u1, hnorm _ u1, le_refl _⟩
    · simp only [if_neg hfar]
      have u1 : dot (⟨1, 0⟩ : Vec2 F) ⟨1, 0⟩ = 1 := by simp [dot]
      exact ⟨_, rfl, u1, hnorm _ u1, le_refl _⟩
  · have hf := hs.faceA hty hne
    have hn := rotV_dot rA m.localNormal m.localNormal
    rw [hf.unit] at hn
    have hpt := fun {p} (hp : p ∈ m.points) => face_world_point rA hf hp
    have hlen := hs.few
    match hps : m.points with
    | [] => exact absurd hps hne
    | [p] =>
      simp only [worldManifold, hps, hty]
      exact ⟨_, rfl, hn, hpt (by rw [hps]; simp), le_refl _⟩
    | [p, q] =>
      simp only [worldManifold, hps, hty]
      exact ⟨_, rfl, hn, hpt (by rw [hps]; simp), hpt (by rw [hps]; simp)⟩
    | _ :: _ :: _ :: _ => rw [hps] at hlen; simp at hlen
  · have hf := hs.faceB hty hne
    rw [add_comm] at hf
    have hn := rotV_dot rB m.localNormal m.localNormal
    rw [hf.unit] at hn
    have hpt := fun {p} (hp : p ∈ m.points) => face_world_point rB hf hp
    have hlen := hs.few
    match hps : m.points with
    | [] => exact absurd hps hne
    | [p] =>
      simp only [worldManifold, hps, hty]
      exact ⟨_, rfl, by rw [hneg]; exact hn, hpt (by rw [hps]; simp), le_refl _⟩
    | [p, q] =>
      simp only [worldManifold, hps, hty]
      exact ⟨_, rfl, by rw [hneg]; exact hn, hpt (by rw [hps]; simp), hpt (by rw [hps]; simp)⟩
    | _ :: _ :: _ :: _ => rw [hps] at hlen; simp at hlen

/-! ## C80: contact ids -/

theorem clip_ids {c0 c1 c d : ClipVertex F} {n1 n2 : Vec2 F} {o1 o2 : F} {i1 i2 : Nat}
    (h : clipTwice c0 c1 n1 o1 i1 n2 o2 i2 = some (some (c, d))) (h0 : c0.id.cf.typeA = 1) (h1 : c1.id.cf.typeA = 1)
    (hne : c0.id ≠ c1.id) (hi : UInt8.ofNat i1 ≠ UInt8.ofNat i2) : c.id.cf ≠ d.id.cf := by
  obtain ⟨r, hr, hspec⟩ := clipTwice_spec c0 c1 n1 o1 i1 n2 o2 i2
  rw [hr] at h
  obtain ⟨-, -, -, -, -, -, a, b, hab, hcd⟩ := hspec c d (by simpa using h)
  have hcf : ∀ x y : ContactId, x.cf = y.cf → x = y := by rintro ⟨x⟩ ⟨y⟩ h; exact congrArg _ h
  have hcut : ∀ (v : ClipVertex F) i, (cutId v i).cf.typeA = 0 := fun _ _ => rfl
  have ha1 : a.id.cf.typeA = 1 := by
    rcases hab with ⟨rfl, -⟩ | ⟨rfl | rfl, -⟩ <;> assumption
  intro he
  rcases hcd with ⟨rfl, rfl⟩ | ⟨hc, hd⟩
  · rcases hab with ⟨rfl, rfl⟩ | ⟨-, hb⟩
    · exact hne (hcf _ _ he)
    · rw [he, hb, hcut] at ha1; exact absurd ha1 (by decide)
  · rw [hd] at he
    rcases hc with rfl | rfl
    · rw [he, hcut] at ha1; exact absurd ha1 (by decide)
    · rcases hab with ⟨-, rfl⟩ | ⟨-, hb⟩
      · rw [he, hcut] at h1; exact absurd h1 (by decide)
      · rw [hb] at he
        exact hi (congrArg Feature.indexA he)

theorem pairwise_filter_map {α β : Type} {a b : α} {p : α → Bool} {f : α → β} {R : β → β → Prop} (h : R (f a) (f b)) :
    (([a, b].filter p).map f).Pairwise R := by
  by_cases ha : p a = true <;> by_cases hb : p b = true <;> simp [List.filter, ha, hb, h]

theorem ofNat_ne {i j : Nat} (hi : i < 8) (hj : j < 8) (h : i ≠ j) : UInt8.ofNat i ≠ UInt8.ofNat j := by
  intro he
  have := congrArg UInt8.toNat he
  rw [UInt8.toNat_ofNat', UInt8.toNat_ofNat'] at this
  omega

theorem nextIndex_ne {i n : Nat} (hn : 2 ≤ n) (hi : i < n) : nextIndex i n < n ∧ nextIndex i n ≠ i := by
  unfold nextIndex; split <;> omega

theorem clipPolygons_ids {p1 p2 : Polygon F} (h1 : ProperPolygon p1) (h2 : ProperPolygon p2) (xf1 xf2 : Xf F) (e : Nat) (r : F)
    (flip : Bool) (m : Manifold F) (hm : clipPolygons r p1 xf1 e p2 xf2 flip = some m) : m.points.Pairwise (fun p q => p.id ≠ q.id) := by
  unfold clipPolygons findIncidentEdge at hm
  by_cases he : e < p1.verts.length
  · simp only [if_pos he, Option.bind_some] at hm
    rw [Option.bind_eq_some_iff] at hm
    obtain ⟨x, hx, hm⟩ := hm
    match x, hx, hm with
    | none, _, hm => simp only [Option.some.injEq] at hm; rw [← hm]; simp [Manifold.default]
    | some (c, d), hx, hm =>
      simp only [Option.some.injEq] at hm
      have l1 := h1.convex.1
      have l2 := h2.convex.1
      have f1 := h1.few
      have f2 := h2.few
      have k1 := nextIndex_ne (by omega) he
      have k3 := mostAntiParallel_lt (xf2.q.mulTV (xf1.q.mulV (psGet p1.normals e))) p2.normals (n := p2.verts.length) (by omega)
      have k2 := nextIndex_ne (by omega) k3
      have hcd := clip_ids hx rfl rfl
        (fun h => ofNat_ne (by omega) (by omega) k2.2.symm (congrArg (fun i : ContactId => i.cf.indexB) h))
        (ofNat_ne (by omega) (by omega) k1.2.symm)
      rw [← hm]
      refine pairwise_filter_map ?_
      intro h
      have h := congrArg ContactId.cf h
      cases flip with
      | false => exact hcd h
      | true =>
        simp only [ManifoldPoint.at', if_true, Feature.swap, Feature.mk.injEq] at h
        obtain ⟨a1, a2, a3, a4⟩ := h
        exact hcd (by cases hc : c.id.cf; cases hd : d.id.cf; simp_all)
  · simp [if_neg he] at hm

theorem clipToEdge_ids {b : Polygon F} (hb : ProperPolygon b) (xf xf' : Xf F) (r : F) (a : Edge F) (e1 n : Vec2 F) (ns : List (Vec2 F)) (m : Manifold F)
    (hm : clipToEdge r a e1 n (b.verts.map xf'.mulV) ns xf = some m) : m.points.Pairwise (fun p q => p.id ≠ q.id) := by
  unfold clipToEdge at hm
  rw [Option.bind_eq_some_iff] at hm
  obtain ⟨x, hx, hm⟩ := hm
  match x, hx, hm with
  | none, _, hm => simp only [Option.some.injEq] at hm; rw [← hm]; simp [Manifold.default]
  | some (c, d), hx, hm =>
    simp only [Option.some.injEq] at hm
    have l2 := hb.convex.1
    have f2 := hb.few
    have hlen : (b.verts.map xf'.mulV).length = b.verts.length := by simp
    have k3 := mostAntiParallel'_lt n ns (n := (b.verts.map xf'.mulV).length) (by omega)
    have k2 := nextIndex_ne (by omega) k3
    have hcd := clip_ids hx rfl rfl
      (fun h => ofNat_ne (by omega) (by omega) k2.2.symm (congrArg (fun i : ContactId => i.cf.indexB) h))
      (by decide)
    rw [← hm]
    exact pairwise_filter_map fun h => hcd (congrArg ContactId.cf h)

theorem clipToFace_type {b : Polygon F} (vs ns : List (Vec2 F)) (r : F) (a : Edge F) (i : Option Nat) (m : Manifold F)
    (hm : clipToFace r a i b vs ns = some m) : m.type = .faceB := by
  unfold clipToFace at hm
  rw [Option.bind_eq_some_iff] at hm
  obtain ⟨i1, -, hm⟩ := hm
  rw [Option.bind_eq_some_iff] at hm
  obtain ⟨x, -, hm⟩ := hm
  match x, hm with
  | none, hm | some (_, _), hm => simp only [Option.some.injEq] at hm; rw [← hm]

theorem edgePolygon_ids {b : Polygon F} (hb : ProperPolygon b) (a : Edge F) (xfA xfB : Xf F) (m : Manifold F)
    (hm : collideEdgePolygon a xfA b xfB = some m) (ht : m.type ≠ .faceB) : m.points.Pairwise (fun p q => p.id ≠ q.id) := by
  have hd : ∀ m' : Manifold F, some m' = some m → m' = Manifold.default → m.points.Pairwise (fun p q => p.id ≠ q.id) := by
    intro m' h h'
    simp only [Option.some.injEq] at h
    rw [← h, h']; simp [Manifold.default]
  simp only [collideEdgePolygon] at hm
  split at hm
  · exact hd _ hm rfl
  split at hm
  · exact hd _ hm rfl
  split at hm
  · exact hd _ hm rfl
  split at hm
  · exact hd _ hm rfl
  split at hm
  · exact clipToEdge_ids hb _ _ _ _ _ _ _ _ hm
  · exact absurd (clipToFace_type _ _ _ _ _ _ hm) ht

/-- **C80** (partial: for an edge or chain against a polygon the reference face must be the edge): the ids of the points of
a manifold are distinct. -/
theorem c80_ids_partial (a b : Shape F) (i : Nat) (xfA xfB : Xf F) (ha : ProperShape a i) (hb : ProperShape b 0) (m : Manifold F)
    (hm : evaluateShapes a i xfA b xfB = some m)
    (hf : m.type = .faceB → ∃ p q, a = .polygon p ∧ b = .polygon q) : m.points.Pairwise (fun p q => p.id ≠ q.id) := by
  have hshort : ∀ m : Manifold F, m.points.length ≤ 1 → m.points.Pairwise (fun p q => p.id ≠ q.id) := by
    intro m h
    match hp : m.points with
    | [] => simp
    | [p] => simp
    | _ :: _ :: _ => rw [hp] at h; simp at h
  have hec : ∀ e c, collideEdgeCircle e xfA c xfB = some m → m.points.Pairwise (fun p q => p.id ≠ q.id) := by
    intro e c hm
    obtain ⟨m', hm', h⟩ := edgeCircle_spec e xfA c xfB
    rw [hm] at hm'
    obtain rfl : m = m' := by simpa using hm'
    rcases h with ⟨h, -⟩ | ⟨-, -, -, x, -, -, -, ⟨-, -, cf, h3⟩ | ⟨-, -, ⟨cf, h3⟩, -, -⟩⟩
    · exact hshort _ (by rw [h]; simp)
    · exact hshort _ (by rw [h3]; simp)
    · exact hshort _ (by rw [h3]; simp)
  match a, b with
  | .circle a, .circle b =>
    simp only [evaluateShapes, Option.some.injEq] at hm
    rw [← hm]
    apply hshort
    unfold collideCircles
    simp only
    split <;> simp [Manifold.default]
  | .polygon a, .circle b =>
    simp only [evaluateShapes, Option.some.injEq] at hm
    rw [← hm]
    apply hshort
    have h0 : 0 ≤ a.radius + b.radius := add_nonneg ha.1 hb
    rcases polyCircle_spec ha.2 (b := b) (xfA := xfA) (xfB := xfB) h0 with ⟨h, -⟩ | ⟨n, q, h, -⟩ <;> rw [h] <;> simp [faceCircle]
  | .polygon a, .polygon b =>
    simp only [evaluateShapes, collidePolygons] at hm
    split at hm
    · simp only [Option.some.injEq] at hm; rw [← hm]; simp [Manifold.default]
    split at hm
    · simp only [Option.some.injEq] at hm; rw [← hm]; simp [Manifold.default]
    split at hm
    · exact clipPolygons_ids hb.2 ha.2 _ _ _ _ _ _ hm
    · exact clipPolygons_ids ha.2 hb.2 _ _ _ _ _ _ hm
  | .edge a, .circle b => exact hec _ _ hm
  | .edge a, .polygon b =>
    exact edgePolygon_ids hb.2 _ _ _ _ hm fun h => by obtain ⟨p, q, h, -⟩ := hf h; cases h
  | .chain a, .circle b =>
    simp only [evaluateShapes, Option.bind_eq_some_iff] at hm
    obtain ⟨e, -, hm⟩ := hm
    exact hec _ _ hm
  | .chain a, .polygon b =>
    simp only [evaluateShapes, Option.bind_eq_some_iff] at hm
    obtain ⟨e, -, hm⟩ := hm
    exact edgePolygon_ids hb.2 _ _ _ _ hm fun h => by obtain ⟨p, q, h, -⟩ := hf h; cases h
  | .circle _, .polygon _ | .circle _, .edge _ | .circle _, .chain _ | .polygon _, .edge _ | .polygon _, .chain _
  | .edge _, .edge _ | .edge _, .chain _ | .chain _, .edge _ | .chain _, .chain _ => simp [evaluateShapes] at hm

/-- **C80**: what the ids are for: when the old points have distinct ids, a new point starts with the impulses of the old point
with its id, and with none if there is no such point. -/
theorem c80_warm (old : List (ManifoldPoint F)) (hid : old.Pairwise (fun p q => p.id ≠ q.id)) (mp : ManifoldPoint F) :
    (∀ p ∈ old, p.id = mp.id → World.matchImpulse old mp = { mp with normalImpulse := p.normalImpulse, tangentImpulse := p.tangentImpulse }) ∧
    ((∀ p ∈ old, p.id ≠ mp.id) → World.matchImpulse old mp = { mp with normalImpulse := 0, tangentImpulse := 0 }) := by
  have hcf : ∀ x y : ContactId, x.cf = y.cf → x = y := by rintro ⟨x⟩ ⟨y⟩ h; exact congrArg _ h
  constructor
  · intro p hp he
    have : old.find? (fun m => m.id.cf == mp.id.cf) = some p := by
      clear * - hid hp he hcf
      induction old with
      | nil => cases hp
      | cons q l ih =>
        rw [List.pairwise_cons] at hid
        rcases List.mem_cons.mp hp with rfl | hp'
        · simp [List.find?, he]
        · have : ¬ (q.id.cf = mp.id.cf) := fun h => hid.1 p hp' ((hcf _ _ h).trans he.symm)
          simp only [List.find?, beq_eq_false_iff_ne.mpr this]
          exact ih hid.2 hp'
    simp only [World.matchImpulse, this]
  · intro h
    have : old.find? (fun m => m.id.cf == mp.id.cf) = none := by
      rw [List.find?_eq_none]
      intro p hp h'
      exact h p hp (hcf _ _ (by simpa using h'))
    simp only [World.matchImpulse, this]

end

/-- C80 is false for an edge and a polygon: an edge that passes below the middle of a box and rises out of its left end has
two contact points with the same id. -/
theorem c80_false : ∃ (e : Edge ℝ) (b : Polygon ℝ) (xfA xfB : Xf ℝ) (m : Manifold ℝ) (p q : ManifoldPoint ℝ),
    ProperShape (.edge e) 0 ∧ ProperShape (.polygon b) 0 ∧ IsRot xfA.q ∧ IsRot xfB.q ∧ InRange (.polygon b) 0 ∧
    evaluateShapes (.edge e) 0 xfA (.polygon b) xfB = some m ∧ m.points = [p, q] ∧ p.localPoint ≠ q.localPoint ∧ p.id = q.id := by
  have hs : Real.sqrt (1681 / 100) = 41 / 10 := by
    rw [show (1681 / 100 : ℝ) = (41 / 10) ^ 2 from by norm_num]; exact Real.sqrt_sq (by norm_num)
  refine ⟨⟨polygonRadius, ⟨-1 / 2, -9 / 10⟩, ⟨-9 / 2, -9 / 5⟩, ⟨0, 0⟩, ⟨0, 0⟩, false⟩, Polygon.default.setAsBox 1 1,
    ⟨⟨0, 0⟩, Rot.identity⟩, ⟨⟨0, 0⟩, Rot.identity⟩,
    ⟨[.at' ⟨-1 / 2, -9 / 10⟩ ⟨0, 0, 1, 0⟩, .at' ⟨-1, -81 / 80⟩ ⟨0, 0, 1, 0⟩], ⟨0, -1⟩, ⟨-1, -1⟩, .faceB⟩, _, _, ?_, ?_,
    by simp [IsRot, Rot.identity], by simp [IsRot, Rot.identity], ?_, ?_, rfl, ?_, rfl⟩
  · exact ⟨by norm_num [polygonRadius, linearSlop], by norm_num [dist2, epsilon]⟩
  · exact ⟨by norm_num [Polygon.setAsBox, Polygon.default, polygonRadius, linearSlop], proper_box _ 1 1 (by norm_num [epsilon]) (by norm_num [epsilon])⟩
  · intro x hx y hy
    simp only [childPoints, Polygon.setAsBox, boxVerts, List.mem_cons, List.not_mem_nil, or_false] at hx hy
    rcases hx with rfl | rfl | rfl | rfl <;> rcases hy with rfl | rfl | rfl | rfl <;> norm_num [dist2, maxFlt]
  · norm_num [evaluateShapes, collideEdgePolygon, Polygon.setAsBox, Polygon.default, boxVerts, boxNormals, computeEdgeSeparation, edgeAxisStep,
      deepest, computePolygonSeparation, primaryAxis, clipToFace, clipTwice, clipSegmentToLine, clipPush, List.range_succ, psGet, dot, Xf.mulV,
      Xf.mulT, Rot.mulV, Rot.mulT, Rot.mulTV, Rot.identity, epsilon, polygonRadius, linearSlop, maxFlt, nextIndex, Vec2.normalize, Vec2.length,
      Elem.sqrt, hs, b2min, eVertex, eFace, ManifoldPoint.at', Feature.swap]
    rw [if_neg (by decide)]
    norm_num [Vec2.ext_iff]
    decide
  · norm_num [ManifoldPoint.at']

/-- The hypotheses of the theorems of C79 and C80 are met by two boxes that overlap, one of them displaced to the side: there
are two contact points. -/
example : ∃ m : Manifold ℝ, ContactPair (.polygon (Polygon.default.setAsBox 1 1 : Polygon ℝ)) (.polygon (Polygon.default.setAsBox 1 1)) ∧
    ProperShape (.polygon (Polygon.default.setAsBox 1 1 : Polygon ℝ)) 0 ∧
    InRange (.polygon (Polygon.default.setAsBox 1 1 : Polygon ℝ)) 0 ∧
    evaluateShapes (.polygon (Polygon.default.setAsBox 1 1 : Polygon ℝ)) 0 ⟨⟨0, 0⟩, Rot.identity⟩ (.polygon (Polygon.default.setAsBox 1 1))
      ⟨⟨1 / 2, 19 / 10⟩, Rot.identity⟩ = some m ∧ m.type = .faceA ∧ m.points.length = 2 := by
  have hs : Real.sqrt 4 = 2 := by
    rw [show (4 : ℝ) = 2 ^ 2 from by norm_num]; exact Real.sqrt_sq (by norm_num)
  refine ⟨⟨[.at' ⟨-1, -1⟩ ⟨2, 0, 1, 0⟩, .at' ⟨13 / 25, -1⟩ ⟨2, 0, 0, 1⟩], ⟨0, 1⟩, ⟨0, 1⟩, .faceA⟩, trivial, ?_, ?_, ?_, rfl, rfl⟩
  · exact ⟨by norm_num [Polygon.setAsBox, Polygon.default, polygonRadius, linearSlop], proper_box _ 1 1 (by norm_num [epsilon]) (by norm_num [epsilon])⟩
  · intro x hx y hy
    simp only [childPoints, Polygon.setAsBox, boxVerts, List.mem_cons, List.not_mem_nil, or_false] at hx hy
    rcases hx with rfl | rfl | rfl | rfl <;> rcases hy with rfl | rfl | rfl | rfl <;> norm_num [dist2, maxFlt]
  · norm_num [evaluateShapes, collidePolygons, findMaxSeparation, Polygon.setAsBox, Polygon.default, boxVerts, boxNormals,
      clipPolygons, findIncidentEdge, mostAntiParallel, clipTwice, clipSegmentToLine, clipPush, List.range_succ, psGet, dot, Xf.mulV, Xf.mulTV,
      Xf.mulT, Rot.mulV, Rot.mulT, Rot.mulTV, Rot.identity, epsilon, polygonRadius, linearSlop, maxFlt, nextIndex, Vec2.normalize, Vec2.length,
      Elem.sqrt, hs, eVertex, eFace, ManifoldPoint.at', Feature.swap, crossVS]
    exact ⟨by decide, by ext <;> norm_num⟩

end B2.Props
