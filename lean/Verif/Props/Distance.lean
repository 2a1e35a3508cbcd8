import Verif.Proofs.Distance

/-! Distance between shapes (C53, C64, C65) and shape casts (C66). -/
namespace B2.Props
set_option linter.unusedSectionVars false
open Spec

section
variable {F : Type} [Field F] [LinearOrder F] [IsStrictOrderedRing F] [Elem F]

/-- C53: the distance computation does not panic (no index is out of range, no assertion fails), takes at most 20 iterations, and
leaves a cache that is good for another call. -/
theorem c53_total {c : Cache F} {i : DistanceInput F} (hA : i.proxyA.vertices ≠ []) (hB : i.proxyB.vertices ≠ [])
    (hc : CacheFits c i.proxyA.vertices.length i.proxyB.vertices.length) :
    ∃ o c', distance c i = some (o, c') ∧ o.iterations ≤ 20 ∧ CacheFits c' i.proxyA.vertices.length i.proxyB.vertices.length := by
  obtain ⟨p, iter, c', e, h1, h2, _⟩ := distance_core hA hB hc
  refine ⟨_, c', e, ?_, h2⟩
  cases i.useRadii
  · exact h1
  · simp only [DistanceOutput.applyRadii, if_true]
    split <;> exact h1

/-- C53, as far as it holds: if fewer than 20 iterations were needed, the two points are points of the convex hulls of the two
shapes. With 20 iterations this can fail: `c53_false`. -/
theorem c53_partial {c c' : Cache F} {i : DistanceInput F} {o : DistanceOutput F} (hA : i.proxyA.vertices ≠ []) (hB : i.proxyB.vertices ≠ [])
    (hc : CacheFits c i.proxyA.vertices.length i.proxyB.vertices.length) (hr : i.useRadii = false) (h : distance c i = some (o, c')) (hi : o.iterations < 20) :
    Hull (placedAt i.proxyA i.xfA) o.pointA ∧ Hull (placedAt i.proxyB i.xfB) o.pointB := by
  obtain ⟨p, iter, c1, e, h1, h2, h3⟩ := distance_core hA hB hc
  rw [e, hr] at h
  cases h
  exact ⟨(h3 hi).1, (h3 hi).2.1⟩

/-- C53: the distance is the distance of the two points. -/
theorem c53_distance [ElemLaws F] {c c' : Cache F} {i : DistanceInput F} {o : DistanceOutput F} (hA : i.proxyA.vertices ≠ []) (hB : i.proxyB.vertices ≠ [])
    (hc : CacheFits c i.proxyA.vertices.length i.proxyB.vertices.length) (hr : i.useRadii = false) (h : distance c i = some (o, c')) :
    0 ≤ o.distance ∧ o.distance * o.distance = dist2 o.pointA o.pointB := by
  obtain ⟨p, iter, c1, e, h1, h2, h3⟩ := distance_core hA hB hc
  rw [e, hr] at h
  cases h
  exact ⟨length_nonneg _, (length_sq _).trans (sub_dist2 _ _)⟩

/-- C64: if fewer than 20 iterations were needed, no two points of the shapes are closer than the two returned ones, unless these
are closer than the machine epsilon (so the shapes touch or overlap). -/
theorem c64_exact {c c' : Cache F} {i : DistanceInput F} {o : DistanceOutput F} (hA : i.proxyA.vertices ≠ []) (hB : i.proxyB.vertices ≠ [])
    (hc : CacheFits c i.proxyA.vertices.length i.proxyB.vertices.length) (hs : Spread i) (hr : i.useRadii = false) (h : distance c i = some (o, c'))
    (hi : o.iterations < 20) :
    (∀ x y, Hull (placedAt i.proxyA i.xfA) x → Hull (placedAt i.proxyB i.xfB) y → dist2 o.pointA o.pointB ≤ dist2 x y) ∨
    dist2 o.pointA o.pointB < epsilon * epsilon := by
  obtain ⟨p, iter, c1, e, h1, h2, h3⟩ := distance_core hA hB hc
  rw [e, hr] at h
  cases h
  rcases (h3 hi).2.2 with k | k | ⟨x, y, hx, hy, k1, k2⟩
  · exact .inl k
  · exact .inr k
  · refine absurd k2 (not_lt.mpr (hs x y hx hy ?_))
    rintro rfl
    simp [dist2] at k1

/-- C65: with radii, the points are moved to the surfaces and the distance is less by the two radii; or the shapes overlap, and
the two points are the middle of the former and the distance is zero. -/
theorem c65_radii [ElemLaws F] {c : Cache F} {i : DistanceInput F} {x y : DistanceOutput F × Cache F} (hA : i.proxyA.vertices ≠ [])
    (hB : i.proxyB.vertices ≠ []) (hc : CacheFits c i.proxyA.vertices.length i.proxyB.vertices.length)
    (h0 : distance c { i with useRadii := false } = some x) (h1 : distance c { i with useRadii := true } = some y) :
    y.2 = x.2 ∧ y.1.iterations = x.1.iterations ∧ 0 ≤ y.1.distance ∧ y.1.distance * y.1.distance = dist2 y.1.pointA y.1.pointB ∧
    if i.proxyA.radius + i.proxyB.radius < x.1.distance ∧ epsilon < x.1.distance then
      y.1.distance = x.1.distance - (i.proxyA.radius + i.proxyB.radius) ∧
      dist2 y.1.pointA x.1.pointA = i.proxyA.radius * i.proxyA.radius ∧ dist2 y.1.pointB x.1.pointB = i.proxyB.radius * i.proxyB.radius
    else y.1.distance = 0 ∧ y.1.pointA = onLine x.1.pointA x.1.pointB (1 / 2) := by
  have e0 : ∃ z c', distance c { i with useRadii := false } = some (z, c') ∧
      distance c { i with useRadii := true } = some (z.applyRadii i.proxyA.radius i.proxyB.radius, c') ∧ z.distance = distanceV z.pointA z.pointB := by
    unfold distance at h0 ⊢
    simp only [Option.bind_eq_bind, Option.bind_eq_some_iff] at h0
    obtain ⟨s0, a1, s1, a2, p, a3, c', a4, _⟩ := h0
    simp only [a1, a2, a3, a4, Option.bind_eq_bind, Option.bind_some]
    exact ⟨_, _, rfl, rfl, rfl⟩
  obtain ⟨z, c', e0, e1, ez⟩ := e0
  rw [e0] at h0
  rw [e1] at h1
  cases h0
  cases h1
  dsimp only
  have hl := length_sq (z.pointB - z.pointA)
  have hsym : z.distance = (z.pointB - z.pointA).length := by
    rw [ez]
    have k1 := length_sq (z.pointA - z.pointB)
    have k2 := length_nonneg (z.pointA - z.pointB)
    have k3 := length_nonneg (z.pointB - z.pointA)
    have k4 : dot (z.pointA - z.pointB) (z.pointA - z.pointB) = dot (z.pointB - z.pointA) (z.pointB - z.pointA) := by
      simp only [dot, Vec2.sub_x, Vec2.sub_y]; ring
    unfold distanceV
    rw [k4, ← hl] at k1
    nlinarith [mul_self_eq_mul_self_iff.mp k1]
  unfold DistanceOutput.applyRadii
  by_cases hc : i.proxyA.radius + i.proxyB.radius < z.distance ∧ epsilon < z.distance
  · rw [if_pos hc, if_pos hc]
    obtain ⟨n1, n2, n3⟩ := normalize_spec (a := z.pointB - z.pointA) (by rw [← hsym]; exact not_lt.mpr hc.2.le)
    rw [← hsym] at n2
    set n := (z.pointB - z.pointA).normalize.1
    have hx := congrArg Vec2.x n2
    have hy := congrArg Vec2.y n2
    simp only [Vec2.sub_x, Vec2.sub_y, Vec2.smul_x, Vec2.smul_y] at hx hy
    simp only [dot] at n1
    refine ⟨rfl, rfl, by dsimp only; linarith [hc.1], ?_, rfl, ?_, ?_⟩
    · dsimp only [dist2, Vec2.sub_x, Vec2.sub_y, Vec2.add_x, Vec2.add_y, Vec2.smul_x, Vec2.smul_y]
      have ex : z.pointA.x + i.proxyA.radius * n.x - (z.pointB.x - i.proxyB.radius * n.x) = (i.proxyA.radius + i.proxyB.radius - z.distance) * n.x := by
        linear_combination -hx
      have ey : z.pointA.y + i.proxyA.radius * n.y - (z.pointB.y - i.proxyB.radius * n.y) = (i.proxyA.radius + i.proxyB.radius - z.distance) * n.y := by
        linear_combination -hy
      rw [ex, ey]
      linear_combination (-(z.distance - (i.proxyA.radius + i.proxyB.radius)) * (z.distance - (i.proxyA.radius + i.proxyB.radius))) * n1
    · dsimp only [dist2, Vec2.add_x, Vec2.add_y, Vec2.smul_x, Vec2.smul_y]
      linear_combination (i.proxyA.radius * i.proxyA.radius) * n1
    · dsimp only [dist2, Vec2.sub_x, Vec2.sub_y, Vec2.smul_x, Vec2.smul_y]
      linear_combination (i.proxyB.radius * i.proxyB.radius) * n1
  · rw [if_neg hc, if_neg hc]
    refine ⟨rfl, rfl, le_refl _, by simp [dist2], rfl, ?_⟩
    ext <;> simp only [onLine, Vec2.add_x, Vec2.add_y, Vec2.smul_x, Vec2.smul_y] <;> ring

/-- C66: a shape cast does not panic. -/
theorem c66_total [ElemLaws F] {i : ShapeCastInput F} (hA : i.proxyA.vertices ≠ []) (hB : i.proxyB.vertices ≠ []) : ∃ res, shapeCast i = some res := by
  obtain ⟨res, e, _⟩ := shapeCast_core hA hB
  exact ⟨res, e⟩

/-- C66: if a shape cast reports a hit, the fraction is in `[0, 1]`, the shapes keep more than the target distance up to it, and the
reported point is on shape A, up to its radius; if fewer than 20 iterations were needed, the shapes are within the target distance plus half
the linear slop at the reported fraction, and the normal has length one unless the shapes were that close from the start. -/
theorem c66_hit [ElemLaws F] {i : ShapeCastInput F} (hA : i.proxyA.vertices ≠ []) (hB : i.proxyB.vertices ≠ []) {o : ShapeCastOutput F}
    (h : shapeCast i = some (some o)) :
    0 ≤ o.lambda ∧ o.lambda ≤ 1 ∧ 1 ≤ o.iterations ∧ o.iterations ≤ 20 ∧ (∀ t, 0 ≤ t → t < o.lambda → Apart i (castTarget i) t) ∧
    (∃ q, Hull (placedAt i.proxyA i.xfA) q ∧ o.point = q + max i.proxyA.radius polygonRadius * o.normal) ∧
    (o.iterations < 20 → Within i (castTarget i + linearSlop / 2) o.lambda ∧ (0 < o.lambda → o.normal.x * o.normal.x + o.normal.y * o.normal.y = 1)) := by
  obtain ⟨res, e, _, h2⟩ := shapeCast_core hA hB
  rw [h] at e
  cases e
  obtain ⟨k1, k2, k3, k4, k5, k6, q, hq, hp⟩ := h2 o rfl
  refine ⟨k1, k2, k3, k4, k5, ⟨q, hq, ?_⟩, k6⟩
  rw [hp, castRadius, b2max_max]

/-- C66: if a shape cast reports no hit, the shapes keep more than the target distance all the way, or they were within it (plus half the
linear slop) from the start. -/
theorem c66_miss [ElemLaws F] {i : ShapeCastInput F} (hA : i.proxyA.vertices ≠ []) (hB : i.proxyB.vertices ≠ []) (h : shapeCast i = some none) :
    (∀ t, 0 ≤ t → t ≤ 1 → Apart i (castTarget i) t) ∨ Within i (castTarget i + linearSlop / 2) 0 := by
  obtain ⟨res, e, h1, _⟩ := shapeCast_core hA hB
  rw [h] at e
  cases e
  exact h1 rfl

end

/-! ## Examples and counterexample -/
section
/-- A unit square and a segment at distance 1 to the right of it. -/
private def square : DistanceInput ℚ := ⟨⟨[⟨0, 0⟩, ⟨1, 0⟩, ⟨1, 1⟩, ⟨0, 1⟩], 1⟩, ⟨[⟨3, -3⟩, ⟨3, 5⟩], 1⟩, ⟨⟨0, 0⟩, ⟨0, 1⟩⟩, ⟨⟨-1, 0⟩, ⟨0, 1⟩⟩, false⟩
private def cold : Cache ℚ := ⟨0, 0, (0, 0), (0, 0), (0, 0)⟩
private def placed : List (Vec2 ℚ) := square.proxyB.vertices.flatMap fun b => square.proxyA.vertices.map fun a => place square.xfB b - place square.xfA a

private theorem mem_placed {x : Vec2 ℚ} (h : Diff square.proxyA square.proxyB square.xfA square.xfB x) : x ∈ placed := by
  obtain ⟨a, ha, b, hb, rfl⟩ := h
  exact List.mem_flatMap.mpr ⟨b, hb, List.mem_map.mpr ⟨a, ha, rfl⟩⟩

/-- The hypotheses of C53 and C64 are met by the square and the segment, and the distance found is 1 (here with a placeholder in place of
the square root, which these statements do not depend on). -/
example : square.proxyA.vertices ≠ [] ∧ square.proxyB.vertices ≠ [] ∧ CacheFits cold square.proxyA.vertices.length square.proxyB.vertices.length ∧
    Spread square ∧ square.useRadii = false ∧
    letI : Elem ℚ := ⟨fun x => x, fun _ => 0, fun _ => 1, fun x => x, 3⟩
    ∃ o c', distance cold square = some (o, c') ∧ o.iterations < 20 ∧ dist2 o.pointA o.pointB = 1 := by
  refine ⟨by decide, by decide, ⟨by decide, by decide, by decide, by decide⟩, ?_, rfl, ?_⟩
  · have key : ∀ x ∈ placed, ∀ y ∈ placed, x ≠ y → (epsilon : ℚ) * epsilon ≤ dist2 x y := by decide +kernel
    exact fun x y hx hy hne => key x (mem_placed hx) y (mem_placed hy) hne
  · letI : Elem ℚ := ⟨fun x => x, fun _ => 0, fun _ => 1, fun x => x, 3⟩
    have key : ((distance cold square).map fun x => decide (x.1.iterations < 20 ∧ dist2 x.1.pointA x.1.pointB = 1)) = some true := by decide +kernel
    obtain ⟨x, e, hx⟩ := Option.map_eq_some_iff.mp key
    exact ⟨x.1, x.2, e, of_decide_eq_true hx⟩

/-- Two circles of radius 1 at distance 3: the hypotheses of C65 and C66 are met. -/
example : ∃ (i : DistanceInput ℝ) (c : Cache ℝ) (x y : DistanceOutput ℝ × Cache ℝ), i.proxyA.vertices ≠ [] ∧ i.proxyB.vertices ≠ [] ∧ i.proxyA.radius = 1 ∧
    CacheFits c i.proxyA.vertices.length i.proxyB.vertices.length ∧ distance c { i with useRadii := false } = some x ∧ distance c { i with useRadii := true } = some y := by
  let i : DistanceInput ℝ := ⟨⟨[⟨0, 0⟩], 1⟩, ⟨[⟨3, 0⟩], 1⟩, ⟨⟨0, 0⟩, ⟨0, 1⟩⟩, ⟨⟨0, 0⟩, ⟨0, 1⟩⟩, true⟩
  let c : Cache ℝ := ⟨0, 0, (0, 0), (0, 0), (0, 0)⟩
  have hc : CacheFits c 1 1 := ⟨by decide, by simp [c], by simp [c], by simp [c]⟩
  obtain ⟨o, c1, e1, _⟩ := c53_total (c := c) (i := { i with useRadii := false }) (by simp [i]) (by simp [i]) hc
  obtain ⟨o', c2, e2, _⟩ := c53_total (c := c) (i := { i with useRadii := true }) (by simp [i]) (by simp [i]) hc
  exact ⟨i, c, _, _, by simp [i], by simp [i], rfl, hc, e1, e2⟩

example : ∃ (i : ShapeCastInput ℝ) (res : Option (ShapeCastOutput ℝ)), i.proxyA.vertices ≠ [] ∧ i.proxyB.vertices ≠ [] ∧ i.translationB = ⟨-3, 0⟩ ∧ shapeCast i = some res := by
  let i : ShapeCastInput ℝ := ⟨⟨[⟨0, 0⟩], 1⟩, ⟨[⟨3, 0⟩, ⟨3, 1⟩], 1⟩, ⟨⟨0, 0⟩, ⟨0, 1⟩⟩, ⟨⟨0, 0⟩, ⟨0, 1⟩⟩, ⟨-3, 0⟩⟩
  obtain ⟨res, e⟩ := c66_total (i := i) (by simp [i]) (by simp [i])
  exact ⟨i, res, by simp [i], by simp [i], rfl, e⟩

/-- Points of a parabola above the origin whose abscissas are found by bisection towards `1/3`. -/
private def bisect : Nat → ℚ → ℚ → List ℚ
  | 0, _, _ => []
  | n + 1, lo, hi => (lo + hi) / 2 :: if (lo + hi) / 2 < 1 / 3 then bisect n ((lo + hi) / 2) hi else bisect n lo ((lo + hi) / 2)
private def parabola : List (Vec2 ℚ) := ((0 : ℚ) :: 1 :: bisect 22 0 1).map fun t => ⟨t - 1 / 3, (t - 1 / 3) * (t - 1 / 3) + 1 / 4⟩
private def slow : DistanceInput ℚ := ⟨⟨[⟨0, 0⟩], 0⟩, ⟨parabola, 0⟩, ⟨⟨0, 0⟩, ⟨0, 1⟩⟩, ⟨⟨0, 0⟩, ⟨0, 1⟩⟩, false⟩
private def slow0 : Simplex ℚ := { (Simplex.zero : Simplex ℚ) with
  v0 := ⟨⟨0, 0⟩, ⟨-1 / 3, 13 / 36⟩, ⟨-1 / 3, 13 / 36⟩, 1, 0, 0⟩, count := 1 }

/-- C53 is false of the code: with a point and a convex shape of 24 vertices, whose distance is at least 1/4, the computation stops after 20
iterations without having evaluated its last simplex and reports two equal points, that is overlap. -/
theorem c53_false : ∃ (c : Cache ℚ) (i : DistanceInput ℚ), i.proxyA.vertices ≠ [] ∧ i.proxyB.vertices ≠ [] ∧
    CacheFits c i.proxyA.vertices.length i.proxyB.vertices.length ∧ i.useRadii = false ∧
    (∀ x y, Hull (placedAt i.proxyA i.xfA) x → Hull (placedAt i.proxyB i.xfB) y → 1 / 16 ≤ dist2 x y) ∧
    ∀ [Elem ℚ], ∃ o c', distance c i = some (o, c') ∧ o.pointA = o.pointB := by
  refine ⟨cold, slow, by decide, by decide +kernel, ⟨by decide, by decide, by decide, by decide⟩, rfl, ?_, ?_⟩
  · intro x y hx hy
    have h1 : ∀ z ∈ placedAt slow.proxyB slow.xfB, (1 / 4 : ℚ) ≤ dot ⟨0, 1⟩ z := by decide +kernel
    have h2 : ∀ z ∈ placedAt slow.proxyA slow.xfA, (0 : ℚ) ≤ dot ⟨0, -1⟩ z := by decide +kernel
    have k1 := hull_ge h1 hy
    have k2 := hull_ge h2 hx
    simp only [dot] at k1 k2
    have k3 : 1 / 4 ≤ y.y - x.y := by linarith
    simp only [dist2]
    nlinarith [mul_self_nonneg (x.x - y.x)]
  · intro _
    have e0 : (Simplex.zero : Simplex ℚ).readCache cold slow.proxyA slow.proxyB slow.xfA slow.xfB = some slow0 := by
      have e1 : (Simplex.zero : Simplex ℚ).fill cold slow.proxyA slow.proxyB slow.xfA slow.xfB = some Simplex.zero := rfl
      have e2 : (Simplex.zero : Simplex ℚ).flush cold.metric = some Simplex.zero := rfl
      have e3 : makeVertex slow.proxyA slow.proxyB slow.xfA slow.xfB (0, 0) 1 = some ⟨⟨0, 0⟩, ⟨-1 / 3, 13 / 36⟩, ⟨-1 / 3, 13 / 36⟩, 1, 0, 0⟩ := by
        have : (makeVertex slow.proxyA slow.proxyB slow.xfA slow.xfB (0, 0) 1).map (fun v => (v.wA, v.wB, v.w, v.a, v.indexA, v.indexB)) =
          some (⟨0, 0⟩, ⟨-1 / 3, 13 / 36⟩, ⟨-1 / 3, 13 / 36⟩, 1, 0, 0) := by decide +kernel
        obtain ⟨v, ev, hv⟩ := Option.map_eq_some_iff.mp this
        rw [ev]
        simp only [Prod.mk.injEq] at hv
        obtain ⟨h1, h2, h3, h4, h5, h6⟩ := hv
        cases v
        simp only at h1 h2 h3 h4 h5 h6
        rw [h1, h2, h3, h4, h5, h6]
      simp only [Simplex.readCache, e1, e2, e3, Option.bind_eq_bind, Option.bind_some]
      rfl
    have key : ((gjkLoop slow.proxyA slow.proxyB slow.xfA slow.xfB gjkMaxIters 0 slow0).map fun x => decide (x.1.count = 3)) = some true := by decide +kernel
    obtain ⟨⟨s, iter⟩, e1, h3⟩ := Option.map_eq_some_iff.mp key
    have h3 := of_decide_eq_true h3
    dsimp only at h3
    unfold distance
    simp only [e0, e1, Option.bind_eq_bind, Option.bind_some, Simplex.witness, Simplex.writeCache, Simplex.metric, h3]
    exact ⟨_, _, rfl, rfl⟩

end
end B2.Props
