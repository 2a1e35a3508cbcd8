import Verif.Proofs.Distance
import Mathlib.Algebra.Order.Group.Abs
import Mathlib.Algebra.Order.AbsoluteValue.Basic

/-! Proofs about the time of impact. -/
namespace B2
set_option linter.unusedSectionVars false
open Spec

section
variable {F : Type} [Field F] [LinearOrder F] [IsStrictOrderedRing F]

/-! ## Root finder -/

theorem rootLoop_spec {eval : F → Option F} (he : ∀ t, ∃ s, eval t = some s) {target tol : F} (htol : 0 < tol) :
    ∀ (n k : Nat) (a1 a2 s1 s2 : F), a1 ≤ a2 → target < s1 → s2 < target →
    ∃ r, rootLoop eval target tol n k a1 a2 s1 s2 = some r ∧ ∀ t, r = some t → a1 ≤ t ∧ t ≤ a2 ∧ ∃ s, eval t = some s ∧ |s - target| < tol
  | 0, k, a1, a2, s1, s2, _, _, _ => ⟨none, rfl, fun t e => by cases e⟩
  | n + 1, k, a1, a2, s1, s2, h, h1, h2 => by
    unfold rootLoop
    have ht : ∀ t, t = (if k % 2 = 1 then a1 + (target - s1) * (a2 - a1) / (s2 - s1) else 1 / 2 * (a1 + a2)) → a1 ≤ t ∧ t ≤ a2 := by
      intro t e
      by_cases hk : k % 2 = 1
      · rw [if_pos hk] at e
        have hd : 0 < s1 - s2 := by linarith
        have hr : (target - s1) * (a2 - a1) / (s2 - s1) = (s1 - target) * (a2 - a1) / (s1 - s2) := by
          rw [div_eq_div_iff (by intro h0; linarith) hd.ne']
          ring
        rw [hr] at e
        have q1 : 0 ≤ (s1 - target) * (a2 - a1) / (s1 - s2) := div_nonneg (mul_nonneg (by linarith) (by linarith)) hd.le
        have q2 : (s1 - target) * (a2 - a1) / (s1 - s2) ≤ a2 - a1 := by
          rw [div_le_iff₀ hd, mul_comm]
          exact mul_le_mul_of_nonneg_left (by linarith) (by linarith)
        exact ⟨by linarith, by linarith⟩
      · rw [if_neg hk] at e
        exact ⟨by linarith, by linarith⟩
    obtain ⟨b1, b2⟩ := ht _ rfl
    generalize (if k % 2 = 1 then a1 + (target - s1) * (a2 - a1) / (s2 - s1) else 1 / 2 * (a1 + a2)) = t at *
    obtain ⟨s, hs⟩ := he t
    simp only [hs, Option.bind_eq_bind, Option.bind_some]
    by_cases c1 : |s - target| < tol
    · rw [if_pos c1]
      exact ⟨some t, rfl, fun t' e => by cases e; exact ⟨b1, b2, s, hs, c1⟩⟩
    · rw [if_neg c1]
      by_cases c2 : s > target
      · rw [if_pos c2]
        obtain ⟨r, er, hr⟩ := rootLoop_spec he htol n (k + 1) t a2 s s2 b2 c2 h2
        exact ⟨r, er, fun t' e => ⟨b1.trans (hr t' e).1, (hr t' e).2⟩⟩
      · rw [if_neg c2]
        have c3 : s < target := by
          rcases (not_lt.mp c2).lt_or_eq with c3 | c3
          · exact c3
          · exact absurd (by rw [c3]; simpa using htol) c1
        obtain ⟨r, er, hr⟩ := rootLoop_spec he htol n (k + 1) a1 t s1 s b1 h1 c3
        exact ⟨r, er, fun t' e => ⟨(hr t' e).1, (hr t' e).2.1.trans b2, (hr t' e).2.2⟩⟩

variable [Elem F]

/-! ## Separation functions -/

/-- The indices that `sepEval` reads are in range. -/
def IndexOk (f : SepFn F) (i : ToiInput F) (ij : Nat × Nat) : Prop :=
  (f.type ≠ .faceB → ij.2 < i.proxyB.vertices.length) ∧ (f.type ≠ .faceA → ij.1 < i.proxyA.vertices.length)

theorem sepEval_total {f : SepFn F} {i : ToiInput F} {ij : Nat × Nat} (h : IndexOk f i ij) (t : F) : ∃ s, sepEval f i ij.1 ij.2 t = some s := by
  unfold sepEval Proxy.vertex
  obtain ⟨h1, h2⟩ := h
  cases e : f.type with
  | points =>
    simp only [List.getElem?_eq_getElem (h1 (by simp [e])), List.getElem?_eq_getElem (h2 (by simp [e])), Option.bind_eq_bind, Option.bind_some]
    exact ⟨_, rfl⟩
  | faceA =>
    simp only [List.getElem?_eq_getElem (h1 (by simp [e])), Option.bind_eq_bind, Option.bind_some]
    exact ⟨_, rfl⟩
  | faceB =>
    simp only [List.getElem?_eq_getElem (h2 (by simp [e])), Option.bind_eq_bind, Option.bind_some]
    exact ⟨_, rfl⟩

theorem sub_mulV (x : Xf F) (a b : Vec2 F) : x.mulV a - x.mulV b = x.q.mulV (a - b) := by
  ext <;> simp only [Xf.mulV, Rot.mulV, Vec2.sub_x, Vec2.sub_y] <;> ring

/-- The indices found have the least separation. -/
theorem sepMin_spec {f : SepFn F} {i : ToiInput F} (hA : i.proxyA.vertices ≠ []) (hB : i.proxyB.vertices ≠ []) (t : F) :
    ∃ ij s, sepMin f i t = some (ij, s) ∧ IndexOk f i ij ∧ sepEval f i ij.1 ij.2 t = some s ∧
      ∀ (jA jB : Nat) (s' : F), sepEval f i jA jB t = some s' → s ≤ s' := by
  have key : ∃ ij, sepIndices f i t = some ij ∧ IndexOk f i ij ∧ ∀ s, sepEval f i ij.1 ij.2 t = some s →
      ∀ (jA jB : Nat) (s' : F), sepEval f i jA jB t = some s' → s ≤ s' := by
    unfold sepIndices sepEval IndexOk Proxy.vertex
    cases e : f.type with
    | points =>
      obtain ⟨iA, wA, a1, a2, a3⟩ := support_spec hA ((i.sweepA.getTransform t).q.mulTV f.axis)
      obtain ⟨iB, wB, b1, b2, b3⟩ := support_spec hB ((i.sweepB.getTransform t).q.mulTV (-f.axis))
      simp only [a1, b1, Option.bind_eq_bind, Option.bind_some]
      refine ⟨(iA, iB), rfl, ⟨fun _ => (List.getElem?_eq_some_iff.mp b2).1, fun _ => (List.getElem?_eq_some_iff.mp a2).1⟩, ?_⟩
      intro s hs jA jB s' hs'
      simp only [a2, b2, Option.bind_eq_some_iff, Option.bind_some] at hs hs'
      obtain ⟨lA, c1, lB, c2, c3⟩ := hs'
      cases hs
      cases c3
      have k1 := a3 lA (List.mem_of_getElem? c1)
      have k2 := b3 lB (List.mem_of_getElem? c2)
      rw [dot_mulTV, dot_mulTV] at k1 k2
      simp only [dot, Rot.mulV, Xf.mulV, Vec2.sub_x, Vec2.sub_y, Vec2.neg_x, Vec2.neg_y] at *
      linarith
    | faceA =>
      obtain ⟨iB, wB, b1, b2, b3⟩ := support_spec hB ((i.sweepB.getTransform t).q.mulTV (-((i.sweepA.getTransform t).q.mulV f.axis)))
      simp only [b1, Option.bind_eq_bind, Option.bind_some]
      refine ⟨(0, iB), rfl, ⟨fun _ => (List.getElem?_eq_some_iff.mp b2).1, fun h => absurd rfl h⟩, ?_⟩
      intro s hs jA jB s' hs'
      simp only [b2, Option.bind_eq_some_iff, Option.bind_some] at hs hs'
      obtain ⟨lB, c2, c3⟩ := hs'
      cases hs
      cases c3
      have k2 := b3 lB (List.mem_of_getElem? c2)
      rw [dot_mulTV, dot_mulTV] at k2
      generalize (i.sweepA.getTransform t).q.mulV f.axis = n at *
      simp only [dot, Rot.mulV, Xf.mulV, Vec2.sub_x, Vec2.sub_y, Vec2.neg_x, Vec2.neg_y] at *
      linarith
    | faceB =>
      obtain ⟨iA, wA, b1, b2, b3⟩ := support_spec hA ((i.sweepA.getTransform t).q.mulTV (-((i.sweepB.getTransform t).q.mulV f.axis)))
      simp only [b1, Option.bind_eq_bind, Option.bind_some]
      refine ⟨(iA, 0), rfl, ⟨fun h => absurd rfl h, fun _ => (List.getElem?_eq_some_iff.mp b2).1⟩, ?_⟩
      intro s hs jA jB s' hs'
      simp only [b2, Option.bind_eq_some_iff, Option.bind_some] at hs hs'
      obtain ⟨lB, c2, c3⟩ := hs'
      cases hs
      cases c3
      have k2 := b3 lB (List.mem_of_getElem? c2)
      rw [dot_mulTV, dot_mulTV] at k2
      generalize (i.sweepB.getTransform t).q.mulV f.axis = n at *
      simp only [dot, Rot.mulV, Xf.mulV, Vec2.sub_x, Vec2.sub_y, Vec2.neg_x, Vec2.neg_y] at *
      linarith
  obtain ⟨ij, e1, ok, hm⟩ := key
  obtain ⟨s, es⟩ := sepEval_total ok t
  exact ⟨ij, s, by simp only [sepMin, e1, es, Option.bind_eq_bind, Option.bind_some]; rfl, ok, es, hm s es⟩

/-! ## The inner loop -/

/-- What the inner loop comes to on the axis `f`: times stay in range; "separated" is reported only if the least separation at the end is
large; "touching" only if some separation at `t1` is small. -/
theorem pushLoop_spec {f : SepFn F} {i : ToiInput F} (hA : i.proxyA.vertices ≠ []) (hB : i.proxyB.vertices ≠ []) {target tol t1 : F} (htol : 0 < tol)
    (ht1 : t1 ≤ i.tMax) : ∀ (n : Nat) (t2 : F), t1 ≤ t2 → t2 ≤ i.tMax →
    (t2 = i.tMax ∨ ∃ jA jB s, sepEval f i jA jB t2 = some s ∧ s < target + tol) →
    ∃ r, pushLoop f i target tol t1 n t2 = some r ∧ (∀ t, r = .advance t → t1 ≤ t ∧ t ≤ i.tMax ∧ (t = t1 ∨ ∃ ij s, sepMin f i t = some (ij, s) ∧ target - tol < s)) ∧
      ∀ o, r = .done o → o.state ≠ .overlapped ∧ (o.state = .separated → o.t = i.tMax ∧ ∃ ij s, sepMin f i i.tMax = some (ij, s) ∧ target + tol < s) ∧
        (o.state ≠ .separated → o.t = t1) ∧ (o.state = .touching → ∃ jA jB s, sepEval f i jA jB t1 = some s ∧ s ≤ target + tol)
  | 0, t2, _, _, _ => ⟨.advance t1, rfl, fun t e => by cases e; exact ⟨le_refl _, ht1, .inl rfl⟩, fun o e => by cases e⟩
  | n + 1, t2, h1, h2, h3 => by
    obtain ⟨ij, s2, e1, ok, es2, hm⟩ := sepMin_spec (f := f) hA hB t2
    obtain ⟨s1, es1⟩ := sepEval_total ok t1
    unfold pushLoop
    simp only [e1, Option.bind_eq_bind, Option.bind_some]
    by_cases c1 : s2 > target + tol
    · rw [if_pos c1]
      refine ⟨_, rfl, fun t e => (by cases e), fun o e => ?_⟩
      cases e
      refine ⟨by simp, fun _ => ⟨rfl, ?_⟩, fun h => absurd rfl h, fun h => by cases h⟩
      rcases h3 with h3 | ⟨jA, jB, s, hs, hlt⟩
      · rw [h3] at e1
        exact ⟨ij, s2, e1, c1⟩
      · have := hm jA jB s hs
        exact absurd c1 (not_lt.mpr (by linarith))
    · rw [if_neg c1]
      by_cases c2 : s2 > target - tol
      · rw [if_pos c2]
        exact ⟨_, rfl, fun t e => by cases e; exact ⟨h1, h2, .inr ⟨ij, s2, e1, c2⟩⟩, fun o e => by cases e⟩
      · rw [if_neg c2]
        simp only [es1, Option.bind_some]
        by_cases c3 : s1 < target - tol
        · rw [if_pos c3]
          refine ⟨_, rfl, fun t e => (by cases e), fun o e => ?_⟩
          cases e
          exact ⟨by simp, fun h => (by cases h), fun _ => rfl, fun h => (by cases h)⟩
        · rw [if_neg c3]
          by_cases c4 : s1 ≤ target + tol
          · rw [if_pos c4]
            refine ⟨_, rfl, fun t e => (by cases e), fun o e => ?_⟩
            cases e
            exact ⟨by simp, fun h => (by cases h), fun _ => rfl, fun _ => ⟨_, _, s1, es1, c4⟩⟩
          · rw [if_neg c4]
            obtain ⟨r, er, hr⟩ := rootLoop_spec (target := target) (sepEval_total ok) htol maxRootIters 0 t1 t2 s1 s2 h1 (by have := not_le.mp c4; linarith) (by have := not_lt.mp c2; linarith)
            simp only [er, Option.bind_some]
            cases r with
            | none => exact pushLoop_spec hA hB htol ht1 n t2 h1 h2 h3
            | some t =>
              obtain ⟨k1, k2, s, k3, k4⟩ := hr t rfl
              refine pushLoop_spec hA hB htol ht1 n t k1 (k2.trans h2) (.inr ⟨_, _, s, k3, ?_⟩)
              have := (abs_lt.mp k4).2
              linarith

end

/-! ## Axes -/

section
variable {F : Type} [Field F] [LinearOrder F] [IsStrictOrderedRing F] [Elem F]

/-- What a distance query without radii leaves behind. -/
theorem distance_simplex {c c' : Cache F} {i : DistanceInput F} {o : DistanceOutput F} (hA : i.proxyA.vertices ≠ []) (hB : i.proxyB.vertices ≠ [])
    (hc : CacheFits c i.proxyA.vertices.length i.proxyB.vertices.length) (hr : i.useRadii = false) (h : distance c i = some (o, c')) :
    ∃ s : Simplex F, (∀ u ∈ s.slots, Slot i.proxyA i.proxyB i.xfA i.xfB u) ∧ (1 ≤ s.count ∧ s.count ≤ 3) ∧ s.witness = some (o.pointA, o.pointB) ∧
      o.distance = distanceV o.pointA o.pointB ∧ c'.count = s.count ∧ c'.i0 = s.v0.u8 ∧ (1 < s.count → c'.i1 = s.v1.u8) ∧
      (o.iterations < 20 → ∃ v, Solved s v) := by
  obtain ⟨s0, e0, c0, h0⟩ := readCache_spec (xA := i.xfA) (xB := i.xfB) hA hB (Simplex.zero : Simplex F) hc
  obtain ⟨s, iter, e1, _, h1, c1, hs, hst⟩ := gjkLoop_spec (xA := i.xfA) (xB := i.xfB) hA hB gjkMaxIters 0 s0 c0 h0
  obtain ⟨m, hm⟩ := metric_total c1
  obtain ⟨p, e2⟩ : ∃ p, s.witness = some p := by
    unfold Simplex.witness
    have : s.count = 1 ∨ s.count = 2 ∨ s.count = 3 := by omega
    rcases this with e | e | e <;> rw [e] <;> exact ⟨_, rfl⟩
  simp only [distance, e0, e1, e2, Simplex.writeCache, hm, Option.bind_eq_bind, Option.bind_some, hr, Option.pure_def, Option.some.injEq, Prod.mk.injEq] at h
  obtain ⟨rfl, rfl⟩ := h
  refine ⟨s, hs, c1, e2, rfl, rfl, if_pos (by omega), fun h => if_pos h, fun hlt => ?_⟩
  obtain ⟨v, hv, _⟩ := hst (by simpa [gjkMaxIters] using hlt)
  exact ⟨v, hv⟩

theorem length_zero [ElemLaws F] : (⟨0, 0⟩ : Vec2 F).length = 0 := by
  have := length_sq (⟨0, 0⟩ : Vec2 F)
  simp only [dot, mul_zero, add_zero] at this
  exact mul_self_eq_zero.mp this

/-- A distance that is not zero leaves a point or a segment in the cache. -/
theorem distance_count [ElemLaws F] {c c' : Cache F} {i : DistanceInput F} {o : DistanceOutput F} (hA : i.proxyA.vertices ≠ []) (hB : i.proxyB.vertices ≠ [])
    (hc : CacheFits c i.proxyA.vertices.length i.proxyB.vertices.length) (hr : i.useRadii = false) (h : distance c i = some (o, c')) (hd : ¬ o.distance ≤ 0) :
    0 < c'.count ∧ c'.count < 3 := by
  obtain ⟨s, _, h1, h2, h3, h4, _⟩ := distance_simplex hA hB hc hr h
  rw [h4]
  refine ⟨by omega, ?_⟩
  by_contra hn
  have e : s.count = 3 := by omega
  apply hd
  unfold Simplex.witness at h2
  rw [e] at h2
  simp only [Option.some.injEq, Prod.mk.injEq] at h2
  rw [h3, ← h2.1, ← h2.2]
  have : ∀ p : Vec2 F, distanceV p p = 0 := by
    intro p
    have e : p - p = (⟨0, 0⟩ : Vec2 F) := by ext <;> simp
    rw [distanceV, e, length_zero]
  exact (this _).le

theorem sepInit_total {c : Cache F} {i : ToiInput F} (h : 0 < c.count ∧ c.count < 3) (hc : CacheFits c i.proxyA.vertices.length i.proxyB.vertices.length)
    (t : F) : ∃ f, sepInit c i t = some f := by
  unfold sepInit Proxy.vertex
  dsimp only
  rw [if_pos h]
  obtain ⟨_, h0, h1, _⟩ := hc
  have a0 := h0 h.1
  by_cases e : c.count = 1
  · rw [if_pos e]
    simp only [List.getElem?_eq_getElem a0.1, List.getElem?_eq_getElem a0.2, Option.bind_eq_bind, Option.bind_some]
    exact ⟨_, rfl⟩
  · rw [if_neg e]
    have a1 := h1 (by omega)
    by_cases e' : c.i0.1 = c.i1.1
    · rw [if_pos e']
      simp only [List.getElem?_eq_getElem a0.1, List.getElem?_eq_getElem a0.2, List.getElem?_eq_getElem a1.2, Option.bind_eq_bind, Option.bind_some]
      exact ⟨_, rfl⟩
    · rw [if_neg e']
      simp only [List.getElem?_eq_getElem a0.1, List.getElem?_eq_getElem a0.2, List.getElem?_eq_getElem a1.1, Option.bind_eq_bind, Option.bind_some]
      exact ⟨_, rfl⟩

/-- The axis has length one, and a face that the axis is taken from has its shape behind it. -/
def AxisOk (f : SepFn F) (i : ToiInput F) : Prop :=
  dot f.axis f.axis = 1 ∧ (f.type = .faceA → ∀ a ∈ i.proxyA.vertices, dot (a - f.localPoint) f.axis ≤ 0) ∧
    (f.type = .faceB → ∀ b ∈ i.proxyB.vertices, dot (b - f.localPoint) f.axis ≤ 0)

theorem dot_comm' (a b : Vec2 F) : dot a b = dot b a := by simp only [dot]; ring

theorem dist2_comm' (a b : Vec2 F) : dist2 a b = dist2 b a := by simp only [dist2]; ring

theorem rot_dot {q : Rot F} (h : q.s * q.s + q.c * q.c = 1) (a b : Vec2 F) : dot (q.mulV a) (q.mulV b) = dot a b := by
  simp only [dot, Rot.mulV]
  linear_combination (a.x * b.x + a.y * b.y) * h

theorem sweep_rot [ElemLaws F] (s : Sweep F) (t : F) : (s.getTransform t).q.s * (s.getTransform t).q.s + (s.getTransform t).q.c * (s.getTransform t).q.c = 1 :=
  ElemLaws.sin_cos _

/-- The least separation on an axis is a distance of all points of the shapes in one direction. -/
theorem axis_plane [ElemLaws F] {f : SepFn F} {i : ToiInput F} (hA : i.proxyA.vertices ≠ []) (hB : i.proxyB.vertices ≠ []) (h : AxisOk f i) {t : F}
    {ij : Nat × Nat} {s : F} (hs : sepMin f i t = some (ij, s)) :
    ∃ N : Vec2 F, dot N N = 1 ∧ ∀ x y, HullA i t x → HullB i t y → s ≤ dot N (y - x) := by
  obtain ⟨ij', s', e, _, _, hm⟩ := sepMin_spec (f := f) hA hB t
  rw [hs] at e
  cases e
  obtain ⟨hu, hfA, hfB⟩ := h
  cases e : f.type with
  | points =>
    refine ⟨f.axis, hu, fun x y hx hy => ?_⟩
    refine diff_ge (pA := i.proxyA) (pB := i.proxyB) (fun z hz => ?_) hx hy
    obtain ⟨lA, h1, lB, h2, rfl⟩ := hz
    obtain ⟨jA, e1⟩ := List.mem_iff_getElem?.mp h1
    obtain ⟨jB, e2⟩ := List.mem_iff_getElem?.mp h2
    have := hm jA jB _ (by unfold sepEval Proxy.vertex; rw [e]; simp only [e1, e2, Option.bind_eq_bind, Option.bind_some]; rfl)
    rw [dot_comm'] at this
    exact this
  | faceA =>
    have hq := sweep_rot i.sweepA t
    refine ⟨(i.sweepA.getTransform t).q.mulV f.axis, by rw [rot_dot hq, hu], fun x y hx hy => ?_⟩
    refine diff_ge (pA := i.proxyA) (pB := i.proxyB) (fun z hz => ?_) hx hy
    obtain ⟨lA, h1, lB, h2, rfl⟩ := hz
    obtain ⟨jB, e2⟩ := List.mem_iff_getElem?.mp h2
    have k1 := hm 0 jB _ (by unfold sepEval Proxy.vertex; rw [e]; simp only [e2, Option.bind_eq_bind, Option.bind_some]; rfl)
    have k2 := hfA e lA h1
    rw [← rot_dot hq, ← sub_mulV] at k2
    rw [place_mulV, place_mulV]
    generalize (i.sweepA.getTransform t).q.mulV f.axis = n at *
    simp only [dot, Vec2.sub_x, Vec2.sub_y] at *
    linarith
  | faceB =>
    have hq := sweep_rot i.sweepB t
    refine ⟨-(i.sweepB.getTransform t).q.mulV f.axis, ?_, fun x y hx hy => ?_⟩
    · have : ∀ a : Vec2 F, dot (-a) (-a) = dot a a := by intro a; simp only [dot, Vec2.neg_x, Vec2.neg_y]; ring
      rw [this, rot_dot hq, hu]
    refine diff_ge (pA := i.proxyA) (pB := i.proxyB) (fun z hz => ?_) hx hy
    obtain ⟨lA, h1, lB, h2, rfl⟩ := hz
    obtain ⟨jA, e1⟩ := List.mem_iff_getElem?.mp h1
    have k1 := hm jA 0 _ (by unfold sepEval Proxy.vertex; rw [e]; simp only [e1, Option.bind_eq_bind, Option.bind_some]; rfl)
    have k2 := hfB e lB h2
    rw [← rot_dot hq, ← sub_mulV] at k2
    rw [place_mulV, place_mulV]
    generalize (i.sweepB.getTransform t).q.mulV f.axis = n at *
    simp only [dot, Vec2.sub_x, Vec2.sub_y, Vec2.neg_x, Vec2.neg_y] at *
    linarith

/-- The closest point of a convex set is not exceeded in its own direction. -/
theorem closest_plane {i : ToiInput F} {t : F} {p q : Vec2 F} (hp : HullA i t p) (hq : HullB i t q)
    (hmin : ∀ x y, HullA i t x → HullB i t y → dist2 p q ≤ dist2 x y) {x y : Vec2 F} (hx : HullA i t x) (hy : HullB i t y) :
    dot (q - p) (q - p) ≤ dot (q - p) (y - x) := by
  by_contra hn
  have hn := not_le.mp hn
  -- `e` is the way from the closest difference to the other one
  set k : F := dot (q - p) (q - p) - dot (q - p) (y - x) with hk
  have hk0 : 0 < k := by linarith
  set e : F := dot ((y - x) - (q - p)) ((y - x) - (q - p)) with he
  have he0 : 0 ≤ e := dot_self_nonneg _
  obtain ⟨r, r0, r1, r2⟩ : ∃ r : F, 0 < r ∧ r ≤ 1 ∧ r * e ≤ k := by
    by_cases hle : e ≤ k
    · exact ⟨1, one_pos, le_refl _, by linarith⟩
    · have hle := not_le.mp hle
      have h0 : 0 < e := lt_trans hk0 hle
      exact ⟨k / e, div_pos hk0 h0, (div_le_one h0).mpr hle.le, by rw [div_mul_cancel₀ _ h0.ne']⟩
  have h1 := hmin _ _ (.between hp hx r0.le r1) (.between hq hy r0.le r1)
  have h2 : dist2 (onLine p x r) (onLine q y r) = dist2 p q - 2 * r * k + r * r * e := by
    rw [hk, he]
    simp only [dist2, onLine, dot, Vec2.sub_x, Vec2.sub_y]
    ring
  rw [h2] at h1
  have h3 : 0 < r * k := mul_pos r0 hk0
  have h4 : r * (r * e) ≤ r * k := mul_le_mul_of_nonneg_left r2 r0.le
  nlinarith

/-- The normal of a face, turned away from its shape, when the face is orthogonal to the closest difference `v`. -/
theorem face_axis [ElemLaws F] {v : Vec2 F} {D : F} (hD : 0 < D) (hvv : dot v v = D * D) {q : Rot F} {e z ax : Vec2 F} (hq : q.s * q.s + q.c * q.c = 1)
    (he : epsilon * epsilon ≤ dot e e) (hve : dot v (q.mulV e) = 0) (hz : dot v v ≤ dot v z)
    (hax : ax = if dot z (q.mulV (crossVS e 1).normalize.1) < 0 then -(crossVS e 1).normalize.1 else (crossVS e 1).normalize.1) :
    dot ax ax = 1 ∧ v = D * q.mulV ax := by
  have hel : ¬ (crossVS e 1).length < epsilon := by
    intro hlt
    have h1 := length_sq (crossVS e 1)
    have h2 : dot (crossVS e 1) (crossVS e 1) = dot e e := by simp only [dot, crossVS]; ring
    have h3 := length_nonneg (crossVS e 1)
    have h4 := eps_pos (F := F)
    nlinarith
  obtain ⟨n1, n2, n3⟩ := normalize_spec hel
  set n := (crossVS e 1).normalize.1 with hn
  -- `v` is a multiple of the rotated normal
  have hen : e = (crossVS e 1).length * crossSV 1 n := by
    have hx := congrArg Vec2.x n2
    have hy := congrArg Vec2.y n2
    simp only [crossVS, Vec2.smul_x, Vec2.smul_y] at hx hy
    ext <;> simp only [crossSV, Vec2.smul_x, Vec2.smul_y, crossVS]
    · linear_combination -hy
    · linear_combination hx
  have hperp : dot v (q.mulV (crossSV 1 n)) = 0 := by
    have : dot v (q.mulV e) = (crossVS e 1).length * dot v (q.mulV (crossSV 1 n)) := by
      conv_lhs => rw [hen]
      simp only [dot, Rot.mulV, Vec2.smul_x, Vec2.smul_y]
      ring
    rw [this] at hve
    exact (mul_eq_zero.mp hve).resolve_left n3.ne'
  have hmul : v = dot v (q.mulV n) * q.mulV n := by
    have hm1 := rot_dot hq n n
    rw [n1] at hm1
    ext
    · simp only [Vec2.smul_x]
      simp only [dot, Rot.mulV, crossSV] at *
      linear_combination (-v.x) * hm1 + (-(q.s * n.x + q.c * n.y)) * hperp
    · simp only [Vec2.smul_y]
      simp only [dot, Rot.mulV, crossSV] at *
      linear_combination (-v.y) * hm1 + (q.c * n.x - q.s * n.y) * hperp
  have hsq : dot v (q.mulV n) * dot v (q.mulV n) = D * D := by
    rw [← hvv]
    conv_rhs => rw [hmul]
    have hm1 := rot_dot hq n n
    rw [n1] at hm1
    generalize dot v (q.mulV n) = k at *
    simp only [dot, Vec2.smul_x, Vec2.smul_y] at *
    linear_combination (-k * k) * hm1
  have hzn : dot v z = dot v (q.mulV n) * dot z (q.mulV n) := by
    conv_lhs => rw [hmul]
    generalize dot v (q.mulV n) = k at *
    simp only [dot, Vec2.smul_x, Vec2.smul_y]
    ring
  have hpos : 0 < dot v (q.mulV n) * dot z (q.mulV n) := by rw [← hzn]; rw [hvv] at hz; nlinarith
  have hneg : q.mulV (-n) = -q.mulV n := by
    ext <;> simp only [Rot.mulV, Vec2.neg_x, Vec2.neg_y] <;> ring
  by_cases hlt : dot z (q.mulV n) < 0
  · rw [if_pos hlt] at hax
    have hk : dot v (q.mulV n) < 0 := by
      by_contra hk
      nlinarith [not_lt.mp hk]
    have hD' : dot v (q.mulV n) = -D := by
      rcases mul_self_eq_mul_self_iff.mp hsq with e | e
      · linarith
      · exact e
    rw [hax]
    refine ⟨by rw [← n1]; simp only [dot, Vec2.neg_x, Vec2.neg_y]; ring, ?_⟩
    rw [hneg]
    conv_lhs => rw [hmul, hD']
    ext <;> simp only [Vec2.smul_x, Vec2.smul_y, Vec2.neg_x, Vec2.neg_y] <;> ring
  · rw [if_neg hlt] at hax
    have hk : 0 < dot v (q.mulV n) := by
      by_contra hk
      nlinarith [not_lt.mp hk, not_lt.mp hlt]
    have hD' : dot v (q.mulV n) = D := by
      rcases mul_self_eq_mul_self_iff.mp hsq with e | e
      · exact e
      · linarith
    rw [hax]
    refine ⟨n1, ?_⟩
    conv_lhs => rw [hmul, hD']

theorem along_axis {v u z : Vec2 F} {D : F} (hD : 0 < D) (hvv : dot v v = D * D) (hvu : v = D * u) (hz : dot v v ≤ dot v z) : D ≤ dot z u := by
  have e1 : dot v z = D * dot z u := by
    rw [hvu]; simp only [dot, Vec2.smul_x, Vec2.smul_y]; ring
  rw [e1, hvv] at hz
  exact le_of_mul_le_mul_left hz hD

theorem behind_axis {v u z : Vec2 F} {D : F} (hD : 0 < D) (hvu : v = D * u) (hz : dot v z ≤ 0) : dot z u ≤ 0 := by
  have e1 : dot v z = D * dot z u := by
    rw [hvu]; simp only [dot, Vec2.smul_x, Vec2.smul_y]; ring
  rw [e1] at hz
  by_contra h
  nlinarith [mul_pos hD (not_le.mp h)]

/-- The axis made from the closest points: it is a unit vector with the shapes on either side, and all separations on it are at least the distance. -/
theorem sepInit_good [ElemLaws F] {c c' : Cache F} {i : ToiInput F} {t : F} {o : DistanceOutput F} {f : SepFn F} (hA : i.proxyA.vertices ≠ [])
    (hB : i.proxyB.vertices ≠ []) (vA : VerticesApart i.proxyA) (vB : VerticesApart i.proxyB)
    (hc : CacheFits c i.proxyA.vertices.length i.proxyB.vertices.length) (h : distance c (queryAt i t) = some (o, c')) (hit : o.iterations < 20)
    (hmin : ∀ x y, HullA i t x → HullB i t y → dist2 o.pointA o.pointB ≤ dist2 x y) (hd : epsilon ≤ o.distance) (hf : sepInit c' i t = some f) :
    AxisOk f i ∧ ∀ (jA jB : Nat) (s : F), sepEval f i jA jB t = some s → o.distance ≤ s := by
  obtain ⟨s, hs, hcount, hw, hdist, ec, ei0, ei1, hsol⟩ := distance_simplex hA hB hc rfl h
  obtain ⟨v, hv⟩ := hsol hit
  obtain ⟨p, ew, hpA, hpB, hpv⟩ := witness_spec hv hs
  rw [hw] at ew
  cases ew
  dsimp only [queryAt] at hs hpA hpB hpv
  set xA := i.sweepA.getTransform t with hxA
  set xB := i.sweepB.getTransform t with hxB
  have hqA : xA.q.s * xA.q.s + xA.q.c * xA.q.c = 1 := sweep_rot i.sweepA t
  have hqB : xB.q.s * xB.q.s + xB.q.c * xB.q.c = 1 := sweep_rot i.sweepB t
  -- every difference of vertices is beyond the plane through the closest one
  have plane : ∀ a ∈ i.proxyA.vertices, ∀ b ∈ i.proxyB.vertices, dot v v ≤ dot v (xB.mulV b - xA.mulV a) := by
    intro a ha b hb
    have := closest_plane (i := i) (t := t) hpA hpB hmin (x := xA.mulV a) (y := xB.mulV b) (.vertex (List.mem_map.mpr ⟨a, ha, rfl⟩)) (.vertex (List.mem_map.mpr ⟨b, hb, rfl⟩))
    rwa [hpv] at this
  have hlen : v.length = o.distance := by
    rw [hdist, ← hpv, distanceV]
    unfold Vec2.length
    congr 1
    simp only [Vec2.sub_x, Vec2.sub_y]
    ring
  have hvv : dot v v = o.distance * o.distance := by rw [← hlen, length_sq]
  have hD : 0 < o.distance := lt_of_lt_of_le eps_pos hd
  -- the indices in the cache are those of the simplex
  have idx : ∀ u, Slot i.proxyA i.proxyB xA xB u → u.u8 = (u.indexA, u.indexB) := by
    rintro u ⟨lA, lB, h1, h2, _⟩
    have b1 := (List.getElem?_eq_some_iff.mp h1).1
    have b2 := (List.getElem?_eq_some_iff.mp h2).1
    have := vA.1
    have := vB.1
    simp only [SimplexVertex.u8]
    rw [Nat.mod_eq_of_lt (by omega), Nat.mod_eq_of_lt (by omega)]
  have s0 : s.v0 ∈ s.slots := by
    obtain ⟨k, hk⟩ : ∃ k, s.count = k + 1 := ⟨s.count - 1, by omega⟩
    simp [Simplex.slots, hk]
  have z0 := hs _ s0
  rw [idx _ z0] at ei0
  obtain ⟨lA0, lB0, g1, g2, g3, g4, g5⟩ := z0
  rcases hv with ⟨e1, hv⟩ | ⟨e2, a1, a2, a3, hv, hperp, hne⟩ | ⟨e3, _, _, _, _, hz, _⟩
  · -- a point
    unfold sepInit Proxy.vertex at hf
    rw [ec, e1] at hf
    simp only [ei0, g1, g2, Option.bind_eq_bind, Option.bind_some, Option.pure_def] at hf
    have hvw : xB.mulV lB0 - xA.mulV lA0 = v := by rw [hv, g5, g3, g4]
    rw [← hxA, ← hxB, hvw] at hf
    simp only [Nat.one_lt_ofNat, zero_lt_one, and_self, if_true, Option.some.injEq] at hf
    obtain ⟨n1, n2, _⟩ := normalize_spec (a := v) (by rw [hlen]; exact not_lt.mpr hd)
    subst hf
    refine ⟨⟨n1, fun h => (by cases h), fun h => (by cases h)⟩, ?_⟩
    intro jA jB s' hs'
    simp only [sepEval, Proxy.vertex, Option.bind_eq_bind, Option.bind_eq_some_iff, Option.pure_def, Option.some.injEq] at hs'
    obtain ⟨a, ha, b, hb, rfl⟩ := hs'
    exact along_axis hD hvv (by rw [hlen] at n2; exact n2) (plane a (List.mem_of_getElem? ha) b (List.mem_of_getElem? hb))
  · -- a segment
    have z1 := hs s.v1 (by simp [Simplex.slots, e2])
    have ei1 := ei1 (by omega)
    rw [idx _ z1] at ei1
    obtain ⟨lA1, lB1, k1, k2, k3, k4, k5⟩ := z1
    -- both ends of the segment are at the distance
    have w0 : dot v s.v0.w = dot v v ∧ dot v s.v1.w = dot v v := by
      have h1 : dot v v = s.v0.a * dot v s.v0.w + s.v1.a * dot v s.v1.w := by
        conv_lhs => rw [hv]
        rw [hv]; simp only [dot, Vec2.add_x, Vec2.add_y, Vec2.smul_x, Vec2.smul_y]; ring
      have h2 : dot v s.v1.w = dot v s.v0.w := by
        have : dot v (s.v1.w - s.v0.w) = dot v s.v1.w - dot v s.v0.w := by simp only [dot, Vec2.sub_x, Vec2.sub_y]; ring
        linarith
      rw [h2, ← add_mul, a3, one_mul] at h1
      exact ⟨h1.symm, by rw [h2]; exact h1.symm⟩
    rw [g5, g3, g4] at w0
    rw [k5, k3, k4] at w0
    have mA0 := List.mem_of_getElem? g1
    have mB0 := List.mem_of_getElem? g2
    have mA1 := List.mem_of_getElem? k1
    have mB1 := List.mem_of_getElem? k2
    have sd : ∀ a b : Vec2 F, dot v (a - b) = dot v a - dot v b := by intro a b; simp only [dot, Vec2.sub_x, Vec2.sub_y]; ring
    have half : ∀ (x : Xf F) (a b : Vec2 F), dot v (x.mulV ((1 / 2 : F) * (a + b))) = 1 / 2 * (dot v (x.mulV a) + dot v (x.mulV b)) := by
      intro x a b
      simp only [dot, Xf.mulV, Vec2.add_x, Vec2.add_y, Vec2.smul_x, Vec2.smul_y]
      ring
    unfold sepInit Proxy.vertex at hf
    rw [ec, e2] at hf
    simp only [ei0, ei1, g1, g2, k1, k2, Option.bind_eq_bind, Option.bind_some, Option.pure_def, Nat.zero_lt_two, OfNat.ofNat_ne_one, if_false] at hf
    rw [← hxA, ← hxB] at hf
    rw [if_pos (by simp)] at hf
    simp only [sd] at plane w0
    by_cases hi : s.v0.indexA = s.v1.indexA
    · -- a face of B
      rw [if_pos hi] at hf
      have hl : lA1 = lA0 := by rw [hi, k1] at g1; cases g1; rfl
      subst hl
      have hib : s.v0.indexB ≠ s.v1.indexB := by
        intro hb
        have : lB1 = lB0 := by rw [hb, k2] at g2; cases g2; rfl
        subst this
        rw [k5, g5, k3, k4, g3, g4] at hne
        simp only [dot, Vec2.sub_x, Vec2.sub_y, sub_self, mul_zero, add_zero, lt_irrefl] at hne
      have nd : ∀ z : Vec2 F, dot (-v) z = -dot v z := by intro z; simp only [dot, Vec2.neg_x, Vec2.neg_y]; ring
      have nn : dot (-v) (-v) = dot v v := by simp only [dot, Vec2.neg_x, Vec2.neg_y]; ring
      have hsp := vB.2 _ _ _ _ hib g2 k2
      obtain ⟨f1, f2⟩ := face_axis (v := -v) (e := lB1 - lB0) (z := xA.mulV lA1 - xB.mulV ((1 / 2 : F) * (lB0 + lB1))) hD (by rw [nn, hvv]) hqB
        (by rw [sub_dist2, dist2_comm']; exact hsp) (by rw [← sub_mulV, nd, sd]; linarith [w0.1, w0.2])
        (by rw [nn, nd, sd, half]; linarith [w0.1, w0.2]) rfl
      simp only [Option.some.injEq] at hf
      subst hf
      refine ⟨⟨f1, fun h => (by cases h), fun _ b hb => ?_⟩, ?_⟩
      · dsimp only
        rw [← rot_dot hqB, ← sub_mulV]
        refine behind_axis hD f2 ?_
        rw [nd, sd, half]
        have := plane _ mA1 b hb
        linarith [w0.1, w0.2]
      · intro jA jB s' hs'
        simp only [sepEval, Proxy.vertex, Option.bind_eq_bind, Option.bind_eq_some_iff, Option.pure_def, Option.some.injEq] at hs'
        obtain ⟨a, ha, rfl⟩ := hs'
        refine along_axis hD (by rw [nn, hvv]) f2 ?_
        rw [nn, nd, sd, half]
        have p1 := plane a (List.mem_of_getElem? ha) _ mB0
        have p2 := plane a (List.mem_of_getElem? ha) _ mB1
        linarith
    · -- a face of A
      rw [if_neg hi] at hf
      have hsp := vA.2 _ _ _ _ hi g1 k1
      have ex1 := plane _ mA0 _ mB1
      have ex2 := plane _ mA1 _ mB0
      obtain ⟨f1, f2⟩ := face_axis (v := v) (e := lA1 - lA0) (z := xB.mulV lB0 - xA.mulV ((1 / 2 : F) * (lA0 + lA1))) hD hvv hqA
        (by rw [sub_dist2, dist2_comm']; exact hsp) (by rw [← sub_mulV, sd]; linarith [w0.1, w0.2])
        (by rw [sd, half]; linarith [w0.1, w0.2]) rfl
      simp only [Option.some.injEq] at hf
      subst hf
      refine ⟨⟨f1, fun _ a ha => ?_, fun h => (by cases h)⟩, ?_⟩
      · dsimp only
        rw [← rot_dot hqA, ← sub_mulV]
        refine behind_axis hD f2 ?_
        rw [sd, half]
        have p1 := plane a ha _ mB0
        have p2 := plane a ha _ mB1
        linarith [w0.1, w0.2]
      · intro jA jB s' hs'
        simp only [sepEval, Proxy.vertex, Option.bind_eq_bind, Option.bind_eq_some_iff, Option.pure_def, Option.some.injEq] at hs'
        obtain ⟨b, hb, rfl⟩ := hs'
        refine along_axis hD hvv f2 ?_
        rw [sd, half]
        have p1 := plane _ mA0 b (List.mem_of_getElem? hb)
        have p2 := plane _ mA1 b (List.mem_of_getElem? hb)
        linarith
  · exfalso
    rw [hz] at hvv
    simp only [dot, mul_zero, add_zero] at hvv
    nlinarith

end
/-! ## The outer loop -/

section
variable {F : Type} [Field F] [LinearOrder F] [IsStrictOrderedRing F] [Elem F]

/-- Without rotation every separation is linear in time. -/
theorem sepEval_linear {f : SepFn F} {i : ToiInput F} (rA : i.sweepA.a0 = i.sweepA.a) (rB : i.sweepB.a0 = i.sweepB.a) {jA jB : Nat} {t1 t2 s1 s2 r s : F}
    (h1 : sepEval f i jA jB t1 = some s1) (h2 : sepEval f i jA jB t2 = some s2) (h : sepEval f i jA jB ((1 - r) * t1 + r * t2) = some s) :
    s = (1 - r) * s1 + r * s2 := by
  have xf : ∀ (w : Sweep F), w.a0 = w.a → ∀ t, w.getTransform t = ⟨((1 - t) * w.c0 + t * w.c) - (Rot.ofAngle w.a).mulV w.localCenter, Rot.ofAngle w.a⟩ := by
    intro w hw t
    have : (1 - t) * w.a0 + t * w.a = w.a := by rw [hw]; ring
    simp only [Sweep.getTransform, this]
  unfold sepEval at h1 h2 h
  simp only [xf _ rA, xf _ rB] at h1 h2 h
  cases e : f.type with
  | points =>
    rw [e] at h1 h2 h
    simp only [Option.bind_eq_bind, Option.bind_eq_some_iff, Option.pure_def, Option.some.injEq] at h1 h2 h
    obtain ⟨a, ha, b, hb, rfl⟩ := h
    obtain ⟨a', ha', b', hb', rfl⟩ := h1
    obtain ⟨a'', ha'', b'', hb'', rfl⟩ := h2
    rw [ha] at ha' ha''
    rw [hb] at hb' hb''
    cases ha'; cases ha''; cases hb'; cases hb''
    simp only [dot, Xf.mulV, Vec2.sub_x, Vec2.sub_y, Vec2.add_x, Vec2.add_y, Vec2.smul_x, Vec2.smul_y]
    ring
  | faceA =>
    rw [e] at h1 h2 h
    simp only [Option.bind_eq_bind, Option.bind_eq_some_iff, Option.pure_def, Option.some.injEq] at h1 h2 h
    obtain ⟨b, hb, rfl⟩ := h
    obtain ⟨b', hb', rfl⟩ := h1
    obtain ⟨b'', hb'', rfl⟩ := h2
    rw [hb] at hb' hb''
    cases hb'; cases hb''
    simp only [dot, Xf.mulV, Vec2.sub_x, Vec2.sub_y, Vec2.add_x, Vec2.add_y, Vec2.smul_x, Vec2.smul_y]
    ring
  | faceB =>
    rw [e] at h1 h2 h
    simp only [Option.bind_eq_bind, Option.bind_eq_some_iff, Option.pure_def, Option.some.injEq] at h1 h2 h
    obtain ⟨b, hb, rfl⟩ := h
    obtain ⟨b', hb', rfl⟩ := h1
    obtain ⟨b'', hb'', rfl⟩ := h2
    rw [hb] at hb' hb''
    cases hb'; cases hb''
    simp only [dot, Xf.mulV, Vec2.sub_x, Vec2.sub_y, Vec2.add_x, Vec2.add_y, Vec2.smul_x, Vec2.smul_y]
    ring

theorem farAt_of_min [ElemLaws F] {f : SepFn F} {i : ToiInput F} (hA : i.proxyA.vertices ≠ []) (hB : i.proxyB.vertices ≠ []) (h : AxisOk f i) {t d : F}
    {ij : Nat × Nat} {s : F} (hs : sepMin f i t = some (ij, s)) (h0 : 0 ≤ d) (hd : d < s) : FarAt i d t := by
  obtain ⟨N, hN, hp⟩ := axis_plane hA hB h hs
  intro x y hx hy
  have := far_of_dot hN h0 (lt_of_lt_of_le hd (hp x y hx hy))
  rwa [sub_dist2, dist2_comm'] at this

/-- Without rotation, shapes far apart on an axis at both ends of a span of time are far apart between. -/
theorem farAt_between [ElemLaws F] {f : SepFn F} {i : ToiInput F} (hA : i.proxyA.vertices ≠ []) (hB : i.proxyB.vertices ≠ []) (h : AxisOk f i)
    (rA : i.sweepA.a0 = i.sweepA.a) (rB : i.sweepB.a0 = i.sweepB.a) {t1 t2 d : F} (h0 : 0 ≤ d)
    (e1 : ∀ (jA jB : Nat) (s : F), sepEval f i jA jB t1 = some s → d < s) {ij : Nat × Nat} {s2 : F} (e2 : sepMin f i t2 = some (ij, s2)) (hd : d < s2)
    {t : F} (ht1 : t1 ≤ t) (ht2 : t ≤ t2) : FarAt i d t := by
  rcases ht1.eq_or_lt with rfl | hlt
  · obtain ⟨ij', s', k1, _, k2, _⟩ := sepMin_spec (f := f) hA hB t1
    exact farAt_of_min hA hB h k1 h0 (e1 _ _ _ k2)
  · have hw : 0 < t2 - t1 := by linarith
    obtain ⟨r, r0, r1, hr⟩ : ∃ r : F, 0 ≤ r ∧ r ≤ 1 ∧ t = (1 - r) * t1 + r * t2 := by
      refine ⟨(t - t1) / (t2 - t1), div_nonneg (by linarith) hw.le, (div_le_one hw).mpr (by linarith), ?_⟩
      have : (t - t1) / (t2 - t1) * (t2 - t1) = t - t1 := div_mul_cancel₀ _ hw.ne'
      linear_combination -this
    obtain ⟨ij', s', k1, ok, k2, _⟩ := sepMin_spec (f := f) hA hB t
    obtain ⟨u1, q1⟩ := sepEval_total ok t1
    obtain ⟨u2, q2⟩ := sepEval_total ok t2
    have hu1 := e1 _ _ _ q1
    have hu2 : d < u2 := by
      obtain ⟨ij'', s'', k3, _, _, hm⟩ := sepMin_spec (f := f) hA hB t2
      rw [e2] at k3
      cases k3
      exact lt_of_lt_of_le hd (hm _ _ _ q2)
    refine farAt_of_min hA hB h k1 h0 ?_
    rw [hr] at k2
    rw [sepEval_linear rA rB q1 q2 k2]
    rcases r0.eq_or_lt with rfl | hr0
    · simpa using hu1
    · nlinarith [mul_lt_mul_of_pos_left hu2 hr0, mul_le_mul_of_nonneg_left hu1.le (sub_nonneg.mpr r1)]

/-- What the search for the time of impact guarantees when distance queries are good. -/
structure ToiGood (i : ToiInput F) (target tol : F) (o : ToiOutput F) : Prop where
  separated : o.state = .separated → FarAt i (target + tol) i.tMax
  touching : o.state = .touching → NearAt i (target + tol) o.t
  overlapped : o.state = .overlapped → ∃ x, HullA i 0 x ∧ HullB i 0 x
  failed : o.state = .failed → FarAt i (target - tol) o.t ∨ o.t = 0
  before : i.sweepA.a0 = i.sweepA.a → i.sweepB.a0 = i.sweepB.a → ∀ t, 0 ≤ t → t < o.t → FarAt i (target - tol) t

theorem toiLoopGo_spec [ElemLaws F] {i : ToiInput F} {target tol : F} (hA : i.proxyA.vertices ≠ []) (hB : i.proxyB.vertices ≠ []) (htol : 0 < tol)
    (htt : tol < target) (heps : epsilon ≤ target) : ∀ (n : Nat) (t1 : F) (c : Cache F), 0 ≤ t1 → t1 ≤ i.tMax →
    CacheFits c i.proxyA.vertices.length i.proxyB.vertices.length →
    ∃ o, toiLoopGo i target tol n t1 c = some o ∧ 0 ≤ o.t ∧ o.t ≤ i.tMax ∧ (o.state = .separated → o.t = i.tMax) ∧ (o.state = .overlapped → o.t = 0) ∧
      (VerticesApart i.proxyA → VerticesApart i.proxyB → DistanceGood i → FarAt i (target - tol) t1 ∨ t1 = 0 →
        (i.sweepA.a0 = i.sweepA.a → i.sweepB.a0 = i.sweepB.a → ∀ t, 0 ≤ t → t < t1 → FarAt i (target - tol) t) → ToiGood i target tol o)
  | 0, t1, c, h0, h1, _ => ⟨_, rfl, h0, h1, fun h => (by cases h), fun h => (by cases h), fun _ _ _ hf hb =>
      ⟨fun h => (by cases h), fun h => (by cases h), fun h => (by cases h), fun _ => hf, hb⟩⟩
  | n + 1, t1, c, h0, h1, hc => by
    unfold toiLoopGo
    obtain ⟨p, iter, c', e1, _, hc', _⟩ := distance_core (i := queryAt i t1) hA hB hc
    simp only [queryAt, Bool.false_eq_true, if_false] at e1
    obtain ⟨o, ho⟩ : ∃ o : DistanceOutput F, o = ⟨p.1, p.2, distanceV p.1 p.2, iter⟩ := ⟨_, rfl⟩
    rw [← ho] at e1
    simp only [e1, Option.bind_eq_bind, Option.bind_some]
    have e1' : distance c (queryAt i t1) = some (o, c') := e1
    -- what the query says when queries are good
    have good : DistanceGood i → HullA i t1 o.pointA ∧ HullB i t1 o.pointB ∧ o.iterations < 20 ∧
        (epsilon ≤ o.distance → ∀ x y, HullA i t1 x → HullB i t1 y → dist2 o.pointA o.pointB ≤ dist2 x y) ∧ dist2 o.pointA o.pointB = o.distance * o.distance ∧ 0 ≤ o.distance := by
      intro hg
      obtain ⟨g1, g2⟩ := hg t1 c o c' h0 h1 hc e1'
      obtain ⟨s, hs, _, hw, hdist, _, _, _, hsol⟩ := distance_simplex (i := queryAt i t1) hA hB hc rfl e1'
      obtain ⟨v, hv⟩ := hsol g1
      obtain ⟨q, ew, hpA, hpB, _⟩ := witness_spec hv hs
      rw [hw] at ew
      cases ew
      have hsq : dist2 o.pointA o.pointB = o.distance * o.distance := by rw [hdist, distanceV, length_sq, sub_dist2]
      refine ⟨hpA, hpB, g1, fun hd => g2.resolve_right ?_, hsq, ?_⟩
      · rw [hsq]; exact not_lt.mpr (mul_self_le_mul_self eps_pos.le hd)
      · rw [hdist]; exact length_nonneg _
    by_cases c1 : o.distance ≤ 0
    · rw [if_pos c1]
      refine ⟨_, rfl, le_refl _, h0.trans h1, fun h => (by cases h), fun _ => rfl, fun _ _ hg hf _ => ⟨fun h => (by cases h), fun h => (by cases h), fun _ => ?_, fun h => (by cases h), ?_⟩⟩
      · obtain ⟨k1, k2, _, _, k3, k4⟩ := good hg
        have : o.distance = 0 := le_antisymm c1 k4
        rw [this, mul_zero] at k3
        have : o.pointA = o.pointB := by
          rw [← sub_dist2] at k3
          obtain ⟨x, y⟩ := dot_self_zero k3
          simp only [Vec2.sub_x, Vec2.sub_y] at x y
          ext <;> linarith
        rw [← this] at k2
        rcases hf with hf | rfl
        · have := hf _ _ k1 k2
          rw [show dist2 o.pointA o.pointA = 0 by simp [dist2]] at this
          exact absurd this (not_lt.mpr (mul_self_nonneg _))
        · exact ⟨o.pointA, k1, k2⟩
      · intro _ _ t ht ht'
        exact absurd ht' (not_lt.mpr ht)
    · rw [if_neg c1]
      by_cases c2 : o.distance < target + tol
      · rw [if_pos c2]
        refine ⟨_, rfl, h0, h1, fun h => (by cases h), fun h => (by cases h), fun _ _ hg _ hb => ⟨fun h => (by cases h), fun _ => ?_, fun h => (by cases h), fun h => (by cases h), hb⟩⟩
        obtain ⟨k1, k2, _, _, k3, k4⟩ := good hg
        exact ⟨_, _, k1, k2, by rw [k3]; exact mul_self_le_mul_self k4 c2.le⟩
      · rw [if_neg c2]
        have c2 := not_lt.mp c2
        obtain ⟨f, ef⟩ := sepInit_total (distance_count (i := queryAt i t1) hA hB hc rfl e1' c1) hc' t1
        obtain ⟨r, er, hadv, hdone⟩ := pushLoop_spec (f := f) (i := i) hA hB htol (target := target) h1 maxPolygonVertices i.tMax h1 (le_refl _) (.inl rfl)
        simp only [ef, er, Option.bind_some]
        have axis : VerticesApart i.proxyA → VerticesApart i.proxyB → DistanceGood i → AxisOk f i ∧ ∀ (jA jB : Nat) (s : F), sepEval f i jA jB t1 = some s → o.distance ≤ s := by
          intro vA vB hg
          obtain ⟨_, _, k1, k2, _⟩ := good hg
          exact sepInit_good hA hB vA vB hc e1' k1 (k2 (by linarith)) (by linarith) ef
        cases r with
        | done o' =>
          obtain ⟨d1, d2, d3, d4⟩ := hdone o' rfl
          refine ⟨o', rfl, ?_, ?_, fun h => (d2 h).1, fun h => absurd h d1, ?_⟩
          · by_cases hs : o'.state = .separated
            · rw [(d2 hs).1]; exact h0.trans h1
            · rw [d3 hs]; exact h0
          · by_cases hs : o'.state = .separated
            · rw [(d2 hs).1]
            · rw [d3 hs]; exact h1
          · intro vA vB hg hf hb
            obtain ⟨a1, a2⟩ := axis vA vB hg
            obtain ⟨k1, k2, _, _, k3, k4⟩ := good hg
            refine ⟨?_, ?_, fun h => absurd h d1, fun h => ?_, ?_⟩
            · intro hs
              obtain ⟨_, ij, s, hs1, hs2⟩ := d2 hs
              exact farAt_of_min hA hB a1 hs1 (by linarith) hs2
            · intro hs
              obtain ⟨jA, jB, s, hs1, hs2⟩ := d4 hs
              rw [d3 (by rw [hs]; simp)]
              exact ⟨_, _, k1, k2, by rw [k3]; exact mul_self_le_mul_self k4 ((a2 _ _ _ hs1).trans hs2)⟩
            · rw [d3 (by rw [h]; simp)]; exact hf
            · intro rA rB t ht ht'
              by_cases hs : o'.state = .separated
              · obtain ⟨hm, ij, s, hs1, hs2⟩ := d2 hs
                rcases lt_or_ge t t1 with hlt | hge
                · exact hb rA rB t ht hlt
                · exact farAt_between hA hB a1 rA rB (by linarith) (fun jA jB s hs => by have := a2 jA jB s hs; linarith) hs1 (by linarith) hge (by linarith)
              · rw [d3 hs] at ht'
                exact hb rA rB t ht ht'
        | advance t' =>
          obtain ⟨b1, b2, b3⟩ := hadv t' rfl
          obtain ⟨o', eo, k1, k2, k3, k4, k5⟩ := toiLoopGo_spec hA hB htol htt heps n t' c' (h0.trans b1) b2 hc'
          refine ⟨o', eo, k1, k2, k3, k4, fun vA vB hg hf hb => k5 vA vB hg ?_ ?_⟩
          · rcases b3 with rfl | ⟨ij, s, hs1, hs2⟩
            · exact hf
            · exact .inl (farAt_of_min hA hB (axis vA vB hg).1 hs1 (by linarith) hs2)
          · intro rA rB t ht ht'
            rcases b3 with rfl | ⟨ij, s, hs1, hs2⟩
            · exact hb rA rB t ht ht'
            · rcases lt_or_ge t t1 with hlt | hge
              · exact hb rA rB t ht hlt
              · exact farAt_between hA hB (axis vA vB hg).1 rA rB (by linarith) (fun jA jB s hs => by have := (axis vA vB hg).2 jA jB s hs; linarith) hs1 hs2 hge ht'.le

end
end B2

/-! ## Circles and segments -/

namespace B2
set_option linter.unusedSectionVars false
open Spec

section
variable {F : Type} [Field F] [LinearOrder F] [IsStrictOrderedRing F]

/-- With at most two pairs of vertices the search takes at most two iterations. -/
theorem gjkLoop_small {pA pB : Proxy F} {xA xB : Xf F} (hA : pA.vertices ≠ []) (hB : pB.vertices ≠ []) {P Q : Nat × Nat}
    (hPQ : ∀ i j, i < pA.vertices.length → j < pB.vertices.length → (i, j) = P ∨ (i, j) = Q) {n iter : Nat} {s s' : Simplex F} {it : Nat}
    (hc : 1 ≤ s.count ∧ s.count ≤ 3) (hs : ∀ u ∈ s.slots, Slot pA pB xA xB u) (h : gjkLoop pA pB xA xB n iter s = some (s', it)) : it ≤ iter + 2 := by
  have idx : ∀ u, Slot pA pB xA xB u → (u.indexA, u.indexB) = P ∨ (u.indexA, u.indexB) = Q := by
    rintro u ⟨lA, lB, h1, h2, _⟩
    exact hPQ _ _ (List.getElem?_eq_some_iff.mp h1).1 (List.getElem?_eq_some_iff.mp h2).1
  -- one turn
  have turn : ∀ (n iter : Nat) (s s' : Simplex F) (it : Nat), 1 ≤ s.count ∧ s.count ≤ 3 → (∀ u ∈ s.slots, Slot pA pB xA xB u) →
      gjkLoop pA pB xA xB n iter s = some (s', it) → it ≤ iter + 1 ∨ ∃ (m : Nat) (s2 : Simplex F), gjkLoop pA pB xA xB m (iter + 1) s2 = some (s', it) ∧
        (1 ≤ s2.count ∧ s2.count ≤ 3) ∧ (∀ u ∈ s2.slots, Slot pA pB xA xB u) ∧ ¬ (P ∈ s.pairs ∧ Q ∈ s.pairs) ∧ P ∈ s2.pairs ∧ Q ∈ s2.pairs := by
    intro n iter s s' it hc hs h
    cases n with
    | zero => left; simp only [gjkLoop, Option.some.injEq, Prod.mk.injEq] at h; omega
    | succ n =>
      obtain ⟨s1, v, e1, h1, _, h3⟩ := solve_spec hc
      have hs1 : ∀ u ∈ s1.slots, Slot pA pB xA xB u := by
        intro u hu
        obtain ⟨t, ht, a, rfl⟩ := h3 u hu
        exact (hs t ht).withA a
      unfold gjkLoop at h
      simp only [e1, Option.bind_eq_bind, Option.bind_some] at h
      by_cases c3 : s1.count = 3
      · rw [if_pos c3] at h; cases h; left; omega
      · rw [if_neg c3] at h
        obtain ⟨d, k, e2, _⟩ := direction_spec h1 c3
        simp only [e2, Option.bind_some] at h
        by_cases cd : d.lengthSquared < epsilon * epsilon
        · rw [if_pos cd] at h; cases h; left; omega
        · rw [if_neg cd] at h
          obtain ⟨old, e3, hput⟩ := put_spec h1 c3
          obtain ⟨u, e4, hu, _, _⟩ := newVertex_spec xA xB hA hB d old.a
          obtain ⟨s2, e5, hc2, hs2, hs2', h2'⟩ := hput u
          simp only [e3, e4, e5, Option.bind_some] at h
          by_cases cm : (u.indexA, u.indexB) ∈ s.pairs
          · rw [if_pos cm] at h; cases h; left; omega
          · rw [if_neg cm] at h
            right
            have hk := h1.count
            refine ⟨n, _, h, by dsimp only; omega, ?_, ?_, ?_⟩
            · rw [hs2']
              intro x hx
              rcases List.mem_append.mp hx with hx | hx
              · exact hs1 x hx
              · rw [List.mem_singleton.mp hx]; exact hu
            · rintro ⟨a, b⟩
              rcases idx u hu with e | e
              · exact cm (e ▸ a)
              · exact cm (e ▸ b)
            · have hp : ∀ s : Simplex F, s.pairs = s.slots.map fun v => (v.indexA, v.indexB) := fun s => rfl
              rw [hp, hs2', List.map_append]
              -- a slot that was there before
              obtain ⟨w, hw⟩ : ∃ w, w ∈ s1.slots := by
                obtain ⟨k, hk'⟩ : ∃ k, s1.count = k + 1 := ⟨s1.count - 1, by omega⟩
                exact ⟨s1.v0, by simp [Simplex.slots, hk']⟩
              obtain ⟨t, ht, a, hwt⟩ := h3 w hw
              have hwm : (w.indexA, w.indexB) ∈ s.pairs := by
                rw [hp]
                exact List.mem_map.mpr ⟨t, ht, by rw [hwt]⟩
              have hne : (w.indexA, w.indexB) ≠ (u.indexA, u.indexB) := fun e => cm (e ▸ hwm)
              have m1 : (w.indexA, w.indexB) ∈ List.map (fun v : SimplexVertex F => (v.indexA, v.indexB)) s1.slots ++ List.map (fun v => (v.indexA, v.indexB)) [u] :=
                List.mem_append_left _ (List.mem_map.mpr ⟨w, hw, rfl⟩)
              have m2 : (u.indexA, u.indexB) ∈ List.map (fun v : SimplexVertex F => (v.indexA, v.indexB)) s1.slots ++ List.map (fun v => (v.indexA, v.indexB)) [u] :=
                List.mem_append_right _ (by simp)
              rcases idx w (hs1 w hw) with a | a <;> rcases idx u hu with b | b
              · exact absurd (a.trans b.symm) hne
              · rw [a] at m1; rw [b] at m2; exact ⟨m1, m2⟩
              · rw [a] at m1; rw [b] at m2; exact ⟨m2, m1⟩
              · exact absurd (a.trans b.symm) hne
  rcases turn _ _ _ _ _ hc hs h with h | ⟨m, s2, h', c2, hs2, _, p1, p2⟩
  · omega
  · rcases turn _ _ _ _ _ c2 hs2 h' with h | ⟨m', s3, _, _, _, hn, _⟩
    · omega
    · exact absurd ⟨p1, p2⟩ hn

/-- Distance queries about two circles, or a circle and a segment, are good at all times, unless the segment is shorter than the machine epsilon. -/
theorem small_good [Elem F] [ElemLaws F] {i : ToiInput F} (hA : i.proxyA.vertices.length = 1)
    (hB : i.proxyB.vertices.length = 1 ∨ i.proxyB.vertices.length = 2) (vB : VerticesApart i.proxyB) : DistanceGood i := by
  have nA : i.proxyA.vertices ≠ [] := by rintro e; rw [e] at hA; cases hA
  have nB : i.proxyB.vertices ≠ [] := by rintro e; rw [e] at hB; simp at hB
  intro t c o c' _ _ hc h
  have hiter : o.iterations < 20 := by
    obtain ⟨s0, e0, c0, h0⟩ := readCache_spec (xA := (queryAt i t).xfA) (xB := (queryAt i t).xfB) nA nB (Simplex.zero : Simplex F) hc
    obtain ⟨s, iter, e1, _⟩ := gjkLoop_spec (xA := (queryAt i t).xfA) (xB := (queryAt i t).xfB) nA nB gjkMaxIters 0 s0 c0 h0
    have := gjkLoop_small nA nB (P := (0, 0)) (Q := (0, 1)) (by
      intro a b ha hb
      have : a = 0 := by omega
      have : b = 0 ∨ b = 1 := by omega
      rcases this with rfl | rfl <;> simp [*]) c0 h0 e1
    unfold distance at h
    have q1 : (queryAt i t).proxyA = i.proxyA := rfl
    have q2 : (queryAt i t).proxyB = i.proxyB := rfl
    simp only [q1, q2, e0, e1, Option.bind_eq_bind, Option.bind_some, Option.bind_eq_some_iff] at h
    obtain ⟨p, _, cc, _, h⟩ := h
    simp only [queryAt, Bool.false_eq_true, if_false, Option.pure_def, Option.some.injEq, Prod.mk.injEq] at h
    rw [← h.1]
    dsimp only
    omega
  refine ⟨hiter, ?_⟩
  obtain ⟨p, iter, c1, e, _, _, h3⟩ := distance_core (i := queryAt i t) nA nB hc
  rw [h] at e
  simp only [queryAt, Bool.false_eq_true, if_false, Option.some.injEq, Prod.mk.injEq] at e
  obtain ⟨rfl, _⟩ := e
  rcases (h3 hiter).2.2 with k | k | ⟨x, y, hx, hy, k1, k2⟩
  · exact .inl k
  · exact .inr k
  · exfalso
    obtain ⟨a, ha, b, hb, rfl⟩ := hx
    obtain ⟨a', ha', b', hb', rfl⟩ := hy
    have ea : a = a' := by
      match h : i.proxyA.vertices, hA with
      | [z], _ =>
        have ha : a ∈ i.proxyA.vertices := ha
        have ha' : a' ∈ i.proxyA.vertices := ha'
        rw [h, List.mem_singleton] at ha ha'
        rw [ha, ha']
    subst ea
    have hq := sweep_rot i.sweepB t
    have hd : dist2 (place (queryAt i t).xfB b - place (queryAt i t).xfA a) (place (queryAt i t).xfB b' - place (queryAt i t).xfA a) = dist2 b b' := by
      have : ∀ p q r : Vec2 F, dist2 (p - r) (q - r) = dist2 p q := by intro p q r; simp only [dist2, Vec2.sub_x, Vec2.sub_y]; ring
      rw [this, place_mulV, place_mulV, ← sub_dist2, sub_mulV]
      show dot ((i.sweepB.getTransform t).q.mulV (b - b')) ((i.sweepB.getTransform t).q.mulV (b - b')) = _
      rw [rot_dot hq, sub_dist2]
    rw [hd] at k1 k2
    obtain ⟨j, ej⟩ := List.mem_iff_getElem?.mp (show b ∈ i.proxyB.vertices from hb)
    obtain ⟨j', ej'⟩ := List.mem_iff_getElem?.mp (show b' ∈ i.proxyB.vertices from hb')
    by_cases hj : j = j'
    · subst hj
      rw [ej] at ej'
      cases ej'
      simp [dist2] at k1
    · exact absurd k2 (not_lt.mpr (vB.2 _ _ _ _ hj ej ej'))

end
end B2
