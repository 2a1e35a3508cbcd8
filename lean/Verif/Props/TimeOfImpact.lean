import Verif.Proofs.TimeOfImpact
import Verif.Props.Math

/-! Time of impact (C54, C67, C68). -/
namespace B2.Props
set_option linter.unusedSectionVars false
open Spec

section
variable {F : Type} [Field F] [LinearOrder F] [IsStrictOrderedRing F] [Elem F] [ElemLaws F]

/-- The motions with their angles normalized, as the code looks at them. -/
private def norm (i : ToiInput F) : ToiInput F := { i with sweepA := i.sweepA.normalize, sweepB := i.sweepB.normalize }

private theorem norm_query (i : ToiInput F) (t : F) : queryAt (norm i) t = queryAt i t := by
  have h1 := (c47_normalize i.sweepA).2.2.2.2.2.2 t
  have h2 := (c47_normalize i.sweepB).2.2.2.2.2.2 t
  simp only [queryAt, norm, h1, h2]

private theorem norm_hullA (i : ToiInput F) (t : F) : HullA (norm i) t = HullA i t := by
  have h1 := (c47_normalize i.sweepA).2.2.2.2.2.2 t
  simp only [HullA, norm, h1]

private theorem norm_hullB (i : ToiInput F) (t : F) : HullB (norm i) t = HullB i t := by
  have h1 := (c47_normalize i.sweepB).2.2.2.2.2.2 t
  simp only [HullB, norm, h1]

private theorem slop_pos : (0 : F) < linearSlop := by unfold linearSlop; norm_num

private theorem target_ge (i : ToiInput F) : linearSlop ≤ toiTarget i := by rw [toiTarget, b2max_max]; exact le_max_left _ _

private theorem toi_core {i : ToiInput F} (hA : i.proxyA.vertices ≠ []) (hB : i.proxyB.vertices ≠ []) (ht : 0 ≤ i.tMax) :
    ∃ o, timeOfImpact i = some o ∧ 0 ≤ o.t ∧ o.t ≤ i.tMax ∧ (o.state = .separated → o.t = i.tMax) ∧ (o.state = .overlapped → o.t = 0) ∧
      (VerticesApart i.proxyA → VerticesApart i.proxyB → DistanceGood i → ToiGood (norm i) (impactTarget i) toiTolerance o) := by
  have h1 := target_ge i
  have h2 := slop_pos (F := F)
  have ht' : toiTolerance < toiTarget i := by unfold toiTolerance; linarith
  have he : (epsilon : F) ≤ linearSlop := by unfold epsilon linearSlop; norm_num
  obtain ⟨o, e, k1, k2, k3, k4, k5⟩ := toiLoopGo_spec (i := norm i) (target := toiTarget i) (tol := toiTolerance) hA hB (by unfold toiTolerance; linarith) ht'
    (he.trans h1) maxToiIters 0 ⟨0, 0, (0, 0), (0, 0), (0, 0)⟩ (le_refl _) ht ⟨by simp, by simp, by simp, by simp⟩
  have hT : impactTarget i = toiTarget i := by rw [toiTarget, b2max_max]; rfl
  refine ⟨o, by rw [timeOfImpact, if_pos ht']; exact e, k1, k2, k3, k4, fun vA vB hg => ?_⟩
  rw [hT]
  refine k5 vA vB ?_ (.inr rfl) (fun _ _ t a b => absurd b (not_lt.mpr a))
  intro t c o' c' a b hc hd
  rw [norm_query] at hd
  rw [norm_hullA, norm_hullB]
  exact hg t c o' c' a b hc hd

/-- C54: for all shapes and motions, the computation of the time of impact comes to an end without a panic, with a time in the
interval; it is the end of the interval if the shapes are reported to stay separated. -/
theorem c54_interval {i : ToiInput F} (hA : i.proxyA.vertices ≠ []) (hB : i.proxyB.vertices ≠ []) (ht : 0 ≤ i.tMax) :
    ∃ o, timeOfImpact i = some o ∧ 0 ≤ o.t ∧ o.t ≤ i.tMax ∧ (o.state = .separated → o.t = i.tMax) ∧ (o.state = .overlapped → o.t = 0) := by
  obtain ⟨o, h1, h2, h3, h4, h5, _⟩ := toi_core hA hB ht
  exact ⟨o, h1, h2, h3, h4, h5⟩

/-- C67: what the reported states mean. Separated: at the end of the interval the shapes are further apart than the target distance
(and a quarter slop). Touching: at the reported time they are within that distance. Overlapped: at the beginning of the interval they have
a point in common. -/
theorem c67_meaning {i : ToiInput F} (hA : i.proxyA.vertices ≠ []) (hB : i.proxyB.vertices ≠ []) (ht : 0 ≤ i.tMax)
    (vA : VerticesApart i.proxyA) (vB : VerticesApart i.proxyB) (hg : DistanceGood i) {o : ToiOutput F} (h : timeOfImpact i = some o) :
    (o.state = .separated → FarAt i (impactTarget i + 1 / 4 * linearSlop) i.tMax) ∧
    (o.state = .touching → NearAt i (impactTarget i + 1 / 4 * linearSlop) o.t) ∧
    (o.state = .overlapped → ∃ x, HullA i 0 x ∧ HullB i 0 x) := by
  obtain ⟨o', e, _, _, _, _, k⟩ := toi_core hA hB ht
  rw [h] at e
  cases e
  obtain ⟨k1, k2, k3, _, _⟩ := k vA vB hg
  simp only [FarAt, NearAt, norm_hullA, norm_hullB] at *
  exact ⟨k1, k2, k3⟩

/-- C68: shapes that do not rotate do not pass through each other unnoticed. At every time before the reported one (up to the end of
the interval if the shapes are reported as separated) they are further apart than the target distance less a quarter slop. -/
theorem c68_no_tunnelling {i : ToiInput F} (hA : i.proxyA.vertices ≠ []) (hB : i.proxyB.vertices ≠ []) (ht : 0 ≤ i.tMax)
    (vA : VerticesApart i.proxyA) (vB : VerticesApart i.proxyB) (hg : DistanceGood i) (rA : i.sweepA.a0 = i.sweepA.a) (rB : i.sweepB.a0 = i.sweepB.a)
    {o : ToiOutput F} (h : timeOfImpact i = some o) : ∀ t, 0 ≤ t → t < o.t → FarAt i (impactTarget i - 1 / 4 * linearSlop) t := by
  obtain ⟨o', e, _, _, _, _, k⟩ := toi_core hA hB ht
  rw [h] at e
  cases e
  have hn : ∀ s : Sweep F, s.a0 = s.a → s.normalize.a0 = s.normalize.a := by
    intro s hs
    obtain ⟨n, h1, h2⟩ := (c47_normalize s).1
    rw [h1, h2, hs]
  have := (k vA vB hg).before (hn _ rA) (hn _ rB)
  simp only [FarAt, norm_hullA, norm_hullB] at *
  exact this

/-- All hypotheses are met by a circle of radius 1 that flies towards a wall (a segment) without turning, over a whole step. The same holds
for every motion of a circle and a circle or segment (`small_good`). -/
example : ∃ i : ToiInput ℝ, i.proxyA.vertices ≠ [] ∧ i.proxyB.vertices ≠ [] ∧ 0 ≤ i.tMax ∧ VerticesApart i.proxyA ∧ VerticesApart i.proxyB ∧ DistanceGood i ∧
    i.sweepA.a0 = i.sweepA.a ∧ i.sweepB.a0 = i.sweepB.a ∧ i.sweepA.c0 = ⟨-5, 0⟩ ∧ i.sweepA.c = ⟨5, 0⟩ := by
  let i : ToiInput ℝ := ⟨⟨[⟨0, 0⟩], 1⟩, ⟨[⟨0, -3⟩, ⟨0, 3⟩], 1 / 100⟩, ⟨⟨0, 0⟩, ⟨-5, 0⟩, ⟨5, 0⟩, 0, 0, 0⟩, ⟨⟨0, 0⟩, ⟨0, 0⟩, ⟨0, 0⟩, 1, 1, 0⟩, 1⟩
  have vB : VerticesApart i.proxyB := by
    refine ⟨by simp [i], fun j k a b hne h1 h2 => ?_⟩
    have hj := (List.getElem?_eq_some_iff.mp h1).1
    have hk := (List.getElem?_eq_some_iff.mp h2).1
    simp only [i, List.length_cons, List.length_nil] at hj hk
    have hj : j = 0 ∨ j = 1 := by omega
    have hk : k = 0 ∨ k = 1 := by omega
    rcases hj with rfl | rfl <;> rcases hk with rfl | rfl
    · exact absurd rfl hne
    · simp [i] at h1 h2; subst h1; subst h2; simp only [dist2, epsilon]; norm_num
    · simp [i] at h1 h2; subst h1; subst h2; simp only [dist2, epsilon]; norm_num
    · exact absurd rfl hne
  have vA : VerticesApart i.proxyA := by
    refine ⟨by simp [i], fun j k a b hne h1 h2 => ?_⟩
    have hj := (List.getElem?_eq_some_iff.mp h1).1
    have hk := (List.getElem?_eq_some_iff.mp h2).1
    simp only [i, List.length_cons, List.length_nil] at hj hk
    exact absurd (by omega) hne
  exact ⟨i, by simp [i], by simp [i], by simp [i], vA, vB, small_good (by simp [i]) (by simp [i]) vB, rfl, rfl, rfl, rfl⟩

end

end B2.Props
