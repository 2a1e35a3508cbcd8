import Verif.Model.Engine
import Verif.Spec.World
import Verif.Spec.WorldMotion
import Verif.Props.Manifold
import Verif.Props.Distance
import Verif.Props.TimeOfImpact

set_option linter.unusedSectionVars false

/-! # The collision routines as a world calls them -/
namespace B2
open Spec Props
variable {F : Type} [Field F] [LinearOrder F] [IsStrictOrderedRing F] [Elem F] [ElemLaws F]

theorem ofShape_total {s : Shape F} {i : Nat} (h : ProperShape s i) : ∃ p, Proxy.ofShape s i = some p ∧ p.vertices ≠ [] := by
  match s, h with
  | .circle c, _ => exact ⟨_, rfl, by simp⟩
  | .polygon p, h =>
    refine ⟨_, rfl, fun h0 => ?_⟩
    have := h.2.convex.1
    rw [show p.verts = [] from h0] at this
    simp at this
  | .edge e, _ => exact ⟨_, rfl, by simp⟩
  | .chain c, h =>
    obtain ⟨-, v1, v2, h1, h2, -⟩ := h
    refine ⟨⟨[v1, v2], c.radius⟩, ?_, by simp⟩
    simp only [Proxy.ofShape, h1, Option.bind_eq_bind, Option.bind_some, if_pos (List.getElem?_eq_some_iff.mp h2).1, h2]
    rfl

theorem ofAngle_isRot (a : F) : IsRot (Rot.ofAngle a) := by
  have := ElemLaws.sin_cos (F := F) a
  unfold IsRot Rot.ofAngle
  linarith

theorem fit_other {a b : Shape F} (h : ContactPair a b) : b.childCount = some 1 := by
  cases a <;> cases b <;> first | rfl | exact h.elim

theorem env_narrowRuns (E : Engine F) : NarrowRuns E.env where
  evaluate w c h := by
    obtain ⟨bA, aA, hbA, hqA⟩ := h.bodyA
    obtain ⟨bB, aB, hbB, hqB⟩ := h.bodyB
    obtain ⟨nA, hnA, hiA⟩ := h.childA
    have hb := h.fineB 1 (fit_other h.pair) 0 Nat.one_pos
    obtain ⟨m, e, hm⟩ := c79_sound _ _ (w.g.contacts c).iA (w.phys bA).xf (w.phys bB).xf h.pair (h.fineA nA hnA _ hiA).1 hb.1
      (by rw [hqA]; exact ofAngle_isRot _) (by rw [hqB]; exact ofAngle_isRot _) hb.2
    refine ⟨m, ?_, hm.few⟩
    show Engine.evaluate w c = some m
    simp only [Engine.evaluate, World.bodyOf, hbA, hbB, Option.bind_eq_bind, Option.bind_some]
    exact e
  overlap w c h := by
    obtain ⟨bA, aA, hbA, hqA⟩ := h.bodyA
    obtain ⟨bB, aB, hbB, hqB⟩ := h.bodyB
    obtain ⟨nA, hnA, hiA⟩ := h.childA
    obtain ⟨nB, hnB, hiB⟩ := h.childB
    obtain ⟨pA, eA, hA⟩ := ofShape_total (h.fineA nA hnA _ hiA).1
    obtain ⟨pB, eB, hB⟩ := ofShape_total (h.fineB nB hnB _ hiB).1
    obtain ⟨o, c', e, -⟩ := c53_total (c := (⟨0, 0, (0, 0), (0, 0), (0, 0)⟩ : Cache F)) (i := ⟨pA, pB, (w.phys bA).xf, (w.phys bB).xf, true⟩) hA hB
      ⟨by simp, by simp, by simp, by simp⟩
    refine ⟨decide (o.distance < 10 * epsilon), ?_⟩
    show Engine.overlap w c = _
    simp only [Engine.overlap, World.bodyOf, hbA, hbB, Option.bind_eq_bind, Option.bind_some, eA, eB, e]
    rfl
  toi w c h := by
    obtain ⟨bA, aA, hbA, hqA⟩ := h.bodyA
    obtain ⟨bB, aB, hbB, hqB⟩ := h.bodyB
    obtain ⟨nA, hnA, hiA⟩ := h.childA
    obtain ⟨nB, hnB, hiB⟩ := h.childB
    obtain ⟨pA, eA, hA⟩ := ofShape_total (h.fineA nA hnA _ hiA).1
    obtain ⟨pB, eB, hB⟩ := ofShape_total (h.fineB nB hnB _ hiB).1
    obtain ⟨o, e, -⟩ := c54_interval (i := ⟨pA, pB, (w.phys bA).sweep, (w.phys bB).sweep, 1⟩) hA hB zero_le_one
    refine ⟨(decide (o.state = .touching), o.t), show Engine.toi w c = some _ from ?_⟩
    simp only [Engine.toi, World.bodyOf, hbA, hbB, Option.bind_eq_bind, Option.bind_some, eA, eB, e]
    rfl

omit [ElemLaws F] in
/-- The time of impact of shapes one of which has no vertices is a panic. -/
theorem toi_vertices {i : ToiInput F} {o : ToiOutput F} (h : timeOfImpact i = some o) : i.proxyA.vertices ≠ [] ∧ i.proxyB.vertices ≠ [] := by
  unfold timeOfImpact at h
  split at h
  swap
  · cases h
  unfold maxToiIters toiLoopGo at h
  simp only [Option.bind_eq_bind, Option.bind_eq_some_iff] at h
  obtain ⟨r, hr, -⟩ := h
  unfold distance at hr
  simp only [Option.bind_eq_bind, Option.bind_eq_some_iff] at hr
  obtain ⟨s, hs, -⟩ := hr
  unfold Simplex.readCache Simplex.fill Simplex.flush at hs
  simp only [Option.bind_eq_bind, Option.bind_some, gt_iff_lt, not_lt_zero', if_false, if_true, Option.bind_eq_some_iff, makeVertex] at hs
  obtain ⟨a, ⟨lA, hA, lB, hB, -⟩, -⟩ := hs
  unfold Proxy.vertex at hA hB
  constructor
  · intro h0; rw [h0] at hA; simp at hA
  · intro h0; rw [h0] at hB; simp at hB

omit [ElemLaws F] in
private theorem toiLoopGo_interval {i : ToiInput F} {target tol : F} (hA : i.proxyA.vertices ≠ []) (hB : i.proxyB.vertices ≠ []) (htol : 0 < tol) {o : ToiOutput F} :
    ∀ (n : Nat) (t1 : F) (c : Cache F), 0 ≤ t1 → t1 ≤ i.tMax → toiLoopGo i target tol n t1 c = some o → 0 ≤ o.t ∧ o.t ≤ i.tMax := by
  intro n
  induction n with
  | zero => intro t1 c h0 h1 e; cases e; exact ⟨h0, h1⟩
  | succ n ih =>
    intro t1 c h0 h1 e
    unfold toiLoopGo at e
    simp only [Option.bind_eq_bind, Option.bind_eq_some_iff] at e
    obtain ⟨d, -, e⟩ := e
    split at e
    · cases e; exact ⟨le_refl _, h0.trans h1⟩
    · split at e
      · cases e; exact ⟨h0, h1⟩
      · rw [Option.bind_eq_some_iff] at e
        obtain ⟨f, -, e⟩ := e
        obtain ⟨r, er, hadv, hdone⟩ := pushLoop_spec (f := f) (i := i) hA hB htol (target := target) h1 maxPolygonVertices i.tMax h1 (le_refl _) (.inl rfl)
        rw [er, Option.bind_some] at e
        cases r with
        | done o' =>
          cases e
          obtain ⟨-, d2, d3, -⟩ := hdone o rfl
          by_cases hs : o.state = .separated
          · rw [(d2 hs).1]; exact ⟨h0.trans h1, le_refl _⟩
          · rw [d3 hs]; exact ⟨h0, h1⟩
        | advance t' =>
          obtain ⟨b1, b2, -⟩ := hadv t' rfl
          exact ih t' _ (h0.trans b1) b2 e

omit [ElemLaws F] in
/-- Whatever root, sine and cosine do, the time is in the interval. -/
theorem toi_interval {i : ToiInput F} {o : ToiOutput F} (ht : 0 ≤ i.tMax) (h : timeOfImpact i = some o) : 0 ≤ o.t ∧ o.t ≤ i.tMax := by
  obtain ⟨hA, hB⟩ := toi_vertices h
  unfold timeOfImpact at h
  split at h
  swap
  · cases h
  exact toiLoopGo_interval (i := { i with sweepA := i.sweepA.normalize, sweepB := i.sweepB.normalize }) hA hB
    (by unfold toiTolerance linearSlop; norm_num) _ _ _ (le_refl _) ht h

omit [ElemLaws F] in
theorem env_toiForward (E : Engine F) : ToiForward E.env := by
  intro w c r h
  change Engine.toi w c = some r at h
  unfold Engine.toi at h
  simp only [Option.bind_eq_bind, Option.bind_eq_some_iff] at h
  obtain ⟨bA, -, bB, -, pA, -, pB, -, o, ho, e⟩ := h
  cases e
  exact (toi_interval (show (0 : F) ≤ 1 from zero_le_one) ho).1

end B2
