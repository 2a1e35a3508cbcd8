import Verif.Model.Distance
import Verif.Spec.Distance
import Verif.Spec.Real
import Mathlib.Tactic.Linarith
import Mathlib.Tactic.LinearCombination
import Mathlib.Tactic.FieldSimp
import Mathlib.Tactic.Ring

/-! Proofs about the distance computation. -/
namespace B2
set_option linter.unusedSectionVars false
open Spec

section
variable {F : Type} [Field F] [LinearOrder F] [IsStrictOrderedRing F]

/-! ## Support points -/

theorem supportGo_spec (d : Vec2 F) (all : List (Vec2 F)) : ∀ (vs : List (Vec2 F)) (pre : List (Vec2 F)) (best : Nat) (u : Vec2 F),
    all = pre ++ vs → all[best]? = some u → (∀ v ∈ pre, dot v d ≤ dot u d) →
    ∃ w, all[supportGo d vs pre.length best (dot u d)]? = some w ∧ ∀ v ∈ all, dot v d ≤ dot w d
  | [], pre, best, u, h, hu, hm => by
    rw [List.append_nil] at h
    exact ⟨u, hu, by rw [h]; exact hm⟩
  | v :: vs, pre, best, u, h, hu, hm => by
    unfold supportGo
    have h' : all = (pre ++ [v]) ++ vs := by rw [h]; simp
    have hlen : pre.length + 1 = (pre ++ [v]).length := by simp
    by_cases hc : dot v d > dot u d
    · rw [if_pos hc, hlen]
      refine supportGo_spec d all vs (pre ++ [v]) pre.length v h' (by rw [h]; simp) ?_
      intro x hx
      rcases List.mem_append.mp hx with hx | hx
      · exact (hm x hx).trans hc.le
      · rw [List.mem_singleton.mp hx]
    · rw [if_neg hc, hlen]
      refine supportGo_spec d all vs (pre ++ [v]) best u h' hu ?_
      intro x hx
      rcases List.mem_append.mp hx with hx | hx
      · exact hm x hx
      · rw [List.mem_singleton.mp hx]; exact not_lt.mp hc

theorem support_spec {p : Proxy F} (h : p.vertices ≠ []) (d : Vec2 F) :
    ∃ i w, p.support d = some i ∧ p.vertices[i]? = some w ∧ ∀ v ∈ p.vertices, dot v d ≤ dot w d := by
  unfold Proxy.support
  cases e : p.vertices with
  | nil => exact absurd e h
  | cons v vs =>
    obtain ⟨w, hw, hm⟩ := supportGo_spec d (v :: vs) vs [v] 0 v rfl rfl (by intro x hx; rw [List.mem_singleton.mp hx])
    exact ⟨_, w, rfl, hw, hm⟩

/-! ## Slots -/

/-- The slot holds the pair of placed vertices its indices say. -/
def Slot (pA pB : Proxy F) (xA xB : Xf F) (v : SimplexVertex F) : Prop :=
  ∃ lA lB, pA.vertices[v.indexA]? = some lA ∧ pB.vertices[v.indexB]? = some lB ∧ v.wA = xA.mulV lA ∧ v.wB = xB.mulV lB ∧ v.w = v.wB - v.wA

theorem makeVertex_slot {pA pB : Proxy F} {xA xB : Xf F} {i : Nat × Nat} {a : F} {v : SimplexVertex F}
    (h : makeVertex pA pB xA xB i a = some v) : Slot pA pB xA xB v ∧ v.a = a ∧ (v.indexA, v.indexB) = i := by
  simp only [makeVertex, Proxy.vertex, Option.bind_eq_bind, Option.bind_eq_some_iff] at h
  obtain ⟨lA, h1, lB, h2, h3⟩ := h
  cases h3
  exact ⟨⟨lA, lB, h1, h2, rfl, rfl, rfl⟩, rfl, rfl⟩

theorem makeVertex_total {pA pB : Proxy F} {xA xB : Xf F} {i : Nat × Nat} {a : F} (h1 : i.1 < pA.vertices.length) (h2 : i.2 < pB.vertices.length) :
    ∃ v, makeVertex pA pB xA xB i a = some v := by
  simp only [makeVertex, Proxy.vertex, List.getElem?_eq_getElem h1, List.getElem?_eq_getElem h2, Option.bind_eq_bind, Option.bind_some]
  exact ⟨_, rfl⟩

theorem Slot.same {pA pB : Proxy F} {xA xB : Xf F} {v u : SimplexVertex F} (hv : Slot pA pB xA xB v) (hu : Slot pA pB xA xB u)
    (h : (v.indexA, v.indexB) = (u.indexA, u.indexB)) : v.w = u.w := by
  obtain ⟨lA, lB, h1, h2, h3, h4, h5⟩ := hv
  obtain ⟨mA, mB, k1, k2, k3, k4, k5⟩ := hu
  simp only [Prod.mk.injEq] at h
  rw [h.1, k1] at h1
  rw [h.2, k2] at h2
  cases h1
  cases h2
  rw [h5, k5, h3, h4, k3, k4]

theorem Slot.diff {pA pB : Proxy F} {xA xB : Xf F} {v : SimplexVertex F} (hv : Slot pA pB xA xB v) : Diff pA pB xA xB v.w := by
  obtain ⟨lA, lB, h1, h2, h3, h4, h5⟩ := hv
  exact ⟨lA, List.mem_of_getElem? h1, lB, List.mem_of_getElem? h2, by rw [h5, h3, h4]; rfl⟩

theorem dot_mulTV (q : Rot F) (v d : Vec2 F) : dot v (q.mulTV d) = dot (q.mulV v) d := by
  simp only [dot, Rot.mulTV, Rot.mulV]; ring

/-- The new slot is the farthest difference in the search direction. -/
theorem newVertex_spec {pA pB : Proxy F} (xA xB : Xf F) (hA : pA.vertices ≠ []) (hB : pB.vertices ≠ []) (d : Vec2 F) (a : F) :
    ∃ v, newVertex pA pB xA xB d a = some v ∧ Slot pA pB xA xB v ∧ v.a = a ∧ ∀ x, Diff pA pB xA xB x → dot x d ≤ dot v.w d := by
  obtain ⟨i, wA, e1, e2, e3⟩ := support_spec hA (xA.q.mulTV (-d))
  obtain ⟨j, wB, f1, f2, f3⟩ := support_spec hB (xB.q.mulTV d)
  have hi : i < pA.vertices.length := (List.getElem?_eq_some_iff.mp e2).1
  have hj : j < pB.vertices.length := (List.getElem?_eq_some_iff.mp f2).1
  obtain ⟨v, hv⟩ := makeVertex_total (xA := xA) (xB := xB) (i := (i, j)) (a := a) hi hj
  obtain ⟨s, ha, hij⟩ := makeVertex_slot hv
  refine ⟨v, by simp only [newVertex, e1, f1, Option.bind_eq_bind, Option.bind_some, hv], s, ha, ?_⟩
  obtain ⟨lA, lB, h1, h2, h3, h4, h5⟩ := s
  simp only [Prod.mk.injEq] at hij
  rw [hij.1, e2] at h1
  rw [hij.2, f2] at h2
  cases h1
  cases h2
  rintro x ⟨mA, hmA, mB, hmB, rfl⟩
  have k1 := e3 mA hmA
  have k2 := f3 mB hmB
  rw [dot_mulTV, dot_mulTV] at k1 k2
  rw [h5, h3, h4]
  simp only [dot, place, Rot.mulV, Xf.mulV, Vec2.sub_x, Vec2.sub_y, Vec2.neg_x, Vec2.neg_y] at *
  linarith

/-! ## Closest point of a segment and of a triangle -/

theorem vor {p q r a b c N D1 D2 D3 : F} (hN : 0 < N) (hs : D1 + D2 + D3 = N)
    (e1 : N * p = D2 * (p - a) + D3 * (p - b)) (e2 : N * q = D1 * (q - a) + D3 * (q - c)) (e3 : N * r = D1 * (r - b) + D2 * (r - c))
    (hp : 0 ≤ p) (hq : 0 ≤ q) (hr : 0 ≤ r) (zp : p = 0 → a = 0 ∧ b = 0) (zq : q = 0 → a = 0 ∧ c = 0) (zr : r = 0 → b = 0 ∧ c = 0)
    (n1 : ¬ (p ≤ a ∧ p ≤ b)) (n2 : ¬ (q ≤ a ∧ q ≤ c)) (n3 : ¬ (r ≤ b ∧ r ≤ c))
    (n12 : ¬ (a < q ∧ a < p ∧ D3 ≤ 0)) (n13 : ¬ (b < r ∧ b < p ∧ D2 ≤ 0)) (n23 : ¬ (c < r ∧ c < q ∧ D1 ≤ 0)) : 0 < D3 := by
  by_contra h3
  have h3 := not_lt.mp h3
  have hz : ∀ x : F, 0 ≤ x → N * x ≤ 0 → x = 0 := by
    intro x hx h
    rcases hx.lt_or_eq with h' | h'
    · exact absurd h (not_le.mpr (mul_pos hN h'))
    · exact h'.symm
  by_cases ha : p ≤ a
  · have hb : b < p := by by_contra hb; exact n1 ⟨ha, not_lt.mp hb⟩
    have k1 : D3 * (p - b) ≤ 0 := mul_nonpos_of_nonpos_of_nonneg h3 (by linarith)
    by_cases h2 : D2 ≤ 0
    · have hrb : r ≤ b := by by_contra hh; exact n13 ⟨not_le.mp hh, hb, h2⟩
      have hcr : c < r := by by_contra hh; exact n3 ⟨hrb, not_lt.mp hh⟩
      have k2 : D1 * (r - b) ≤ 0 := mul_nonpos_of_nonneg_of_nonpos (by linarith) (by linarith)
      have k3 : D2 * (r - c) ≤ 0 := mul_nonpos_of_nonpos_of_nonneg h2 (by linarith)
      have := zr (hz r hr (by linarith))
      have := hz r hr (by linarith)
      linarith
    · have k2 : D2 * (p - a) ≤ 0 := mul_nonpos_of_nonneg_of_nonpos (by linarith) (by linarith)
      have hp0 := hz p hp (by linarith)
      have := zp hp0
      linarith
  · have ha := not_le.mp ha
    have hqa : q ≤ a := by by_contra hh; exact n12 ⟨not_le.mp hh, ha, h3⟩
    have hcq : c < q := by by_contra hh; exact n2 ⟨hqa, not_lt.mp hh⟩
    have k1 : D3 * (q - c) ≤ 0 := mul_nonpos_of_nonpos_of_nonneg h3 (by linarith)
    by_cases h1 : D1 ≤ 0
    · have hrc : r ≤ c := by by_contra hh; exact n23 ⟨not_le.mp hh, hcq, h1⟩
      have hbr : b < r := by by_contra hh; exact n3 ⟨not_lt.mp hh, hrc⟩
      have k2 : D1 * (r - b) ≤ 0 := mul_nonpos_of_nonpos_of_nonneg h1 (by linarith)
      have k3 : D2 * (r - c) ≤ 0 := mul_nonpos_of_nonneg_of_nonpos (by linarith) (by linarith)
      have hr0 := hz r hr (by linarith)
      have := zr hr0
      linarith
    · have k2 : D1 * (q - a) ≤ 0 := mul_nonpos_of_nonneg_of_nonpos (by linarith) (by linarith)
      have hq0 := hz q hq (by linarith)
      have := zq hq0
      linarith

/-- Three points in a line: one of the regions other than the interior is met. -/
theorem vor_flat {p q r a b c : F}
    (n1 : ¬ (p ≤ a ∧ p ≤ b)) (n2 : ¬ (q ≤ a ∧ q ≤ c)) (n3 : ¬ (r ≤ b ∧ r ≤ c))
    (n12 : ¬ (a < q ∧ a < p)) (n13 : ¬ (b < r ∧ b < p)) (n23 : ¬ (c < r ∧ c < q)) : False := by
  by_cases ha : p ≤ a
  · have h1 : b < p := by by_contra hh; exact n1 ⟨ha, not_lt.mp hh⟩
    have h2 : r ≤ b := by by_contra hh; exact n13 ⟨not_le.mp hh, h1⟩
    have h3 : c < r := by by_contra hh; exact n3 ⟨h2, not_lt.mp hh⟩
    have h4 : q ≤ c := by by_contra hh; exact n23 ⟨h3, not_le.mp hh⟩
    have h5 : a < q := by by_contra hh; exact n2 ⟨not_lt.mp hh, h4⟩
    linarith
  · have ha := not_le.mp ha
    have h1 : q ≤ a := by by_contra hh; exact n12 ⟨not_le.mp hh, ha⟩
    have h2 : c < q := by by_contra hh; exact n2 ⟨h1, not_lt.mp hh⟩
    have h3 : r ≤ c := by by_contra hh; exact n23 ⟨not_le.mp hh, h2⟩
    have h4 : b < r := by by_contra hh; exact n3 ⟨not_lt.mp hh, h3⟩
    have h5 : p ≤ b := by by_contra hh; exact n13 ⟨h4, not_le.mp hh⟩
    linarith

theorem dot_self_zero {w : Vec2 F} (h : dot w w = 0) : w.x = 0 ∧ w.y = 0 := by
  unfold dot at h
  constructor <;> nlinarith [mul_self_nonneg w.x, mul_self_nonneg w.y]

theorem dot_self_nonneg (w : Vec2 F) : 0 ≤ dot w w := by
  unfold dot; nlinarith [mul_self_nonneg w.x, mul_self_nonneg w.y]

/-- Outside all other regions the origin is inside the triangle. -/
theorem inside {w1 w2 w3 : Vec2 F} {D1 D2 D3 : F}
    (hD1 : D1 = cross (w2 - w1) (w3 - w1) * cross w2 w3) (hD2 : D2 = cross (w2 - w1) (w3 - w1) * cross w3 w1)
    (hD3 : D3 = cross (w2 - w1) (w3 - w1) * cross w1 w2)
    (n1 : ¬ (-dot w1 (w2 - w1) ≤ 0 ∧ -dot w1 (w3 - w1) ≤ 0))
    (n12 : ¬ (dot w2 (w2 - w1) > 0 ∧ -dot w1 (w2 - w1) > 0 ∧ D3 ≤ 0))
    (n13 : ¬ (dot w3 (w3 - w1) > 0 ∧ -dot w1 (w3 - w1) > 0 ∧ D2 ≤ 0))
    (n2 : ¬ (dot w2 (w2 - w1) ≤ 0 ∧ -dot w2 (w3 - w2) ≤ 0))
    (n3 : ¬ (dot w3 (w3 - w1) ≤ 0 ∧ dot w3 (w3 - w2) ≤ 0))
    (n23 : ¬ (dot w3 (w3 - w2) > 0 ∧ -dot w2 (w3 - w2) > 0 ∧ D1 ≤ 0)) : 0 < D1 ∧ 0 < D2 ∧ 0 < D3 := by
  have t1 : -dot w1 (w2 - w1) = dot w1 w1 - dot w1 w2 := by simp only [dot, Vec2.sub_x, Vec2.sub_y]; ring
  have t2 : -dot w1 (w3 - w1) = dot w1 w1 - dot w1 w3 := by simp only [dot, Vec2.sub_x, Vec2.sub_y]; ring
  have t3 : dot w2 (w2 - w1) = dot w2 w2 - dot w1 w2 := by simp only [dot, Vec2.sub_x, Vec2.sub_y]; ring
  have t4 : dot w3 (w3 - w1) = dot w3 w3 - dot w1 w3 := by simp only [dot, Vec2.sub_x, Vec2.sub_y]; ring
  have t5 : -dot w2 (w3 - w2) = dot w2 w2 - dot w2 w3 := by simp only [dot, Vec2.sub_x, Vec2.sub_y]; ring
  have t6 : dot w3 (w3 - w2) = dot w3 w3 - dot w2 w3 := by simp only [dot, Vec2.sub_x, Vec2.sub_y]; ring
  rw [t1, t2] at n1
  rw [t1, t3] at n12
  rw [t2, t4] at n13
  rw [t3, t5] at n2
  rw [t4, t6] at n3
  rw [t5, t6] at n23
  have n1' : ¬ (dot w1 w1 ≤ dot w1 w2 ∧ dot w1 w1 ≤ dot w1 w3) := fun h => n1 ⟨by linarith [h.1], by linarith [h.2]⟩
  have n2' : ¬ (dot w2 w2 ≤ dot w1 w2 ∧ dot w2 w2 ≤ dot w2 w3) := fun h => n2 ⟨by linarith [h.1], by linarith [h.2]⟩
  have n3' : ¬ (dot w3 w3 ≤ dot w1 w3 ∧ dot w3 w3 ≤ dot w2 w3) := fun h => n3 ⟨by linarith [h.1], by linarith [h.2]⟩
  have n12' : ¬ (dot w1 w2 < dot w2 w2 ∧ dot w1 w2 < dot w1 w1 ∧ D3 ≤ 0) := fun h => n12 ⟨by linarith [h.1], by linarith [h.2.1], h.2.2⟩
  have n13' : ¬ (dot w1 w3 < dot w3 w3 ∧ dot w1 w3 < dot w1 w1 ∧ D2 ≤ 0) := fun h => n13 ⟨by linarith [h.1], by linarith [h.2.1], h.2.2⟩
  have n23' : ¬ (dot w2 w3 < dot w3 w3 ∧ dot w2 w3 < dot w2 w2 ∧ D1 ≤ 0) := fun h => n23 ⟨by linarith [h.1], by linarith [h.2.1], h.2.2⟩
  have hz1 : dot w1 w1 = 0 → dot w1 w2 = 0 ∧ dot w1 w3 = 0 := by
    intro h; obtain ⟨hx, hy⟩ := dot_self_zero h; simp [dot, hx, hy]
  have hz2 : dot w2 w2 = 0 → dot w1 w2 = 0 ∧ dot w2 w3 = 0 := by
    intro h; obtain ⟨hx, hy⟩ := dot_self_zero h; simp [dot, hx, hy]
  have hz3 : dot w3 w3 = 0 → dot w1 w3 = 0 ∧ dot w2 w3 = 0 := by
    intro h; obtain ⟨hx, hy⟩ := dot_self_zero h; simp [dot, hx, hy]
  set n := cross (w2 - w1) (w3 - w1) with hn
  by_cases h0 : n = 0
  · rw [h0] at hD1 hD2 hD3
    exact (vor_flat n1' n2' n3' (fun h => n12' ⟨h.1, h.2, by simp [hD3]⟩) (fun h => n13' ⟨h.1, h.2, by simp [hD2]⟩)
      (fun h => n23' ⟨h.1, h.2, by simp [hD1]⟩)).elim
  · have hN : 0 < n * n := mul_self_pos.mpr h0
    have hs : D1 + D2 + D3 = n * n := by
      rw [hD1, hD2, hD3, hn]; simp only [cross, Vec2.sub_x, Vec2.sub_y]; ring
    have e1 : n * n * dot w1 w1 = D2 * (dot w1 w1 - dot w1 w2) + D3 * (dot w1 w1 - dot w1 w3) := by
      rw [hD2, hD3, hn]; simp only [cross, dot, Vec2.sub_x, Vec2.sub_y]; ring
    have e2 : n * n * dot w2 w2 = D1 * (dot w2 w2 - dot w1 w2) + D3 * (dot w2 w2 - dot w2 w3) := by
      rw [hD1, hD3, hn]; simp only [cross, dot, Vec2.sub_x, Vec2.sub_y]; ring
    have e3 : n * n * dot w3 w3 = D1 * (dot w3 w3 - dot w1 w3) + D2 * (dot w3 w3 - dot w2 w3) := by
      rw [hD1, hD2, hn]; simp only [cross, dot, Vec2.sub_x, Vec2.sub_y]; ring
    have p1 := dot_self_nonneg w1
    have p2 := dot_self_nonneg w2
    have p3 := dot_self_nonneg w3
    refine ⟨?_, ?_, ?_⟩
    · -- exchange 1 and 3
      exact vor (p := dot w3 w3) (q := dot w2 w2) (r := dot w1 w1) (a := dot w2 w3) (b := dot w1 w3) (c := dot w1 w2) (D1 := D3) (D2 := D2) (D3 := D1)
        hN (by linarith) (by linarith) (by linarith) (by linarith) p3 p2 p1 (fun h => (hz3 h).symm) (fun h => (hz2 h).symm) (fun h => (hz1 h).symm)
        (fun h => n3' h.symm) (fun h => n2' h.symm) (fun h => n1' h.symm) (fun h => n23' ⟨h.2.1, h.1, h.2.2⟩) (fun h => n13' ⟨h.2.1, h.1, h.2.2⟩)
        (fun h => n12' ⟨h.2.1, h.1, h.2.2⟩)
    · -- exchange 2 and 3
      exact vor (p := dot w1 w1) (q := dot w3 w3) (r := dot w2 w2) (a := dot w1 w3) (b := dot w1 w2) (c := dot w2 w3) (D1 := D1) (D2 := D3) (D3 := D2)
        hN (by linarith) (by linarith) (by linarith) (by linarith) p1 p3 p2 (fun h => (hz1 h).symm) (fun h => hz3 h) (fun h => hz2 h)
        (fun h => n1' h.symm) (fun h => n3' h) (fun h => n2' h) n13' n12' (fun h => n23' ⟨h.2.1, h.1, h.2.2⟩)
    · exact vor hN hs e1 e2 e3 p1 p2 p3 hz1 hz2 hz3 n1' n2' n3' n12' n13' n23'

/-! ## Solving a simplex -/

/-- The slots in use. -/
def Simplex.slots (s : Simplex F) : List (SimplexVertex F) := [s.v0, s.v1, s.v2].take s.count

/-- A solved simplex: its coordinates describe the point `v`, which is orthogonal to it. -/
def Solved (s : Simplex F) (v : Vec2 F) : Prop :=
  (s.count = 1 ∧ v = s.v0.w) ∨
  (s.count = 2 ∧ 0 < s.v0.a ∧ 0 < s.v1.a ∧ s.v0.a + s.v1.a = 1 ∧ v = s.v0.a * s.v0.w + s.v1.a * s.v1.w ∧
    dot v (s.v1.w - s.v0.w) = 0 ∧ 0 < dot (s.v1.w - s.v0.w) (s.v1.w - s.v0.w)) ∨
  (s.count = 3 ∧ 0 < s.v0.a ∧ 0 < s.v1.a ∧ 0 < s.v2.a ∧ s.v0.a + s.v1.a + s.v2.a = 1 ∧ v = ⟨0, 0⟩ ∧
    s.v0.a * s.v0.w + s.v1.a * s.v1.w + s.v2.a * s.v2.w = ⟨0, 0⟩)

/-- The point on the segment where the two products are positive. -/
theorem foot {w1 w2 : Vec2 F} {x y : F} (hx : x = dot w2 (w2 - w1)) (hy : y = -dot w1 (w2 - w1)) (h1 : 0 < x) (h2 : 0 < y) :
    0 < x * (1 / (x + y)) ∧ 0 < y * (1 / (x + y)) ∧ x * (1 / (x + y)) + y * (1 / (x + y)) = 1 ∧
    dot (x * (1 / (x + y)) * w1 + y * (1 / (x + y)) * w2) (w2 - w1) = 0 ∧ 0 < dot (w2 - w1) (w2 - w1) ∧
    ∀ w3 : Vec2 F, cross (w2 - w1) (w3 - w1) * cross w1 w2 ≤ 0 →
      dot (x * (1 / (x + y)) * w1 + y * (1 / (x + y)) * w2) (x * (1 / (x + y)) * w1 + y * (1 / (x + y)) * w2) ≤
      dot (x * (1 / (x + y)) * w1 + y * (1 / (x + y)) * w2) w3 := by
  have hs : 0 < x + y := add_pos h1 h2
  have hi : 0 < 1 / (x + y) := one_div_pos.mpr hs
  have hk : (x + y) * (1 / (x + y)) = 1 := mul_one_div_cancel hs.ne'
  set k := 1 / (x + y) with hkd
  have hE : x + y = dot (w2 - w1) (w2 - w1) := by rw [hx, hy]; simp only [dot, Vec2.sub_x, Vec2.sub_y]; ring
  have hp : dot (x * k * w1 + y * k * w2) (w2 - w1) = 0 := by
    have : dot (x * k * w1 + y * k * w2) (w2 - w1) = k * (x * dot w1 (w2 - w1) + y * dot w2 (w2 - w1)) := by
      simp only [dot, Vec2.sub_x, Vec2.sub_y, Vec2.add_x, Vec2.add_y, Vec2.smul_x, Vec2.smul_y]; ring
    rw [this, ← hx, show dot w1 (w2 - w1) = -y by rw [hy]; ring]; ring
  refine ⟨mul_pos h1 hi, mul_pos h2 hi, by rw [← add_mul, hk], hp, by rw [← hE]; exact hs, ?_⟩
  intro w3 hw
  set v := x * k * w1 + y * k * w2 with hv
  -- `v` is a multiple of the perpendicular
  have e1 : dot v w3 - dot v v = -(k * (cross (w2 - w1) (w3 - w1) * cross w1 w2)) := by
    have hvx : v.x = x * k * w1.x + y * k * w2.x := rfl
    have hvy : v.y = x * k * w1.y + y * k * w2.y := rfl
    have hxk : x * k = 1 - y * k := by linear_combination hk
    have hyk : y * k * ((w2.x - w1.x) * (w2.x - w1.x) + (w2.y - w1.y) * (w2.y - w1.y)) = y := by
      have : (w2.x - w1.x) * (w2.x - w1.x) + (w2.y - w1.y) * (w2.y - w1.y) = x + y := by rw [hE]; rfl
      rw [this]; linear_combination y * hk
    have hvx' : v.x = w1.x + y * k * (w2.x - w1.x) := by rw [hvx, hxk]; ring
    have hvy' : v.y = w1.y + y * k * (w2.y - w1.y) := by rw [hvy, hxk]; ring
    -- v = k * cross w1 w2 * perp
    have hy' : y = -(w1.x * (w2.x - w1.x) + w1.y * (w2.y - w1.y)) := hy
    have hkE : k * ((w2.x - w1.x) * (w2.x - w1.x) + (w2.y - w1.y) * (w2.y - w1.y)) = 1 := by
      have : (w2.x - w1.x) * (w2.x - w1.x) + (w2.y - w1.y) * (w2.y - w1.y) = x + y := by rw [hE]; rfl
      rw [this]; linear_combination hk
    have px : v.x = k * (w1.x * w2.y - w1.y * w2.x) * (w2.y - w1.y) := by
      rw [hvx', hy']; linear_combination (-w1.x) * hkE
    have py : v.y = -(k * (w1.x * w2.y - w1.y * w2.x) * (w2.x - w1.x)) := by
      rw [hvy', hy']; linear_combination (-w1.y) * hkE
    simp only [dot, cross, Vec2.sub_x, Vec2.sub_y]
    rw [px, py]
    linear_combination (-(k * (w1.x * w2.y - w1.y * w2.x) * (w1.x * w2.y - w1.y * w2.x))) * hkE
  have e2 : k * (cross (w2 - w1) (w3 - w1) * cross w1 w2) ≤ 0 := mul_nonpos_of_nonneg_of_nonpos hi.le hw
  linarith

theorem solve2_spec (s : Simplex F) (h : s.count = 2) : ∃ v, Solved s.solve2 v ∧ (∀ u ∈ s.slots, dot v v ≤ dot v u.w) ∧
    ∀ u ∈ s.solve2.slots, ∃ t ∈ s.slots, ∃ a, u = { t with a := a } := by
  have hsl : s.slots = [s.v0, s.v1] := by simp [Simplex.slots, h]
  rw [hsl]
  unfold Simplex.solve2
  dsimp only
  by_cases h1 : -dot s.v0.w (s.v1.w - s.v0.w) ≤ 0
  · rw [if_pos h1]
    refine ⟨s.v0.w, .inl ⟨rfl, rfl⟩, ?_, ?_⟩
    · intro u hu
      simp only [List.mem_cons, List.not_mem_nil, or_false] at hu
      rcases hu with rfl | rfl
      · exact le_refl _
      · simp only [dot, Vec2.sub_x, Vec2.sub_y] at *; linarith
    · intro u hu
      simp only [Simplex.slots, List.take, List.mem_cons, List.not_mem_nil, or_false] at hu
      exact ⟨s.v0, by simp, 1, hu⟩
  · rw [if_neg h1]
    by_cases h2 : dot s.v1.w (s.v1.w - s.v0.w) ≤ 0
    · rw [if_pos h2]
      refine ⟨s.v1.w, .inl ⟨rfl, rfl⟩, ?_, ?_⟩
      · intro u hu
        simp only [List.mem_cons, List.not_mem_nil, or_false] at hu
        rcases hu with rfl | rfl
        · simp only [dot, Vec2.sub_x, Vec2.sub_y] at *; linarith
        · exact le_refl _
      · intro u hu
        simp only [Simplex.slots, List.take, List.mem_cons, List.not_mem_nil, or_false] at hu
        exact ⟨s.v1, by simp, 1, hu⟩
    · rw [if_neg h2]
      obtain ⟨f1, f2, f3, f4, f5, f6⟩ := foot (w1 := s.v0.w) (w2 := s.v1.w) rfl rfl (not_le.mp h2) (not_le.mp h1)
      refine ⟨_, .inr (.inl ⟨rfl, f1, f2, f3, rfl, f4, f5⟩), ?_, ?_⟩
      · intro u hu
        simp only [List.mem_cons, List.not_mem_nil, or_false] at hu
        rcases hu with rfl | rfl
        · exact f6 _ (by simp [cross])
        · exact f6 _ (by simp [cross, mul_comm])
      · intro u hu
        simp only [Simplex.slots, List.take, List.mem_cons, List.not_mem_nil, or_false] at hu
        rcases hu with rfl | rfl
        · exact ⟨s.v0, by simp, _, rfl⟩
        · exact ⟨s.v1, by simp, _, rfl⟩

theorem solve3_spec (s : Simplex F) (h : s.count = 3) : ∃ v, Solved s.solve3 v ∧ (∀ u ∈ s.slots, dot v v ≤ dot v u.w) ∧
    ∀ u ∈ s.solve3.slots, ∃ t ∈ s.slots, ∃ a, u = { t with a := a } := by
  have hsl : s.slots = [s.v0, s.v1, s.v2] := by simp [Simplex.slots, h]
  rw [hsl]
  unfold Simplex.solve3
  dsimp only
  split
  · rename_i c
    refine ⟨s.v0.w, .inl ⟨rfl, rfl⟩, ?_, ?_⟩
    · intro u hu
      simp only [List.mem_cons, List.not_mem_nil, or_false] at hu
      simp only [dot, Vec2.sub_x, Vec2.sub_y] at *
      rcases hu with rfl | rfl | rfl
      · exact le_refl _
      · linarith [c.1]
      · linarith [c.2]
    · intro u hu
      simp only [Simplex.slots, List.take, List.mem_cons, List.not_mem_nil, or_false] at hu
      exact ⟨s.v0, by simp, 1, hu⟩
  rename_i n1
  split
  · rename_i c
    obtain ⟨f1, f2, f3, f4, f5, f6⟩ := foot (w1 := s.v0.w) (w2 := s.v1.w) rfl rfl c.1 c.2.1
    refine ⟨_, .inr (.inl ⟨rfl, f1, f2, f3, rfl, f4, f5⟩), ?_, ?_⟩
    · intro u hu
      simp only [List.mem_cons, List.not_mem_nil, or_false] at hu
      rcases hu with rfl | rfl | rfl
      · exact f6 _ (by simp [cross])
      · exact f6 _ (by simp [cross, mul_comm])
      · exact f6 _ c.2.2
    · intro u hu
      simp only [Simplex.slots, List.take, List.mem_cons, List.not_mem_nil, or_false] at hu
      rcases hu with rfl | rfl
      · exact ⟨s.v0, by simp, _, rfl⟩
      · exact ⟨s.v1, by simp, _, rfl⟩
  rename_i n12
  split
  · rename_i c
    obtain ⟨f1, f2, f3, f4, f5, f6⟩ := foot (w1 := s.v0.w) (w2 := s.v2.w) rfl rfl c.1 c.2.1
    refine ⟨_, .inr (.inl ⟨rfl, f1, f2, f3, rfl, f4, f5⟩), ?_, ?_⟩
    · intro u hu
      simp only [List.mem_cons, List.not_mem_nil, or_false] at hu
      rcases hu with rfl | rfl | rfl
      · exact f6 _ (by simp [cross])
      · refine f6 _ (le_of_eq_of_le ?_ c.2.2)
        simp only [cross, Vec2.sub_x, Vec2.sub_y]; ring
      · exact f6 _ (by simp [cross, mul_comm])
    · intro u hu
      simp only [Simplex.slots, List.take, List.mem_cons, List.not_mem_nil, or_false] at hu
      rcases hu with rfl | rfl
      · exact ⟨s.v0, by simp, _, rfl⟩
      · exact ⟨s.v2, by simp, _, rfl⟩
  rename_i n13
  split
  · rename_i c
    refine ⟨s.v1.w, .inl ⟨rfl, rfl⟩, ?_, ?_⟩
    · intro u hu
      simp only [List.mem_cons, List.not_mem_nil, or_false] at hu
      simp only [dot, Vec2.sub_x, Vec2.sub_y] at *
      rcases hu with rfl | rfl | rfl
      · linarith [c.1]
      · exact le_refl _
      · linarith [c.2]
    · intro u hu
      simp only [Simplex.slots, List.take, List.mem_cons, List.not_mem_nil, or_false] at hu
      exact ⟨s.v1, by simp, 1, hu⟩
  rename_i n2
  split
  · rename_i c
    refine ⟨s.v2.w, .inl ⟨rfl, rfl⟩, ?_, ?_⟩
    · intro u hu
      simp only [List.mem_cons, List.not_mem_nil, or_false] at hu
      simp only [dot, Vec2.sub_x, Vec2.sub_y] at *
      rcases hu with rfl | rfl | rfl
      · linarith [c.1]
      · linarith [c.2]
      · exact le_refl _
    · intro u hu
      simp only [Simplex.slots, List.take, List.mem_cons, List.not_mem_nil, or_false] at hu
      exact ⟨s.v2, by simp, 1, hu⟩
  rename_i n3
  split
  · rename_i c
    obtain ⟨f1, f2, f3, f4, f5, f6⟩ := foot (w1 := s.v1.w) (w2 := s.v2.w) rfl rfl c.1 c.2.1
    have hsw : ∀ (a b : F) (x y : Vec2 F), a * x + b * y = b * y + a * x := by
      intro a b x y; ext <;> simp [add_comm]
    have f4' := f4
    rw [hsw] at f4 f6
    refine ⟨_, .inr (.inl ⟨rfl, f2, f1, (add_comm _ _).trans f3, rfl, ?_, ?_⟩), ?_, ?_⟩
    · simp only [dot, Vec2.sub_x, Vec2.sub_y] at f4 ⊢; linarith
    · simp only [dot, Vec2.sub_x, Vec2.sub_y] at f5 ⊢; linarith
    · intro u hu
      simp only [List.mem_cons, List.not_mem_nil, or_false] at hu
      rcases hu with rfl | rfl | rfl
      · refine f6 _ (le_of_eq_of_le ?_ c.2.2)
        simp only [cross, Vec2.sub_x, Vec2.sub_y]; ring
      · exact f6 _ (by simp [cross])
      · exact f6 _ (by simp [cross, mul_comm])
    · intro u hu
      simp only [Simplex.slots, List.take, List.mem_cons, List.not_mem_nil, or_false] at hu
      rcases hu with rfl | rfl
      · exact ⟨s.v2, by simp, _, rfl⟩
      · exact ⟨s.v1, by simp, _, rfl⟩
  rename_i n23
  obtain ⟨d1, d2, d3⟩ := inside rfl rfl rfl n1 n12 n13 n2 n3 n23
  have hz : ∀ k : F, (cross (s.v1.w - s.v0.w) (s.v2.w - s.v0.w) * cross s.v1.w s.v2.w * k) * s.v0.w +
      (cross (s.v1.w - s.v0.w) (s.v2.w - s.v0.w) * cross s.v2.w s.v0.w * k) * s.v1.w +
      (cross (s.v1.w - s.v0.w) (s.v2.w - s.v0.w) * cross s.v0.w s.v1.w * k) * s.v2.w = (⟨0, 0⟩ : Vec2 F) := by
    intro k
    ext <;> simp only [cross, Vec2.add_x, Vec2.add_y, Vec2.smul_x, Vec2.smul_y, Vec2.sub_x, Vec2.sub_y] <;> ring
  have hz := hz (1 / (cross (s.v1.w - s.v0.w) (s.v2.w - s.v0.w) * cross s.v1.w s.v2.w +
    cross (s.v1.w - s.v0.w) (s.v2.w - s.v0.w) * cross s.v2.w s.v0.w + cross (s.v1.w - s.v0.w) (s.v2.w - s.v0.w) * cross s.v0.w s.v1.w))
  generalize cross (s.v1.w - s.v0.w) (s.v2.w - s.v0.w) * cross s.v1.w s.v2.w = x at *
  generalize cross (s.v1.w - s.v0.w) (s.v2.w - s.v0.w) * cross s.v2.w s.v0.w = y at *
  generalize cross (s.v1.w - s.v0.w) (s.v2.w - s.v0.w) * cross s.v0.w s.v1.w = z at *
  have hs : 0 < x + y + z := by linarith
  have hi : 0 < 1 / (x + y + z) := one_div_pos.mpr hs
  refine ⟨⟨0, 0⟩, .inr (.inr ⟨rfl, mul_pos d1 hi, mul_pos d2 hi, mul_pos d3 hi, ?_, rfl, hz⟩), ?_, ?_⟩
  · dsimp only
    rw [← add_mul, ← add_mul]
    exact mul_one_div_cancel hs.ne'
  · intro u _
    simp [dot]
  · intro u hu
    simp only [Simplex.slots, List.take, List.mem_cons, List.not_mem_nil, or_false] at hu
    rcases hu with rfl | rfl | rfl
    · exact ⟨s.v0, by simp, _, rfl⟩
    · exact ⟨s.v1, by simp, _, rfl⟩
    · exact ⟨s.v2, by simp, _, rfl⟩

theorem solve_spec {s : Simplex F} (h : 1 ≤ s.count ∧ s.count ≤ 3) : ∃ s' v, s.solve = some s' ∧ Solved s' v ∧
    (∀ u ∈ s.slots, dot v v ≤ dot v u.w) ∧ ∀ u ∈ s'.slots, ∃ t ∈ s.slots, ∃ a, u = { t with a := a } := by
  unfold Simplex.solve
  have : s.count = 1 ∨ s.count = 2 ∨ s.count = 3 := by omega
  rcases this with e | e | e
  · rw [e]
    refine ⟨s, s.v0.w, rfl, .inl ⟨e, rfl⟩, ?_, fun u hu => ⟨u, hu, u.a, rfl⟩⟩
    intro u hu
    simp only [Simplex.slots, e, List.take, List.mem_cons, List.not_mem_nil, or_false] at hu
    rw [hu]
  · rw [e]
    obtain ⟨v, h1, h2, h3⟩ := solve2_spec s e
    exact ⟨_, v, rfl, h1, h2, h3⟩
  · rw [e]
    obtain ⟨v, h1, h2, h3⟩ := solve3_spec s e
    exact ⟨_, v, rfl, h1, h2, h3⟩

/-! ## The search direction -/

theorem direction_spec {s : Simplex F} {v : Vec2 F} (h : Solved s v) (h3 : s.count ≠ 3) :
    ∃ (d : Vec2 F) (k : F), s.direction = some d ∧ 0 ≤ k ∧ v = -(k * d) ∧
      (d.lengthSquared < epsilon * epsilon → dot v v < epsilon * epsilon ∨
        ∃ a ∈ s.slots, ∃ b ∈ s.slots, 0 < dot (a.w - b.w) (a.w - b.w) ∧ dot (a.w - b.w) (a.w - b.w) < epsilon * epsilon) := by
  rcases h with ⟨e, rfl⟩ | ⟨e, a1, a2, a3, hv, hp, hl⟩ | ⟨e, _⟩
  · refine ⟨-s.v0.w, 1, by simp [Simplex.direction, e], zero_le_one, ?_, ?_⟩
    · ext <;> simp
    · intro hd
      left
      simpa [Vec2.lengthSquared, dot] using hd
  · have hm : s.v0 ∈ s.slots ∧ s.v1 ∈ s.slots := by simp [Simplex.slots, e]
    have hw : s.v0.w = v - s.v1.a * (s.v1.w - s.v0.w) := by
      ext
      · simp only [Vec2.sub_x, Vec2.smul_x]
        have := congrArg Vec2.x hv
        simp only [Vec2.add_x, Vec2.smul_x] at this
        linear_combination (-1) * this - s.v0.w.x * a3
      · simp only [Vec2.sub_y, Vec2.smul_y]
        have := congrArg Vec2.y hv
        simp only [Vec2.add_y, Vec2.smul_y] at this
        linear_combination (-1) * this - s.v0.w.y * a3
    set e12 := s.v1.w - s.v0.w with he
    have hc : cross e12 (-s.v0.w) = v.x * e12.y - v.y * e12.x := by
      rw [hw]; simp only [cross, Vec2.neg_x, Vec2.neg_y, Vec2.sub_x, Vec2.sub_y, Vec2.smul_x, Vec2.smul_y]; ring
    have hl' : 0 < e12.x * e12.x + e12.y * e12.y := hl
    have hp' : v.x * e12.x + v.y * e12.y = 0 := hp
    have hk : (e12.x * e12.x + e12.y * e12.y) * (1 / (e12.x * e12.x + e12.y * e12.y)) = 1 := mul_one_div_cancel hl'.ne'
    have hi : 0 < 1 / (e12.x * e12.x + e12.y * e12.y) := one_div_pos.mpr hl'
    set k := 1 / (e12.x * e12.x + e12.y * e12.y) with hkd
    have small : e12.x * e12.x + e12.y * e12.y < epsilon * epsilon → ∃ a ∈ s.slots, ∃ b ∈ s.slots,
        0 < dot (a.w - b.w) (a.w - b.w) ∧ dot (a.w - b.w) (a.w - b.w) < epsilon * epsilon :=
      fun hd => ⟨s.v1, hm.2, s.v0, hm.1, hl, hd⟩
    have hdir : s.direction = if cross e12 (-s.v0.w) > 0 then some (crossSV 1 e12) else some (crossVS e12 1) := by
      unfold Simplex.direction; simp only [e, he]
    rw [hdir]
    by_cases hs : cross e12 (-s.v0.w) > 0
    · rw [if_pos hs]
      rw [hc] at hs
      refine ⟨_, k * (v.x * e12.y - v.y * e12.x), rfl, (mul_pos hi hs).le, ?_, ?_⟩
      · ext
        · simp only [crossSV, Vec2.neg_x, Vec2.smul_x]
          linear_combination (-v.x) * hk + k * e12.x * hp'
        · simp only [crossSV, Vec2.neg_y, Vec2.smul_y]
          linear_combination (-v.y) * hk + k * e12.y * hp'
      · intro hd
        refine .inr (small (lt_of_eq_of_lt ?_ hd))
        simp only [Vec2.lengthSquared, crossSV]; ring
    · rw [if_neg hs]
      rw [hc] at hs
      refine ⟨_, k * -(v.x * e12.y - v.y * e12.x), rfl, mul_nonneg hi.le (by linarith), ?_, ?_⟩
      · ext
        · simp only [crossVS, Vec2.neg_x, Vec2.smul_x]
          linear_combination (-v.x) * hk + k * e12.x * hp'
        · simp only [crossVS, Vec2.neg_y, Vec2.smul_y]
          linear_combination (-v.y) * hk + k * e12.y * hp'
      · intro hd
        refine .inr (small (lt_of_eq_of_lt ?_ hd))
        simp only [Vec2.lengthSquared, crossVS]; ring
  · exact absurd e h3

/-! ## The loop -/

theorem put_spec {s : Simplex F} {w : Vec2 F} (h : Solved s w) (h3 : s.count ≠ 3) : ∃ old, s.get s.count = some old ∧
    ∀ v, ∃ s', s.put s.count v = some s' ∧ s'.count = s.count ∧ s'.slots = s.slots ∧
      { s' with count := s'.count + 1 }.slots = s.slots ++ [v] ∧ Solved s' w := by
  rcases h with ⟨e, hw⟩ | ⟨e, hw⟩ | ⟨e, hw⟩
  · refine ⟨s.v1, by simp [Simplex.get, e], fun v => ⟨{ s with v1 := v }, by simp [Simplex.put, e], rfl, ?_, ?_, ?_⟩⟩
    · simp [Simplex.slots, e]
    · simp [Simplex.slots, e]
    · exact .inl ⟨e, hw⟩
  · refine ⟨s.v2, by simp [Simplex.get, e], fun v => ⟨{ s with v2 := v }, by simp [Simplex.put, e], rfl, ?_, ?_, ?_⟩⟩
    · simp [Simplex.slots, e]
    · simp [Simplex.slots, e]
    · exact .inr (.inl ⟨e, hw⟩)
  · exact absurd e h3

theorem Solved.count {s : Simplex F} {w : Vec2 F} (h : Solved s w) : 1 ≤ s.count ∧ s.count ≤ 3 := by
  rcases h with ⟨e, _⟩ | ⟨e, _⟩ | ⟨e, _⟩ <;> omega

theorem slots_of_pairs {s : Simplex F} {i : Nat × Nat} (h : i ∈ s.pairs) : ∃ u ∈ s.slots, (u.indexA, u.indexB) = i := by
  unfold Simplex.pairs at h
  obtain ⟨u, hu, e⟩ := List.mem_map.mp h
  exact ⟨u, hu, e⟩

theorem Slot.withA {pA pB : Proxy F} {xA xB : Xf F} {t : SimplexVertex F} (h : Slot pA pB xA xB t) (a : F) : Slot pA pB xA xB { t with a := a } := h

/-- Why the loop stopped: the origin is in the triangle, the point is the closest, the point is the origin up to `epsilon`, or
two different differences are closer than that. -/
def Stopped (pA pB : Proxy F) (xA xB : Xf F) (s : Simplex F) (v : Vec2 F) : Prop :=
  s.count = 3 ∨ (∀ x, Diff pA pB xA xB x → dot v v ≤ dot v x) ∨ dot v v < epsilon * epsilon ∨
  ∃ x y, Diff pA pB xA xB x ∧ Diff pA pB xA xB y ∧ 0 < dot (x - y) (x - y) ∧ dot (x - y) (x - y) < epsilon * epsilon

theorem gjkLoop_spec {pA pB : Proxy F} {xA xB : Xf F} (hA : pA.vertices ≠ []) (hB : pB.vertices ≠ []) :
    ∀ (n iter : Nat) (s : Simplex F), 1 ≤ s.count ∧ s.count ≤ 3 → (∀ u ∈ s.slots, Slot pA pB xA xB u) →
    ∃ s' it, gjkLoop pA pB xA xB n iter s = some (s', it) ∧ iter ≤ it ∧ it ≤ iter + n ∧ (1 ≤ s'.count ∧ s'.count ≤ 3) ∧ (∀ u ∈ s'.slots, Slot pA pB xA xB u) ∧
      (it < iter + n → ∃ v, Solved s' v ∧ Stopped pA pB xA xB s' v)
  | 0, iter, s, hc, hs => ⟨s, iter, rfl, le_refl _, le_refl _, hc, hs, fun h => absurd h (by omega)⟩
  | n + 1, iter, s, hc, hs => by
    obtain ⟨s1, v, e1, h1, h2, h3⟩ := solve_spec hc
    have hs1 : ∀ u ∈ s1.slots, Slot pA pB xA xB u := by
      intro u hu
      obtain ⟨t, ht, a, rfl⟩ := h3 u hu
      exact (hs t ht).withA a
    unfold gjkLoop
    by_cases c3 : s1.count = 3
    · refine ⟨s1, iter, ?_, le_refl _, by omega, h1.count, hs1, fun _ => ⟨v, h1, .inl c3⟩⟩
      simp only [e1, Option.bind_eq_bind, Option.bind_some, c3, if_true]; rfl
    · obtain ⟨d, k, e2, hk, hv, hd⟩ := direction_spec h1 c3
      by_cases cd : d.lengthSquared < epsilon * epsilon
      · refine ⟨s1, iter, ?_, le_refl _, by omega, h1.count, hs1, fun _ => ⟨v, h1, ?_⟩⟩
        · simp only [e1, e2, Option.bind_eq_bind, Option.bind_some, c3, cd, if_true, if_false]; rfl
        · rcases hd cd with hd | ⟨a, ha, b, hb, hl, hl'⟩
          · exact .inr (.inr (.inl hd))
          · exact .inr (.inr (.inr ⟨a.w, b.w, (hs1 a ha).diff, (hs1 b hb).diff, hl, hl'⟩))
      · obtain ⟨old, e3, hput⟩ := put_spec h1 c3
        obtain ⟨u, e4, hu, _, hmax⟩ := newVertex_spec xA xB hA hB d old.a
        obtain ⟨s2, e5, hc2, hs2, hs2', h2'⟩ := hput u
        by_cases cm : (u.indexA, u.indexB) ∈ s.pairs
        · refine ⟨s2, iter + 1, ?_, by omega, by omega, by rw [hc2]; exact h1.count, by rw [hs2]; exact hs1, fun _ => ⟨v, h2', ?_⟩⟩
          · simp only [e1, e2, e3, e4, e5, Option.bind_eq_bind, Option.bind_some, c3, cd, cm, if_true, if_false]; rfl
          · obtain ⟨t, ht, et⟩ := slots_of_pairs cm
            right; left
            intro x hx
            have k1 := h2 t ht
            rw [(hs t ht).same hu et] at k1
            have k2 := mul_le_mul_of_nonneg_left (hmax x hx) hk
            have k3 : ∀ y : Vec2 F, dot v y = -(k * dot y d) := by
              intro y; rw [hv]; simp only [dot, Vec2.neg_x, Vec2.neg_y, Vec2.smul_x, Vec2.smul_y]; ring
            rw [k3 u.w] at k1
            rw [k3 x]
            linarith
        · have hc3 : 1 ≤ ({ s2 with count := s2.count + 1 } : Simplex F).count ∧ ({ s2 with count := s2.count + 1 } : Simplex F).count ≤ 3 := by
            have := h1.count
            dsimp only; omega
          obtain ⟨s', it, e6, hge, hit, hc', hs', hv'⟩ := gjkLoop_spec hA hB n (iter + 1) { s2 with count := s2.count + 1 } hc3 (by
            rw [hs2']
            intro x hx
            rcases List.mem_append.mp hx with hx | hx
            · exact hs1 x hx
            · rw [List.mem_singleton.mp hx]; exact hu)
          refine ⟨s', it, ?_, by omega, by omega, hc', hs', fun h => hv' (by omega)⟩
          simp only [e1, e2, e3, e4, e5, Option.bind_eq_bind, Option.bind_some, c3, cd, cm, if_false]
          exact e6

/-! ## Reading the cache -/

theorem fill_spec {pA pB : Proxy F} {xA xB : Xf F} (s : Simplex F) {c : Cache F} (h : CacheFits c pA.vertices.length pB.vertices.length) :
    ∃ s', s.fill c pA pB xA xB = some s' ∧ s'.count ≤ 3 ∧ ∀ u ∈ s'.slots, Slot pA pB xA xB u := by
  obtain ⟨hc, h0, h1, h2⟩ := h
  unfold Simplex.fill
  have : c.count = 0 ∨ c.count = 1 ∨ c.count = 2 ∨ c.count = 3 := by omega
  rcases this with e | e | e | e
  · rw [e]
    exact ⟨_, rfl, by simp, by simp [Simplex.slots]⟩
  · obtain ⟨a, ea⟩ := makeVertex_total (xA := xA) (xB := xB) (a := (0 : F)) (h0 (by omega)).1 (h0 (by omega)).2
    rw [e]
    simp only [ea, Option.bind_eq_bind, Option.bind_some]
    refine ⟨_, rfl, by simp, ?_⟩
    simp only [Simplex.slots, List.take, List.forall_mem_cons]
    exact ⟨(makeVertex_slot ea).1, by simp⟩
  · obtain ⟨a, ea⟩ := makeVertex_total (xA := xA) (xB := xB) (a := (0 : F)) (h0 (by omega)).1 (h0 (by omega)).2
    obtain ⟨b, eb⟩ := makeVertex_total (xA := xA) (xB := xB) (a := (0 : F)) (h1 (by omega)).1 (h1 (by omega)).2
    rw [e]
    simp only [ea, eb, Option.bind_eq_bind, Option.bind_some]
    refine ⟨_, rfl, by simp, ?_⟩
    simp only [Simplex.slots, List.take, List.forall_mem_cons]
    exact ⟨(makeVertex_slot ea).1, (makeVertex_slot eb).1, by simp⟩
  · obtain ⟨a, ea⟩ := makeVertex_total (xA := xA) (xB := xB) (a := (0 : F)) (h0 (by omega)).1 (h0 (by omega)).2
    obtain ⟨b, eb⟩ := makeVertex_total (xA := xA) (xB := xB) (a := (0 : F)) (h1 (by omega)).1 (h1 (by omega)).2
    obtain ⟨d, ed⟩ := makeVertex_total (xA := xA) (xB := xB) (a := (0 : F)) (h2 (by omega)).1 (h2 (by omega)).2
    rw [e]
    simp only [ea, eb, ed, Option.bind_eq_bind, Option.bind_some]
    refine ⟨_, rfl, by simp, ?_⟩
    simp only [Simplex.slots, List.take, List.forall_mem_cons]
    exact ⟨(makeVertex_slot ea).1, (makeVertex_slot eb).1, (makeVertex_slot ed).1, by simp⟩

theorem metric_total [Elem F] {s : Simplex F} (h : 1 ≤ s.count ∧ s.count ≤ 3) : ∃ m, s.metric = some m := by
  unfold Simplex.metric
  have : s.count = 1 ∨ s.count = 2 ∨ s.count = 3 := by omega
  rcases this with e | e | e <;> rw [e] <;> exact ⟨_, rfl⟩

theorem readCache_spec [Elem F] {pA pB : Proxy F} {xA xB : Xf F} (hA : pA.vertices ≠ []) (hB : pB.vertices ≠ []) (s : Simplex F) {c : Cache F}
    (h : CacheFits c pA.vertices.length pB.vertices.length) :
    ∃ s', s.readCache c pA pB xA xB = some s' ∧ (1 ≤ s'.count ∧ s'.count ≤ 3) ∧ ∀ u ∈ s'.slots, Slot pA pB xA xB u := by
  obtain ⟨s1, e1, c1, h1⟩ := fill_spec (xA := xA) (xB := xB) s h
  obtain ⟨s2, e2, c2, h2⟩ : ∃ s2, s1.flush c.metric = some s2 ∧ s2.count ≤ 3 ∧ ∀ u ∈ s2.slots, Slot pA pB xA xB u := by
    unfold Simplex.flush
    by_cases hc : s1.count > 1
    · obtain ⟨m, hm⟩ := metric_total (s := s1) (by omega)
      rw [if_pos hc]
      simp only [hm, Option.bind_eq_bind, Option.bind_some]
      split
      · exact ⟨_, rfl, by simp, by simp [Simplex.slots]⟩
      · exact ⟨_, rfl, c1, h1⟩
    · rw [if_neg hc]; exact ⟨_, rfl, c1, h1⟩
  obtain ⟨a, ea⟩ := makeVertex_total (xA := xA) (xB := xB) (i := (0, 0)) (a := (1 : F)) (List.length_pos_iff.mpr hA) (List.length_pos_iff.mpr hB)
  simp only [Simplex.readCache, e1, e2, ea, Option.bind_eq_bind, Option.bind_some]
  by_cases hc : s2.count = 0
  · rw [if_pos hc]
    refine ⟨_, rfl, by simp, ?_⟩
    simp only [Simplex.slots, List.take, List.forall_mem_cons]
    exact ⟨(makeVertex_slot ea).1, by simp⟩
  · rw [if_neg hc]
    exact ⟨_, rfl, by omega, h2⟩

theorem writeCache_spec [Elem F] {pA pB : Proxy F} {xA xB : Xf F} {s : Simplex F} (h : 1 ≤ s.count ∧ s.count ≤ 3)
    (hs : ∀ u ∈ s.slots, Slot pA pB xA xB u) (c : Cache F) :
    ∃ c', s.writeCache c = some c' ∧ CacheFits c' pA.vertices.length pB.vertices.length := by
  obtain ⟨m, hm⟩ := metric_total h
  have key : ∀ u, Slot pA pB xA xB u → u.u8.1 < pA.vertices.length ∧ u.u8.2 < pB.vertices.length := by
    rintro u ⟨lA, lB, h1, h2, _⟩
    exact ⟨lt_of_le_of_lt (Nat.mod_le _ _) (List.getElem?_eq_some_iff.mp h1).1, lt_of_le_of_lt (Nat.mod_le _ _) (List.getElem?_eq_some_iff.mp h2).1⟩
  simp only [Simplex.writeCache, hm, Option.bind_eq_bind, Option.bind_some]
  refine ⟨_, rfl, h.2, ?_, ?_, ?_⟩ <;> intro hc <;> dsimp only at hc ⊢ <;> rw [if_pos hc] <;> refine key _ (hs _ ?_) <;> unfold Simplex.slots
  · obtain ⟨k, hk⟩ : ∃ k, s.count = k + 1 := ⟨s.count - 1, by omega⟩
    rw [hk]; simp
  · obtain ⟨k, hk⟩ : ∃ k, s.count = k + 2 := ⟨s.count - 2, by omega⟩
    rw [hk]; simp
  · obtain ⟨k, hk⟩ : ∃ k, s.count = k + 3 := ⟨s.count - 3, by omega⟩
    rw [hk]; simp

/-! ## The result -/

theorem place_mulV (x : Xf F) (v : Vec2 F) : place x v = x.mulV v := rfl

theorem hull_mix2 {vs : List (Vec2 F)} {p q : Vec2 F} {a b : F} (hp : Hull vs p) (hq : Hull vs q) (ha : 0 ≤ a) (hb : 0 ≤ b) (hab : a + b = 1) :
    Hull vs (a * p + b * q) := by
  have : a * p + b * q = onLine p q b := by
    have : a = 1 - b := by linarith
    ext <;> simp only [onLine, Vec2.add_x, Vec2.add_y, Vec2.smul_x, Vec2.smul_y, this] <;> ring
  rw [this]
  exact .between hp hq hb (by linarith)

theorem hull_mix3 {vs : List (Vec2 F)} {p q r : Vec2 F} {a b c : F} (hp : Hull vs p) (hq : Hull vs q) (hr : Hull vs r) (ha : 0 < a) (hb : 0 ≤ b) (hc : 0 ≤ c)
    (h : a + b + c = 1) : Hull vs (a * p + b * q + c * r) := by
  have hs : 0 < a + b := by linarith
  have hk := mul_one_div_cancel hs.ne'
  have h1 : Hull vs ((a * (1 / (a + b))) * p + (b * (1 / (a + b))) * q) :=
    hull_mix2 hp hq (mul_nonneg ha.le (one_div_pos.mpr hs).le) (mul_nonneg hb (one_div_pos.mpr hs).le) (by rw [← add_mul]; exact hk)
  have h2 := hull_mix2 (a := a + b) (b := c) h1 hr hs.le hc h
  have : (a + b) * ((a * (1 / (a + b))) * p + (b * (1 / (a + b))) * q) + c * r = a * p + b * q + c * r := by
    ext
    · simp only [Vec2.add_x, Vec2.smul_x]; linear_combination (a * p.x + b * q.x) * hk
    · simp only [Vec2.add_y, Vec2.smul_y]; linear_combination (a * p.y + b * q.y) * hk
  rwa [this] at h2

theorem Slot.hull {pA pB : Proxy F} {xA xB : Xf F} {v : SimplexVertex F} (hv : Slot pA pB xA xB v) :
    Hull (placedAt pA xA) v.wA ∧ Hull (placedAt pB xB) v.wB := by
  obtain ⟨lA, lB, h1, h2, h3, h4, _⟩ := hv
  exact ⟨.vertex (List.mem_map.mpr ⟨lA, List.mem_of_getElem? h1, by rw [h3, place_mulV]⟩),
    .vertex (List.mem_map.mpr ⟨lB, List.mem_of_getElem? h2, by rw [h4, place_mulV]⟩)⟩

/-- The witness points of a solved simplex are in the shapes, and their difference is the point of the simplex. -/
theorem witness_spec {pA pB : Proxy F} {xA xB : Xf F} {s : Simplex F} {v : Vec2 F} (h : Solved s v) (hs : ∀ u ∈ s.slots, Slot pA pB xA xB u) :
    ∃ p, s.witness = some p ∧ Hull (placedAt pA xA) p.1 ∧ Hull (placedAt pB xB) p.2 ∧ p.2 - p.1 = v := by
  have hw : ∀ u, Slot pA pB xA xB u → u.w = u.wB - u.wA := by rintro u ⟨_, _, _, _, _, _, h⟩; exact h
  rcases h with ⟨e, hv⟩ | ⟨e, a1, a2, a3, hv, _, _⟩ | ⟨e, a1, a2, a3, a4, hv, hz⟩
  · have h0 := hs s.v0 (by simp [Simplex.slots, e])
    exact ⟨(s.v0.wA, s.v0.wB), by simp [Simplex.witness, e], h0.hull.1, h0.hull.2, by rw [hv, hw _ h0]⟩
  · have h0 := hs s.v0 (by simp [Simplex.slots, e])
    have h1 := hs s.v1 (by simp [Simplex.slots, e])
    refine ⟨_, by simp [Simplex.witness, e]; rfl, hull_mix2 h0.hull.1 h1.hull.1 a1.le a2.le a3, hull_mix2 h0.hull.2 h1.hull.2 a1.le a2.le a3, ?_⟩
    rw [hv, hw _ h0, hw _ h1]
    ext <;> simp only [Vec2.add_x, Vec2.add_y, Vec2.smul_x, Vec2.smul_y, Vec2.sub_x, Vec2.sub_y] <;> ring
  · have h0 := hs s.v0 (by simp [Simplex.slots, e])
    have h1 := hs s.v1 (by simp [Simplex.slots, e])
    have h2 := hs s.v2 (by simp [Simplex.slots, e])
    have hAB : s.v0.a * s.v0.wA + s.v1.a * s.v1.wA + s.v2.a * s.v2.wA = s.v0.a * s.v0.wB + s.v1.a * s.v1.wB + s.v2.a * s.v2.wB := by
      rw [hw _ h0, hw _ h1, hw _ h2] at hz
      have hx := congrArg Vec2.x hz
      have hy := congrArg Vec2.y hz
      simp only [Vec2.add_x, Vec2.add_y, Vec2.smul_x, Vec2.smul_y, Vec2.sub_x, Vec2.sub_y] at hx hy
      ext <;> simp only [Vec2.add_x, Vec2.add_y, Vec2.smul_x, Vec2.smul_y]
      · linear_combination -hx
      · linear_combination -hy
    refine ⟨(s.v0.a * s.v0.wA + s.v1.a * s.v1.wA + s.v2.a * s.v2.wA, s.v0.a * s.v0.wA + s.v1.a * s.v1.wA + s.v2.a * s.v2.wA), by simp [Simplex.witness, e], hull_mix3 h0.hull.1 h1.hull.1 h2.hull.1 a1 a2.le a3.le a4, ?_, ?_⟩
    · dsimp only
      rw [hAB]
      exact hull_mix3 h0.hull.2 h1.hull.2 h2.hull.2 a1 a2.le a3.le a4
    · rw [hv]; ext <;> simp

theorem dot_onLine (v a b : Vec2 F) (t : F) : dot v (onLine a b t) = (1 - t) * dot v a + t * dot v b := by
  simp only [dot, onLine]; ring

/-- A lower bound at the vertices holds on the hull. -/
theorem hull_ge {vs : List (Vec2 F)} {v : Vec2 F} {m : F} (h : ∀ x ∈ vs, m ≤ dot v x) {p : Vec2 F} (hp : Hull vs p) : m ≤ dot v p := by
  induction hp with
  | vertex hx => exact h _ hx
  | between _ _ h0 h1 ia ib =>
    rw [dot_onLine]
    nlinarith [mul_le_mul_of_nonneg_left ia (sub_nonneg.mpr h1), mul_le_mul_of_nonneg_left ib h0]

/-- A lower bound at the differences of vertices holds for the differences of points of the hulls. -/
theorem diff_ge {pA pB : Proxy F} {xA xB : Xf F} {v : Vec2 F} {m : F} (h : ∀ x, Diff pA pB xA xB x → m ≤ dot v x) {p q : Vec2 F}
    (hp : Hull (placedAt pA xA) p) (hq : Hull (placedAt pB xB) q) : m ≤ dot v (q - p) := by
  have h1 : ∀ y ∈ placedAt pB xB, m + dot v p ≤ dot v y := by
    intro y hy
    obtain ⟨lB, hB, rfl⟩ := List.mem_map.mp hy
    have h2 : ∀ x ∈ placedAt pA xA, m - dot v (place xB lB) ≤ dot (-v) x := by
      intro x hx
      obtain ⟨lA, hA, rfl⟩ := List.mem_map.mp hx
      have := h _ ⟨lA, hA, lB, hB, rfl⟩
      simp only [dot, Vec2.neg_x, Vec2.neg_y, Vec2.sub_x, Vec2.sub_y] at this ⊢
      linarith
    have := hull_ge h2 hp
    simp only [dot, Vec2.neg_x, Vec2.neg_y] at this ⊢
    linarith
  have := hull_ge h1 hq
  simp only [dot, Vec2.sub_x, Vec2.sub_y] at this ⊢
  linarith

theorem dot_le_of_ge {v x : Vec2 F} (h : dot v v ≤ dot v x) : dot v v ≤ dot x x := by
  simp only [dot] at *
  nlinarith [mul_self_nonneg (v.x - x.x), mul_self_nonneg (v.y - x.y)]

/-- The distance computation, without radii. -/
theorem distance_core [Elem F] {c : Cache F} {i : DistanceInput F} (hA : i.proxyA.vertices ≠ []) (hB : i.proxyB.vertices ≠ [])
    (hc : CacheFits c i.proxyA.vertices.length i.proxyB.vertices.length) :
    ∃ (p : Vec2 F × Vec2 F) (iter : Nat) (c' : Cache F), distance c i = some (if i.useRadii then (⟨p.1, p.2, distanceV p.1 p.2, iter⟩ : DistanceOutput F).applyRadii i.proxyA.radius i.proxyB.radius
        else ⟨p.1, p.2, distanceV p.1 p.2, iter⟩, c') ∧
      iter ≤ 20 ∧ CacheFits c' i.proxyA.vertices.length i.proxyB.vertices.length ∧
      (iter < 20 → Hull (placedAt i.proxyA i.xfA) p.1 ∧ Hull (placedAt i.proxyB i.xfB) p.2 ∧
        ((∀ x y, Hull (placedAt i.proxyA i.xfA) x → Hull (placedAt i.proxyB i.xfB) y → dist2 p.1 p.2 ≤ dist2 x y) ∨ dist2 p.1 p.2 < epsilon * epsilon ∨
          ∃ x y, Diff i.proxyA i.proxyB i.xfA i.xfB x ∧ Diff i.proxyA i.proxyB i.xfA i.xfB y ∧ 0 < dist2 x y ∧ dist2 x y < epsilon * epsilon)) := by
  obtain ⟨s0, e0, c0, h0⟩ := readCache_spec (xA := i.xfA) (xB := i.xfB) hA hB (Simplex.zero : Simplex F) hc
  obtain ⟨s, iter, e1, _, h1, c1, hs, hst⟩ := gjkLoop_spec (xA := i.xfA) (xB := i.xfB) hA hB gjkMaxIters 0 s0 c0 h0
  obtain ⟨c', e3, hc'⟩ := writeCache_spec c1 hs c
  obtain ⟨p, e2⟩ : ∃ p, s.witness = some p := by
    unfold Simplex.witness
    have : s.count = 1 ∨ s.count = 2 ∨ s.count = 3 := by omega
    rcases this with e | e | e <;> rw [e] <;> exact ⟨_, rfl⟩
  refine ⟨p, iter, c', ?_, by simpa [gjkMaxIters] using h1, hc', ?_⟩
  · simp only [distance, e0, e1, e2, e3, Option.bind_eq_bind, Option.bind_some]; rfl
  · intro hlt
    obtain ⟨v, hv, hstop⟩ := hst (by simpa [gjkMaxIters] using hlt)
    obtain ⟨p', e2', hpA, hpB, hpv⟩ := witness_spec hv hs
    rw [e2] at e2'
    cases e2'
    have hd : dist2 p.1 p.2 = dot v v := by
      rw [← hpv]; simp only [dist2, dot, Vec2.sub_x, Vec2.sub_y]; ring
    refine ⟨hpA, hpB, ?_⟩
    rw [hd]
    rcases hstop with h3 | h | h | ⟨x, y, hx, hy, k1, k2⟩
    · left
      rcases hv with ⟨e, _⟩ | ⟨e, _⟩ | ⟨_, _, _, _, _, rfl, _⟩
      · omega
      · omega
      · intro x y _ _
        simp only [dot, dist2]
        nlinarith [mul_self_nonneg (x.x - y.x), mul_self_nonneg (x.y - y.y)]
    · left
      intro x y hx hy
      have := dot_le_of_ge (diff_ge h hx hy)
      refine this.trans (le_of_eq ?_)
      simp only [dist2, dot, Vec2.sub_x, Vec2.sub_y]; ring
    · exact .inr (.inl h)
    · refine .inr (.inr ⟨x, y, hx, hy, ?_, ?_⟩)
      · exact k1
      · exact k2

/-! ## Radii -/

theorem b2max_max (a b : F) : b2max a b = max a b := by
  unfold b2max
  split
  · rw [max_eq_left (by linarith)]
  · rw [max_eq_right (by linarith)]

theorem eps_pos : (0 : F) < epsilon := by unfold epsilon; norm_num

theorem eps_lt_radius : (epsilon : F) < polygonRadius := by unfold epsilon polygonRadius linearSlop; norm_num

theorem length_sq [Elem F] [ElemLaws F] (a : Vec2 F) : a.length * a.length = dot a a :=
  ElemLaws.mul_self_sqrt _ (by nlinarith [mul_self_nonneg a.x, mul_self_nonneg a.y])

theorem length_nonneg [Elem F] [ElemLaws F] (a : Vec2 F) : 0 ≤ a.length := ElemLaws.sqrt_nonneg _

/-- Normalizing a vector that is not tiny. -/
theorem normalize_spec [Elem F] [ElemLaws F] {a : Vec2 F} (h : ¬ a.length < epsilon) :
    dot a.normalize.1 a.normalize.1 = 1 ∧ a = a.length * a.normalize.1 ∧ 0 < a.length := by
  have hp : 0 < a.length := lt_of_lt_of_le eps_pos (not_lt.mp h)
  have hk := mul_one_div_cancel hp.ne'
  have hl := length_sq a
  have e : a.normalize.1 = ⟨a.x * (1 / a.length), a.y * (1 / a.length)⟩ := by
    unfold Vec2.normalize
    dsimp only
    rw [if_neg h]
  rw [e]
  refine ⟨?_, ?_, hp⟩
  · have : dot (⟨a.x * (1 / a.length), a.y * (1 / a.length)⟩ : Vec2 F) ⟨a.x * (1 / a.length), a.y * (1 / a.length)⟩ =
        dot a a * ((1 / a.length) * (1 / a.length)) := by simp only [dot]; ring
    rw [this, ← hl]
    linear_combination (a.length * (1 / a.length) + 1) * hk
  · ext
    · simp only [Vec2.smul_x]; linear_combination (-a.x) * hk
    · simp only [Vec2.smul_y]; linear_combination (-a.y) * hk

/-! ## Shape casts -/

/-- A separating direction keeps the moved shapes apart. -/
theorem apart_of_plane {i : ShapeCastInput F} {n : Vec2 F} {m t : F}
    (h : ∀ a ∈ i.proxyA.vertices, ∀ b ∈ i.proxyB.vertices, m ≤ dot n (i.xfA.mulV a - i.xfB.mulV b)) {x y : Vec2 F}
    (hx : Hull (placedAt i.proxyA i.xfA) x) (hy : Hull (placedAt i.proxyB (moved i.xfB (t * i.translationB))) y) :
    m - t * dot n i.translationB ≤ dot n (x - y) := by
  refine diff_ge (pA := i.proxyB) (pB := i.proxyA) (xA := moved i.xfB (t * i.translationB)) (xB := i.xfA) ?_ hy hx
  rintro z ⟨b, hb, a, ha, rfl⟩
  have := h a ha b hb
  simp only [dot, Xf.mulV, moved, place, Vec2.sub_x, Vec2.sub_y, Vec2.add_x, Vec2.add_y, Vec2.smul_x, Vec2.smul_y] at this ⊢
  linarith

theorem far_of_dot {n z : Vec2 F} {sigma : F} (hn : dot n n = 1) (h0 : 0 ≤ sigma) (h : sigma < dot n z) : sigma * sigma < dot z z := by
  have h1 : dot n z * dot n z ≤ dot z z := by
    have : dot n z * dot n z + cross n z * cross n z = dot n n * dot z z := by simp only [dot, cross]; ring
    rw [hn] at this
    nlinarith [mul_self_nonneg (cross n z)]
  nlinarith

theorem sub_dist2 (x y : Vec2 F) : dot (x - y) (x - y) = dist2 x y := by simp only [dist2, dot, Vec2.sub_x, Vec2.sub_y]

/-- What the loop of a shape cast keeps: the shapes are apart up to `lambda`, where there is a separating line. -/
structure CastInv (i : ShapeCastInput F) (sigma : F) (st : CastState F) : Prop where
  count : st.s.count ≤ 2
  nonneg : 0 ≤ st.lambda
  le_one : st.lambda ≤ 1
  slots : ∀ u ∈ st.s.slots, Slot i.proxyB i.proxyA (moved i.xfB (st.lambda * i.translationB)) i.xfA u
  clear : ∀ t, 0 ≤ t → t < st.lambda → Apart i sigma t
  plane : 0 < st.lambda → ∀ x y, Hull (placedAt i.proxyA i.xfA) x → Hull (placedAt i.proxyB (moved i.xfB (st.lambda * i.translationB))) y →
    sigma * sigma ≤ dist2 x y

/-- The outcome of the plane. -/
theorem castPlane_spec {i : ShapeCastInput F} {sigma : F} {st : CastState F} (hs : 0 ≤ sigma) (h : CastInv i sigma st) {v p : Vec2 F}
    (hv : dot v v = 1) (hp : ∀ a ∈ i.proxyA.vertices, ∀ b ∈ i.proxyB.vertices, dot v p ≤ dot v (i.xfA.mulV a - i.xfB.mulV b)) :
    (castPlane sigma i.translationB v p st = none → ∀ t, 0 ≤ t → t ≤ 1 → Apart i sigma t) ∧
    ∀ st', castPlane sigma i.translationB v p st = some st' → CastInv i sigma st' := by
  have key : ∀ t, sigma < dot v p - t * dot v i.translationB → Apart i sigma t := by
    intro t ht x y hx hy
    rw [← sub_dist2]
    exact far_of_dot hv hs (lt_of_lt_of_le ht (apart_of_plane hp hx hy))
  unfold castPlane
  dsimp only
  by_cases c1 : dot v p - sigma > st.lambda * dot v i.translationB
  · rw [if_pos c1]
    by_cases c2 : dot v i.translationB ≤ 0
    · rw [if_pos c2]
      refine ⟨fun _ t h0 h1 => ?_, fun st' e => by cases e⟩
      by_cases c : t < st.lambda
      · exact h.clear t h0 c
      · refine key t ?_
        nlinarith [mul_le_mul_of_nonneg_right (not_lt.mp c) (neg_nonneg.mpr c2)]
    · rw [if_neg c2]
      have c2 := not_le.mp c2
      have hl : (dot v p - sigma) / dot v i.translationB * dot v i.translationB = dot v p - sigma := div_mul_cancel₀ _ c2.ne'
      have hlt : st.lambda < (dot v p - sigma) / dot v i.translationB := by rw [lt_div_iff₀ c2]; exact c1
      set l := (dot v p - sigma) / dot v i.translationB with hld
      have hcl : ∀ t, t < l → Apart i sigma t := by
        intro t ht
        refine key t ?_
        nlinarith [mul_lt_mul_of_pos_right ht c2]
      by_cases c3 : l > 1
      · rw [if_pos c3]
        exact ⟨fun _ t _ h1 => hcl t (by linarith), fun st' e => by cases e⟩
      · rw [if_neg c3]
        refine ⟨fun e => (by cases e), fun st' e => ?_⟩
        cases e
        refine ⟨by simp, by dsimp only; linarith [h.nonneg], not_lt.mp c3, by simp [Simplex.slots], fun t _ ht => hcl t ht, fun _ x y hx hy => ?_⟩
        rw [← sub_dist2]
        have k := apart_of_plane hp hx hy
        dsimp only at k
        have k1 : sigma ≤ dot v (x - y) := by linarith
        have h1 : dot v (x - y) * dot v (x - y) ≤ dot (x - y) (x - y) := by
          have : dot v (x - y) * dot v (x - y) + cross v (x - y) * cross v (x - y) = dot v v * dot (x - y) (x - y) := by simp only [dot, cross]; ring
          rw [hv] at this
          nlinarith [mul_self_nonneg (cross v (x - y))]
        nlinarith
  · rw [if_neg c1]
    refine ⟨fun e => (Option.some_ne_none _ e).elim, fun st' e => ?_⟩
    cases e
    exact ⟨h.count, h.nonneg, h.le_one, h.slots, h.clear, h.plane⟩

theorem put_any {s : Simplex F} (h : s.count ≤ 2) (v : SimplexVertex F) : ∃ s', s.put s.count v = some s' ∧ s'.count = s.count ∧
    { s' with count := s'.count + 1 }.slots = s.slots ++ [v] := by
  have : s.count = 0 ∨ s.count = 1 ∨ s.count = 2 := by omega
  rcases this with e | e | e
  · exact ⟨{ s with v0 := v }, by simp [Simplex.put, e], rfl, by simp [Simplex.slots, e]⟩
  · exact ⟨{ s with v1 := v }, by simp [Simplex.put, e], rfl, by simp [Simplex.slots, e]⟩
  · exact ⟨{ s with v2 := v }, by simp [Simplex.put, e], rfl, by simp [Simplex.slots, e]⟩

theorem closest_spec {s : Simplex F} {v : Vec2 F} (h : Solved s v) : s.closest = some v := by
  unfold Simplex.closest
  rcases h with ⟨e, hv⟩ | ⟨e, _, _, _, hv, _⟩ | ⟨e, _, _, _, _, hv, _⟩ <;> simp only [e, hv]

theorem castLoop_spec [Elem F] [ElemLaws F] {i : ShapeCastInput F} {sigma tol : F} (hA : i.proxyA.vertices ≠ []) (hB : i.proxyB.vertices ≠ [])
    (hs : polygonRadius ≤ sigma) (ht : 0 ≤ tol) : ∀ (n iter : Nat) (st : CastState F), CastInv i sigma st →
    ∃ res, castLoop i.proxyA i.proxyB i.xfA i.xfB i.translationB sigma tol n iter st = some res ∧
      (res = none → (∀ t, 0 ≤ t → t ≤ 1 → Apart i sigma t) ∨ Within i 0 0) ∧
      ∀ st' it, res = some (st', it) → CastInv i sigma st' ∧ iter ≤ it ∧ it ≤ iter + n ∧ (it < iter + n → st'.v.length - sigma ≤ tol) ∧
        (iter < it → Solved st'.s st'.v) ∧ (iter = it → st' = st)
  | 0, iter, st, h => ⟨some (st, iter), rfl, fun e => (by cases e), fun st' it e => by
      cases e
      exact ⟨h, le_refl _, le_refl _, fun h => absurd h (by omega), fun h => absurd h (by omega), fun _ => rfl⟩⟩
  | n + 1, iter, st, h => by
    unfold castLoop
    by_cases cv : st.v.length - sigma > tol
    · rw [if_pos cv, if_pos (by have := h.count; omega)]
      have hp0 : (0 : F) < polygonRadius := by unfold polygonRadius linearSlop; norm_num
      obtain ⟨hn1, hn2, hn3⟩ := normalize_spec (a := st.v) (by have := eps_lt_radius (F := F); linarith)
      obtain ⟨iA, lA, a1, a2, a3⟩ := support_spec hA (i.xfA.q.mulTV (-st.v))
      obtain ⟨iB, lB, b1, b2, b3⟩ := support_spec hB (i.xfB.q.mulTV st.v)
      have a4 : (i.proxyA.vertex iA).map i.xfA.mulV = some (i.xfA.mulV lA) := by simp [Proxy.vertex, a2]
      have b4 : (i.proxyB.vertex iB).map i.xfB.mulV = some (i.xfB.mulV lB) := by simp [Proxy.vertex, b2]
      have hmin : ∀ a ∈ i.proxyA.vertices, ∀ b ∈ i.proxyB.vertices,
          dot st.v.normalize.1 (i.xfA.mulV lA - i.xfB.mulV lB) ≤ dot st.v.normalize.1 (i.xfA.mulV a - i.xfB.mulV b) := by
        intro a ha b hb
        have k1 := a3 a ha
        have k2 := b3 b hb
        rw [dot_mulTV, dot_mulTV] at k1 k2
        have k3 : dot st.v (i.xfA.mulV lA - i.xfB.mulV lB) ≤ dot st.v (i.xfA.mulV a - i.xfB.mulV b) := by
          simp only [dot, Rot.mulV, Xf.mulV, Vec2.sub_x, Vec2.sub_y, Vec2.neg_x, Vec2.neg_y] at *
          linarith
        have k4 : ∀ z, dot st.v z = st.v.length * dot st.v.normalize.1 z := by
          intro z
          conv_lhs => rw [hn2]
          simp only [dot, Vec2.smul_x, Vec2.smul_y]; ring
        rw [k4, k4] at k3
        exact le_of_mul_le_mul_left k3 hn3
      obtain ⟨hnone, hsome⟩ := castPlane_spec (by linarith) h hn1 hmin
      cases ep : castPlane sigma i.translationB st.v.normalize.1 (i.xfA.mulV lA - i.xfB.mulV lB) st with
      | none =>
        refine ⟨none, ?_, fun _ => .inl (hnone ep), fun st' it e => by cases e⟩
        simp only [a1, a4, b1, b4, Option.bind_eq_bind, Option.bind_some, ep]; rfl
      | some st1 =>
        have h1 := hsome st1 ep
        obtain ⟨s2, e2, hc2, hs2⟩ := put_any h1.count (castVertex st1 i.translationB (i.xfA.mulV lA) (i.xfB.mulV lB) iA iB)
        have hslot : Slot i.proxyB i.proxyA (moved i.xfB (st1.lambda * i.translationB)) i.xfA
            (castVertex st1 i.translationB (i.xfA.mulV lA) (i.xfB.mulV lB) iA iB) := by
          refine ⟨lB, lA, b2, a2, ?_, rfl, rfl⟩
          ext <;> simp only [castVertex, Xf.mulV, moved, Vec2.add_x, Vec2.add_y, Vec2.smul_x, Vec2.smul_y] <;> ring
        have hsl : ∀ u ∈ ({ s2 with count := s2.count + 1 } : Simplex F).slots, Slot i.proxyB i.proxyA (moved i.xfB (st1.lambda * i.translationB)) i.xfA u := by
          rw [hs2]
          intro x hx
          rcases List.mem_append.mp hx with hx | hx
          · exact h1.slots x hx
          · rw [List.mem_singleton.mp hx]; exact hslot
        obtain ⟨s3, v3, e3, h3, _, h5⟩ := solve_spec (s := { s2 with count := s2.count + 1 }) (by
          have := h1.count
          dsimp only; omega)
        have hs3 : ∀ u ∈ s3.slots, Slot i.proxyB i.proxyA (moved i.xfB (st1.lambda * i.translationB)) i.xfA u := by
          intro u hu
          obtain ⟨t, ht', a, rfl⟩ := h5 u hu
          exact (hsl t ht').withA a
        by_cases c3 : s3.count = 3
        · refine ⟨none, ?_, fun _ => .inr ?_, fun st' it e => by cases e⟩
          · simp only [a1, a4, b1, b4, Option.bind_eq_bind, Option.bind_some, ep, e2, e3, c3, if_true]; rfl
          · obtain ⟨p, _, q1, q2, q3⟩ := witness_spec h3 hs3
            have hv0 : v3 = ⟨0, 0⟩ := by
              rcases h3 with ⟨e, _⟩ | ⟨e, _⟩ | ⟨_, _, _, _, _, e, _⟩
              · omega
              · omega
              · exact e
            have hd : dist2 p.2 p.1 = 0 := by
              rw [← sub_dist2, q3, hv0]; simp [dot]
            have hl0 : st1.lambda = 0 := by
              by_contra hl
              have := h1.plane (lt_of_le_of_ne h1.nonneg (Ne.symm hl)) _ _ q2 q1
              rw [hd] at this
              nlinarith [mul_self_pos.mpr (show sigma ≠ 0 by intro h0; rw [h0] at hs; linarith)]
            rw [hl0] at q1
            exact ⟨p.2, p.1, q2, q1, by rw [hd]; simp⟩
        · have hinv : CastInv i sigma { st1 with s := s3, v := v3 } :=
            ⟨by have := h3.count; dsimp only; omega, h1.nonneg, h1.le_one, hs3, h1.clear, h1.plane⟩
          obtain ⟨res, er, hr1, hr2⟩ := castLoop_spec hA hB hs ht n (iter + 1) _ hinv
          refine ⟨res, ?_, hr1, ?_⟩
          · simp only [a1, a4, b1, b4, Option.bind_eq_bind, Option.bind_some, ep, e2, e3, c3, if_false, closest_spec h3]
            exact er
          · intro st' it e
            obtain ⟨k1, k2, k3, k4, k5, k6⟩ := hr2 st' it e
            refine ⟨k1, by omega, by omega, fun hlt => k4 (by omega), fun hlt => ?_, fun heq => by omega⟩
            by_cases hc : iter + 1 = it
            · rw [k6 hc]; exact h3
            · exact k5 (by omega)
    · rw [if_neg cv]
      refine ⟨some (st, iter), rfl, fun e => (by cases e), fun st' it e => ?_⟩
      cases e
      exact ⟨h, le_refl _, by omega, fun _ => not_lt.mp cv, fun h => absurd h (by omega), fun _ => rfl⟩

theorem castSigma_eq (i : ShapeCastInput F) : castSigma i = castTarget i := by
  unfold castSigma castTarget castRadius; simp only [b2max_max]

/-- The shape cast. -/
theorem shapeCast_core [Elem F] [ElemLaws F] {i : ShapeCastInput F} (hA : i.proxyA.vertices ≠ []) (hB : i.proxyB.vertices ≠ []) :
    ∃ res, shapeCast i = some res ∧
      (res = none → (∀ t, 0 ≤ t → t ≤ 1 → Apart i (castTarget i) t) ∨ Within i (castTarget i + linearSlop / 2) 0) ∧
      ∀ o, res = some o → 0 ≤ o.lambda ∧ o.lambda ≤ 1 ∧ 1 ≤ o.iterations ∧ o.iterations ≤ 20 ∧
        (∀ t, 0 ≤ t → t < o.lambda → Apart i (castTarget i) t) ∧
        (o.iterations < 20 → Within i (castTarget i + linearSlop / 2) o.lambda ∧ (0 < o.lambda → dot o.normal o.normal = 1)) ∧
        ∃ q, Hull (placedAt i.proxyA i.xfA) q ∧ o.point = q + castRadius i.proxyA.radius * o.normal := by
  obtain ⟨iA, lA, a1, a2, _⟩ := support_spec hA (i.xfA.q.mulTV (-i.translationB))
  obtain ⟨iB, lB, b1, b2, _⟩ := support_spec hB (i.xfB.q.mulTV i.translationB)
  have a4 : (i.proxyA.vertex iA).map i.xfA.mulV = some (i.xfA.mulV lA) := by simp [Proxy.vertex, a2]
  have b4 : (i.proxyB.vertex iB).map i.xfB.mulV = some (i.xfB.mulV lB) := by simp [Proxy.vertex, b2]
  have es : castStart i = some ⟨.zero, i.xfA.mulV lA - i.xfB.mulV lB, ⟨0, 0⟩, 0⟩ := by
    simp only [castStart, a1, a4, b1, b4, Option.bind_eq_bind, Option.bind_some]; rfl
  have hsig : polygonRadius ≤ castTarget i := le_max_left _ _
  have hp0 : (0 : F) < polygonRadius := by unfold polygonRadius linearSlop; norm_num
  have htol : (0 : F) ≤ 1 / 2 * linearSlop := by unfold linearSlop; norm_num
  have hinv : CastInv i (castTarget i) ⟨.zero, i.xfA.mulV lA - i.xfB.mulV lB, ⟨0, 0⟩, 0⟩ := by
    refine ⟨by simp [Simplex.zero], le_refl _, zero_le_one, by simp [Simplex.slots, Simplex.zero], fun t h0 h1 => ?_, fun h => ?_⟩
    · exact absurd h1 (not_lt.mpr h0)
    · exact absurd h (lt_irrefl _)
  obtain ⟨res, er, hn, hsome⟩ := castLoop_spec hA hB hsig htol gjkMaxIters 0 _ hinv
  have hlen : ∀ z : Vec2 F, z.length - castTarget i ≤ 1 / 2 * linearSlop →
      dot z z ≤ (castTarget i + linearSlop / 2) * (castTarget i + linearSlop / 2) := by
    intro z hz
    rw [← length_sq]
    have h0 := length_nonneg z
    have h1 : z.length ≤ castTarget i + linearSlop / 2 := by linarith
    exact mul_self_le_mul_self h0 h1
  have hA0 : Hull (placedAt i.proxyA i.xfA) (i.xfA.mulV lA) := .vertex (List.mem_map.mpr ⟨lA, List.mem_of_getElem? a2, place_mulV _ _⟩)
  have hB0 : Hull (placedAt i.proxyB (moved i.xfB ((0 : F) * i.translationB))) (i.xfB.mulV lB) :=
    .vertex (List.mem_map.mpr ⟨lB, List.mem_of_getElem? b2, by
      ext <;> simp only [place, moved, Xf.mulV, Vec2.add_x, Vec2.add_y, Vec2.smul_x, Vec2.smul_y] <;> ring⟩)
  unfold shapeCast
  rw [← castSigma_eq] at *
  simp only [es, er, Option.bind_eq_bind, Option.bind_some]
  cases res with
  | none =>
    refine ⟨none, rfl, fun _ => ?_, fun o e => by cases e⟩
    rcases hn rfl with h | ⟨x, y, hx, hy, hd⟩
    · exact .inl h
    · refine .inr ⟨x, y, hx, hy, hd.trans ?_⟩
      have : (0 : F) ≤ castSigma i + linearSlop / 2 := by linarith
      nlinarith [mul_nonneg this this]
  | some x =>
    obtain ⟨st, it⟩ := x
    obtain ⟨k1, _, k3, k4, k5, k6⟩ := hsome st it rfl
    dsimp only
    by_cases c0 : it = 0
    · rw [if_pos c0]
      refine ⟨none, rfl, fun _ => .inr ?_, fun o e => by cases e⟩
      have e := k6 c0.symm
      have k4 := k4 (by rw [c0]; simp [gjkMaxIters])
      rw [e] at k4
      refine ⟨_, _, hA0, hB0, ?_⟩
      rw [← sub_dist2]
      exact hlen _ k4
    · rw [if_neg c0]
      have hsol := k5 (by omega)
      obtain ⟨p, ep, q1, q2, q3⟩ := witness_spec hsol k1.slots
      simp only [ep, Option.bind_some]
      refine ⟨_, rfl, fun e => (by cases e), fun o e => ?_⟩
      cases e
      refine ⟨k1.nonneg, k1.le_one, by dsimp only; omega, by simpa [gjkMaxIters] using k3, k1.clear, fun hlt => ⟨⟨p.2, p.1, q2, q1, ?_⟩, fun hl => ?_⟩, p.2, q2, rfl⟩
      · rw [← sub_dist2, q3]
        exact hlen _ (k4 (by simpa [gjkMaxIters] using hlt))
      · dsimp only
        have hd := k1.plane hl p.2 p.1 q2 q1
        rw [← sub_dist2, q3] at hd
        have hd2 : polygonRadius * polygonRadius ≤ dot st.v st.v := le_trans (mul_self_le_mul_self hp0.le hsig) hd
        have hpos : (0 : F) < dot st.v st.v := lt_of_lt_of_le (mul_pos hp0 hp0) hd2
        have hls : st.v.lengthSquared > 0 := hpos
        rw [if_pos hls]
        have hnl : dot (-st.v) (-st.v) = dot st.v st.v := by simp only [dot, Vec2.neg_x, Vec2.neg_y]; ring
        refine (normalize_spec (a := -st.v) ?_).1
        intro hlt2
        have l0 := length_nonneg (-st.v)
        have l1 := length_sq (-st.v)
        have := eps_lt_radius (F := F)
        nlinarith

end
end B2
