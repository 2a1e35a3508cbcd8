import Verif.Proofs.Slab
import Verif.Proofs.TreeFinal
import Verif.Spec.Real
import Mathlib.Tactic.NormNum
import Mathlib.Tactic.LinearCombination

/-!
# Properties C19-C24: boxes, clipping, point states, filtering, mixing
-/
namespace B2.Props
open Spec
set_option linter.unusedSectionVars false
section
variable {F : Type} [Field F] [LinearOrder F] [IsStrictOrderedRing F]

/-- **C19**: overlap of non-empty boxes is having a common point. -/
theorem c19_overlap (a b : AABB F) (ha : Valid a) (hb : Valid b) :
    AABB.overlap a b = true ↔ ∃ q, InBox a q ∧ InBox b q := by
  rw [overlap_iff]
  constructor
  · rintro ⟨h1, h2, h3, h4⟩
    exact ⟨⟨max a.lo.x b.lo.x, max a.lo.y b.lo.y⟩,
      ⟨le_max_left _ _, max_le ha.1 h2, le_max_left _ _, max_le ha.2 h4⟩,
      ⟨le_max_right _ _, max_le h1 hb.1, le_max_right _ _, max_le h3 hb.2⟩⟩
  · rintro ⟨q, ⟨h1, h2, h3, h4⟩, ⟨k1, k2, k3, k4⟩⟩
    exact ⟨h1.trans k2, k1.trans h2, h3.trans k4, k3.trans h4⟩

/-- **C19**: `contains` is inclusion of point sets (of non-empty boxes). -/
theorem c19_contains (a b : AABB F) (hb : Valid b) :
    a.contains b = true ↔ ∀ q, InBox b q → InBox a q := by
  rw [contains_iff]
  constructor
  · rintro ⟨h1, h2, h3, h4⟩ q ⟨k1, k2, k3, k4⟩
    exact ⟨h1.trans k1, k2.trans h3, h2.trans k3, k4.trans h4⟩
  · intro h
    obtain ⟨h1, -, h2, -⟩ := h b.lo ⟨le_refl _, hb.1, le_refl _, hb.2⟩
    obtain ⟨-, h3, -, h4⟩ := h b.hi ⟨hb.1, le_refl _, hb.2, le_refl _⟩
    exact ⟨h1, h2, h3, h4⟩

/-- **C19**: the combined box contains both and lies in every box that does. -/
theorem c19_combine (a b : AABB F) (ha : Valid a) (hb : Valid b) :
    (∀ q, InBox a q ∨ InBox b q → InBox (AABB.combine a b) q) ∧
    ∀ c : AABB F, (∀ q, InBox a q ∨ InBox b q → InBox c q) → ∀ q, InBox (AABB.combine a b) q → InBox c q := by
  obtain ⟨h1, h2, h3⟩ := isUnion_combine a b
  refine ⟨fun q hq => ?_, fun c hc => ?_⟩
  · rcases hq with hq | hq
    · exact (c19_contains _ _ ha).mp ((contains_iff _ _).mpr h1) q hq
    · exact (c19_contains _ _ hb).mp ((contains_iff _ _).mpr h2) q hq
  · have k1 := (contains_iff _ _).mp ((c19_contains c a ha).mpr fun q hq => hc q (Or.inl hq))
    have k2 := (contains_iff _ _).mp ((c19_contains c b hb).mpr fun q hq => hc q (Or.inr hq))
    have hv : Valid (AABB.combine a b) := by
      obtain ⟨a1, a2, a3, a4⟩ := h1
      exact ⟨a1.trans (ha.1.trans a3), a2.trans (ha.2.trans a4)⟩
    exact (c19_contains c _ hv).mp ((contains_iff _ _).mpr (h3 c k1 k2))

/-- **C19**: `is_valid` says that the box has a point. -/
theorem c19_is_valid (a : AABB F) : a.isValid = true ↔ ∃ q, InBox a q := by
  simp only [AABB.isValid, Vec2.sub_x, Vec2.sub_y, Bool.and_eq_true, decide_eq_true_iff, ge_iff_le, sub_nonneg]
  constructor
  · rintro ⟨h1, h2⟩; exact ⟨a.lo, le_refl _, h1, le_refl _, h2⟩
  · rintro ⟨q, h1, h2, h3, h4⟩; exact ⟨h1.trans h2, h3.trans h4⟩

example : Valid (⟨⟨0, 0⟩, ⟨1, 1⟩⟩ : AABB ℚ) ∧ AABB.overlap (⟨⟨0, 0⟩, ⟨1, 1⟩⟩ : AABB ℚ) ⟨⟨1, 0⟩, ⟨2, 1⟩⟩ = true :=
  ⟨by norm_num [Valid], by decide +kernel⟩

/-- **C20**: a reported hit lies between 0 and the maximum fraction, is a point of the box on the face whose
outward normal is the reported one, and no earlier point of the ray is in the box. -/
theorem c20_hit_is_entry (a : AABB F) (hv : Valid a) (i : RayIn F) (out : RayOut F)
    (hx : i.p2.x - i.p1.x = 0 ∨ epsilon ≤ |i.p2.x - i.p1.x|) (hy : i.p2.y - i.p1.y = 0 ∨ epsilon ≤ |i.p2.y - i.p1.y|)
    (h : a.rayCast i = some out) :
    0 ≤ out.fraction ∧ out.fraction ≤ i.maxFraction ∧ InBox a (onLine i.p1 i.p2 out.fraction) ∧
    (∀ t, 0 ≤ t → t < out.fraction → ¬ InBox a (onLine i.p1 i.p2 t)) ∧
    ((out.normal = ⟨-1, 0⟩ ∧ (onLine i.p1 i.p2 out.fraction).x = a.lo.x) ∨
     (out.normal = ⟨1, 0⟩ ∧ (onLine i.p1 i.p2 out.fraction).x = a.hi.x) ∨
     (out.normal = ⟨0, -1⟩ ∧ (onLine i.p1 i.p2 out.fraction).y = a.lo.y) ∨
     (out.normal = ⟨0, 1⟩ ∧ (onLine i.p1 i.p2 out.fraction).y = a.hi.y)) ∧
    (a.lo.x < a.hi.x → a.lo.y < a.hi.y → dot out.normal (i.p2 - i.p1) < 0) := by
  have hM := maxFlt_pos (F := F)
  have h1 := slabStep_spec (st := ⟨-maxFlt, maxFlt, ⟨0, 0⟩⟩) (p := i.p1.x) (axis := fun s => (⟨s, 0⟩ : Vec2 F)) hv.1 hx
  simp only [AABB.rayCast, Option.bind_eq_bind, Vec2.sub_x, Vec2.sub_y] at h
  cases e1 : slabStep ⟨-maxFlt, maxFlt, ⟨0, 0⟩⟩ i.p1.x (i.p2.x - i.p1.x) a.lo.x a.hi.x (fun s => (⟨s, 0⟩ : Vec2 F)) with
  | none => rw [e1] at h; simp at h
  | some s1 =>
    rw [e1] at h h1
    rw [Option.bind_some] at h
    have h2 := slabStep_spec (st := s1) (p := i.p1.y) (axis := fun s => (⟨0, s⟩ : Vec2 F)) hv.2 hy
    cases e2 : slabStep s1 i.p1.y (i.p2.y - i.p1.y) a.lo.y a.hi.y (fun s => (⟨0, s⟩ : Vec2 F)) with
    | none => rw [e2] at h; simp at h
    | some s2 =>
      rw [e2] at h h2
      rw [Option.bind_some] at h
      split at h
      · simp at h
      · rename_i hc
        push Not at hc
        obtain ⟨c1, c2⟩ := hc
        obtain rfl := Option.some.inj h
        obtain ⟨k1, k2, k3⟩ := h1
        obtain ⟨l1, l2, l3⟩ := h2
        have hle : s2.tmin ≤ s2.tmax := l2 (k2 (by dsimp only; linarith))
        have hset : ∀ t, (s2.tmin ≤ t ∧ t ≤ s2.tmax) ↔ (-maxFlt ≤ t ∧ t ≤ maxFlt ∧ InBox a (onLine i.p1 i.p2 t)) := by
          intro t
          rw [l1, ← and_assoc, k1]
          simp only [InBox, onLine, and_assoc]
        have hin := (hset s2.tmin).mp ⟨le_refl _, hle⟩
        refine ⟨c1, c2, hin.2.2, ?_, ?_, ?_⟩
        · intro t t0 t1 ht
          have := (hset t).mpr ⟨by linarith, t1.le.trans hin.2.1, ht⟩
          exact absurd t1 (not_lt.mpr this.1)
        · rcases l3 with ⟨l3, l4⟩ | ⟨l3, l4, -⟩ | ⟨l3, l4, -⟩
          · rcases k3 with ⟨k3, -⟩ | ⟨k3, k4, -⟩ | ⟨k3, k4, -⟩
            · rw [l3, k3] at c1; dsimp only at c1; linarith
            · left; exact ⟨l4.trans k3, by simp only [onLine]; rw [l3]; exact k4⟩
            · right; left; exact ⟨l4.trans k3, by simp only [onLine]; rw [l3]; exact k4⟩
          · right; right; left; exact ⟨l3, l4⟩
          · right; right; right; exact ⟨l3, l4⟩
        · intro v1 v2
          rcases l3 with ⟨l3, l4⟩ | ⟨l3, -, l4 | l4⟩ | ⟨l3, -, l4⟩
          · rcases k3 with ⟨k3, -⟩ | ⟨k3, -, k4 | k4⟩ | ⟨k3, -, k4⟩
            · rw [l3, k3] at c1; dsimp only at c1; linarith
            · rw [l4, k3]; simp only [dot, Vec2.sub_x]; linarith
            · exact absurd k4 (ne_of_lt v1)
            · rw [l4, k3]; simp only [dot, Vec2.sub_x]; linarith
          · rw [l3]; simp only [dot, Vec2.sub_y]; linarith
          · exact absurd l4 (ne_of_lt v2)
          · rw [l3]; simp only [dot, Vec2.sub_y]; linarith

/-- **C20**: when the ray starts outside the box and reaches it within the maximum fraction, a hit is reported. -/
theorem c20_entry_is_hit (a : AABB F) (hv : Valid a) (i : RayIn F)
    (hx : i.p2.x - i.p1.x = 0 ∨ epsilon ≤ |i.p2.x - i.p1.x|) (hy : i.p2.y - i.p1.y = 0 ∨ epsilon ≤ |i.p2.y - i.p1.y|)
    (hm : i.maxFraction ≤ maxFlt) (hout : ¬ InBox a i.p1)
    (t : F) (t0 : 0 ≤ t) (t1 : t ≤ i.maxFraction) (ht : InBox a (onLine i.p1 i.p2 t)) :
    ∃ out, a.rayCast i = some out := by
  have hM := maxFlt_pos (F := F)
  have h1 := slabStep_spec (st := ⟨-maxFlt, maxFlt, ⟨0, 0⟩⟩) (p := i.p1.x) (axis := fun s => (⟨s, 0⟩ : Vec2 F)) hv.1 hx
  simp only [AABB.rayCast, Option.bind_eq_bind, Vec2.sub_x, Vec2.sub_y]
  have ht' := ht
  obtain ⟨b1, b2, b3, b4⟩ := ht
  simp only [onLine] at b1 b2 b3 b4
  cases e1 : slabStep ⟨-maxFlt, maxFlt, ⟨0, 0⟩⟩ i.p1.x (i.p2.x - i.p1.x) a.lo.x a.hi.x (fun s => (⟨s, 0⟩ : Vec2 F)) with
  | none => rw [e1] at h1; exact absurd ⟨b1, b2⟩ (h1 t (by dsimp only; linarith) (by dsimp only; linarith))
  | some s1 =>
    rw [e1] at h1
    rw [Option.bind_some]
    have h2 := slabStep_spec (st := s1) (p := i.p1.y) (axis := fun s => (⟨0, s⟩ : Vec2 F)) hv.2 hy
    obtain ⟨k1, k2, k3⟩ := h1
    obtain ⟨m1, m2⟩ := (k1 t).mpr ⟨by dsimp only; linarith, by dsimp only; linarith, b1, b2⟩
    cases e2 : slabStep s1 i.p1.y (i.p2.y - i.p1.y) a.lo.y a.hi.y (fun s => (⟨0, s⟩ : Vec2 F)) with
    | none => rw [e2] at h2; exact absurd ⟨b3, b4⟩ (h2 t m1 m2)
    | some s2 =>
      rw [e2] at h2
      rw [Option.bind_some]
      obtain ⟨l1, l2, l3⟩ := h2
      have hset : ∀ t, (s2.tmin ≤ t ∧ t ≤ s2.tmax) ↔ (-maxFlt ≤ t ∧ t ≤ maxFlt ∧ InBox a (onLine i.p1 i.p2 t)) := by
        intro t
        rw [l1, ← and_assoc, k1]
        simp only [InBox, onLine, and_assoc]
      obtain ⟨n1, n2⟩ := (hset t).mpr ⟨by linarith, by linarith, ht'⟩
      have h0 : 0 < s2.tmin := by
        by_contra hc
        push Not at hc
        refine hout ?_
        have := ((hset 0).mp ⟨hc, t0.trans n2⟩).2.2
        simpa [onLine] using this
      rw [if_neg (by push Not; exact ⟨h0.le, n1.trans t1⟩)]
      exact ⟨_, rfl⟩

/-- A ray from the left into the unit box. -/
example : AABB.rayCast (⟨⟨0, 0⟩, ⟨1, 1⟩⟩ : AABB ℚ) ⟨⟨-1, 1 / 2⟩, ⟨1, 1 / 2⟩, 1⟩ = some ⟨⟨-1, 0⟩, 1 / 2⟩ := by
  have h1 : ¬ ((2 : ℚ) < 1 / 8388608) := by norm_num
  have h2 : ¬ ((1 : ℚ) / 2 < -((2 ^ 24 - 1) * 2 ^ 104)) := by norm_num
  norm_num [AABB.rayCast, slabStep, epsilon, maxFlt, b2min]

/-- **C21**: clipping never overruns the output; it returns at most two points, all of them points of the input
segment on or behind the line; every point of the segment that is on or behind the line is one of them or
between them; and two points are returned whenever the segment crosses or lies behind the line. -/
theorem c21_clip (v0 v1 : ClipVertex F) (normal : Vec2 F) (offset : F) (idx : Nat) :
    ∃ out, clipSegmentToLine v0 v1 normal offset idx = some out ∧ out.length ≤ 2 ∧
      (∀ c ∈ out, height normal offset c.v ≤ 0 ∧ ∃ t, 0 ≤ t ∧ t ≤ 1 ∧ c.v = onLine v0.v v1.v t) ∧
      (∀ t, 0 ≤ t → t ≤ 1 → height normal offset (onLine v0.v v1.v t) ≤ 0 →
        ∃ a b, a ∈ out ∧ b ∈ out ∧ ∃ s, 0 ≤ s ∧ s ≤ 1 ∧ onLine v0.v v1.v t = onLine a.v b.v s) ∧
      ((height normal offset v0.v ≤ 0 ∧ height normal offset v1.v ≤ 0) ∨
        height normal offset v0.v * height normal offset v1.v < 0 → out.length = 2) := by
  have e0 : dot normal v0.v - offset = height normal offset v0.v := by simp [dot, height]
  have e1 : dot normal v1.v - offset = height normal offset v1.v := by simp [dot, height]
  have hlin : ∀ t, height normal offset (onLine v0.v v1.v t) =
      height normal offset v0.v + t * (height normal offset v1.v - height normal offset v0.v) := by
    intro t; simp only [height, onLine]; ring
  have p0 : v0.v = onLine v0.v v1.v 0 := by ext <;> simp [onLine]
  have p1 : v1.v = onLine v0.v v1.v 1 := by ext <;> simp [onLine]
  simp only [clipSegmentToLine, e0, e1]
  generalize hd0 : height normal offset v0.v = d0 at *
  generalize hd1 : height normal offset v1.v = d1 at *
  rcases le_or_gt d0 0 with h0 | h0 <;> rcases le_or_gt d1 0 with h1 | h1
  · -- both behind
    have hn : ¬ (d0 * d1 < 0) := not_lt.mpr (mul_nonneg_of_nonpos_of_nonpos h0 h1)
    refine ⟨[v0, v1], by simp [h0, h1, hn, clipPush], by simp, ?_, ?_, by simp⟩
    · intro c hc
      simp only [List.mem_cons, List.not_mem_nil, or_false] at hc
      rcases hc with rfl | rfl
      · exact ⟨by rw [hd0]; exact h0, 0, le_refl _, zero_le_one, p0⟩
      · exact ⟨by rw [hd1]; exact h1, 1, zero_le_one, le_refl _, p1⟩
    · intro t t0 t1 _
      exact ⟨v0, v1, by simp, by simp, t, t0, t1, rfl⟩
  · -- v0 behind, v1 in front
    rcases lt_or_eq_of_le h0 with h0' | h0'
    · have hn : d0 * d1 < 0 := mul_neg_of_neg_of_pos h0' h1
      have hden : d0 - d1 < 0 := by linarith
      have i0 : 0 ≤ d0 / (d0 - d1) := div_nonneg_of_nonpos h0 hden.le
      have i1 : d0 / (d0 - d1) ≤ 1 := by rw [div_le_one_of_neg hden]; linarith
      refine ⟨[v0, _], by simp [h0, not_le.mpr h1, hn, clipPush]; rfl, by simp, ?_, ?_, by simp⟩
      · intro c hc
        simp only [List.mem_cons, List.not_mem_nil, or_false] at hc
        rcases hc with rfl | rfl
        · exact ⟨by rw [hd0]; exact h0, 0, le_refl _, zero_le_one, p0⟩
        · refine ⟨?_, _, i0, i1, by ext <;> simp [onLine]⟩
          have := hlin (d0 / (d0 - d1))
          have e : d0 + d0 / (d0 - d1) * (d1 - d0) = 0 := by field_simp [hden.ne]; ring
          rw [e] at this
          refine le_of_eq (Eq.trans ?_ this)
          congr 1
      · intro t t0 t1 ht
        rw [hlin] at ht
        have ht' : t ≤ d0 / (d0 - d1) := by
          rw [le_div_iff_of_neg hden]; linarith
        refine ⟨v0, _, by simp, by simp; right; rfl, ?_⟩
        rcases eq_or_lt_of_le i0 with i0' | i0'
        · refine ⟨0, le_refl _, zero_le_one, ?_⟩
          have : t = 0 := le_antisymm (by rw [i0']; exact ht') t0
          rw [this]; ext <;> simp [onLine]
        · refine ⟨t / (d0 / (d0 - d1)), div_nonneg t0 i0, by rw [div_le_one i0']; exact ht', ?_⟩
          ext <;> simp only [onLine, Vec2.add_x, Vec2.add_y, Vec2.smul_x, Vec2.smul_y, Vec2.sub_x, Vec2.sub_y]
          · rw [add_sub_cancel_left, ← mul_assoc, div_mul_cancel₀ _ i0'.ne']
          · rw [add_sub_cancel_left, ← mul_assoc, div_mul_cancel₀ _ i0'.ne']
    · subst h0'
      refine ⟨[v0], by simp [not_le.mpr h1, clipPush], by simp, ?_, ?_, by simp [not_le.mpr h1]⟩
      · intro c hc
        simp only [List.mem_singleton] at hc
        subst hc
        exact ⟨by rw [hd0], 0, le_refl _, zero_le_one, p0⟩
      · intro t t0 t1 ht
        rw [hlin] at ht
        have : t = 0 := by
          by_contra hne
          have : 0 < t := lt_of_le_of_ne t0 (Ne.symm hne)
          have := mul_pos this h1
          linarith
        exact ⟨v0, v0, by simp, by simp, 0, le_refl _, zero_le_one, by rw [this]; ext <;> simp [onLine]⟩
  · rcases lt_or_eq_of_le h1 with h1' | h1'
    · have hn : d0 * d1 < 0 := mul_neg_of_pos_of_neg h0 h1'
      have hden : 0 < d0 - d1 := by linarith
      have i0 : 0 ≤ d0 / (d0 - d1) := div_nonneg h0.le hden.le
      have i1 : d0 / (d0 - d1) < 1 := by rw [div_lt_one hden]; linarith
      refine ⟨[v1, _], by simp [h1, not_le.mpr h0, hn, clipPush]; rfl, by simp, ?_, ?_, by simp⟩
      · intro c hc
        simp only [List.mem_cons, List.not_mem_nil, or_false] at hc
        rcases hc with rfl | rfl
        · exact ⟨by rw [hd1]; exact h1, 1, zero_le_one, le_refl _, p1⟩
        · refine ⟨?_, _, i0, i1.le, by ext <;> simp [onLine]⟩
          have := hlin (d0 / (d0 - d1))
          have e : d0 + d0 / (d0 - d1) * (d1 - d0) = 0 := by field_simp [hden.ne']; ring
          rw [e] at this
          refine le_of_eq (Eq.trans ?_ this)
          congr 1
      · intro t t0 t1 ht
        rw [hlin] at ht
        have ht' : d0 / (d0 - d1) ≤ t := by
          rw [div_le_iff₀ hden]; linarith
        refine ⟨v1, _, by simp, by simp; right; rfl, ?_⟩
        have hne : 1 - d0 / (d0 - d1) ≠ 0 := by linarith
        have hpos : 0 < 1 - d0 / (d0 - d1) := by linarith
        refine ⟨(1 - t) / (1 - d0 / (d0 - d1)), div_nonneg (by linarith) hpos.le,
          by rw [div_le_one hpos]; linarith, ?_⟩
        have hk : (1 - t) / (1 - d0 / (d0 - d1)) * (1 - d0 / (d0 - d1)) = 1 - t := div_mul_cancel₀ _ hne
        generalize (1 - t) / (1 - d0 / (d0 - d1)) = k at *
        generalize d0 / (d0 - d1) = r at *
        ext <;> simp only [onLine, Vec2.add_x, Vec2.add_y, Vec2.smul_x, Vec2.smul_y, Vec2.sub_x, Vec2.sub_y]
        · linear_combination (v1.v.x - v0.v.x) * hk
        · linear_combination (v1.v.y - v0.v.y) * hk
    · subst h1'
      refine ⟨[v1], by simp [not_le.mpr h0, clipPush], by simp, ?_, ?_, by simp [not_le.mpr h0]⟩
      · intro c hc
        simp only [List.mem_singleton] at hc
        subst hc
        exact ⟨by rw [hd1], 1, zero_le_one, le_refl _, p1⟩
      · intro t t0 t1 ht
        rw [hlin] at ht
        have : t = 1 := by
          by_contra hne
          have : 0 < 1 - t := by
            have := lt_of_le_of_ne t1 hne; linarith
          have := mul_pos this h0
          linarith
        exact ⟨v1, v1, by simp, by simp, 0, le_refl _, zero_le_one, by rw [this]; ext <;> simp [onLine]⟩
  · have hn : ¬ (d0 * d1 < 0) := not_lt.mpr (mul_pos h0 h1).le
    refine ⟨[], by simp [not_le.mpr h0, not_le.mpr h1, hn], by simp, by simp, ?_, ?_⟩
    · intro t t0 t1 ht
      rw [hlin] at ht
      exfalso
      have a1 := mul_nonneg t0 h1.le
      have a2 := mul_nonneg (show 0 ≤ 1 - t by linarith) h0.le
      rcases eq_or_lt_of_le t0 with h | h
      · subst h; linarith
      · have := mul_pos h h1; linarith
    · rintro (⟨h, -⟩ | h)
      · exact absurd h (not_le.mpr h0)
      · exact absurd h hn

/-- C21, the ids: a kept end point keeps its id; the point cut off is marked as vertex `idx` of the reference
shape against a face of the incident shape, so that contact points can be recognised in the next step. -/
theorem c21_clip_ids (v0 v1 : ClipVertex F) (normal : Vec2 F) (offset : F) (idx : Nat) (out : List (ClipVertex F))
    (h : clipSegmentToLine v0 v1 normal offset idx = some out) :
    ∀ c ∈ out, c = v0 ∨ c = v1 ∨ c.id = ⟨⟨UInt8.ofNat idx, v0.id.cf.indexB, 0, 1⟩⟩ := by
  intro c hc
  simp only [clipSegmentToLine, clipPush] at h
  split_ifs at h <;> simp_all <;> grind

/-- Clipping the segment from (-1,0) to (3,0) against the line x = 1 keeps the left end and cuts at (1,0). -/
example : clipSegmentToLine (⟨⟨-1, 0⟩, ⟨⟨5, 6, 0, 0⟩⟩⟩ : ClipVertex ℚ) ⟨⟨3, 0⟩, ⟨⟨5, 7, 0, 0⟩⟩⟩ ⟨1, 0⟩ 1 2 =
    some [⟨⟨-1, 0⟩, ⟨⟨5, 6, 0, 0⟩⟩⟩, ⟨⟨1, 0⟩, ⟨⟨2, 6, 0, 1⟩⟩⟩] := by
  simp [clipSegmentToLine, clipPush, dot]; norm_num; ext <;> simp <;> norm_num

end

/-- **C22**: the state of each point of the old manifold is persist iff its id occurs in the new one, else
remove; of the new manifold, persist iff its id occurs in the old one, else add; unused slots are null. -/
theorem c22_point_states (ids1 ids2 : List ContactId) (h1 : ids1.length ≤ 2) (h2 : ids2.length ≤ 2) :
    ∃ s1 s2, getPointStates ids1 ids2 = some (s1, s2) ∧ s1.length = 2 ∧ s2.length = 2 ∧
      (∀ k < 2, match ids1[k]? with
        | none => s1[k]? = some .null
        | some id => (id ∈ ids2 ∧ s1[k]? = some .persist) ∨ (id ∉ ids2 ∧ s1[k]? = some .remove)) ∧
      (∀ k < 2, match ids2[k]? with
        | none => s2[k]? = some .null
        | some id => (id ∈ ids1 ∧ s2[k]? = some .persist) ∨ (id ∉ ids1 ∧ s2[k]? = some .add)) := by
  have hcf : ∀ (l : List ContactId) (id : ContactId), (l.any fun j => j.cf == id.cf) = true ↔ id ∈ l := by
    intro l id
    rw [List.any_eq_true]
    constructor
    · rintro ⟨⟨j⟩, hj, e⟩
      obtain ⟨c⟩ := id
      obtain rfl : j = c := by simpa using e
      exact hj
    · intro h; exact ⟨id, h, by simp⟩
  have hid : ∀ (l : List ContactId) (id : ContactId), (l.any fun j => j == id) = true ↔ id ∈ l := by
    intro l id
    rw [List.any_eq_true]
    constructor
    · rintro ⟨j, hj, e⟩
      obtain rfl : j = id := by simpa using e
      exact hj
    · intro h; exact ⟨id, h, by simp⟩
  refine ⟨_, _, by simp only [getPointStates]; rw [if_pos ⟨h1, h2⟩], by simp; omega, by simp; omega, ?_, ?_⟩
  · intro k hk
    by_cases hkl : k < ids1.length
    · rw [List.getElem?_append_left (by simpa using hkl), List.getElem?_map, List.getElem?_eq_getElem hkl]
      simp only [Option.map_some]
      by_cases hm : ids1[k] ∈ ids2
      · left; exact ⟨hm, by rw [if_pos ((hcf _ _).mpr hm)]⟩
      · right; exact ⟨hm, by rw [if_neg (fun h => hm ((hcf _ _).mp h))]⟩
    · rw [List.getElem?_eq_none (by omega), List.getElem?_append_right (by simp; omega)]
      simp only [List.length_map]
      rw [List.getElem?_replicate, if_pos (by omega)]
  · intro k hk
    by_cases hkl : k < ids2.length
    · rw [List.getElem?_append_left (by simpa using hkl), List.getElem?_map, List.getElem?_eq_getElem hkl]
      simp only [Option.map_some]
      by_cases hm : ids2[k] ∈ ids1
      · left; exact ⟨hm, by rw [if_pos ((hid _ _).mpr hm)]⟩
      · right; exact ⟨hm, by rw [if_neg (fun h => hm ((hid _ _).mp h))]⟩
    · rw [List.getElem?_eq_none (by omega), List.getElem?_append_right (by simp; omega)]
      simp only [List.length_map]
      rw [List.getElem?_replicate, if_pos (by omega)]

example : getPointStates [⟨⟨0, 1, 0, 1⟩⟩, ⟨⟨1, 1, 0, 1⟩⟩] [⟨⟨1, 1, 0, 1⟩⟩] =
    some ([.remove, .persist], [.persist, .null]) := by decide

/-- **C23**: the default filter is symmetric; equal non-zero groups decide alone; otherwise both category/mask
pairs must have a common bit. -/
theorem c23_filter (a b : Filter) :
    filterShouldCollide a b = filterShouldCollide b a ∧
    (a.group = b.group → a.group ≠ 0 → (filterShouldCollide a b = true ↔ 0 < a.group)) ∧
    (a.group ≠ b.group ∨ a.group = 0 → (filterShouldCollide a b = true ↔
      (∃ i : Nat, a.mask.toNat.testBit i ∧ b.category.toNat.testBit i) ∧
      ∃ i : Nat, b.mask.toNat.testBit i ∧ a.category.toNat.testBit i)) := by
  have hbit : ∀ x y : UInt16, (x &&& y != 0) = true ↔ ∃ i : Nat, x.toNat.testBit i ∧ y.toNat.testBit i := by
    intro x y
    rw [bne_iff_ne, ne_eq, ← UInt16.toNat_inj, UInt16.toNat_and]
    constructor
    · intro h
      obtain ⟨i, hi⟩ := Nat.exists_testBit_of_ne_zero h
      rw [Nat.testBit_and, Bool.and_eq_true] at hi
      exact ⟨i, hi⟩
    · rintro ⟨i, h1, h2⟩ h
      have := congrArg (·.testBit i) h
      simp [Nat.testBit_and, h1, h2] at this
  refine ⟨?_, ?_, ?_⟩
  · simp only [filterShouldCollide]
    by_cases h : a.group = b.group
    · by_cases h0 : a.group = 0
      · simp only [← h, h0, ne_eq, not_true_eq_false, and_false, if_false]
        rw [UInt16.and_comm a.mask, UInt16.and_comm a.category, Bool.and_comm]
      · simp only [← h, ne_eq, h0, not_false_eq_true, and_self, if_true]
    · rw [if_neg (fun k => h k.1), if_neg (fun k => h k.1.symm)]
      rw [UInt16.and_comm a.mask, UInt16.and_comm a.category, Bool.and_comm]
  · intro h h0
    simp only [filterShouldCollide]
    rw [if_pos ⟨h, h0⟩, decide_eq_true_iff]
  · intro h
    simp only [filterShouldCollide]
    rw [if_neg (by rintro ⟨k1, k2⟩; rcases h with h | h <;> contradiction), Bool.and_eq_true, hbit, hbit]
    constructor
    · rintro ⟨k1, i, k2, k3⟩; exact ⟨k1, i, k3, k2⟩
    · rintro ⟨k1, i, k2, k3⟩; exact ⟨k1, i, k3, k2⟩

example : filterShouldCollide ⟨1, 0xFFFF, 0⟩ ⟨2, 0xFFFF, 0⟩ = true ∧ filterShouldCollide ⟨1, 0xFFFF, -3⟩ ⟨1, 0xFFFF, -3⟩ = false ∧
    filterShouldCollide ⟨1, 0, 5⟩ ⟨1, 0, 5⟩ = true ∧ filterShouldCollide ⟨1, 2, 1⟩ ⟨2, 4, 2⟩ = false := by decide

section
variable {F : Type} [Field F] [LinearOrder F] [IsStrictOrderedRing F] [Elem F] [ElemLaws F]

/-- **C24**: mixing does not depend on the order of the fixtures; restitution picks the larger, threshold the
smaller value; friction is the geometric mean, and zero as soon as one side is. -/
theorem c24_mixing (a b : F) :
    mixFriction a b = mixFriction b a ∧ mixRestitution a b = mixRestitution b a ∧
    mixRestitutionThreshold a b = mixRestitutionThreshold b a ∧
    mixRestitution a b = max a b ∧ mixRestitutionThreshold a b = min a b ∧
    (a = 0 ∨ b = 0 → mixFriction a b = 0) ∧
    (0 ≤ a → 0 ≤ b → 0 ≤ mixFriction a b ∧ mixFriction a b * mixFriction a b = a * b) := by
  have h1 : mixRestitution a b = max a b := b2max_eq a b
  have h1' : mixRestitution b a = max b a := b2max_eq b a
  have h2 : mixRestitutionThreshold a b = min a b := b2min_eq a b
  have h2' : mixRestitutionThreshold b a = min b a := b2min_eq b a
  refine ⟨by simp only [mixFriction, mul_comm], by rw [h1, h1', max_comm], by rw [h2, h2', min_comm], h1, h2, ?_, ?_⟩
  · intro h
    have : a * b = 0 := by rcases h with rfl | rfl <;> simp
    simp only [mixFriction, this]
    have := ElemLaws.mul_self_sqrt (0 : F) (le_refl _)
    exact mul_self_eq_zero.mp this
  · intro ha hb
    exact ⟨ElemLaws.sqrt_nonneg _, ElemLaws.mul_self_sqrt _ (mul_nonneg ha hb)⟩

example : mixRestitution (0.2 : ℚ) 0.5 = 0.5 := by norm_num [mixRestitution]

end
end B2.Props
