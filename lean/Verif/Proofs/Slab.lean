import Verif.Spec.Geom
import Verif.Proofs.TreeRep
import Mathlib.Tactic.Linarith
import Mathlib.Tactic.FieldSimp
import Mathlib.Tactic.Ring

namespace B2
set_option linter.unusedSectionVars false
variable {F : Type} [Field F] [LinearOrder F] [IsStrictOrderedRing F]

theorem epsilon_pos : (0 : F) < epsilon := by unfold epsilon; positivity
theorem maxFlt_pos : (0 : F) < maxFlt := by
  unfold maxFlt
  have h1 : (1 : F) < 2 ^ 24 := one_lt_pow₀ (by norm_num) (by norm_num)
  have h2 : (0 : F) < 2 ^ 104 := by positivity
  exact mul_pos (by linarith) h2

/-- What one axis does. -/
theorem slabStep_spec {st : Slab F} {p d lo hi : F} {axis : F → Vec2 F} (hv : lo ≤ hi)
    (hd : d = 0 ∨ epsilon ≤ |d|) :
    match slabStep st p d lo hi axis with
    | none => ∀ t, st.tmin ≤ t → t ≤ st.tmax → ¬ (lo ≤ p + t * d ∧ p + t * d ≤ hi)
    | some st' =>
      (∀ t, (st'.tmin ≤ t ∧ t ≤ st'.tmax) ↔ (st.tmin ≤ t ∧ t ≤ st.tmax ∧ lo ≤ p + t * d ∧ p + t * d ≤ hi)) ∧
      (st.tmin ≤ st.tmax → st'.tmin ≤ st'.tmax) ∧
      ((st'.tmin = st.tmin ∧ st'.normal = st.normal) ∨
        (st'.normal = axis (-1) ∧ p + st'.tmin * d = lo ∧ (0 < d ∨ lo = hi)) ∨
        (st'.normal = axis 1 ∧ p + st'.tmin * d = hi ∧ d < 0)) := by
  unfold slabStep
  rcases hd with hd | hd
  · subst hd
    rw [if_pos (by rw [abs_zero]; exact epsilon_pos)]
    by_cases h : p < lo ∨ hi < p
    · rw [if_pos h]
      rintro t - - ⟨h1, h2⟩
      rw [mul_zero, add_zero] at h1 h2
      rcases h with h | h
      · exact absurd h1 (not_le.mpr h)
      · exact absurd h2 (not_le.mpr h)
    · rw [if_neg h]
      push Not at h
      refine ⟨fun t => ?_, id, Or.inl ⟨rfl, rfl⟩⟩
      rw [mul_zero, add_zero]
      tauto
  · rw [if_neg (not_lt.mpr hd)]
    have hne : d ≠ 0 := by
      rintro rfl
      rw [abs_zero] at hd
      exact absurd epsilon_pos (not_lt.mpr hd)
    -- the ordered pair of parameters
    have key : ∃ a b s, (if (lo - p) * (1 / d) > (hi - p) * (1 / d) then ((hi - p) * (1 / d), (lo - p) * (1 / d), (1 : F))
        else ((lo - p) * (1 / d), (hi - p) * (1 / d), -1)) = (a, b, s) ∧
        (∀ t, (a ≤ t ∧ t ≤ b) ↔ (lo ≤ p + t * d ∧ p + t * d ≤ hi)) ∧ a ≤ b ∧
        ((s = -1 ∧ p + a * d = lo ∧ (0 < d ∨ lo = hi)) ∨ (s = 1 ∧ p + a * d = hi ∧ d < 0)) := by
      rcases lt_or_gt_of_ne hne with hneg | hpos
      · have e1 : ∀ x t : F, (x - p) * (1 / d) ≤ t ↔ p + t * d ≤ x := by
          intro x t
          rw [mul_one_div, div_le_iff_of_neg hneg]
          constructor <;> intro h <;> linarith
        have e2 : ∀ x t : F, t ≤ (x - p) * (1 / d) ↔ x ≤ p + t * d := by
          intro x t
          rw [mul_one_div, le_div_iff_of_neg hneg]
          constructor <;> intro h <;> linarith
        by_cases hc : (lo - p) * (1 / d) > (hi - p) * (1 / d)
        · refine ⟨_, _, _, if_pos hc, fun t => ?_, hc.le, Or.inr ⟨rfl, ?_, hneg⟩⟩
          · rw [e1, e2]; tauto
          · field_simp; ring
        · -- only possible when lo = hi
          have hle : hi ≤ lo := by
            by_contra hc'
            push Not at hc'
            exact hc (by
              have h1 := one_div_neg.mpr hneg
              have := mul_lt_mul_of_neg_right (show lo - p < hi - p by linarith) h1
              exact this)
          have heq : lo = hi := le_antisymm hv hle
          refine ⟨_, _, _, if_neg hc, fun t => ?_, by rw [heq], Or.inl ⟨rfl, ?_, Or.inr heq⟩⟩
          · rw [e1, e2, heq]; tauto
          · field_simp; ring
      · have e1 : ∀ x t : F, (x - p) * (1 / d) ≤ t ↔ x ≤ p + t * d := by
          intro x t
          rw [mul_one_div, div_le_iff₀ hpos]
          constructor <;> intro h <;> linarith
        have e2 : ∀ x t : F, t ≤ (x - p) * (1 / d) ↔ p + t * d ≤ x := by
          intro x t
          rw [mul_one_div, le_div_iff₀ hpos]
          constructor <;> intro h <;> linarith
        have hc : (lo - p) * (1 / d) ≤ (hi - p) * (1 / d) :=
          mul_le_mul_of_nonneg_right (by linarith) (one_div_pos.mpr hpos).le
        refine ⟨_, _, _, if_neg (not_lt.mpr hc), fun t => ?_, hc, Or.inl ⟨rfl, ?_, Or.inl hpos⟩⟩
        · rw [e1, e2]
        · field_simp; ring
    obtain ⟨a, b, s, hr, hin, hab, hs⟩ := key
    simp only [hr, b2min_eq]
    by_cases hmin : a > st.tmin
    · simp only [if_pos hmin]
      by_cases hgt : a > min st.tmax b
      · rw [if_pos hgt]
        rintro t h1 h2 h3
        obtain ⟨h4, h5⟩ := (hin t).mpr h3
        exact absurd (lt_of_le_of_lt h4 (lt_of_le_of_lt (le_refl t) (lt_of_le_of_lt (le_min h2 h5) hgt))) (lt_irrefl _)
      · rw [if_neg hgt]
        push Not at hgt
        refine ⟨fun t => ?_, fun _ => hgt, Or.inr ?_⟩
        · rw [le_min_iff]
          constructor
          · rintro ⟨h1, h2, h3⟩
            exact ⟨hmin.le.trans h1, h2, (hin t).mp ⟨h1, h3⟩⟩
          · rintro ⟨h1, h2, h3⟩
            obtain ⟨h4, h5⟩ := (hin t).mpr h3
            exact ⟨h4, h2, h5⟩
        · rcases hs with ⟨rfl, h1, h2⟩ | ⟨rfl, h1, h2⟩
          · exact Or.inl ⟨rfl, h1, h2⟩
          · exact Or.inr ⟨rfl, h1, h2⟩
    · simp only [if_neg hmin]
      push Not at hmin
      by_cases hgt : st.tmin > min st.tmax b
      · rw [if_pos hgt]
        rintro t h1 h2 h3
        obtain ⟨h4, h5⟩ := (hin t).mpr h3
        exact absurd (lt_of_le_of_lt h1 (lt_of_le_of_lt (le_min h2 h5) hgt)) (lt_irrefl _)
      · rw [if_neg hgt]
        push Not at hgt
        refine ⟨fun t => ?_, fun _ => hgt, Or.inl ⟨rfl, rfl⟩⟩
        rw [le_min_iff]
        constructor
        · rintro ⟨h1, h2, h3⟩
          exact ⟨h1, h2, (hin t).mp ⟨hmin.trans h1, h3⟩⟩
        · rintro ⟨h1, h2, h3⟩
          obtain ⟨h4, h5⟩ := (hin t).mpr h3
          exact ⟨h1, h2, h5⟩

end B2
