import Verif.Model.Math
import Mathlib.Analysis.SpecialFunctions.Trigonometric.Basic

/-!
# Laws of the elementary functions

What the proofs assume about `sqrt`, `sin`, `cos`, `floor` and `PI`. The real numbers satisfy all of it.
-/
namespace B2

class ElemLaws (F : Type) [Field F] [LinearOrder F] [IsStrictOrderedRing F] [Elem F] : Prop where
  sqrt_nonneg : ∀ x : F, 0 ≤ Elem.sqrt x
  mul_self_sqrt : ∀ x : F, 0 ≤ x → Elem.sqrt x * Elem.sqrt x = x
  sin_cos : ∀ x : F, Elem.sin x * Elem.sin x + Elem.cos x * Elem.cos x = 1
  sin_zero : Elem.sin (0 : F) = 0
  cos_zero : Elem.cos (0 : F) = 1
  sin_turn : ∀ (x : F) (n : ℤ), Elem.sin (x - 2 * Elem.pi * n) = Elem.sin x
  cos_turn : ∀ (x : F) (n : ℤ), Elem.cos (x - 2 * Elem.pi * n) = Elem.cos x
  floor_int : ∀ x : F, ∃ n : ℤ, Elem.floor x = n ∧ (n : F) ≤ x ∧ x < n + 1
  pi_pos : (0 : F) < Elem.pi

noncomputable instance : Elem ℝ where
  sqrt := Real.sqrt
  sin := Real.sin
  cos := Real.cos
  floor := fun x => (⌊x⌋ : ℝ)
  pi := Real.pi

instance : ElemLaws ℝ where
  sqrt_nonneg := Real.sqrt_nonneg
  mul_self_sqrt := fun x h => Real.mul_self_sqrt h
  sin_cos := fun x => by
    change Real.sin x * Real.sin x + Real.cos x * Real.cos x = 1
    have := Real.sin_sq_add_cos_sq x; nlinarith
  sin_zero := Real.sin_zero
  cos_zero := Real.cos_zero
  sin_turn := fun x n => by
    change Real.sin (x - 2 * Real.pi * n) = Real.sin x
    rw [mul_comm]; exact Real.sin_sub_int_mul_two_pi x n
  cos_turn := fun x n => by
    change Real.cos (x - 2 * Real.pi * n) = Real.cos x
    rw [mul_comm]; exact Real.cos_sub_int_mul_two_pi x n
  floor_int := fun x => ⟨⌊x⌋, rfl, Int.floor_le x, Int.lt_floor_add_one x⟩
  pi_pos := Real.pi_pos

section
variable {F : Type} [Field F] [LinearOrder F] [IsStrictOrderedRing F] [Elem F] [ElemLaws F]

theorem sqrt_pos' {x : F} (h : 0 < x) : 0 < Elem.sqrt x := by
  rcases lt_or_eq_of_le (ElemLaws.sqrt_nonneg x) with h' | h'
  · exact h'
  · have := ElemLaws.mul_self_sqrt x h.le
    rw [← h'] at this; simp at this; exact absurd this (ne_of_lt h)

theorem le_sqrt_iff {x y : F} (hy : 0 ≤ y) (hx : 0 ≤ x) : y ≤ Elem.sqrt x ↔ y * y ≤ x := by
  have h1 := ElemLaws.sqrt_nonneg x
  have h2 := ElemLaws.mul_self_sqrt x hx
  constructor
  · intro h; rw [← h2]; exact mul_self_le_mul_self hy h
  · intro h; by_contra hc; push Not at hc
    have := mul_self_lt_mul_self h1 hc
    rw [h2] at this; exact absurd h (not_le.mpr this)

end
end B2
