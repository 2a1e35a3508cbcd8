import Verif.Model.Math
import Mathlib.Tactic.Common

namespace B2

theorem spread_step {v x k : Nat} (h : ∀ i, x.testBit i = true ↔ ∃ j < k, v.testBit (i + j) = true) (i : Nat) :
    (x ||| (x >>> k)).testBit i = true ↔ ∃ j < 2 * k, v.testBit (i + j) = true := by
  rw [Nat.testBit_or, Nat.testBit_shiftRight, Bool.or_eq_true, h, h]
  constructor
  · rintro (⟨j, h1, h2⟩ | ⟨j, h1, h2⟩)
    · exact ⟨j, by omega, h2⟩
    · exact ⟨k + j, by omega, by rw [← h2]; congr 1; omega⟩
  · rintro ⟨j, h1, h2⟩
    by_cases hj : j < k
    · exact Or.inl ⟨j, hj, h2⟩
    · exact Or.inr ⟨j - k, by omega, by rw [← h2]; congr 1; omega⟩

theorem spread32 {v : Nat} (hv : v ≠ 0) (h32 : v < 2 ^ 32) :
    (let x := v
     let x := x ||| (x >>> 1)
     let x := x ||| (x >>> 2)
     let x := x ||| (x >>> 4)
     let x := x ||| (x >>> 8)
     x ||| (x >>> 16)) = 2 ^ (v.log2 + 1) - 1 := by
  have h0 : ∀ i, v.testBit i = true ↔ ∃ j < 1, v.testBit (i + j) = true := by
    intro i
    constructor
    · intro h; exact ⟨0, by omega, h⟩
    · rintro ⟨j, h1, h2⟩
      obtain rfl : j = 0 := by omega
      exact h2
  have h5 := spread_step (spread_step (spread_step (spread_step (spread_step h0))))
  apply Nat.eq_of_testBit_eq
  intro i
  rw [Nat.testBit_two_pow_sub_one]
  rw [Bool.eq_iff_iff, decide_eq_true_iff]
  refine (h5 i).trans ?_
  have hlog : v.log2 < 32 := (Nat.log2_lt hv).mpr h32
  constructor
  · rintro ⟨j, -, h2⟩
    have := Nat.ge_two_pow_of_testBit h2
    have := (Nat.le_log2 hv).mpr this
    omega
  · intro hi
    refine ⟨v.log2 - i, by omega, ?_⟩
    rw [show i + (v.log2 - i) = v.log2 by omega]
    exact Nat.testBit_log2 hv

end B2
