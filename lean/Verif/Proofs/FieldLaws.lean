import Verif.Spec.Tree
import Mathlib.Algebra.Order.Field.Basic
import Mathlib.Data.Rat.Cast.Order
import Mathlib.Tactic.NormNum
import Mathlib.Tactic.Linarith

namespace B2
variable {F : Type} [Field F] [LinearOrder F] [IsStrictOrderedRing F]

theorem lit_def (q : ℚ) : (lit q : F) = (q : F) := rfl

instance : RoundLaws F where
  sub_le a r h := by rw [lit_def] at h; simp at h; linarith
  le_add a r h := by rw [lit_def] at h; simp at h; linarith
  add_le a r h := by rw [lit_def] at h; simp at h; linarith
  sub_mono a b c h := by linarith
  sub_pos a b := by rw [lit_def]; simp
  ext_nonneg := by
    simp only [aabbExtension, lit_def]; norm_num

example : RoundLaws ℚ := inferInstance
end B2
