import Verif.Spec.Real

/-! # Specification: the laws of root, sine and cosine that energy needs -/
namespace B2

/-- Sines and cosines lie on the unit circle, and the square root does not err downwards. -/
class SoftLaws (F : Type) [Field F] [LinearOrder F] [IsStrictOrderedRing F] [Elem F] : Prop where
  turn : ∀ x : F, Elem.sin x * Elem.sin x + Elem.cos x * Elem.cos x = 1
  root : ∀ x : F, 0 < x → x ≤ Elem.sqrt x * Elem.sqrt x

instance {F : Type} [Field F] [LinearOrder F] [IsStrictOrderedRing F] [Elem F] [ElemLaws F] : SoftLaws F where
  turn := ElemLaws.sin_cos
  root x h := (ElemLaws.mul_self_sqrt x h.le).ge

end B2
