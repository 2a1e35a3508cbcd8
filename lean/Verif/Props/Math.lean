import Verif.Spec.Real
import Verif.Proofs.Pow2
import Verif.Proofs.TreeRep
import Mathlib.Tactic.Ring
import Mathlib.Tactic.FieldSimp
import Mathlib.Tactic.LinearCombination
import Mathlib.Tactic.NormNum

/-!
# Properties C44-C48: scalar and matrix mathematics (`b2_math.rs`)
-/
namespace B2.Props
set_option linter.unusedSectionVars false

section
variable {F : Type} [LinearOrder F]

/-- **C44** for numbers. -/
theorem c44_clamp (a low high : F) (h : low ≤ high) :
    low ≤ b2clamp a low high ∧ b2clamp a low high ≤ high ∧ (low ≤ a → a ≤ high → b2clamp a low high = a) := by
  simp only [b2clamp, b2min_eq, b2max_eq]
  refine ⟨le_max_left _ _, max_le h (min_le_right _ _), fun h1 h2 => ?_⟩
  rw [min_eq_left h2, max_eq_right h1]

example : b2clamp (5 : ℤ) 0 3 = 3 ∧ b2clamp (2 : ℤ) 0 3 = 2 := by decide

/-- **C44** for vectors, the part that holds: the result is never below `low`. Missing: it is never above `high`
and in-range vectors are unchanged; both are false, see `c44_clamp_vec2_fails`. -/
theorem c44_clamp_vec2_partial (a low high : Vec2 F) :
    low.x ≤ (b2clampV a low high).x ∧ low.y ≤ (b2clampV a low high).y := by
  simp only [b2clampV, maxV, b2max_eq]
  exact ⟨le_max_left _ _, le_max_left _ _⟩

/-- A finding: `b2_clamp_vec2` takes the maximum with `high`, so whenever `low ≤ high` the result is at least
`high`; in particular a vector strictly inside the range is changed and one above it is not clamped. -/
theorem c44_clamp_vec2_fails (a low high : Vec2 F) (hx : low.x ≤ high.x) (hy : low.y ≤ high.y) :
    b2clampV a low high = ⟨max a.x high.x, max a.y high.y⟩ := by
  simp only [b2clampV, maxV, b2max_eq]
  rw [max_eq_right (hx.trans (le_max_right _ _)), max_eq_right (hy.trans (le_max_right _ _))]

example : b2clampV (⟨1, 7⟩ : Vec2 ℤ) ⟨0, 0⟩ ⟨3, 3⟩ = ⟨3, 7⟩ := by decide

end

section
variable {F : Type} [Field F]

/-- A unit rotation. -/
def IsUnit' (q : Rot F) : Prop := q.s * q.s + q.c * q.c = 1

/-- **C45**: inverse rotation and transform undo rotation and transform, on both sides. -/
theorem c45_inverse (t : Xf F) (h : IsUnit' t.q) (v : Vec2 F) :
    t.q.mulTV (t.q.mulV v) = v ∧ t.q.mulV (t.q.mulTV v) = v ∧
    t.mulTV (t.mulV v) = v ∧ t.mulV (t.mulTV v) = v := by
  unfold IsUnit' at h
  refine ⟨?_, ?_, ?_, ?_⟩ <;> ext <;> simp only [Rot.mulV, Rot.mulTV, Xf.mulV, Xf.mulTV] <;>
    first
    | linear_combination v.x * h
    | linear_combination v.y * h
    | linear_combination (v.x - t.p.x) * h
    | linear_combination (v.y - t.p.y) * h

/-- **C45**: the composed transform acts as successive application, also for the inverse composition; composing
preserves unit rotations. -/
theorem c45_composition (a b : Xf F) (v : Vec2 F) :
    (a.mul b).mulV v = a.mulV (b.mulV v) ∧ (a.mulT b).mulV v = a.mulTV (b.mulV v) ∧
    (a.q.mul b.q).mulV v = a.q.mulV (b.q.mulV v) ∧ (a.q.mulT b.q).mulV v = a.q.mulTV (b.q.mulV v) ∧
    (IsUnit' a.q → IsUnit' b.q → IsUnit' (a.mul b).q ∧ IsUnit' (a.mulT b).q) := by
  refine ⟨?_, ?_, ?_, ?_, fun h1 h2 => ⟨?_, ?_⟩⟩
  · ext <;> simp only [Xf.mul, Xf.mulV, Rot.mul, Rot.mulV, Vec2.add_x, Vec2.add_y] <;> ring
  · ext <;> simp only [Xf.mulT, Xf.mulV, Xf.mulTV, Rot.mulT, Rot.mulTV, Vec2.sub_x, Vec2.sub_y] <;> ring
  · ext <;> simp only [Rot.mul, Rot.mulV] <;> ring
  · ext <;> simp only [Rot.mulT, Rot.mulV, Rot.mulTV] <;> ring
  · unfold IsUnit' at *
    simp only [Xf.mul, Rot.mul]
    linear_combination (b.q.s * b.q.s + b.q.c * b.q.c) * h1 + h2
  · unfold IsUnit' at *
    simp only [Xf.mulT, Rot.mulT]
    linear_combination (b.q.s * b.q.s + b.q.c * b.q.c) * h1 + h2

/-- **C45**: the axes of a rotation are where it takes the axes, and the products with matrices and their transposes are those of linear algebra. -/
theorem c45_axes_and_matrices (q : Rot F) (a b : Mat22 F) (u v : Vec2 F) :
    q.xAxis = q.mulV ⟨1, 0⟩ ∧ q.yAxis = q.mulV ⟨0, 1⟩ ∧
    a.mulV ⟨1, 0⟩ = a.ex ∧ a.mulV ⟨0, 1⟩ = a.ey ∧ a.mulV (u + v) = a.mulV u + a.mulV v ∧
    dot (a.mulTV u) v = dot u (a.mulV v) ∧
    (a.mul b).mulV v = a.mulV (b.mulV v) ∧ (a.mulT b).mulV v = a.mulTV (b.mulV v) ∧ (Vec2.zero : Vec2 F) + v = v := by
  refine ⟨?_, ?_, ?_, ?_, ?_, ?_, ?_, ?_, ?_⟩
  · ext <;> simp [Rot.xAxis, Rot.mulV]
  · ext <;> simp [Rot.yAxis, Rot.mulV]
  · ext <;> simp [Mat22.mulV]
  · ext <;> simp [Mat22.mulV]
  · ext <;> simp only [Mat22.mulV, Vec2.add_x, Vec2.add_y] <;> ring
  · simp only [dot, Mat22.mulV, Mat22.mulTV]; ring
  · ext <;> simp only [Mat22.mul, Mat22.mulV] <;> ring
  · ext <;> simp only [Mat22.mulT, Mat22.mulTV, Mat22.mulV, dot] <;> ring
  · ext <;> simp [Vec2.zero]

/-- **C45**: rotations preserve dot and cross products, and so do distances under transforms. -/
theorem c45_isometry (t : Xf F) (h : IsUnit' t.q) (u v : Vec2 F) :
    dot (t.q.mulV u) (t.q.mulV v) = dot u v ∧ cross (t.q.mulV u) (t.q.mulV v) = cross u v ∧
    (t.q.mulV v).lengthSquared = v.lengthSquared ∧
    distanceV2 (t.mulV u) (t.mulV v) = distanceV2 u v := by
  unfold IsUnit' at h
  refine ⟨?_, ?_, ?_, ?_⟩
  · simp only [dot, Rot.mulV]; linear_combination (u.x * v.x + u.y * v.y) * h
  · simp only [cross, Rot.mulV]; linear_combination (u.x * v.y - u.y * v.x) * h
  · simp only [Vec2.lengthSquared, Rot.mulV]; linear_combination (v.x * v.x + v.y * v.y) * h
  · simp only [distanceV2, dot, Xf.mulV, Vec2.sub_x, Vec2.sub_y]
    linear_combination ((u.x - v.x) * (u.x - v.x) + (u.y - v.y) * (u.y - v.y)) * h

/-- **C45**: rotations made from an angle are unit rotations. -/
theorem c45_angle_is_unit {F : Type} [Field F] [LinearOrder F] [IsStrictOrderedRing F] [Elem F] [ElemLaws F]
    (angle : F) : IsUnit' (Rot.ofAngle angle) := ElemLaws.sin_cos angle

/-- A finding: `B2Rot::default()` (and so `B2Transform::default()`) is not a rotation; it maps everything to 0. -/
theorem c45_default_is_degenerate (v : Vec2 F) : (Rot.default : Rot F).mulV v = ⟨0, 0⟩ := by
  simp [Rot.default, Rot.mulV]

example : IsUnit' (⟨3 / 5, 4 / 5⟩ : Rot ℚ) ∧ (⟨3 / 5, 4 / 5⟩ : Rot ℚ).mulV ⟨5, 0⟩ = ⟨4, 3⟩ := by
  constructor
  · norm_num [IsUnit']
  · ext <;> norm_num [Rot.mulV]

variable [DecidableEq F]

/-- Determinant of a 2-by-2 matrix. -/
def det2 (m : Mat22 F) : F := m.ex.x * m.ey.y - m.ey.x * m.ex.y
/-- Determinant of a 3-by-3 matrix. -/
def det3 (m : Mat33 F) : F :=
  m.ex.x * (m.ey.y * m.ez.z - m.ey.z * m.ez.y) - m.ey.x * (m.ex.y * m.ez.z - m.ex.z * m.ez.y) +
    m.ez.x * (m.ex.y * m.ey.z - m.ex.z * m.ey.y)

/-- **C46**, 2-by-2. -/
theorem c46_solve2 (m : Mat22 F) (b : Vec2 F) :
    (det2 m ≠ 0 → m.mulV (m.solve b) = b ∧ m.mul m.inverse = ⟨⟨1, 0⟩, ⟨0, 1⟩⟩ ∧
      m.inverse.mul m = ⟨⟨1, 0⟩, ⟨0, 1⟩⟩) ∧
    (det2 m = 0 → m.solve b = ⟨0, 0⟩ ∧ m.inverse = ⟨⟨0, 0⟩, ⟨0, 0⟩⟩) := by
  unfold det2
  constructor
  · intro h
    have hk := one_div_mul_cancel h
    simp only [Mat22.solve, Mat22.inverse, ne_eq, h, not_false_eq_true, if_true]
    generalize 1 / (m.ex.x * m.ey.y - m.ey.x * m.ex.y) = k at hk ⊢
    refine ⟨?_, ?_, ?_⟩
    · ext <;> simp only [Mat22.mulV]
      · linear_combination b.x * hk
      · linear_combination b.y * hk
    all_goals
      ext <;> simp only [Mat22.mul, Mat22.mulV] <;> first | linear_combination hk | ring
  · intro h
    simp [Mat22.solve, Mat22.inverse, h]

/-- **C46**, the upper 2-by-2 block of a 3-by-3 matrix. -/
theorem c46_solve22 (m : Mat33 F) (b : Vec2 F) :
    (m.ex.x * m.ey.y - m.ey.x * m.ex.y ≠ 0 →
      m.mul22 (m.solve22 b) = b ∧ m.mul22 (m.inverse22.mul22 b) = b ∧ m.inverse22.mul22 (m.mul22 b) = b) ∧
    (m.ex.x * m.ey.y - m.ey.x * m.ex.y = 0 →
      m.solve22 b = ⟨0, 0⟩ ∧ m.inverse22 = ⟨⟨0, 0, 0⟩, ⟨0, 0, 0⟩, ⟨0, 0, 0⟩⟩) := by
  constructor
  · intro h
    have hk := one_div_mul_cancel h
    simp only [Mat33.solve22, Mat33.inverse22, ne_eq, h, not_false_eq_true, if_true]
    generalize 1 / (m.ex.x * m.ey.y - m.ey.x * m.ex.y) = k at hk ⊢
    refine ⟨?_, ?_, ?_⟩ <;> ext <;> simp only [Mat33.mul22] <;>
      first | linear_combination b.x * hk | linear_combination b.y * hk
  · intro h
    simp [Mat33.solve22, Mat33.inverse22, h]

theorem det3_eq (m : Mat33 F) : dot3 m.ex (cross3 m.ey m.ez) = det3 m := by
  simp only [dot3, cross3, det3]; ring

theorem mulV3_x (m : Mat33 F) (v : Vec3 F) : (m.mulV v).x = v.x * m.ex.x + v.y * m.ey.x + v.z * m.ez.x := rfl
theorem mulV3_y (m : Mat33 F) (v : Vec3 F) : (m.mulV v).y = v.x * m.ex.y + v.y * m.ey.y + v.z * m.ez.y := rfl
theorem mulV3_z (m : Mat33 F) (v : Vec3 F) : (m.mulV v).z = v.x * m.ex.z + v.y * m.ey.z + v.z * m.ez.z := rfl

/-- **C46**, 3-by-3. -/
theorem c46_solve33 (m : Mat33 F) (b : Vec3 F) :
    (det3 m ≠ 0 → m.mulV (m.solve33 b) = b) ∧ (det3 m = 0 → m.solve33 b = ⟨0, 0, 0⟩) := by
  constructor
  · intro h
    have h' := h
    simp only [det3] at h'
    simp only [Mat33.solve33, det3_eq, ne_eq, h, not_false_eq_true, if_true]
    ext <;> simp only [mulV3_x, mulV3_y, mulV3_z] <;> field_simp <;> simp only [dot3, cross3, det3] <;> ring
  · intro h
    simp [Mat33.solve33, det3_eq, h]

/-- **C46**, the inverse of a symmetric 3-by-3 matrix. -/
theorem c46_sym_inverse33 (m : Mat33 F) (h1 : m.ex.y = m.ey.x) (h2 : m.ex.z = m.ez.x) (h3 : m.ey.z = m.ez.y)
    (b : Vec3 F) :
    (det3 m ≠ 0 → m.mulV (m.symInverse33.mulV b) = b ∧ m.symInverse33.mulV (m.mulV b) = b) ∧
    (det3 m = 0 → m.symInverse33 = ⟨⟨0, 0, 0⟩, ⟨0, 0, 0⟩, ⟨0, 0, 0⟩⟩) := by
  constructor
  · intro h
    constructor <;>
    · simp only [Mat33.symInverse33, det3_eq, ne_eq, h, not_false_eq_true, if_true]
      ext <;> simp only [mulV3_x, mulV3_y, mulV3_z, h1, h2, h3] <;> field_simp <;>
        simp only [det3, h1, h2, h3] <;> ring
  · intro h
    simp [Mat33.symInverse33, det3_eq, h]

example : det3 (⟨⟨2, 1, 0⟩, ⟨1, 3, 1⟩, ⟨0, 1, 4⟩⟩ : Mat33 ℚ) ≠ 0 ∧ det2 (⟨⟨2, 1⟩, ⟨1, 3⟩⟩ : Mat22 ℚ) ≠ 0 ∧
    det2 (⟨⟨2, 1⟩, ⟨4, 2⟩⟩ : Mat22 ℚ) = 0 := by
  norm_num [det2, det3]

end

section
variable {F : Type} [Field F] [LinearOrder F] [IsStrictOrderedRing F] [Elem F] [ElemLaws F]

/-- The place of the centre of mass in the world, for a pose. -/
def centre (s : Sweep F) (xf : Xf F) : Vec2 F := xf.mulV s.localCenter

/-- **C47**: the pose at `beta` has the linearly interpolated centre and angle; so `0` is the start and `1` the
end. -/
theorem c47_interpolation (s : Sweep F) (beta : F) :
    centre s (s.getTransform beta) = (1 - beta) * s.c0 + beta * s.c ∧
    (s.getTransform beta).q = Rot.ofAngle ((1 - beta) * s.a0 + beta * s.a) ∧
    (centre s (s.getTransform 0) = s.c0 ∧ (s.getTransform 0).q = Rot.ofAngle s.a0) ∧
    (centre s (s.getTransform 1) = s.c ∧ (s.getTransform 1).q = Rot.ofAngle s.a) := by
  have key : ∀ beta, centre s (s.getTransform beta) = (1 - beta) * s.c0 + beta * s.c := by
    intro beta
    ext <;> simp only [centre, Sweep.getTransform, Xf.mulV, Rot.mulV, Vec2.add_x, Vec2.add_y, Vec2.sub_x, Vec2.sub_y] <;>
      ring
  refine ⟨key beta, rfl, ⟨?_, ?_⟩, ⟨?_, ?_⟩⟩
  · rw [key]; ext <;> simp
  · simp [Sweep.getTransform]
  · rw [key]; ext <;> simp
  · simp [Sweep.getTransform]

/-- **C47**: advancing to `alpha` (with `alpha0 < 1`) moves the start to the interpolated pose, keeps the end, and
leaves the pose at every later absolute time `t` unchanged. -/
theorem c47_advance (s : Sweep F) (h0 : s.alpha0 < 1) (alpha : F) :
    ∃ s', s.advance alpha = some s' ∧ s'.alpha0 = alpha ∧ s'.c = s.c ∧ s'.a = s.a ∧ s'.localCenter = s.localCenter ∧
      s'.getTransform 0 = s.getTransform ((alpha - s.alpha0) / (1 - s.alpha0)) ∧
      (alpha < 1 → ∀ t, s'.getTransform ((t - alpha) / (1 - alpha)) =
        s.getTransform ((t - s.alpha0) / (1 - s.alpha0))) := by
  have hne : (1 - s.alpha0) ≠ 0 := by linarith
  refine ⟨{ s with c0 := s.c0 + ((alpha - s.alpha0) / (1 - s.alpha0)) * (s.c - s.c0)
                   a0 := s.a0 + ((alpha - s.alpha0) / (1 - s.alpha0)) * (s.a - s.a0)
                   alpha0 := alpha }, by simp only [Sweep.advance, if_pos h0], rfl, rfl, rfl, rfl, ?_, ?_⟩
  · have e : ∀ (x y : F) (b : F), (1 - 0) * (x + b * (y - x)) + 0 * y = (1 - b) * x + b * y := fun x y b => by ring
    simp only [Sweep.getTransform, e]
    congr 1
    ext <;> simp only [Vec2.add_x, Vec2.add_y, Vec2.sub_x, Vec2.sub_y, Vec2.smul_x, Vec2.smul_y] <;> ring
  · intro ha t
    have hne' : (1 - alpha) ≠ 0 := by linarith
    have e : ∀ x y : F, (1 - (t - alpha) / (1 - alpha)) * (x + (alpha - s.alpha0) / (1 - s.alpha0) * (y - x)) +
        (t - alpha) / (1 - alpha) * y =
        (1 - (t - s.alpha0) / (1 - s.alpha0)) * x + (t - s.alpha0) / (1 - s.alpha0) * y := by
      intro x y; field_simp; ring
    simp only [Sweep.getTransform, e]
    congr 1
    ext <;> simp only [Vec2.add_x, Vec2.add_y, Vec2.sub_x, Vec2.sub_y, Vec2.smul_x, Vec2.smul_y, e]

/-- `advance` panics on a sweep that is already at its end. -/
theorem c47_advance_asserts (s : Sweep F) (h0 : 1 ≤ s.alpha0) (alpha : F) : s.advance alpha = none := by
  simp [Sweep.advance, not_lt.mpr h0]

/-- **C47**: `normalize` takes the same number of full turns off both angles, leaves the start angle in
`[0, 2π)`, and changes no pose. -/
theorem c47_normalize (s : Sweep F) :
    (∃ n : ℤ, s.normalize.a0 = s.a0 - 2 * Elem.pi * n ∧ s.normalize.a = s.a - 2 * Elem.pi * n) ∧
    0 ≤ s.normalize.a0 ∧ s.normalize.a0 < 2 * Elem.pi ∧
    s.normalize.c0 = s.c0 ∧ s.normalize.c = s.c ∧ s.normalize.alpha0 = s.alpha0 ∧
    ∀ beta, s.normalize.getTransform beta = s.getTransform beta := by
  obtain ⟨n, h1, h2, h3⟩ := ElemLaws.floor_int (s.a0 / (2 * Elem.pi))
  have hpi : (0 : F) < 2 * Elem.pi := by have := ElemLaws.pi_pos (F := F); linarith
  rw [le_div_iff₀ hpi] at h2
  rw [div_lt_iff₀ hpi] at h3
  refine ⟨⟨n, by simp only [Sweep.normalize, h1], by simp only [Sweep.normalize, h1]⟩, ?_, ?_, rfl, rfl, rfl, ?_⟩
  · simp only [Sweep.normalize, h1]; linarith
  · simp only [Sweep.normalize, h1]; linarith
  · intro beta
    have e : (1 - beta) * (s.a0 - 2 * Elem.pi * (n : F)) + beta * (s.a - 2 * Elem.pi * n) =
        ((1 - beta) * s.a0 + beta * s.a) - 2 * Elem.pi * n := by ring
    simp only [Sweep.getTransform, Sweep.normalize, h1, e, Rot.ofAngle, ElemLaws.sin_turn, ElemLaws.cos_turn]

/-- The hypotheses are met, e.g. by the real numbers and a sweep in mid-step. -/
example : ∃ s : Sweep ℝ, s.alpha0 < 1 ∧ s.a0 ≠ s.a ∧ s.c0 ≠ s.c ∧ s.localCenter ≠ ⟨0, 0⟩ :=
  ⟨⟨⟨1, 0⟩, ⟨0, 0⟩, ⟨2, 1⟩, 9, 11, 1 / 4⟩, by norm_num, by norm_num, by simp, by simp⟩

end

/-- **C48**: for every `v < 2^31` the result is the smallest power of two greater than `v`; for larger 32-bit values
the code overflows. -/
theorem c48_next_power_of_two (v : Nat) :
    (v < 2 ^ 31 → ∃ k, nextPowerOfTwo v = some (2 ^ k) ∧ v < 2 ^ k ∧ ∀ j, v < 2 ^ j → k ≤ j) ∧
    (2 ^ 31 ≤ v → v < 2 ^ 32 → nextPowerOfTwo v = none) := by
  constructor
  · intro h
    by_cases hv : v = 0
    · subst hv; exact ⟨0, by decide, by decide, fun j _ => Nat.zero_le j⟩
    · have hlog : v.log2 < 31 := (Nat.log2_lt hv).mpr h
      have hpos : 0 < 2 ^ (v.log2 + 1) := Nat.two_pow_pos _
      have hle : 2 ^ (v.log2 + 1) ≤ 2 ^ 31 := Nat.pow_le_pow_right (by decide) (by omega)
      refine ⟨v.log2 + 1, ?_, Nat.lt_log2_self, fun j hj => ?_⟩
      · have := spread32 hv (by omega)
        simp only [nextPowerOfTwo] at this ⊢
        rw [this, if_pos (by omega)]
        congr 1; omega
      · have := (Nat.log2_lt hv).mpr hj; omega
  · intro h1 h2
    have hv : v ≠ 0 := by omega
    have h3 : 31 ≤ v.log2 := (Nat.le_log2 hv).mpr h1
    have hle : 2 ^ 32 ≤ 2 ^ (v.log2 + 1) := Nat.pow_le_pow_right (by decide) (by omega)
    have := spread32 hv h2
    simp only [nextPowerOfTwo] at this ⊢
    rw [this, if_neg (by omega)]

/-- **C48**: `b2_is_power_of_two` recognises exactly the powers of two. -/
theorem c48_is_power_of_two (x : Nat) : isPowerOfTwo x = true ↔ ∃ k, x = 2 ^ k := by
  simp only [isPowerOfTwo, Bool.and_eq_true, decide_eq_true_iff, beq_iff_eq]
  rw [show (x > 0) = (x ≠ 0) by simp [Nat.pos_iff_ne_zero]]
  exact Nat.ne_zero_and_sub_one_eq_zero_iff_isPowerOfTwo

example : nextPowerOfTwo 100 = some 128 ∧ nextPowerOfTwo 128 = some 256 ∧ nextPowerOfTwo (2 ^ 31) = none ∧
    isPowerOfTwo 64 = true ∧ isPowerOfTwo 65 = false := by decide

end B2.Props
