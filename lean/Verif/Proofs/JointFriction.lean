import Verif.Proofs.JointEnergyStep
import Verif.Proofs.JointBounds

/-!
# The energy of friction joints
-/
namespace B2

section
variable {F : Type} [Field F] [LinearOrder F] [IsStrictOrderedRing F]

/-- Twice the energy that the impulse `x` at the arms gives to bodies at rest. -/
def PairFrame.cost (f : PairFrame F) (rA rB x : Vec2 F) : F :=
  (f.a.invMass + f.b.invMass) * dot x x + f.a.invI * cross rA x ^ 2 + f.b.invI * cross rB x ^ 2

theorem kick_cost {MA JA MB JB : F} {f : PairFrame F} {s : Two F} (h : f.Fits MA JA MB JB s) {rA rB i : Vec2 F}
    (hi : (f.pointK rA rB).mulV i = -(relVel s.a s.b rA rB)) (x : Vec2 F) :
    pairEnergy2 MA JA MB JB (f.kick x (cross rA x) (cross rB x) s) =
      pairEnergy2 MA JA MB JB s + f.cost rA rB (x - i) - f.cost rA rB i := by
  rw [kick_energy h]
  have ex := congrArg Vec2.x hi
  have ey := congrArg Vec2.y hi
  simp only [Mat22.mulV, PairFrame.pointK, relVel, crossSV, Vec2.add_x, Vec2.add_y, Vec2.sub_x, Vec2.sub_y, Vec2.neg_x,
    Vec2.neg_y] at ex ey
  simp only [PairFrame.cost, dot, cross, Vec2.sub_x, Vec2.sub_y]
  linear_combination (2 * x.x) * ex + (2 * x.y) * ey

/-- Cutting an impulse off at the bound shortens it. -/
theorem clampImpulse_scale [Elem F] [ElemLaws F] {v : Vec2 F} {m : F} (h : epsilon ≤ m) :
    clampImpulse v m = v ∨ ∃ l : F, 0 < l ∧ m < l ∧ l * l = dot v v ∧ clampImpulse v m = (m / l) * v := by
  unfold clampImpulse
  split
  · rename_i hv
    right
    have he : (0 : F) < epsilon := by unfold epsilon; positivity
    have hl : v.length * v.length = dot v v := ElemLaws.mul_self_sqrt _ (by
      have := mul_self_nonneg v.x; have := mul_self_nonneg v.y; linarith)
    have h0 : 0 ≤ v.length := ElemLaws.sqrt_nonneg _
    have hml : m < v.length := by
      by_contra hn
      have hn := not_lt.mp hn
      have : v.lengthSquared = v.length * v.length := by rw [hl]; rfl
      nlinarith
    have hn : ¬ v.length < epsilon := not_lt.mpr (h.trans hml.le)
    refine ⟨v.length, lt_of_lt_of_le he (h.trans hml.le), hml, hl, ?_⟩
    simp only [Vec2.normalize, if_neg hn]
    ext <;> simp only [Vec2.smul_x, Vec2.smul_y] <;> ring
  · exact Or.inl rfl

/-- The cut impulse is the nearest one within the bound. -/
theorem clampImpulse_near [Elem F] [ElemLaws F] {v a : Vec2 F} {m : F} (h : epsilon ≤ m) (ha : a.lengthSquared ≤ m ^ 2) :
    dot (clampImpulse v m - v) (clampImpulse v m - v) ≤ dot (v - a) (v - a) := by
  have hn : 0 ≤ dot (v - a) (v - a) := add_nonneg (mul_self_nonneg _) (mul_self_nonneg _)
  have he : (0 : F) < epsilon := by unfold epsilon; positivity
  rcases clampImpulse_scale (v := v) h with e | ⟨l, hl, hml, hll, e⟩
  · rw [e]
    refine le_trans (le_of_eq ?_) hn
    simp [dot]
  · rw [e]
    have e1 : dot ((m / l) * v - v) ((m / l) * v - v) = (l - m) ^ 2 := by
      have : dot ((m / l) * v - v) ((m / l) * v - v) = (m / l - 1) ^ 2 * dot v v := by
        simp only [dot, Vec2.sub_x, Vec2.sub_y, Vec2.smul_x, Vec2.smul_y]; ring
      rw [this, ← hll]
      field_simp
      ring
    rw [e1]
    -- the component of `a` along `v`
    have hcs : dot a v ≤ m * l := by
      by_contra hlt
      have hlt := not_le.mp hlt
      have hsq : (m * l) ^ 2 < dot a v ^ 2 := by
        have : 0 ≤ m * l := mul_nonneg (he.le.trans h) hl.le
        nlinarith
      have hc : dot a v ^ 2 ≤ a.lengthSquared * dot v v := by
        simp only [dot, Vec2.lengthSquared]
        nlinarith [sq_nonneg (a.x * v.y - a.y * v.x)]
      have h2 : a.lengthSquared * dot v v ≤ m ^ 2 * (l * l) := by
        rw [hll]; exact mul_le_mul_of_nonneg_right ha (add_nonneg (mul_self_nonneg _) (mul_self_nonneg _))
      nlinarith
    -- |v - a| is at least its component along v
    have e2 : dot (v - a) (v - a) * (l * l) ≥ (l * l - dot a v) ^ 2 := by
      rw [hll]
      have : (dot v v - dot a v) ^ 2 = dot (v - a) v ^ 2 := by
        simp only [dot, Vec2.sub_x, Vec2.sub_y]; ring
      rw [this]
      simp only [dot, Vec2.sub_x, Vec2.sub_y]
      nlinarith [sq_nonneg ((v.x - a.x) * v.y - (v.y - a.y) * v.x)]
    have e3 : (l * l - m * l) ^ 2 ≤ (l * l - dot a v) ^ 2 := by
      have : 0 ≤ l * l - m * l := by nlinarith
      nlinarith
    have e4 : (l - m) ^ 2 * (l * l) ≤ dot (v - a) (v - a) * (l * l) := by
      calc (l - m) ^ 2 * (l * l) = (l * l - m * l) ^ 2 := by ring
        _ ≤ _ := e3.trans e2
    exact le_of_mul_le_mul_right e4 (mul_pos hl hl)

theorem b2clamp_le {x lo hi z : F} (h1 : lo ≤ z) (h2 : x ≤ z) : b2clamp x lo hi ≤ z := by
  unfold b2clamp b2max b2min
  split_ifs <;> linarith

theorem le_b2clamp {x lo hi z : F} (h1 : z ≤ hi) (h2 : z ≤ x) : z ≤ b2clamp x lo hi := by
  unfold b2clamp b2max b2min
  split_ifs <;> linarith

/-- The row is cut off towards where it was. -/
theorem clamp_row {m K Kt c o b : F} (hK : 0 < K) (hm : m * K = 1) (h1 : Kt ≤ K) (hb : 0 ≤ b) (ho : |o| ≤ b) :
    2 * (b2clamp (o + -m * c) (-b) b - o) * c + (b2clamp (o + -m * c) (-b) b - o) * (b2clamp (o + -m * c) (-b) b - o) * Kt ≤ 0 := by
  have hm0 : 0 < m := by
    by_contra hn
    have := mul_nonpos_of_nonpos_of_nonneg (not_lt.mp hn) hK.le
    linarith
  obtain ⟨o1, o2⟩ := abs_le.mp ho
  -- it moves by a part of what it should
  have key : ∃ t : F, 0 ≤ t ∧ t ≤ 1 ∧ b2clamp (o + -m * c) (-b) b - o = t * (-m * c) := by
    generalize hy : -m * c = y
    by_cases hy0 : y = 0
    · refine ⟨0, le_refl _, zero_le_one, ?_⟩
      rw [hy0, add_zero, le_antisymm (b2clamp_le o1 (le_refl o)) (le_b2clamp o2 (le_refl o))]; simp
    · refine ⟨(b2clamp (o + y) (-b) b - o) / y, ?_, ?_, by field_simp⟩
      · rcases lt_or_gt_of_ne hy0 with h | h
        · refine div_nonneg_of_nonpos ?_ h.le
          have := b2clamp_le (x := o + y) (lo := -b) (hi := b) (z := o) o1 (by linarith)
          linarith
        · refine div_nonneg ?_ h.le
          have := le_b2clamp (x := o + y) (lo := -b) (hi := b) (z := o) o2 (by linarith)
          linarith
      · rcases lt_or_gt_of_ne hy0 with h | h
        · rw [div_le_one_of_neg h]
          have : o + y ≤ b2clamp (o + y) (-b) b := le_b2clamp (by linarith) (le_refl _)
          linarith
        · rw [div_le_one h]
          have : b2clamp (o + y) (-b) b ≤ o + y := b2clamp_le (by linarith) (le_refl _)
          linarith
  obtain ⟨t, t0, t1, e⟩ := key
  rw [e]
  have h2 : (t * (-m * c)) * (t * (-m * c)) * Kt ≤ (t * (-m * c)) * (t * (-m * c)) * K :=
    mul_le_mul_of_nonneg_left h1 (mul_self_nonneg _)
  have h3 : (t * (-m * c)) * (t * (-m * c)) * K = t * t * (m * c * c) := by linear_combination (t * t * m * c * c) * hm
  have h4 : 0 ≤ m * c * c := by rw [mul_assoc]; exact mul_nonneg hm0.le (mul_self_nonneg _)
  have h5 : t * t * (m * c * c) ≤ t * (m * c * c) := by
    refine mul_le_mul_of_nonneg_right ?_ h4
    nlinarith
  have h6 : 0 ≤ t * (m * c * c) := mul_nonneg t0 h4
  nlinarith

theorem FrictionJ.turn_energy {MA JA MB JB : F} {st : JStep F} {j : FrictionJ F} {s : Two F} (h : j.frame.Fits MA JA MB JB s)
    (hf : j.frame.Good) (hm : j.angularMass = invIfPos (j.frame.a.invI + j.frame.b.invI)) (hb : 0 ≤ st.dt * j.maxTorque)
    (ho : |j.angularImpulse| ≤ st.dt * j.maxTorque) :
    pairEnergy2 MA JA MB JB (j.turn st s).2 ≤ pairEnergy2 MA JA MB JB s := by
  have hK : j.frame.rowK ⟨0, 0⟩ 1 1 = j.frame.a.invI + j.frame.b.invI := by simp [PairFrame.rowK, dot]
  have e : (j.turn st s).2 = j.frame.twist (b2clamp (j.angularImpulse + -j.angularMass * (s.b.w - s.a.w)) (-(st.dt * j.maxTorque))
    (st.dt * j.maxTorque) - j.angularImpulse) s := rfl
  rw [e, twist_row, row_energy h, hK]
  have ec : dot (⟨0, 0⟩ : Vec2 F) (s.b.v - s.a.v) + 1 * s.b.w - 1 * s.a.w = s.b.w - s.a.w := by simp [dot]
  rw [ec]
  by_cases hp : 0 < j.frame.a.invI + j.frame.b.invI
  · have := clamp_row (m := j.angularMass) (K := j.frame.a.invI + j.frame.b.invI) (Kt := j.frame.a.invI + j.frame.b.invI)
      (c := s.b.w - s.a.w) (o := j.angularImpulse) hp (by rw [hm, invIfPos, if_pos hp, one_div_mul_cancel hp.ne']) (le_refl _) hb ho
    linarith
  · have h0 : j.frame.a.invI + j.frame.b.invI = 0 := le_antisymm (not_lt.mp hp) (add_nonneg hf.inertiaA hf.inertiaB)
    have hm0 : j.angularMass = 0 := by rw [hm, invIfPos, if_neg hp]; exact h0
    obtain ⟨o1, o2⟩ := abs_le.mp ho
    rw [hm0, neg_zero, zero_mul, add_zero, le_antisymm (b2clamp_le o1 (le_refl j.angularImpulse)) (le_b2clamp o2 (le_refl _))]
    simp

/-- Where the free impulse would lead. -/
theorem free_impulse {f : PairFrame F} (hf : f.Good) {rA rB : Vec2 F} (s : Two F) :
    (f.pointK rA rB).mulV (-((f.pointK rA rB).inverse.mulV (relVel s.a s.b rA rB))) = -(relVel s.a s.b rA rB) := by
  have hc := ((Props.c46_solve2 (f.pointK rA rB) (⟨0, 0⟩ : Vec2 F)).1 (pointK_det hf rA rB)).2.1
  generalize relVel s.a s.b rA rB = c
  generalize (f.pointK rA rB).inverse = W at hc ⊢
  generalize f.pointK rA rB = K at hc ⊢
  simp only [Mat22.mul, Mat22.mulV, Mat22.mk.injEq, Vec2.mk.injEq] at hc
  obtain ⟨⟨k1, k2⟩, k3, k4⟩ := hc
  ext
  · simp only [Mat22.mulV, Vec2.neg_x, Vec2.neg_y]
    linear_combination -c.x * k1 - c.y * k3
  · simp only [Mat22.mulV, Vec2.neg_x, Vec2.neg_y]
    linear_combination -c.x * k2 - c.y * k4

theorem FrictionJ.slip_energy [Elem F] [ElemLaws F] {MA JA MB JB : F} {st : JStep F} {j : FrictionJ F} {s : Two F}
    (h : j.frame.Fits MA JA MB JB s) (hf : j.frame.Good) (hm : j.linearMass = (j.frame.pointK j.rA j.rB).inverse)
    (hb : epsilon ≤ st.dt * j.maxForce)
    (ho : (j.frame.a.invI = 0 ∨ j.rA = ⟨0, 0⟩) ∧ (j.frame.b.invI = 0 ∨ j.rB = ⟨0, 0⟩) ∧
      j.linearImpulse.lengthSquared ≤ (st.dt * j.maxForce) ^ 2 ∨ j.linearImpulse = ⟨0, 0⟩) :
    pairEnergy2 MA JA MB JB (j.slip st s).2 ≤ pairEnergy2 MA JA MB JB s := by
  have hi := free_impulse (rA := j.rA) (rB := j.rB) hf s
  rw [← hm] at hi
  generalize hieq : -(j.linearMass.mulV (relVel s.a s.b j.rA j.rB)) = i at hi
  have e : (j.slip st s).2 = j.frame.kick (clampImpulse (j.linearImpulse + i) (st.dt * j.maxForce) - j.linearImpulse)
      (cross j.rA (clampImpulse (j.linearImpulse + i) (st.dt * j.maxForce) - j.linearImpulse))
      (cross j.rB (clampImpulse (j.linearImpulse + i) (st.dt * j.maxForce) - j.linearImpulse)) s := by
    rw [← hieq]; rfl
  rw [e, kick_cost h hi]
  suffices hs : j.frame.cost j.rA j.rB (clampImpulse (j.linearImpulse + i) (st.dt * j.maxForce) - j.linearImpulse - i) ≤
      j.frame.cost j.rA j.rB i by linarith
  obtain ⟨h1, h2, h3, h4, h5⟩ := hf
  rcases ho with ⟨cA, cB, ho⟩ | ho
  · have ec : ∀ x, j.frame.cost j.rA j.rB x = (j.frame.a.invMass + j.frame.b.invMass) * dot x x := by
      intro x
      have eA : j.frame.a.invI * cross j.rA x ^ 2 = 0 := by
        rcases cA with c | c <;> rw [c] <;> simp [cross]
      have eB : j.frame.b.invI * cross j.rB x ^ 2 = 0 := by
        rcases cB with c | c <;> rw [c] <;> simp [cross]
      simp only [PairFrame.cost, eA, eB, add_zero]
    have hn := clampImpulse_near (v := j.linearImpulse + i) hb ho
    have e1 : j.linearImpulse + i - j.linearImpulse = i := by ext <;> simp
    have e2 : clampImpulse (j.linearImpulse + i) (st.dt * j.maxForce) - (j.linearImpulse + i) =
        clampImpulse (j.linearImpulse + i) (st.dt * j.maxForce) - j.linearImpulse - i := by
      ext <;> simp only [Vec2.sub_x, Vec2.sub_y, Vec2.add_x, Vec2.add_y] <;> ring
    rw [e1, e2] at hn
    rw [ec, ec]
    exact mul_le_mul_of_nonneg_left hn h3.le
  · have e0 : j.linearImpulse + i = i := by rw [ho]; ext <;> simp
    have e1 : ∀ x : Vec2 F, x - j.linearImpulse = x := by intro x; rw [ho]; ext <;> simp
    rw [e0, e1]
    have hc : 0 ≤ j.frame.cost j.rA j.rB i := by
      have : 0 ≤ dot i i := add_nonneg (mul_self_nonneg _) (mul_self_nonneg _)
      unfold PairFrame.cost; positivity
    have he : (0 : F) < epsilon := by unfold epsilon; positivity
    rcases clampImpulse_scale (v := i) hb with e | ⟨l, hl, hml, _, e⟩
    · rw [e]
      have : j.frame.cost j.rA j.rB (i - i) = 0 := by simp [PairFrame.cost, dot, cross]
      rw [this]; exact hc
    · rw [e]
      have : j.frame.cost j.rA j.rB ((st.dt * j.maxForce / l) * i - i) =
          (1 - st.dt * j.maxForce / l) ^ 2 * j.frame.cost j.rA j.rB i := by
        simp only [PairFrame.cost, dot, cross, Vec2.sub_x, Vec2.sub_y, Vec2.smul_x, Vec2.smul_y]; ring
      rw [this]
      have t0 : 0 ≤ st.dt * j.maxForce / l := div_nonneg (he.le.trans hb) hl.le
      have t1 : st.dt * j.maxForce / l ≤ 1 := (div_le_one hl).mpr hml.le
      have : (1 - st.dt * j.maxForce / l) ^ 2 ≤ 1 := by nlinarith
      nlinarith

/-- What a friction joint keeps while it is solved. -/
structure FrictionJ.Quiet [Elem F] (st : JStep F) (bodies : Nat → JBody F) (pos : Arr (Pos F)) (j : FrictionJ F) : Prop where
  armed : (Joint.friction j).Armed bodies pos
  linear : j.linearMass = (j.frame.pointK j.rA j.rB).inverse
  angular : j.angularMass = invIfPos (j.frame.a.invI + j.frame.b.invI)
  force : epsilon ≤ st.dt * j.maxForce
  torque : 0 ≤ st.dt * j.maxTorque
  impulse : j.linearImpulse.lengthSquared ≤ (st.dt * j.maxForce) ^ 2
  spin : |j.angularImpulse| ≤ st.dt * j.maxTorque

theorem FrictionJ.solveVel_quiet [Elem F] [ElemLaws F] {st : JStep F} {bodies : Nat → JBody F} {pos : Arr (Pos F)}
    {j : FrictionJ F} (hq : j.Quiet st bodies pos) (s : Two F) : (j.solveVel st s).1.Quiet st bodies pos := by
  refine ⟨hq.armed, hq.linear, hq.angular, hq.force, hq.torque, ?_, ?_⟩
  · exact clampImpulse_le _ _
  · exact clamp_abs hq.torque

theorem FrictionJ.solveVel_energy [Elem F] [ElemLaws F] {n : Nat} {st : JStep F} {bodies : Nat → JBody F} {pos : Arr (Pos F)}
    {M J invM invI : Nat → F} {j : FrictionJ F} {j' : Joint F} {vel vel' : Arr (Vel F)} (hok : (Joint.friction j).Ok n bodies)
    (hk : (Joint.friction j).Knows bodies invM invI) (hq : j.Quiet st bodies pos) (hd : NothingDriven M J invM invI vel)
    (hc : (j.frame.a.invI = 0 ∨ j.rA = ⟨0, 0⟩) ∧ (j.frame.b.invI = 0 ∨ j.rB = ⟨0, 0⟩) ∨ j.linearImpulse = ⟨0, 0⟩)
    (h : (Joint.friction j).solveVel st vel = some (j', vel')) :
    energy2 M J vel' ≤ energy2 M J vel := by
  have ha := hq.armed
  obtain ⟨hf, _, _⟩ := ha
  have hg := hok.good
  rw [← hf] at hg
  obtain ⟨s, hfit, rfl, he⟩ := onTwo_energy (M := M) (J := J) h (by rw [hf]; exact hok.ne) hd
    (by rw [hf]; exact hk.2 _ (by simp [Joint.touched])) (by rw [hf]; exact hk.2 _ (by simp [Joint.touched]))
  have e1 := FrictionJ.turn_energy (st := st) hfit hg hq.angular hq.torque hq.spin
  have hfit2 : (j.turn st s).1.frame.Fits (M j.frame.a.index) (J j.frame.a.index) (M j.frame.b.index) (J j.frame.b.index)
      (j.turn st s).2 := by
    have : (j.turn st s).2 = j.frame.twist (b2clamp (j.angularImpulse + -j.angularMass * (s.b.w - s.a.w))
      (-(st.dt * j.maxTorque)) (st.dt * j.maxTorque) - j.angularImpulse) s := rfl
    rw [this, twist_row]
    exact fits_kick hfit _ _ _
  have e2 := FrictionJ.slip_energy (st := st) (j := (j.turn st s).1) hfit2 hg hq.linear hq.force (by
    rcases hc with ⟨c1, c2⟩ | c
    · exact Or.inl ⟨c1, c2, hq.impulse⟩
    · exact Or.inr c)
  have e3 : (j.solveVel st s).2 = ((j.turn st s).1.slip st (j.turn st s).2).2 := rfl
  rw [he, e3]
  linarith

end
end B2
