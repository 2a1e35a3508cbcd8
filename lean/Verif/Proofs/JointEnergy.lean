import Verif.Proofs.JointSettled

/-!
# The energy of joints

A joint without motor and spring takes energy from its bodies. A limit that is not reached yet may give back what it
took before in the same step; `stored` is what it may still give.
-/
namespace B2

section
variable {F : Type} [Field F] [LinearOrder F] [IsStrictOrderedRing F]

/-- Masses and inverse masses of the bodies of a joint fit, and an infinite mass is at rest. -/
def PairFrame.Fits (MA JA MB JB : F) (f : PairFrame F) (s : Two F) : Prop :=
  B2.Fits MA JA f.a.invMass f.a.invI s.a ∧ B2.Fits MB JB f.b.invMass f.b.invI s.b

theorem fits_kick {MA JA MB JB : F} {f : PairFrame F} {s : Two F} (h : f.Fits MA JA MB JB s) (P : Vec2 F) (la lb : F) :
    f.Fits MA JA MB JB (f.kick P la lb s) := by
  obtain ⟨⟨a1, a2, a3, a4, a5⟩, ⟨b1, b2, b3, b4, b5⟩⟩ := h
  refine ⟨⟨a1, ?_, ?_, a4, ?_⟩, ⟨b1, ?_, ?_, b4, ?_⟩⟩ <;>
    simp only [PairFrame.kick, Vec2.add_x, Vec2.add_y, Vec2.sub_x, Vec2.sub_y, Vec2.smul_x, Vec2.smul_y]
  · linear_combination a2 - P.x * a1
  · linear_combination a3 - P.y * a1
  · linear_combination a5 - la * a4
  · linear_combination b2 + P.x * b1
  · linear_combination b3 + P.y * b1
  · linear_combination b5 + lb * b4

theorem kick_energy {MA JA MB JB : F} {f : PairFrame F} {s : Two F} (h : f.Fits MA JA MB JB s) (P : Vec2 F) (la lb : F) :
    pairEnergy2 MA JA MB JB (f.kick P la lb s) = pairEnergy2 MA JA MB JB s +
      2 * (dot P (s.b.v - s.a.v) + lb * s.b.w - la * s.a.w) +
      ((f.a.invMass + f.b.invMass) * dot P P + f.a.invI * la ^ 2 + f.b.invI * lb ^ 2) := by
  obtain ⟨⟨a1, a2, a3, a4, a5⟩, ⟨b1, b2, b3, b4, b5⟩⟩ := h
  simp only [pairEnergy2, PairFrame.kick, dot, Vec2.add_x, Vec2.add_y, Vec2.sub_x, Vec2.sub_y, Vec2.smul_x, Vec2.smul_y]
  linear_combination (P.x ^ 2 + P.y ^ 2) * a1 - 2 * P.x * a2 - 2 * P.y * a3 + la ^ 2 * a4 - 2 * la * a5 +
    (P.x ^ 2 + P.y ^ 2) * b1 + 2 * P.x * b2 + 2 * P.y * b3 + lb ^ 2 * b4 + 2 * lb * b5

theorem twist_row (f : PairFrame F) (l : F) (s : Two F) : f.twist l s = f.kick (l * (⟨0, 0⟩ : Vec2 F)) (l * 1) (l * 1) s := by
  have e : l * (⟨0, 0⟩ : Vec2 F) = ⟨0, 0⟩ := by ext <;> simp
  rw [twist_kick, e, mul_one]

/-- The true inverse effective mass of a row. -/
def PairFrame.rowK (f : PairFrame F) (d : Vec2 F) (sA sB : F) : F :=
  (f.a.invMass + f.b.invMass) * dot d d + f.a.invI * sA * sA + f.b.invI * sB * sB

theorem row_energy {MA JA MB JB : F} {f : PairFrame F} {s : Two F} (h : f.Fits MA JA MB JB s) (x : F) (d : Vec2 F) (sA sB : F) :
    pairEnergy2 MA JA MB JB (f.kick (x * d) (x * sA) (x * sB) s) = pairEnergy2 MA JA MB JB s +
      2 * x * (dot d (s.b.v - s.a.v) + sB * s.b.w - sA * s.a.w) + x * x * f.rowK d sA sB := by
  rw [kick_energy h]
  simp only [PairFrame.rowK, dot, Vec2.sub_x, Vec2.sub_y, Vec2.smul_x, Vec2.smul_y]
  ring

/-- A row that is solved exactly takes energy. -/
theorem equality_row {m K Kt c : F} (hK : 0 < K) (hm : m * K = 1) (h1 : Kt ≤ K) :
    2 * (-m * c) * c + (-m * c) * (-m * c) * Kt ≤ 0 := by
  have hm0 : 0 < m := by
    by_contra hn
    have := mul_nonpos_of_nonpos_of_nonneg (not_lt.mp hn) hK.le
    linarith
  have h2 : (-m * c) * (-m * c) * Kt ≤ (-m * c) * (-m * c) * K := mul_le_mul_of_nonneg_left h1 (mul_self_nonneg _)
  have h3 : (-m * c) * (-m * c) * K = m * c * c := by linear_combination (m * c * c) * hm
  have h4 : 0 ≤ m * c * c := by rw [mul_assoc]; exact mul_nonneg hm0.le (mul_self_nonneg _)
  nlinarith

/-- A limit: what the speed gains is paid by what is stored. -/
theorem limit_row {m K Kt c b o n : F} (hK : 0 < K) (hm : m * K = 1) (h1 : Kt ≤ K) (ho : 0 ≤ o)
    (hn : n = b2max (o + -m * (c + b)) 0) :
    0 ≤ n ∧ 2 * (n - o) * c + (n - o) * (n - o) * Kt + 2 * (b * n) ≤ 2 * (b * o) := by
  have h2 : (n - o) * (n - o) * Kt ≤ (n - o) * (n - o) * K := mul_le_mul_of_nonneg_left h1 (mul_self_nonneg _)
  have key : (n - o) * ((n - o) - 2 * (-m * (c + b))) * K ≤ 0 := by
    unfold b2max at hn
    split at hn
    · subst hn
      have e : (o + -m * (c + b) - o) * ((o + -m * (c + b) - o) - 2 * (-m * (c + b))) * K =
        -((m * (c + b)) * (m * (c + b)) * K) := by ring
      rw [e]
      have := mul_nonneg (mul_self_nonneg (m * (c + b))) hK.le
      linarith
    · rename_i h
      subst hn
      have h' := not_lt.mp h
      have h3 : 0 ≤ (0 - o) - 2 * (-m * (c + b)) := by linarith
      have h4 : (0 - o) * ((0 - o) - 2 * (-m * (c + b))) ≤ 0 := mul_nonpos_of_nonpos_of_nonneg (by linarith) h3
      exact mul_nonpos_of_nonpos_of_nonneg h4 hK.le
  have e : (n - o) * ((n - o) - 2 * (-m * (c + b))) * K = 2 * (n - o) * c + (n - o) * (n - o) * K + 2 * (b * n) - 2 * (b * o) := by
    linear_combination (2 * (n - o) * (c + b)) * hm
  refine ⟨?_, by linarith⟩
  rw [hn]; exact b2max_zero_le _

theorem b2max_comm_zero (x : F) : b2max 0 x = b2max x 0 := by
  unfold b2max
  rcases lt_trichotomy x 0 with h | h | h
  · rw [if_pos h, if_neg (not_lt.mpr h.le)]
  · rw [h]
  · rw [if_neg (not_lt.mpr h.le), if_pos h]

theorem sq_pos_term {i s : F} (hi : 0 ≤ i) : 0 ≤ i * s * s := by
  rw [mul_assoc]; exact mul_nonneg hi (mul_self_nonneg _)

/-- The speed of a row. -/
def rowSpeed (d : Vec2 F) (sA sB : F) (s : Two F) : F := dot d (s.b.v - s.a.v) + sB * s.b.w - sA * s.a.w

theorem lower_energy {MA JA MB JB : F} {f : PairFrame F} {s : Two F} (h : f.Fits MA JA MB JB s) {d : Vec2 F} {sA sB m K b o n : F}
    (hK : 0 < K) (hm : m * K = 1) (h1 : f.rowK d sA sB ≤ K) (ho : 0 ≤ o) (hn : n = b2max (o + -m * (rowSpeed d sA sB s + b)) 0) :
    0 ≤ n ∧ f.Fits MA JA MB JB (f.kick ((n - o) * d) ((n - o) * sA) ((n - o) * sB) s) ∧
    pairEnergy2 MA JA MB JB (f.kick ((n - o) * d) ((n - o) * sA) ((n - o) * sB) s) + 2 * (b * n) ≤
      pairEnergy2 MA JA MB JB s + 2 * (b * o) := by
  obtain ⟨k1, k2⟩ := limit_row hK hm h1 ho hn
  refine ⟨k1, fits_kick h _ _ _, ?_⟩
  rw [row_energy h]
  unfold rowSpeed at k2
  linarith

theorem upper_energy {MA JA MB JB : F} {f : PairFrame F} {s : Two F} (h : f.Fits MA JA MB JB s) {d : Vec2 F} {sA sB m K b o n : F}
    (hK : 0 < K) (hm : m * K = 1) (h1 : f.rowK d sA sB ≤ K) (ho : 0 ≤ o) (hn : n = b2max (o + -m * (-(rowSpeed d sA sB s) + b)) 0) :
    0 ≤ n ∧ f.Fits MA JA MB JB (f.kick ((-(n - o)) * d) ((-(n - o)) * sA) ((-(n - o)) * sB) s) ∧
    pairEnergy2 MA JA MB JB (f.kick ((-(n - o)) * d) ((-(n - o)) * sA) ((-(n - o)) * sB) s) + 2 * (b * n) ≤
      pairEnergy2 MA JA MB JB s + 2 * (b * o) := by
  obtain ⟨k1, k2⟩ := limit_row hK hm h1 ho hn
  refine ⟨k1, fits_kick h _ _ _, ?_⟩
  rw [row_energy h]
  unfold rowSpeed at k2
  nlinarith

theorem equal_energy {MA JA MB JB : F} {f : PairFrame F} {s : Two F} (h : f.Fits MA JA MB JB s) {d : Vec2 F} {sA sB m K x : F}
    (hK : 0 < K) (hm : m * K = 1) (h1 : f.rowK d sA sB ≤ K) (hx : x = -m * rowSpeed d sA sB s) :
    pairEnergy2 MA JA MB JB (f.kick (x * d) (x * sA) (x * sB) s) ≤ pairEnergy2 MA JA MB JB s := by
  have := equality_row (c := rowSpeed d sA sB s) hK hm h1
  rw [row_energy h, hx]
  unfold rowSpeed at this ⊢
  linarith

/-- A point-to-point constraint that is solved exactly takes energy. -/
theorem point_energy {MA JA MB JB : F} {f : PairFrame F} {s : Two F} (h : f.Fits MA JA MB JB s) (hf : f.Good) (rA rB : Vec2 F) :
    let i := (f.pointK rA rB).solve (-(relVel s.a s.b rA rB))
    pairEnergy2 MA JA MB JB (f.kick i (cross rA i) (cross rB i) s) ≤ pairEnergy2 MA JA MB JB s := by
  intro i
  have hi := ((Props.c46_solve2 (f.pointK rA rB) (-(relVel s.a s.b rA rB))).1 (pointK_det hf rA rB)).1
  change (f.pointK rA rB).mulV i = _ at hi
  rw [kick_energy h]
  have ex := congrArg Vec2.x hi
  have ey := congrArg Vec2.y hi
  obtain ⟨h1, h2, h3, h4, h5⟩ := hf
  have hp : 0 ≤ (f.a.invMass + f.b.invMass) * dot i i + f.a.invI * cross rA i ^ 2 + f.b.invI * cross rB i ^ 2 := by
    have : 0 ≤ dot i i := add_nonneg (mul_self_nonneg _) (mul_self_nonneg _)
    positivity
  have e : 2 * (dot i (s.b.v - s.a.v) + cross rB i * s.b.w - cross rA i * s.a.w) =
      -2 * ((f.a.invMass + f.b.invMass) * dot i i + f.a.invI * cross rA i ^ 2 + f.b.invI * cross rB i ^ 2) := by
    simp only [Mat22.mulV, PairFrame.pointK, relVel, crossSV, Vec2.add_x, Vec2.add_y, Vec2.sub_x, Vec2.sub_y, Vec2.neg_x,
      Vec2.neg_y] at ex ey
    simp only [dot, cross, Vec2.sub_x, Vec2.sub_y]
    linear_combination (2 * i.x) * ex + (2 * i.y) * ey
  rw [e]; linarith

/-! ## Revolute joints -/

/-- Twice what the limits may still give back. -/
def Revolute.stored (st : JStep F) (j : Revolute F) : F :=
  2 * ((b2max (j.angle - j.lowerAngle) 0 * st.invDt) * j.lowerImpulse) +
  2 * ((b2max (j.upperAngle - j.angle) 0 * st.invDt) * j.upperImpulse)

theorem Revolute.energy {MA JA MB JB : F} {st : JStep F} {j : Revolute F} {s : Two F} (h : j.frame.Fits MA JA MB JB s)
    (hf : j.frame.Good) (hm : j.enableMotor = false) (hk : j.k = j.frame.pointK j.rA j.rB)
    (ha : j.axialMass = if j.frame.a.invI + j.frame.b.invI > 0 then 1 / (j.frame.a.invI + j.frame.b.invI)
      else j.frame.a.invI + j.frame.b.invI) (hl : 0 ≤ j.lowerImpulse) (hu : 0 ≤ j.upperImpulse) :
    let r := j.solveVel st s
    (0 ≤ r.1.lowerImpulse ∧ 0 ≤ r.1.upperImpulse) ∧
      pairEnergy2 MA JA MB JB r.2 + r.1.stored st ≤ pairEnergy2 MA JA MB JB s + j.stored st := by
  have last : ∀ (q : Revolute F) (t : Two F), q.frame = j.frame → q.k = j.k → q.rA = j.rA → q.rB = j.rB →
      j.frame.Fits MA JA MB JB t → pairEnergy2 MA JA MB JB (q.point t).2 ≤ pairEnergy2 MA JA MB JB t := by
    intro q t h1 h2 h3 h4 ht
    have := point_energy ht hf j.rA j.rB
    simp only [Revolute.point, h1, h2, h3, h4, hk]
    exact this
  intro r
  by_cases hc : (j.enableLimit && !decide (j.frame.a.invI + j.frame.b.invI = 0)) = true
  · have hi0 : ¬ (j.frame.a.invI + j.frame.b.invI = 0) := by
      simp only [Bool.and_eq_true, Bool.not_eq_true', decide_eq_false_iff_not] at hc; exact hc.2
    have hi : 0 < j.frame.a.invI + j.frame.b.invI :=
      lt_of_le_of_ne (add_nonneg hf.inertiaA hf.inertiaB) (Ne.symm hi0)
    have ham : j.axialMass * (j.frame.a.invI + j.frame.b.invI) = 1 := by
      rw [ha, if_pos hi, one_div_mul_cancel hi0]
    have hrow : j.frame.rowK ⟨0, 0⟩ 1 1 ≤ j.frame.a.invI + j.frame.b.invI := by
      simp [PairFrame.rowK, dot]
    have hsp : ∀ t : Two F, rowSpeed ⟨0, 0⟩ 1 1 t = t.b.w - t.a.w := by intro t; simp [rowSpeed, dot]
    obtain ⟨a1, a2, a3⟩ := lower_energy (b := b2max (j.angle - j.lowerAngle) 0 * st.invDt) h hi ham hrow hl rfl
    obtain ⟨b1, b2, b3⟩ := upper_energy (b := b2max (j.upperAngle - j.angle) 0 * st.invDt) a2 hi ham hrow hu rfl
    rw [← twist_row] at a2 a3 b2 b3
    rw [hsp] at a1 a2 a3 b1 b2 b3
    rw [← twist_row, hsp] at b1 b2 b3
    have e1 : ∀ t : Two F, -(t.b.w - t.a.w) = t.a.w - t.b.w := by intro t; ring
    rw [e1] at b1 b2 b3
    have hr : r = (((j.lower st s).1.upper st (j.lower st s).2).1.point ((j.lower st s).1.upper st (j.lower st s).2).2) := by
      show j.solveVel st s = _
      unfold Revolute.solveVel
      simp only [hm, Bool.false_and, Bool.false_eq_true, if_false]
      rw [if_pos hc]
    have hp := last ((j.lower st s).1.upper st (j.lower st s).2).1 ((j.lower st s).1.upper st (j.lower st s).2).2
      rfl rfl rfl rfl b2
    rw [hr]
    refine ⟨⟨a1, b1⟩, ?_⟩
    have e2 : (((j.lower st s).1.upper st (j.lower st s).2).1.point ((j.lower st s).1.upper st (j.lower st s).2).2).1.stored st =
      ((j.lower st s).1.upper st (j.lower st s).2).1.stored st := rfl
    rw [e2]
    refine (add_le_add_left hp _).trans ?_
    have b3' : pairEnergy2 MA JA MB JB ((j.lower st s).1.upper st (j.lower st s).2).2 +
        2 * ((b2max (j.upperAngle - j.angle) 0 * st.invDt) * ((j.lower st s).1.upper st (j.lower st s).2).1.upperImpulse) ≤
        pairEnergy2 MA JA MB JB (j.lower st s).2 + 2 * ((b2max (j.upperAngle - j.angle) 0 * st.invDt) * j.upperImpulse) := b3
    have a3' : pairEnergy2 MA JA MB JB (j.lower st s).2 +
        2 * ((b2max (j.angle - j.lowerAngle) 0 * st.invDt) * (j.lower st s).1.lowerImpulse) ≤
        pairEnergy2 MA JA MB JB s + 2 * ((b2max (j.angle - j.lowerAngle) 0 * st.invDt) * j.lowerImpulse) := a3
    have e3 : ((j.lower st s).1.upper st (j.lower st s).2).1.stored st =
        2 * ((b2max (j.angle - j.lowerAngle) 0 * st.invDt) * (j.lower st s).1.lowerImpulse) +
        2 * ((b2max (j.upperAngle - j.angle) 0 * st.invDt) * ((j.lower st s).1.upper st (j.lower st s).2).1.upperImpulse) := rfl
    rw [e3, Revolute.stored]
    linarith
  · have hr : r = j.point s := by
      show j.solveVel st s = _
      unfold Revolute.solveVel
      simp only [hm, Bool.false_and, Bool.false_eq_true, if_false]
      rw [if_neg hc]
    rw [hr]
    refine ⟨⟨hl, hu⟩, ?_⟩
    have e2 : (j.point s).1.stored st = j.stored st := rfl
    rw [e2]
    exact add_le_add_left (last j s rfl rfl rfl rfl h) _

/-! ## Prismatic joints -/

theorem block_energy {MA JA MB JB : F} {f : PairFrame F} {s : Two F} (h : f.Fits MA JA MB JB s) (hf : f.Good) {d : Vec2 F}
    (hd : dot d d = 1) (s1 s2 : F) :
    let df := (f.slideK s1 s2).solve (-⟨dot d (s.b.v - s.a.v) + s2 * s.b.w - s1 * s.a.w, s.b.w - s.a.w⟩)
    pairEnergy2 MA JA MB JB (f.kick (df.x * d) (df.x * s1 + df.y) (df.x * s2 + df.y) s) ≤ pairEnergy2 MA JA MB JB s := by
  intro df
  have hi := ((Props.c46_solve2 (f.slideK s1 s2) (-⟨dot d (s.b.v - s.a.v) + s2 * s.b.w - s1 * s.a.w, s.b.w - s.a.w⟩)).1
    (slideK_det hf s1 s2)).1
  change (f.slideK s1 s2).mulV df = _ at hi
  rw [kick_energy h]
  have ex := congrArg Vec2.x hi
  have ey := congrArg Vec2.y hi
  obtain ⟨h1, h2, h3, h4, h5⟩ := hf
  simp only [dot] at hd
  have hp : 0 ≤ (f.a.invMass + f.b.invMass) * df.x ^ 2 + f.a.invI * (df.x * s1 + df.y) ^ 2 + f.b.invI * (df.x * s2 + df.y) ^ 2 := by
    positivity
  have e1 : (f.a.invMass + f.b.invMass) * dot (df.x * d) (df.x * d) = (f.a.invMass + f.b.invMass) * df.x ^ 2 := by
    simp only [dot, Vec2.smul_x, Vec2.smul_y]
    linear_combination ((f.a.invMass + f.b.invMass) * df.x ^ 2) * hd
  have e2 : dot (df.x * d) (s.b.v - s.a.v) + (df.x * s2 + df.y) * s.b.w - (df.x * s1 + df.y) * s.a.w =
      df.x * (dot d (s.b.v - s.a.v) + s2 * s.b.w - s1 * s.a.w) + df.y * (s.b.w - s.a.w) := by
    simp only [dot, Vec2.smul_x, Vec2.smul_y]; ring
  have e3 : df.x * (dot d (s.b.v - s.a.v) + s2 * s.b.w - s1 * s.a.w) + df.y * (s.b.w - s.a.w) ≤
      -((f.a.invMass + f.b.invMass) * df.x ^ 2 + f.a.invI * (df.x * s1 + df.y) ^ 2 + f.b.invI * (df.x * s2 + df.y) ^ 2) := by
    simp only [Vec2.neg_x, Vec2.neg_y, Mat22.mulV, PairFrame.slideK] at ex ey
    by_cases h0 : f.a.invI + f.b.invI = 0
    · rw [if_pos h0] at ey
      have hA : f.a.invI = 0 := by linarith
      have hB : f.b.invI = 0 := by linarith
      rw [hA, hB] at ex ey ⊢
      have : 0 ≤ df.y * df.y := mul_self_nonneg _
      linear_combination df.x * ex + df.y * ey + this
    · rw [if_neg h0] at ey
      refine le_of_eq ?_
      linear_combination df.x * ex + df.y * ey
  rw [e1, e2]
  linarith

/-- Twice what the limits may still give back. -/
def Prismatic.stored (st : JStep F) (j : Prismatic F) : F :=
  2 * ((b2max (j.translation - j.lowerTranslation) 0 * st.invDt) * j.lowerImpulse) +
  2 * ((b2max (j.upperTranslation - j.translation) 0 * st.invDt) * j.upperImpulse)

theorem Prismatic.energy {MA JA MB JB : F} {st : JStep F} {j : Prismatic F} {s : Two F} (h : j.frame.Fits MA JA MB JB s)
    (hf : j.frame.Good) (hm : j.enableMotor = false) (hk : j.k = j.frame.slideK j.s1 j.s2)
    (ha : let m := j.frame.a.invMass + j.frame.b.invMass + j.frame.a.invI * j.a1 * j.a1 + j.frame.b.invI * j.a2 * j.a2
      j.axialMass = if m > 0 then 1 / m else m) (hx : dot j.axis j.axis = 1) (hy : dot j.perp j.perp = 1)
    (hl : 0 ≤ j.lowerImpulse) (hu : 0 ≤ j.upperImpulse) :
    let r := j.solveVel st s
    (0 ≤ r.1.lowerImpulse ∧ 0 ≤ r.1.upperImpulse) ∧
      pairEnergy2 MA JA MB JB r.2 + r.1.stored st ≤ pairEnergy2 MA JA MB JB s + j.stored st := by
  have last : ∀ (q : Prismatic F) (t : Two F), q.frame = j.frame → q.k = j.k → q.perp = j.perp → q.s1 = j.s1 → q.s2 = j.s2 →
      j.frame.Fits MA JA MB JB t → pairEnergy2 MA JA MB JB (q.block t).2 ≤ pairEnergy2 MA JA MB JB t := by
    intro q t h1 h2 h3 h4 h5 ht
    have := block_energy ht hf hy j.s1 j.s2
    simp only [Prismatic.block, h1, h2, h3, h4, h5, hk]
    exact this
  intro r
  by_cases hc : j.enableLimit = true
  · have hK : 0 < j.frame.a.invMass + j.frame.b.invMass + j.frame.a.invI * j.a1 * j.a1 + j.frame.b.invI * j.a2 * j.a2 := by
      have := hf.mass
      have := sq_pos_term (s := j.a1) hf.inertiaA
      have := sq_pos_term (s := j.a2) hf.inertiaB
      linarith
    have ham : j.axialMass * (j.frame.a.invMass + j.frame.b.invMass + j.frame.a.invI * j.a1 * j.a1 +
        j.frame.b.invI * j.a2 * j.a2) = 1 := by
      simp only at ha
      rw [ha, if_pos hK, one_div_mul_cancel hK.ne']
    have hrow : j.frame.rowK j.axis j.a1 j.a2 ≤ j.frame.a.invMass + j.frame.b.invMass + j.frame.a.invI * j.a1 * j.a1 +
        j.frame.b.invI * j.a2 * j.a2 := by
      unfold PairFrame.rowK; rw [hx, mul_one]
    obtain ⟨a1, a2, a3⟩ := lower_energy (b := b2max (j.translation - j.lowerTranslation) 0 * st.invDt) h hK ham hrow hl rfl
    obtain ⟨b1, b2, b3⟩ := upper_energy (b := b2max (j.upperTranslation - j.translation) 0 * st.invDt) a2 hK ham hrow hu rfl
    have e1 : ∀ t : Two F, -(rowSpeed j.axis j.a1 j.a2 t) = dot j.axis (t.a.v - t.b.v) + j.a1 * t.a.w - j.a2 * t.b.w := by
      intro t; simp only [rowSpeed, dot, Vec2.sub_x, Vec2.sub_y]; ring
    rw [e1] at b1 b2 b3
    have hr : r = (((j.lower st s).1.upper st (j.lower st s).2).1.block ((j.lower st s).1.upper st (j.lower st s).2).2) := by
      show j.solveVel st s = _
      unfold Prismatic.solveVel
      simp only [hm, Bool.false_eq_true, if_false]
      rw [if_pos hc]
    have hp := last ((j.lower st s).1.upper st (j.lower st s).2).1 ((j.lower st s).1.upper st (j.lower st s).2).2
      rfl rfl rfl rfl rfl b2
    rw [hr]
    refine ⟨⟨a1, b1⟩, ?_⟩
    have e2 : (((j.lower st s).1.upper st (j.lower st s).2).1.block ((j.lower st s).1.upper st (j.lower st s).2).2).1.stored st =
      ((j.lower st s).1.upper st (j.lower st s).2).1.stored st := rfl
    rw [e2]
    refine (add_le_add_left hp _).trans ?_
    have b3' : pairEnergy2 MA JA MB JB ((j.lower st s).1.upper st (j.lower st s).2).2 +
        2 * ((b2max (j.upperTranslation - j.translation) 0 * st.invDt) * ((j.lower st s).1.upper st (j.lower st s).2).1.upperImpulse) ≤
        pairEnergy2 MA JA MB JB (j.lower st s).2 + 2 * ((b2max (j.upperTranslation - j.translation) 0 * st.invDt) * j.upperImpulse) := b3
    have a3' : pairEnergy2 MA JA MB JB (j.lower st s).2 +
        2 * ((b2max (j.translation - j.lowerTranslation) 0 * st.invDt) * (j.lower st s).1.lowerImpulse) ≤
        pairEnergy2 MA JA MB JB s + 2 * ((b2max (j.translation - j.lowerTranslation) 0 * st.invDt) * j.lowerImpulse) := a3
    have e3 : ((j.lower st s).1.upper st (j.lower st s).2).1.stored st =
        2 * ((b2max (j.translation - j.lowerTranslation) 0 * st.invDt) * (j.lower st s).1.lowerImpulse) +
        2 * ((b2max (j.upperTranslation - j.translation) 0 * st.invDt) *
          ((j.lower st s).1.upper st (j.lower st s).2).1.upperImpulse) := rfl
    rw [e3, Prismatic.stored]
    linarith
  · have hr : r = j.block s := by
      show j.solveVel st s = _
      unfold Prismatic.solveVel
      simp only [hm, Bool.false_eq_true, if_false]
      rw [if_neg hc]
    rw [hr]
    refine ⟨⟨hl, hu⟩, ?_⟩
    have e2 : (j.block s).1.stored st = j.stored st := rfl
    rw [e2]
    exact add_le_add_left (last j s rfl rfl rfl rfl rfl h) _

/-! ## Wheels -/

/-- Twice what the limits may still give back. -/
def Wheel.stored (st : JStep F) (j : Wheel F) : F :=
  2 * ((b2max (j.translation - j.lowerTranslation) 0 * st.invDt) * j.lowerImpulse) +
  2 * ((b2max (j.upperTranslation - j.translation) 0 * st.invDt) * j.upperImpulse)

theorem zero_kick (f : PairFrame F) (s : Two F) : f.kick ⟨0, 0⟩ 0 0 s = s := by
  obtain ⟨a, b⟩ := s
  unfold PairFrame.kick
  congr 1 <;> ext <;> simp

theorem Wheel.spring_idle {j : Wheel F} (h : j.springMass = 0) (s : Two F) :
    (j.spring s).2 = s ∧ (j.spring s).1 = j := by
  have e : (-j.springMass * (dot j.ax (s.b.v - s.a.v) + j.sBx * s.b.w - j.sAx * s.a.w + j.bias + j.gamma * j.springImpulse)) = 0 := by
    rw [h]; ring
  have e0 : (0 : F) * j.ax = ⟨0, 0⟩ := by ext <;> simp
  constructor
  · simp only [Wheel.spring, Wheel.slide]
    rw [e, e0, zero_mul, zero_mul, zero_kick]
  · simp only [Wheel.spring]
    rw [e, add_zero]

theorem Wheel.motor_idle {st : JStep F} {j : Wheel F} (h : j.motorMass = 0) (hi : j.motorImpulse = 0)
    (hmax : 0 ≤ st.dt * j.maxMotorTorque) (s : Two F) : (j.motor st s).2 = s ∧ (j.motor st s).1 = j := by
  have e : b2clamp (j.motorImpulse + -j.motorMass * (s.b.w - s.a.w - j.motorSpeed)) (-(st.dt * j.maxMotorTorque))
      (st.dt * j.maxMotorTorque) = 0 := by
    rw [h, hi]
    have : (0 : F) + -0 * (s.b.w - s.a.w - j.motorSpeed) = 0 := by ring
    rw [this, clamp_zero hmax]
  constructor
  · simp only [Wheel.motor]
    rw [e, hi, twist_kick, sub_zero, zero_kick]
  · simp only [Wheel.motor]
    rw [e]
    cases j; simp only [Wheel.mk.injEq] at hi ⊢; simp [hi]

theorem Wheel.energy {MA JA MB JB : F} {st : JStep F} {j : Wheel F} {s : Two F} (h : j.frame.Fits MA JA MB JB s)
    (hf : j.frame.Good) (hs : j.springMass = 0) (hm : j.motorMass = 0) (hi : j.motorImpulse = 0)
    (hmax : 0 ≤ st.dt * j.maxMotorTorque)
    (hk : j.mass = invIfPos (j.frame.a.invMass + j.frame.b.invMass + j.frame.a.invI * j.sAy * j.sAy + j.frame.b.invI * j.sBy * j.sBy))
    (ha : let m := j.frame.a.invMass + j.frame.b.invMass + j.frame.a.invI * j.sAx * j.sAx + j.frame.b.invI * j.sBx * j.sBx
      j.axialMass = if m > 0 then 1 / m else 0) (hx : dot j.ax j.ax = 1) (hy : dot j.ay j.ay = 1)
    (hl : 0 ≤ j.lowerImpulse) (hu : 0 ≤ j.upperImpulse) :
    let r := j.solveVel st s
    (0 ≤ r.1.lowerImpulse ∧ 0 ≤ r.1.upperImpulse ∧ r.1.motorImpulse = 0) ∧
      pairEnergy2 MA JA MB JB r.2 + r.1.stored st ≤ pairEnergy2 MA JA MB JB s + j.stored st := by
  have hK2 : 0 < j.frame.a.invMass + j.frame.b.invMass + j.frame.a.invI * j.sAy * j.sAy + j.frame.b.invI * j.sBy * j.sBy := by
    have := hf.mass
    have := sq_pos_term (s := j.sAy) hf.inertiaA
    have := sq_pos_term (s := j.sBy) hf.inertiaB
    linarith
  have last : ∀ (q : Wheel F) (t : Two F), q.Same j →
      j.frame.Fits MA JA MB JB t → pairEnergy2 MA JA MB JB (q.line t).2 ≤ pairEnergy2 MA JA MB JB t := by
    intro q t ⟨h1, h2, h3, h4, h5⟩ ht
    simp only [Wheel.line, h1, h2, h3, h4, h5]
    refine equal_energy ht hK2 (m := j.mass) ?_ ?_ rfl
    · rw [hk, invIfPos, if_pos hK2, one_div_mul_cancel hK2.ne']
    · unfold PairFrame.rowK; rw [hy, mul_one]
  intro r
  have hr0 : r = (if j.enableLimit then (j.lower st s).1.upper st (j.lower st s).2 else (j, s)).1.line
      (if j.enableLimit then (j.lower st s).1.upper st (j.lower st s).2 else (j, s)).2 := by
    show j.solveVel st s = _
    unfold Wheel.solveVel
    obtain ⟨e1, e2⟩ := j.spring_idle hs s
    have e3 : j.spring s = (j, s) := Prod.ext e2 e1
    obtain ⟨e4, e5⟩ := j.motor_idle hm hi hmax s
    have e6 : j.motor st s = (j, s) := Prod.ext e5 e4
    rw [e3]
    simp only
    rw [e6]
  by_cases hc : j.enableLimit = true
  · have hK : 0 < j.frame.a.invMass + j.frame.b.invMass + j.frame.a.invI * j.sAx * j.sAx + j.frame.b.invI * j.sBx * j.sBx := by
      have := hf.mass
      have := sq_pos_term (s := j.sAx) hf.inertiaA
      have := sq_pos_term (s := j.sBx) hf.inertiaB
      linarith
    have ham : j.axialMass * (j.frame.a.invMass + j.frame.b.invMass + j.frame.a.invI * j.sAx * j.sAx +
        j.frame.b.invI * j.sBx * j.sBx) = 1 := by
      simp only at ha
      rw [ha, if_pos hK, one_div_mul_cancel hK.ne']
    have hrow : j.frame.rowK j.ax j.sAx j.sBx ≤ j.frame.a.invMass + j.frame.b.invMass + j.frame.a.invI * j.sAx * j.sAx +
        j.frame.b.invI * j.sBx * j.sBx := by
      unfold PairFrame.rowK; rw [hx, mul_one]
    obtain ⟨a1, a2, a3⟩ := lower_energy (b := b2max (j.translation - j.lowerTranslation) 0 * st.invDt) h hK ham hrow hl rfl
    obtain ⟨b1, b2, b3⟩ := upper_energy (b := b2max (j.upperTranslation - j.translation) 0 * st.invDt) a2 hK ham hrow hu rfl
    have e1 : ∀ t : Two F, -(rowSpeed j.ax j.sAx j.sBx t) = dot j.ax (t.a.v - t.b.v) + j.sAx * t.a.w - j.sBx * t.b.w := by
      intro t; simp only [rowSpeed, dot, Vec2.sub_x, Vec2.sub_y]; ring
    rw [e1] at b1 b2 b3
    rw [if_pos hc] at hr0
    have hp := last ((j.lower st s).1.upper st (j.lower st s).2).1 ((j.lower st s).1.upper st (j.lower st s).2).2
      (((j.lower st s).1.upper_same st (j.lower st s).2).trans (j.lower_same st s)) b2
    rw [hr0]
    refine ⟨⟨a1, b1, hi⟩, ?_⟩
    have e2 : (((j.lower st s).1.upper st (j.lower st s).2).1.line ((j.lower st s).1.upper st (j.lower st s).2).2).1.stored st =
      ((j.lower st s).1.upper st (j.lower st s).2).1.stored st := rfl
    rw [e2]
    refine (add_le_add_left hp _).trans ?_
    have b3' : pairEnergy2 MA JA MB JB ((j.lower st s).1.upper st (j.lower st s).2).2 +
        2 * ((b2max (j.upperTranslation - j.translation) 0 * st.invDt) * ((j.lower st s).1.upper st (j.lower st s).2).1.upperImpulse) ≤
        pairEnergy2 MA JA MB JB (j.lower st s).2 + 2 * ((b2max (j.upperTranslation - j.translation) 0 * st.invDt) * j.upperImpulse) := b3
    have a3' : pairEnergy2 MA JA MB JB (j.lower st s).2 +
        2 * ((b2max (j.translation - j.lowerTranslation) 0 * st.invDt) * (j.lower st s).1.lowerImpulse) ≤
        pairEnergy2 MA JA MB JB s + 2 * ((b2max (j.translation - j.lowerTranslation) 0 * st.invDt) * j.lowerImpulse) := a3
    have e3 : ((j.lower st s).1.upper st (j.lower st s).2).1.stored st =
        2 * ((b2max (j.translation - j.lowerTranslation) 0 * st.invDt) * (j.lower st s).1.lowerImpulse) +
        2 * ((b2max (j.upperTranslation - j.translation) 0 * st.invDt) *
          ((j.lower st s).1.upper st (j.lower st s).2).1.upperImpulse) := rfl
    rw [e3, Wheel.stored]
    linarith
  · rw [if_neg hc] at hr0
    rw [hr0]
    refine ⟨⟨hl, hu, hi⟩, ?_⟩
    have e2 : (j.line s).1.stored st = j.stored st := rfl
    rw [e2]
    exact add_le_add_left (last j s ⟨rfl, rfl, rfl, rfl, rfl⟩ h) _

/-! ## Distance joints -/

/-- Twice what the limits may still give back. -/
def DistanceJ.stored (st : JStep F) (j : DistanceJ F) : F :=
  2 * ((b2max 0 (j.currentLength - j.minLength) * st.invDt) * j.lowerImpulse) +
  2 * ((b2max 0 (j.maxLength - j.currentLength) * st.invDt) * j.upperImpulse)

theorem distance_row (j : DistanceJ F) (x : F) (s : Two F) :
    j.push x s = j.frame.kick (x * j.u) (x * cross j.rA j.u) (x * cross j.rB j.u) s := by
  simp only [DistanceJ.push]
  congr 1 <;> simp only [cross, Vec2.smul_x, Vec2.smul_y] <;> ring

theorem distance_speed (j : DistanceJ F) (s : Two F) : rowSpeed j.u (cross j.rA j.u) (cross j.rB j.u) s = j.speed s := by
  simp only [rowSpeed, DistanceJ.speed, dot, cross, crossSV, Vec2.add_x, Vec2.add_y, Vec2.sub_x, Vec2.sub_y]; ring

theorem DistanceJ.energy {MA JA MB JB : F} {st : JStep F} {j : DistanceJ F} {s : Two F} (h : j.frame.Fits MA JA MB JB s)
    (hf : j.frame.Good) (hs : j.minLength < j.maxLength → j.stiffness ≤ 0) (hu1 : dot j.u j.u ≤ 1)
    (hm : let m := j.frame.a.invMass + j.frame.a.invI * cross j.rA j.u * cross j.rA j.u + j.frame.b.invMass +
        j.frame.b.invI * cross j.rB j.u * cross j.rB j.u
      j.mass = if m ≠ 0 then 1 / m else 0) (hl : 0 ≤ j.lowerImpulse) (hu : 0 ≤ j.upperImpulse) :
    let r := j.solveVel st s
    (0 ≤ r.1.lowerImpulse ∧ 0 ≤ r.1.upperImpulse) ∧
      pairEnergy2 MA JA MB JB r.2 + r.1.stored st ≤ pairEnergy2 MA JA MB JB s + j.stored st := by
  have hK : 0 < j.frame.a.invMass + j.frame.b.invMass + j.frame.a.invI * cross j.rA j.u * cross j.rA j.u +
      j.frame.b.invI * cross j.rB j.u * cross j.rB j.u := by
    have h1 := hf.mass
    have := sq_pos_term (s := cross j.rA j.u) hf.inertiaA
    have := sq_pos_term (s := cross j.rB j.u) hf.inertiaB
    linarith
  have hmK : j.mass * (j.frame.a.invMass + j.frame.b.invMass + j.frame.a.invI * cross j.rA j.u * cross j.rA j.u +
      j.frame.b.invI * cross j.rB j.u * cross j.rB j.u) = 1 := by
    have e : j.frame.a.invMass + j.frame.a.invI * cross j.rA j.u * cross j.rA j.u + j.frame.b.invMass +
        j.frame.b.invI * cross j.rB j.u * cross j.rB j.u = j.frame.a.invMass + j.frame.b.invMass +
        j.frame.a.invI * cross j.rA j.u * cross j.rA j.u + j.frame.b.invI * cross j.rB j.u * cross j.rB j.u := by ring
    simp only [e] at hm
    rw [hm, if_pos hK.ne', one_div_mul_cancel hK.ne']
  have hrow : j.frame.rowK j.u (cross j.rA j.u) (cross j.rB j.u) ≤ j.frame.a.invMass + j.frame.b.invMass +
      j.frame.a.invI * cross j.rA j.u * cross j.rA j.u + j.frame.b.invI * cross j.rB j.u * cross j.rB j.u := by
    unfold PairFrame.rowK
    have := mul_le_mul_of_nonneg_left hu1 hf.mass.le
    linarith
  intro r
  by_cases hc : j.minLength < j.maxLength
  · obtain ⟨a1, a2, a3⟩ := lower_energy (b := b2max 0 (j.currentLength - j.minLength) * st.invDt) h hK hmK hrow hl rfl
    obtain ⟨b1, b2, b3⟩ := upper_energy (b := b2max 0 (j.maxLength - j.currentLength) * st.invDt) a2 hK hmK hrow hu rfl
    rw [← distance_row] at a2 a3
    rw [← distance_row, ← distance_row] at b2 b3
    have e1 : ∀ t : Two F, -(rowSpeed j.u (cross j.rA j.u) (cross j.rB j.u) t) =
        dot j.u ((t.a.v + crossSV t.a.w j.rA) - (t.b.v + crossSV t.b.w j.rB)) := by
      intro t
      simp only [rowSpeed, dot, cross, crossSV, Vec2.add_x, Vec2.add_y, Vec2.sub_x, Vec2.sub_y]; ring
    rw [← distance_row] at b1
    rw [← b2max_comm_zero, distance_speed] at a1 a2 a3
    rw [← b2max_comm_zero, e1, ← b2max_comm_zero, distance_speed] at b1 b2 b3
    have hr : r = (j.lower st s).1.upper st (j.lower st s).2 := by
      show j.solveVel st s = _
      unfold DistanceJ.solveVel
      rw [if_pos hc]
      simp only [if_neg (not_lt.mpr (hs hc))]
    rw [hr]
    refine ⟨⟨a1, b1⟩, ?_⟩
    have b3' : pairEnergy2 MA JA MB JB ((j.lower st s).1.upper st (j.lower st s).2).2 +
        2 * ((b2max 0 (j.maxLength - j.currentLength) * st.invDt) * ((j.lower st s).1.upper st (j.lower st s).2).1.upperImpulse) ≤
        pairEnergy2 MA JA MB JB (j.lower st s).2 + 2 * ((b2max 0 (j.maxLength - j.currentLength) * st.invDt) * j.upperImpulse) := b3
    have a3' : pairEnergy2 MA JA MB JB (j.lower st s).2 +
        2 * ((b2max 0 (j.currentLength - j.minLength) * st.invDt) * (j.lower st s).1.lowerImpulse) ≤
        pairEnergy2 MA JA MB JB s + 2 * ((b2max 0 (j.currentLength - j.minLength) * st.invDt) * j.lowerImpulse) := a3
    have e3 : ((j.lower st s).1.upper st (j.lower st s).2).1.stored st =
        2 * ((b2max 0 (j.currentLength - j.minLength) * st.invDt) * (j.lower st s).1.lowerImpulse) +
        2 * ((b2max 0 (j.maxLength - j.currentLength) * st.invDt) *
          ((j.lower st s).1.upper st (j.lower st s).2).1.upperImpulse) := rfl
    rw [e3, DistanceJ.stored]
    linarith
  · have hr : r = j.rigid s := by
      show j.solveVel st s = _
      unfold DistanceJ.solveVel
      rw [if_neg hc]
    rw [hr]
    refine ⟨⟨hl, hu⟩, ?_⟩
    have e2 : (j.rigid s).1.stored st = j.stored st := rfl
    rw [e2]
    refine add_le_add_left ?_ _
    simp only [DistanceJ.rigid]
    rw [distance_row]
    exact equal_energy h hK hmK hrow (by rw [distance_speed])

/-! ## Welds -/

theorem weld_energy {MA JA MB JB : F} {f : PairFrame F} {s : Two F} (h : f.Fits MA JA MB JB s) (hf : f.Good)
    {rA rB : Vec2 F} {i : Vec3 F}
    (hx : ((f.weldK rA rB).mulV i).x = -(relVel s.a s.b rA rB).x) (hy : ((f.weldK rA rB).mulV i).y = -(relVel s.a s.b rA rB).y)
    (hz : i.z = 0 ∨ ((f.weldK rA rB).mulV i).z = -(s.b.w - s.a.w)) :
    pairEnergy2 MA JA MB JB (f.kick ⟨i.x, i.y⟩ (cross rA ⟨i.x, i.y⟩ + i.z) (cross rB ⟨i.x, i.y⟩ + i.z) s) ≤
      pairEnergy2 MA JA MB JB s := by
  rw [kick_energy h]
  obtain ⟨h1, h2, h3, h4, h5⟩ := hf
  have hz' : i.z * ((f.weldK rA rB).mulV i).z = -(i.z * (s.b.w - s.a.w)) := by
    rcases hz with hz | hz
    · rw [hz]; ring
    · rw [hz]; ring
  have hp : 0 ≤ (f.a.invMass + f.b.invMass) * dot (⟨i.x, i.y⟩ : Vec2 F) ⟨i.x, i.y⟩ + f.a.invI * (cross rA ⟨i.x, i.y⟩ + i.z) ^ 2 +
      f.b.invI * (cross rB ⟨i.x, i.y⟩ + i.z) ^ 2 := by
    have : 0 ≤ dot (⟨i.x, i.y⟩ : Vec2 F) ⟨i.x, i.y⟩ := add_nonneg (mul_self_nonneg _) (mul_self_nonneg _)
    positivity
  have e : 2 * (dot (⟨i.x, i.y⟩ : Vec2 F) (s.b.v - s.a.v) + (cross rB ⟨i.x, i.y⟩ + i.z) * s.b.w -
        (cross rA ⟨i.x, i.y⟩ + i.z) * s.a.w) =
      -2 * ((f.a.invMass + f.b.invMass) * dot (⟨i.x, i.y⟩ : Vec2 F) ⟨i.x, i.y⟩ + f.a.invI * (cross rA ⟨i.x, i.y⟩ + i.z) ^ 2 +
      f.b.invI * (cross rB ⟨i.x, i.y⟩ + i.z) ^ 2) := by
    simp only [Props.mulV3_x, Props.mulV3_y, Props.mulV3_z, PairFrame.weldK, relVel, crossSV, Vec2.add_x, Vec2.add_y,
      Vec2.sub_x, Vec2.sub_y] at hx hy hz'
    simp only [dot, cross, Vec2.sub_x, Vec2.sub_y]
    linear_combination (2 * i.x) * hx + (2 * i.y) * hy + 2 * hz'
  rw [e]; linarith

theorem Weld.energy {MA JA MB JB : F} {j : Weld F} {s : Two F} (h : j.frame.Fits MA JA MB JB s) (hf : j.frame.Good)
    (hs : j.stiffness ≤ 0)
    (hm : j.mass = if (j.frame.weldK j.rA j.rB).ez.z = 0 then (j.frame.weldK j.rA j.rB).inverse22
        else (j.frame.weldK j.rA j.rB).symInverse33) :
    pairEnergy2 MA JA MB JB (j.solveVel s).2 ≤ pairEnergy2 MA JA MB JB s := by
  unfold Weld.solveVel
  rw [if_neg (not_lt.mpr hs)]
  simp only [Weld.rigid]
  have hneg : ∀ (m : Mat33 F) (v : Vec3 F), m.mulV ⟨-v.x, -v.y, -v.z⟩ = ⟨-(m.mulV v).x, -(m.mulV v).y, -(m.mulV v).z⟩ := by
    intro m v; ext <;> simp only [Props.mulV3_x, Props.mulV3_y, Props.mulV3_z] <;> ring
  refine weld_energy (i := ⟨-(j.mass.mulV ⟨(relVel s.a s.b j.rA j.rB).x, (relVel s.a s.b j.rA j.rB).y, s.b.w - s.a.w⟩).x,
    -(j.mass.mulV ⟨(relVel s.a s.b j.rA j.rB).x, (relVel s.a s.b j.rA j.rB).y, s.b.w - s.a.w⟩).y,
    -(j.mass.mulV ⟨(relVel s.a s.b j.rA j.rB).x, (relVel s.a s.b j.rA j.rB).y, s.b.w - s.a.w⟩).z⟩) h hf ?_ ?_ ?_
  all_goals generalize relVel s.a s.b j.rA j.rB = c
  all_goals rw [hneg]
  all_goals simp only [neg_inj]
  all_goals by_cases h0 : (j.frame.weldK j.rA j.rB).ez.z = 0
  · rw [if_pos h0] at hm
    have h2 := ((Props.c46_solve22 (j.frame.weldK j.rA j.rB) c).1 (weldK_det22 hf _ _)).2.1
    rw [← hm] at h2
    have hi : j.frame.a.invI + j.frame.b.invI = 0 := h0
    have hA : j.frame.a.invI = 0 := by have := hf.inertiaA; have := hf.inertiaB; linarith
    have hB : j.frame.b.invI = 0 := by linarith
    have ex := congrArg Vec2.x h2
    simp only [Mat33.mul22] at ex
    have hz : j.mass.ez.x = 0 ∧ j.mass.ez.y = 0 := by rw [hm]; simp [Mat33.inverse22]
    have hkz : (j.frame.weldK j.rA j.rB).ez.x = 0 := by simp [PairFrame.weldK, hA, hB]
    simp only [Props.mulV3_x, Props.mulV3_y, Props.mulV3_z, hz.1, hz.2, hkz]
    linear_combination ex
  · rw [if_neg h0] at hm
    have hi : 0 < j.frame.a.invI + j.frame.b.invI := by
      have := hf.inertiaA; have := hf.inertiaB
      exact lt_of_le_of_ne (by linarith) (Ne.symm h0)
    have := ((Props.c46_sym_inverse33 (j.frame.weldK j.rA j.rB) rfl rfl rfl ⟨c.x, c.y, s.b.w - s.a.w⟩).1
      (weldK_det hf hi _ _)).1
    rw [hm, this]
  · rw [if_pos h0] at hm
    have h2 := ((Props.c46_solve22 (j.frame.weldK j.rA j.rB) c).1 (weldK_det22 hf _ _)).2.1
    rw [← hm] at h2
    have hi : j.frame.a.invI + j.frame.b.invI = 0 := h0
    have hA : j.frame.a.invI = 0 := by have := hf.inertiaA; have := hf.inertiaB; linarith
    have hB : j.frame.b.invI = 0 := by linarith
    have ex := congrArg Vec2.y h2
    simp only [Mat33.mul22] at ex
    have hz : j.mass.ez.x = 0 ∧ j.mass.ez.y = 0 := by rw [hm]; simp [Mat33.inverse22]
    have hkz : (j.frame.weldK j.rA j.rB).ez.y = 0 := by simp [PairFrame.weldK, hA, hB]
    simp only [Props.mulV3_x, Props.mulV3_y, Props.mulV3_z, hz.1, hz.2, hkz]
    linear_combination ex
  · rw [if_neg h0] at hm
    have hi : 0 < j.frame.a.invI + j.frame.b.invI := by
      have := hf.inertiaA; have := hf.inertiaB
      exact lt_of_le_of_ne (by linarith) (Ne.symm h0)
    have := ((Props.c46_sym_inverse33 (j.frame.weldK j.rA j.rB) rfl rfl rfl ⟨c.x, c.y, s.b.w - s.a.w⟩).1
      (weldK_det hf hi _ _)).1
    rw [hm, this]
  · rw [if_pos h0] at hm
    left
    rw [hm]; simp [Mat33.inverse22, Props.mulV3_z]
  · rw [if_neg h0] at hm
    right
    have hi : 0 < j.frame.a.invI + j.frame.b.invI := by
      have := hf.inertiaA; have := hf.inertiaB
      exact lt_of_le_of_ne (by linarith) (Ne.symm h0)
    have := ((Props.c46_sym_inverse33 (j.frame.weldK j.rA j.rB) rfl rfl rfl ⟨c.x, c.y, s.b.w - s.a.w⟩).1
      (weldK_det hf hi _ _)).1
    rw [hm, this]

/-! ## Pulleys -/

theorem Pulley.energy {MA JA MB JB : F} {j : Pulley F} {s : Two F} (h : j.frame.Fits MA JA MB JB s) (hf : j.frame.Good)
    (hm : j.mass = invIfPos (j.frame.pulleyMass j.ratio j.rA j.rB j.uA j.uB)) (hA : dot j.uA j.uA ≤ 1) (hB : dot j.uB j.uB ≤ 1) :
    pairEnergy2 MA JA MB JB (j.solveVel s).2 ≤ pairEnergy2 MA JA MB JB s := by
  have hp : ∀ x, pairEnergy2 MA JA MB JB (j.push x s) = pairEnergy2 MA JA MB JB s +
      2 * x * (-(dot j.uA (s.a.v + crossSV s.a.w j.rA)) - j.ratio * dot j.uB (s.b.v + crossSV s.b.w j.rB)) +
      x * x * (j.frame.a.invMass * dot j.uA j.uA + j.frame.a.invI * cross j.rA j.uA * cross j.rA j.uA +
        j.ratio * j.ratio * (j.frame.b.invMass * dot j.uB j.uB + j.frame.b.invI * cross j.rB j.uB * cross j.rB j.uB)) := by
    intro x
    obtain ⟨⟨a1, a2, a3, a4, a5⟩, ⟨b1, b2, b3, b4, b5⟩⟩ := h
    simp only [pairEnergy2, Pulley.push, dot, cross, crossSV, Vec2.add_x, Vec2.add_y, Vec2.smul_x, Vec2.smul_y]
    linear_combination (x ^ 2 * (j.uA.x ^ 2 + j.uA.y ^ 2)) * a1 - 2 * x * j.uA.x * a2 - 2 * x * j.uA.y * a3 +
      (x ^ 2 * (j.rA.x * j.uA.y - j.rA.y * j.uA.x) ^ 2) * a4 - 2 * x * (j.rA.x * j.uA.y - j.rA.y * j.uA.x) * a5 +
      (j.ratio ^ 2 * x ^ 2 * (j.uB.x ^ 2 + j.uB.y ^ 2)) * b1 - 2 * j.ratio * x * j.uB.x * b2 - 2 * j.ratio * x * j.uB.y * b3 +
      (j.ratio ^ 2 * x ^ 2 * (j.rB.x * j.uB.y - j.rB.y * j.uB.x) ^ 2) * b4 -
      2 * j.ratio * x * (j.rB.x * j.uB.y - j.rB.y * j.uB.x) * b5
  simp only [Pulley.solveVel]
  rw [hp]
  have hK : j.frame.a.invMass * dot j.uA j.uA + j.frame.a.invI * cross j.rA j.uA * cross j.rA j.uA +
        j.ratio * j.ratio * (j.frame.b.invMass * dot j.uB j.uB + j.frame.b.invI * cross j.rB j.uB * cross j.rB j.uB) ≤
      j.frame.pulleyMass j.ratio j.rA j.rB j.uA j.uB := by
    unfold PairFrame.pulleyMass
    have k1 := mul_le_mul_of_nonneg_left hA hf.massA
    have k2 := mul_le_mul_of_nonneg_left hB hf.massB
    have k3 := mul_le_mul_of_nonneg_left k2 (mul_self_nonneg j.ratio)
    linarith
  by_cases h0 : 0 < j.frame.pulleyMass j.ratio j.rA j.rB j.uA j.uB
  · have hmK : j.mass * j.frame.pulleyMass j.ratio j.rA j.rB j.uA j.uB = 1 := by
      rw [hm, invIfPos, if_pos h0, one_div_mul_cancel h0.ne']
    have := equality_row (c := -(dot j.uA (s.a.v + crossSV s.a.w j.rA)) - j.ratio * dot j.uB (s.b.v + crossSV s.b.w j.rB)) h0 hmK hK
    linarith
  · have hn : 0 ≤ j.frame.pulleyMass j.ratio j.rA j.rB j.uA j.uB := by
      unfold PairFrame.pulleyMass
      have := sq_pos_term (s := cross j.rA j.uA) hf.inertiaA
      have := sq_pos_term (s := cross j.rB j.uB) hf.inertiaB
      have := hf.massA
      have := mul_nonneg (mul_self_nonneg j.ratio) (add_nonneg hf.massB (sq_pos_term (s := cross j.rB j.uB) hf.inertiaB))
      linarith
    have : j.mass = 0 := by rw [hm, invIfPos, if_neg h0]; exact le_antisymm (not_lt.mp h0) hn
    rw [this]; simp

end
end B2
