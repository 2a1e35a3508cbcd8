import Verif.Proofs.Collide

/-!
# Lemmas about contact manifolds of edges
-/
namespace B2
open Spec
set_option linter.unusedSectionVars false
section
variable {F : Type} [Field F] [LinearOrder F] [IsStrictOrderedRing F]

theorem hull_pair {a b x : Vec2 F} (h : Hull [a, b] x) : ∃ t, 0 ≤ t ∧ t ≤ 1 ∧ x = onLine a b t := by
  induction h with
  | vertex hv =>
    rcases List.mem_cons.mp hv with rfl | hv
    · exact ⟨0, le_refl _, zero_le_one, by ext <;> simp [onLine]⟩
    · rw [List.mem_singleton] at hv; subst hv
      exact ⟨1, zero_le_one, le_refl _, by ext <;> simp [onLine]⟩
  | @between p q t _ _ h0 h1 ihp ihq =>
    obtain ⟨r, r0, r1, rfl⟩ := ihp
    obtain ⟨s, s0, s1, rfl⟩ := ihq
    refine ⟨r + t * (s - r), by nlinarith, by nlinarith, ?_⟩
    ext <;> simp only [onLine] <;> ring

theorem pair_first {a b q : Vec2 F} (h : dot (b - a) (q - a) ≤ 0) {x : Vec2 F} (hx : Hull [a, b] x) : dist2 q a ≤ dist2 q x := by
  obtain ⟨t, t0, t1, rfl⟩ := hull_pair hx
  have e : dist2 q (onLine a b t) = dist2 q a - 2 * t * dot (b - a) (q - a) + t * t * dist2 b a := by
    simp only [dist2, onLine, dot, Vec2.sub_x, Vec2.sub_y]; ring
  rw [e]
  have : 0 ≤ dist2 b a := by simp only [dist2]; nlinarith [mul_self_nonneg (b.x - a.x), mul_self_nonneg (b.y - a.y)]
  have h1 := mul_nonneg (mul_nonneg t0 t0) this
  have h2 := mul_nonneg t0 (neg_nonneg.mpr h)
  nlinarith

theorem pair_second {a b q : Vec2 F} (h : dot (b - a) (b - q) ≤ 0) {x : Vec2 F} (hx : Hull [a, b] x) : dist2 q b ≤ dist2 q x := by
  obtain ⟨t, t0, t1, rfl⟩ := hull_pair hx
  refine (pair_first (a := b) (b := a) (q := q) ?_ (x := onLine a b t) ?_)
  · have : dot (a - b) (q - b) = dot (b - a) (b - q) := by simp only [dot, Vec2.sub_x, Vec2.sub_y]; ring
    rw [this]; exact h
  · have : onLine a b t = onLine b a (1 - t) := by ext <;> simp only [onLine] <;> ring
    rw [this]
    exact .between (.vertex (by simp)) (.vertex (by simp)) (by linarith) (by linarith)

/-- The foot of `q` on the segment, when it is over the interior of the segment. -/
theorem pair_foot {a b q : Vec2 F} (hu : 0 < dot (b - a) (b - q)) (hv : 0 < dot (b - a) (q - a)) :
    let p := (1 / dot (b - a) (b - a)) * (dot (b - a) (b - q) * a + dot (b - a) (q - a) * b)
    0 < dot (b - a) (b - a) ∧ Hull [a, b] p ∧ (∀ x, Hull [a, b] x → dist2 q p ≤ dist2 q x) ∧
    dist2 q p * dot (b - a) (b - a) = cross (b - a) (q - a) * cross (b - a) (q - a) := by
  intro p
  have hE : dot (b - a) (b - a) = dot (b - a) (b - q) + dot (b - a) (q - a) := by simp only [dot, Vec2.sub_x, Vec2.sub_y]; ring
  have hEp : 0 < dot (b - a) (b - a) := by rw [hE]; linarith
  have hp : p = onLine a b (dot (b - a) (q - a) / dot (b - a) (b - a)) := by
    have hu' : dot (b - a) (b - q) = dot (b - a) (b - a) - dot (b - a) (q - a) := by rw [hE]; ring
    ext <;> simp only [p, onLine, Vec2.smul_x, Vec2.smul_y, Vec2.add_x, Vec2.add_y, hu'] <;> field_simp <;> ring
  set t := dot (b - a) (q - a) / dot (b - a) (b - a) with ht
  have htE : t * dot (b - a) (b - a) = dot (b - a) (q - a) := div_mul_cancel₀ _ hEp.ne'
  have e : ∀ r, dist2 q (onLine a b r) = dist2 q a - 2 * r * dot (b - a) (q - a) + r * r * dot (b - a) (b - a) := by
    intro r; simp only [dist2, onLine, dot, Vec2.sub_x, Vec2.sub_y]; ring
  refine ⟨hEp, ?_, ?_, ?_⟩
  · rw [hp]
    exact .between (.vertex (by simp)) (.vertex (by simp)) (div_nonneg hv.le hEp.le) (by rw [div_le_one hEp, hE]; linarith)
  · intro x hx
    obtain ⟨r, -, -, rfl⟩ := hull_pair hx
    rw [hp, e, e, ← htE]
    nlinarith [mul_nonneg (mul_self_nonneg (r - t)) hEp.le]
  · rw [hp, e]
    have h1 : dist2 q a * dot (b - a) (b - a) = dot (b - a) (q - a) * dot (b - a) (q - a) + cross (b - a) (q - a) * cross (b - a) (q - a) := by
      simp only [dist2, dot, cross, Vec2.sub_x, Vec2.sub_y]; ring
    linear_combination h1 + (t * dot (b - a) (b - a) - dot (b - a) (q - a)) * htE

/-- What `b2_collide_edge_and_circle` answers. The side of the edge is told by `cross`. -/
theorem edgeCircle_spec [Elem F] [ElemLaws F] (a : Edge F) (xfA : Xf F) (b : Circle F) (xfB : Xf F) :
    let q := unplace xfA (place xfB b.p)
    let r := a.radius + b.radius
    ∃ m, collideEdgeCircle a xfA b xfB = some m ∧
      ((m.points = [] ∧ ((a.oneSided = true ∧ 0 < turn a.v1 a.v2 q) ∨ (∀ x, Hull [a.v1, a.v2] x → r * r < dist2 q x) ∨
        (a.oneSided = true ∧ dot (a.v2 - a.v1) (q - a.v1) ≤ 0 ∧ 0 < dot (a.v1 - a.v0) (a.v1 - q)) ∨
        (a.oneSided = true ∧ 0 < dot (a.v2 - a.v1) (q - a.v1) ∧ dot (a.v2 - a.v1) (a.v2 - q) ≤ 0 ∧ 0 < dot (a.v3 - a.v2) (q - a.v2)))) ∨
      ((a.oneSided = true → turn a.v1 a.v2 q ≤ 0) ∧
        (a.oneSided = true → ¬ (dot (a.v2 - a.v1) (q - a.v1) ≤ 0 ∧ 0 < dot (a.v1 - a.v0) (a.v1 - q))) ∧
        (a.oneSided = true → ¬ (0 < dot (a.v2 - a.v1) (q - a.v1) ∧ dot (a.v2 - a.v1) (a.v2 - q) ≤ 0 ∧ 0 < dot (a.v3 - a.v2) (q - a.v2))) ∧
        ∃ x, Hull [a.v1, a.v2] x ∧ dist2 q x ≤ r * r ∧ (∀ y, Hull [a.v1, a.v2] y → dist2 q x ≤ dist2 q y) ∧
        ((m.type = .circles ∧ m.localPoint = x ∧ ∃ cf, m.points = [.at' b.p cf]) ∨
          (m.type = .faceA ∧ m.localPoint = a.v1 ∧ (∃ cf, m.points = [.at' b.p cf]) ∧ 0 < dist2 a.v1 a.v2 ∧
            (epsilon * epsilon ≤ dist2 a.v1 a.v2 → dot m.localNormal m.localNormal = 1 ∧ dot (a.v2 - a.v1) m.localNormal = 0 ∧ 0 ≤ dot (q - a.v1) m.localNormal ∧
              q = x + dot (q - a.v1) m.localNormal * m.localNormal))))) := by
  intro q r
  have hq : xfA.mulTV (xfB.mulV b.p) = q := by rw [mulTV_unplace, place_eq]
  have hoff : dot (⟨(a.v2 - a.v1).y, -(a.v2 - a.v1).x⟩ : Vec2 F) (q - a.v1) = -turn a.v1 a.v2 q := by
    simp only [dot, turn, Vec2.sub_x, Vec2.sub_y]; ring
  have hr : a.radius + b.radius = r := rfl
  simp only [collideEdgeCircle, hq, hoff, hr, sub_dist2]
  have hback : (-turn a.v1 a.v2 q < 0) ↔ 0 < turn a.v1 a.v2 q := by constructor <;> intro h <;> linarith
  by_cases h1 : a.oneSided = true ∧ -turn a.v1 a.v2 q < 0
  · rw [if_pos h1]
    exact ⟨_, rfl, .inl ⟨rfl, .inl ⟨h1.1, hback.mp h1.2⟩⟩⟩
  · rw [if_neg h1]
    have hside : a.oneSided = true → turn a.v1 a.v2 q ≤ 0 := fun h => not_lt.mp fun h' => h1 ⟨h, hback.mpr h'⟩
    by_cases hv : dot (a.v2 - a.v1) (q - a.v1) ≤ 0
    · rw [if_pos hv]
      by_cases hd : dist2 q a.v1 > r * r
      · rw [if_pos hd]
        exact ⟨_, rfl, .inl ⟨rfl, .inr (.inl fun x hx => lt_of_lt_of_le hd (pair_first hv hx))⟩⟩
      · rw [if_neg hd]
        by_cases ho : a.oneSided = true ∧ dot (a.v1 - a.v0) (a.v1 - q) > 0
        · rw [if_pos ho]
          exact ⟨_, rfl, .inl ⟨rfl, .inr (.inr (.inl ⟨ho.1, hv, ho.2⟩))⟩⟩
        · rw [if_neg ho]
          exact ⟨_, rfl, .inr ⟨hside, fun h h' => ho ⟨h, h'.2⟩, fun _ h' => absurd hv (not_le.mpr h'.1), a.v1,
            .vertex (by simp), not_lt.mp hd, fun y hy => pair_first hv hy, .inl ⟨rfl, rfl, _, rfl⟩⟩⟩
    · rw [if_neg hv]
      have hv' := not_le.mp hv
      by_cases hu : dot (a.v2 - a.v1) (a.v2 - q) ≤ 0
      · rw [if_pos hu]
        by_cases hd : dist2 q a.v2 > r * r
        · rw [if_pos hd]
          exact ⟨_, rfl, .inl ⟨rfl, .inr (.inl fun x hx => lt_of_lt_of_le hd (pair_second hu hx))⟩⟩
        · rw [if_neg hd]
          by_cases ho : a.oneSided = true ∧ dot (a.v3 - a.v2) (q - a.v2) > 0
          · rw [if_pos ho]
            exact ⟨_, rfl, .inl ⟨rfl, .inr (.inr (.inr ⟨ho.1, hv', hu, ho.2⟩))⟩⟩
          · rw [if_neg ho]
            exact ⟨_, rfl, .inr ⟨hside, fun _ h' => hv h'.1, fun h h' => ho ⟨h, h'.2.2⟩, a.v2,
              .vertex (by simp), not_lt.mp hd, fun y hy => pair_second hu hy, .inl ⟨rfl, rfl, _, rfl⟩⟩⟩
      · rw [if_neg hu]
        obtain ⟨f1, f2, f3, f4⟩ := pair_foot (not_le.mp hu) hv'
        rw [sub_dist2, dist2_comm] at f1
        rw [if_neg (by push Not; rw [dist2_comm]; exact f1)]
        rw [sub_dist2] at f2 f3 f4
        set p := (1 / dist2 a.v2 a.v1) * (dot (a.v2 - a.v1) (a.v2 - q) * a.v1 + dot (a.v2 - a.v1) (q - a.v1) * a.v2)
        by_cases hd : dist2 q p > r * r
        · rw [if_pos hd]
          exact ⟨_, rfl, .inl ⟨rfl, .inr (.inl fun x hx => lt_of_lt_of_le hd (f3 x hx))⟩⟩
        · rw [if_neg hd]
          refine ⟨_, rfl, .inr ⟨hside, fun _ h' => hv h'.1, fun _ h' => hu h'.2.1, p, f2, not_lt.mp hd, f3,
            .inr ⟨rfl, rfl, ⟨_, rfl⟩, f1, fun hl => ?_⟩⟩⟩
          set w : Vec2 F := (if -turn a.v1 a.v2 q < 0 then ⟨-(a.v2 - a.v1).y, -(-(a.v2 - a.v1).x)⟩ else ⟨(a.v2 - a.v1).y, -(a.v2 - a.v1).x⟩) with hw
          have hww : dot w w = dist2 a.v1 a.v2 := by
            rw [hw]; split_ifs <;> simp only [dot, dist2, Vec2.sub_x, Vec2.sub_y] <;> ring
          have hqw : 0 ≤ dot (q - a.v1) w ∧ dot (q - a.v1) w * dot (q - a.v1) w = turn a.v1 a.v2 q * turn a.v1 a.v2 q := by
            rw [hw]
            split_ifs with hc
            · have : dot (q - a.v1) ⟨-(a.v2 - a.v1).y, -(-(a.v2 - a.v1).x)⟩ = turn a.v1 a.v2 q := by
                simp only [dot, turn, Vec2.sub_x, Vec2.sub_y]; ring
              rw [this]; exact ⟨(hback.mp hc).le, rfl⟩
            · have : dot (q - a.v1) ⟨(a.v2 - a.v1).y, -(a.v2 - a.v1).x⟩ = -turn a.v1 a.v2 q := by
                simp only [dot, turn, Vec2.sub_x, Vec2.sub_y]; ring
              rw [this]; exact ⟨by linarith [not_lt.mp hc], by ring⟩
          obtain ⟨n1, n2, n3⟩ := normalize_unit (d := w) (s := epsilon) (le_refl _) (by rw [hww]; exact hl)
          obtain ⟨k, hk, e1, -⟩ := normalize_scale w
          have e2 : dot (q - a.v1) w.normalize.1 = k * dot (q - a.v1) w := by rw [e1]; simp only [dot]; ring
          have hpos : 0 ≤ dot (q - a.v1) w.normalize.1 := by rw [e2]; exact mul_nonneg hk.le hqw.1
          have hperp : dot (a.v2 - a.v1) w.normalize.1 = 0 := by
            have e5 : dot (a.v2 - a.v1) w.normalize.1 = k * dot (a.v2 - a.v1) w := by rw [e1]; simp only [dot]; ring
            rw [e5, hw]; split_ifs <;> simp only [dot, Vec2.sub_x, Vec2.sub_y] <;> ring
          refine ⟨n1, hperp, hpos, eq_add_of_sub (along_unit n1 hpos (le_of_eq ?_) ?_)⟩
          · obtain ⟨t, -, -, hpt⟩ := hull_pair f2
            have : dot (q - p) w.normalize.1 = dot (q - a.v1) w.normalize.1 - t * dot (a.v2 - a.v1) w.normalize.1 := by
              rw [hpt]; simp only [dot, onLine, Vec2.sub_x, Vec2.sub_y]; ring
            rw [this, hperp]; ring
          rw [sub_dist2, e2]
          have e3 : k * k * dist2 a.v1 a.v2 = 1 := by
            rw [← hww, ← n1, e1]; simp only [dot]; ring
          have e4 : cross (a.v2 - a.v1) (q - a.v1) = turn a.v1 a.v2 q := rfl
          rw [e4, dist2_comm a.v2] at f4
          have : k * dot (q - a.v1) w * (k * dot (q - a.v1) w) = k * k * (turn a.v1 a.v2 q * turn a.v1 a.v2 q) := by rw [← hqw.2]; ring
          rw [this, ← f4]
          linear_combination -dist2 q p * e3

end
end B2
