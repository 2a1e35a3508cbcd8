import Verif.Spec.Calls
import Verif.Spec.Real
import Verif.Proofs.SerializeTotal
import Verif.Props.Polygon

/-! The mass data of shapes that are not degenerate. -/
namespace B2
set_option linter.unusedSectionVars false
open Spec

section
variable {F : Type} [Field F] [LinearOrder F] [IsStrictOrderedRing F] [Elem F]

/-- The triangle of a fan. -/
def fan (s : Vec2 F) (ab : Vec2 F × Vec2 F) : MassData F :=
  { mass := 1 / 2 * cross (ab.1 - s) (ab.2 - s), center := ⟨1 / 3 * (ab.1.x + ab.2.x - 2 * s.x), 1 / 3 * (ab.1.y + ab.2.y - 2 * s.y)⟩
    i := 1 / 12 * cross (ab.1 - s) (ab.2 - s) * (dot (ab.1 - s) (ab.1 - s) + dot (ab.1 - s) (ab.2 - s) + dot (ab.2 - s) (ab.2 - s)) }

theorem fan_part (s a b : Vec2 F) (h : 0 ≤ turn a b s) : Part (fan s (a, b)) := by
  have e : cross (a - s) (b - s) = turn a b s := by simp only [cross, turn, Vec2.sub_x, Vec2.sub_y]; ring
  unfold Part fan
  dsimp only
  rw [e]
  rcases h.eq_or_lt with h | h
  · left; rw [← h]; simp
  · right
    refine ⟨by positivity, ?_⟩
    rw [← e] at h
    simp only [cross, dot, turn, Vec2.sub_x, Vec2.sub_y] at h ⊢
    generalize hax : a.x - s.x = ax at *
    generalize hay : a.y - s.y = ay at *
    generalize hbx : b.x - s.x = bx at *
    generalize hby : b.y - s.y = by' at *
    have e1 : a.x + b.x - 2 * s.x = ax + bx := by rw [← hax, ← hbx]; ring
    have e2 : a.y + b.y - 2 * s.y = ay + by' := by rw [← hay, ← hby]; ring
    have e3 : (b.x - a.x) * (s.y - a.y) - (b.y - a.y) * (s.x - a.x) = ax * by' - ay * bx := by rw [← hax, ← hbx, ← hay, ← hby]; ring
    rw [e1, e2, e3]
    have hq : 0 < ax * ax + ay * ay - (ax * bx + ay * by') + (bx * bx + by' * by') := by
      by_contra hn
      have h1 : ax = bx := by nlinarith [sq_nonneg (ax - bx), sq_nonneg (ay - by'), sq_nonneg ax, sq_nonneg bx, sq_nonneg ay, sq_nonneg by', sq_nonneg (ax + bx), sq_nonneg (ay + by')]
      have h2 : ay = by' := by nlinarith [sq_nonneg (ax - bx), sq_nonneg (ay - by'), sq_nonneg ax, sq_nonneg bx, sq_nonneg ay, sq_nonneg by', sq_nonneg (ax + bx), sq_nonneg (ay + by')]
      rw [h1, h2] at h
      nlinarith
    nlinarith [mul_pos h hq]

theorem next_of_pair {l : List (Vec2 F)} {a b : Vec2 F} (h : (a, b) ∈ cyclicPairs l) : NextTo l a b := mem_cyclicPairs.mp h

/-- Twice the area times the second moment is more than the squares of the first moments: the lamina can turn about its center. -/
theorem polygon_turns {l : List (Vec2 F)} (hc : ConvexCCW l) (hA : 0 < shoelace l) :
    Props.momentX l ^ 2 + Props.momentY l ^ 2 < shoelace l * Props.momentII l := by
  obtain ⟨s, hs⟩ : ∃ s, s ∈ l := by
    obtain ⟨h3, -⟩ := hc
    exact ⟨l[0], List.getElem_mem _⟩
  have hp := parts ((cyclicPairs l).map (fan s)) (by
    intro m hm
    obtain ⟨⟨a, b⟩, hab, rfl⟩ := List.mem_map.mp hm
    refine fan_part s a b ?_
    have := next_of_pair hab
    rcases hc.2.2 a b this s hs with h | h | h
    · subst h; simp [turn]
    · subst h
      exact le_of_eq (by unfold turn; ring)
    · exact h.le)
  have e1 : totalMass ((cyclicPairs l).map (fan s)) = shoelace l := by
    rw [← area_eq s l]
    simp only [totalMass, List.map_map]
    rfl
  have e2 : momentX ((cyclicPairs l).map (fan s)) = Props.momentX l - shoelace l * s.x := by
    rw [← Props.momentX_eq s l]
    simp only [momentX, List.map_map]
    congr 1
    refine List.map_congr_left fun ab _ => ?_
    simp only [Function.comp, fan]; ring
  have e3 : momentY ((cyclicPairs l).map (fan s)) = Props.momentY l - shoelace l * s.y := by
    rw [← Props.momentY_eq s l]
    simp only [momentY, List.map_map]
    congr 1
    refine List.map_congr_left fun ab _ => ?_
    simp only [Function.comp, fan]; ring
  have e4 : inertia ((cyclicPairs l).map (fan s)) = Props.momentII l - 2 * (s.x * Props.momentX l + s.y * Props.momentY l) + shoelace l * dot s s := by
    rw [← Props.momentII_eq s l]
    simp only [inertia, List.map_map]
    rfl
  rw [e1, e2, e3, e4] at hp
  rcases hp with ⟨h, -⟩ | ⟨-, h⟩
  · exact absurd h hA.ne'
  · unfold dot at h
    nlinarith

/-- A shape that is fine and not degenerate has mass data for every density, and can turn about its center. -/
theorem extended_solid [ElemLaws F] {s : Shape F} (hf : FineShape s) (hx : Extended s) (d : F) (hd : 0 ≤ d) : Spec.Solid (d, s) := by
  refine ⟨hd, fun h0 => ?_⟩
  cases s with
  | circle c =>
    refine ⟨_, rfl, Or.inr ?_⟩
    have hr : 0 < c.radius := hx
    have hm : 0 < d * Elem.pi * c.radius * c.radius := mul_pos (mul_pos (mul_pos h0 ElemLaws.pi_pos) hr) hr
    refine ⟨hm, ?_⟩
    simp only [Circle.computeMass, dot]
    refine mul_lt_mul_of_pos_left ?_ hm
    nlinarith [mul_pos hr hr]
  | edge e => exact ⟨_, rfl, Or.inl ⟨rfl, rfl⟩⟩
  | chain c => exact ⟨_, rfl, Or.inl ⟨rfl, rfl⟩⟩
  | polygon p =>
    have hA : epsilon < shoelace p.verts := hx
    have he : (0 : F) < epsilon := by unfold epsilon; positivity
    have hc : ConvexCCW p.verts := (hf 1 rfl 0 one_pos).1.2.convex
    obtain ⟨md, hmd⟩ := Props.c60_total p d hc.1 hA
    refine ⟨md, hmd, Or.inr ?_⟩
    obtain ⟨m1, m2, m3, m4, -⟩ := Props.c60_polygon_mass p d md hmd
    have hp := he.trans hA
    have ht := polygon_turns hc hp
    refine ⟨by rw [m1]; exact mul_pos h0 hp, ?_⟩
    rw [m1, m4, ← m2, ← m3] at *
    have : shoelace p.verts * (shoelace p.verts * (md.center.x ^ 2 + md.center.y ^ 2)) < shoelace p.verts * Props.momentII p.verts := by nlinarith
    have := lt_of_mul_lt_mul_left this hp.le
    calc d * shoelace p.verts * (md.center.x ^ 2 + md.center.y ^ 2) = d * (shoelace p.verts * (md.center.x ^ 2 + md.center.y ^ 2)) := by ring
      _ < d * Props.momentII p.verts := mul_lt_mul_of_pos_left this h0

end
end B2
