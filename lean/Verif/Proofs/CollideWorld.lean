import Verif.Proofs.CollideEdge

/-!
# World manifolds of contacts with a circle
-/
namespace B2
open Spec
set_option linter.unusedSectionVars false
section
variable {F : Type} [Field F] [LinearOrder F] [IsStrictOrderedRing F]

theorem world_face [Elem F] [ElemLaws F] {vs : List (Vec2 F)} {xfA xfB : Xf F} {rA rB : F} {m : Manifold F} {p x : Vec2 F} {cf : Feature}
    (hA : IsRot xfA.q) (ht : m.type = .faceA) (hps : m.points = [.at' p cf]) (hn : dot m.localNormal m.localNormal = 1)
    (hx : Hull vs x) (h0 : 0 ≤ dot (unplace xfA (place xfB p) - m.localPoint) m.localNormal)
    (hc : unplace xfA (place xfB p) = x + dot (unplace xfA (place xfB p) - m.localPoint) m.localNormal * m.localNormal)
    (hmin : ∀ y, Hull vs y → dist2 (unplace xfA (place xfB p)) x ≤ dist2 (unplace xfA (place xfB p)) y) :
    ∃ w, worldManifold m xfA rA xfB rB = some w ∧ NearestContact vs xfA rA (place xfB p) rB w ∧
      w.s1 = dot (unplace xfA (place xfB p) - m.localPoint) m.localNormal - rA - rB := by
  set c := unplace xfA (place xfB p) with hcd
  set D := dot (c - m.localPoint) m.localNormal with hD
  have hpc : place xfB p = place xfA c := (place_unplace hA _).symm
  have hrot : ∀ u v : Vec2 F, dot (xfA.q.mulV u) (xfA.q.mulV v) = dot u v := by
    intro u v
    simp only [IsRot] at hA
    simp only [dot, Rot.mulV]; linear_combination (u.x * v.x + u.y * v.y) * hA
  have hpl : ∀ v : Vec2 F, xfA.mulV v = place xfA v := fun v => place_eq _ _
  have hsub : ∀ u v : Vec2 F, place xfA u - place xfA v = xfA.q.mulV (u - v) := by
    intro u v; ext <;> simp only [place, Rot.mulV, Vec2.sub_x, Vec2.sub_y] <;> ring
  have hdd : dist2 c x = D * D := by
    rw [← sub_dist2]
    have : c - x = D * m.localNormal := by
      conv_lhs => rw [hc]
      ext <;> simp only [Vec2.sub_x, Vec2.sub_y, Vec2.add_x, Vec2.add_y] <;> ring
    rw [this]
    have : dot (D * m.localNormal) (D * m.localNormal) = D * D * dot m.localNormal m.localNormal := by
      simp only [dot, Vec2.smul_x, Vec2.smul_y]; ring
    rw [this, hn, mul_one]
  have hpx : place xfA c = place xfA x + D * xfA.q.mulV m.localNormal := by
    conv_lhs => rw [hc]
    ext <;> simp only [place, Rot.mulV, Vec2.add_x, Vec2.add_y, Vec2.smul_x, Vec2.smul_y] <;> ring
  have hnn := hrot m.localNormal m.localNormal
  rw [hn] at hnn
  have hh : dot (place xfA c - place xfA m.localPoint) (xfA.q.mulV m.localNormal) = D := by rw [hsub, hrot]
  simp only [worldManifold, hps, ht, ManifoldPoint.at', place_eq xfB, hpl, hpc]
  have hs : ∀ (P N : Vec2 F), dot N N = 1 → dot ((P - rB * N) - (P + (rA - D) * N)) N = D - rA - rB := by
    intro P N hN
    have : dot ((P - rB * N) - (P + (rA - D) * N)) N = (D - rA - rB) * dot N N := by
      simp only [dot, Vec2.sub_x, Vec2.sub_y, Vec2.add_x, Vec2.add_y, Vec2.smul_x, Vec2.smul_y]; ring
    rw [this, hN, mul_one]
  refine ⟨_, rfl, ⟨x, D, hx, h0, ?_, hnn, by rw [hpx]; rfl, by rw [hpx]; rfl, ?_, ?_, ?_⟩, ?_⟩
  · intro y hy
    rw [dist2_place hA, dist2_comm, ← hdd]; exact hmin y hy
  · simp only [worldPoint, hh]; exact hs _ _ hnn
  · simp only [worldPoint, hh]; rw [hpx]
    simp only [Vec2.sub_x, Vec2.add_x, Vec2.smul_x]; ring
  · simp only [worldPoint, hh]; rw [hpx]
    simp only [Vec2.sub_y, Vec2.add_y, Vec2.smul_y]; ring
  · simp only [worldPoint, hh]; exact hs _ _ hnn

theorem world_circles [Elem F] [ElemLaws F] {vs : List (Vec2 F)} {xfA xfB : Xf F} {rA rB : F} {m : Manifold F} {p : Vec2 F} {cf : Feature}
    (ht : m.type = .circles) (hps : m.points = [.at' p cf]) (hx : Hull vs m.localPoint)
    (hfar : epsilon * epsilon < dist2 (place xfA m.localPoint) (place xfB p))
    (hmin : ∀ y, Hull vs y → dist2 (place xfA m.localPoint) (place xfB p) ≤ dist2 (place xfA y) (place xfB p)) :
    ∃ w, worldManifold m xfA rA xfB rB = some w ∧ NearestContact vs xfA rA (place xfB p) rB w := by
  have hf : distanceV2 (xfA.mulV m.localPoint) (xfB.mulV p) > epsilon * epsilon := by
    rw [place_eq, place_eq, show distanceV2 (place xfA m.localPoint) (place xfB p) = _ from sub_dist2 _ _]; exact hfar
  simp only [worldManifold, hps, ht, ManifoldPoint.at', if_pos hf]
  simp only [place_eq]
  set P := place xfA m.localPoint
  set Q := place xfB p
  have hdd : dot (Q - P) (Q - P) = dist2 P Q := by rw [sub_dist2, dist2_comm]
  obtain ⟨u1, u2, u3⟩ := normalize_unit (d := Q - P) (s := epsilon) (le_refl _) (by rw [hdd]; exact hfar.le)
  set n := (Q - P).normalize.1
  have hal := along_unit u1 u2 (le_refl _) u3.symm
  set D := dot (Q - P) n
  have hx' : Q.x = P.x + D * n.x := by have := congrArg Vec2.x hal; simp only [Vec2.sub_x, Vec2.smul_x] at this; linarith
  have hy' : Q.y = P.y + D * n.y := by have := congrArg Vec2.y hal; simp only [Vec2.sub_y, Vec2.smul_y] at this; linarith
  refine ⟨_, rfl, m.localPoint, D, hx, u2, fun y hy => ?_, u1, hx', hy', ?_, ?_, ?_⟩
  · rw [u3, hdd]; exact hmin y hy
  · have : dot (Q - rB * n - (P + rA * n)) n = D - (rA + rB) * dot n n := by
      simp only [D, dot, Vec2.sub_x, Vec2.sub_y, Vec2.add_x, Vec2.add_y, Vec2.smul_x, Vec2.smul_y]; ring
    simp only [this, u1]; ring
  · simp only [Vec2.sub_x, Vec2.add_x, Vec2.smul_x]; rw [← show P.x = (place xfA m.localPoint).x from rfl]; ring
  · simp only [Vec2.sub_y, Vec2.add_y, Vec2.smul_y]; rw [← show P.y = (place xfA m.localPoint).y from rfl]; ring

end
end B2
