import Verif.Proofs.CollideSound

/-!
# Lemmas about the separation of polygons
-/
namespace B2
open Spec
set_option linter.unusedSectionVars false
section
variable {F : Type} [Field F] [LinearOrder F] [IsStrictOrderedRing F]

/-- The height of vertex `v` of the polygon at `xf2` over face `i` of the polygon `p1` at `xf1`. -/
def heightOver (p1 : Polygon F) (xf1 : Xf F) (xf2 : Xf F) (i : Nat) (v : Vec2 F) : F := faceHeight p1 i (unplace xf1 (place xf2 v))

theorem heightOver_eq {xf1 xf2 : Xf F} (r1 : IsRot xf1.q) (r2 : IsRot xf2.q) (p1 : Polygon F) (i : Nat) (v : Vec2 F) :
    dot ((xf2.mulT xf1).q.mulV (psGet p1.normals i)) (v - (xf2.mulT xf1).mulV (psGet p1.verts i)) = heightOver p1 xf1 xf2 i v := by
  rw [heightOver, faceHeight, ← rotV_dot r1 (psGet p1.normals i), ← place_sub, place_unplace r1, ← rotV_dot r2, place_eq, ← place_sub, place_mulT r2]
  congr 1
  exact rot_mulT r2 _

/-- The loops find the face with the greatest separation. -/
theorem findMaxSeparation_spec {xf1 xf2 : Xf F} (r1 : IsRot xf1.q) (r2 : IsRot xf2.q) (p1 p2 : Polygon F) {s : F}
    (h : (findMaxSeparation p1 xf1 p2 xf2).2 = s) (hs : s < maxFlt) :
    (∀ i < p1.verts.length, ∃ v ∈ p2.verts, heightOver p1 xf1 xf2 i v ≤ s) ∧
    (-maxFlt < s → ∀ v ∈ p2.verts, s ≤ heightOver p1 xf1 xf2 (findMaxSeparation p1 xf1 p2 xf2).1 v) := by
  have hx : findMaxSeparation p1 xf1 p2 xf2 = (List.range p1.verts.length).foldl (fun (st : Nat × F) i =>
      if p2.verts.foldl (fun si v => if heightOver p1 xf1 xf2 i v < si then heightOver p1 xf1 xf2 i v else si) maxFlt > st.2 then
        (i, p2.verts.foldl (fun si v => if heightOver p1 xf1 xf2 i v < si then heightOver p1 xf1 xf2 i v else si) maxFlt) else st) (0, -maxFlt) := by
    simp only [findMaxSeparation, heightOver_eq r1 r2]
  obtain ⟨h1, h2, h3⟩ := argmax_spec (fun i => p2.verts.foldl (fun si v => if heightOver p1 xf1 xf2 i v < si then heightOver p1 xf1 xf2 i v else si) maxFlt)
    (List.range p1.verts.length) (0, -maxFlt)
  simp only [] at h1 h2 h3
  rw [← hx] at h1 h2 h3
  constructor
  · intro i hi
    have hle := h2 i (List.mem_range.mpr hi)
    obtain ⟨-, -, g⟩ := foldMin_spec (heightOver p1 xf1 xf2 i) p2.verts maxFlt
    rcases g with g | ⟨v, hv, g⟩
    · exfalso; rw [g, h] at hle; linarith
    · rw [g, h] at hle; exact ⟨v, hv, hle⟩
  · intro hlt v hv
    rcases h3 with h3 | ⟨-, h3⟩
    · rw [h3] at h; simp only at h; linarith
    · obtain ⟨-, g, -⟩ := foldMin_spec (heightOver p1 xf1 xf2 (findMaxSeparation p1 xf1 p2 xf2).1) p2.verts maxFlt
      have := g v hv
      rw [← h3, h] at this; exact this

end
end B2
