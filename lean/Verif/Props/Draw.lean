import Verif.Proofs.Draw
import Verif.Props.Engine
import Verif.Props.Shapes
import Verif.Props.WorldBody
import Verif.Props.Rope

/-! # Properties of debug drawing -/
set_option linter.unusedSectionVars false
namespace B2.Props
open B2 Spec

section
variable {F : Type} [Field F] [LinearOrder F] [IsStrictOrderedRing F] [Elem F]

/-! ## C134 -/

/-- `debug_draw` does not panic, draws what the flags ask for, and what it draws is what is there. -/
theorem c134_draw {E : Engine F} {w : World F} (h : WHist E.env w)
    (hp : ∀ b ∈ w.g.bodyList, ∀ f ∈ (w.g.bodies b).fixtures, ∀ p, (w.g.fixtures f).shape = .polygon p → p.verts.length ≤ maxPolygonVertices) (fl : DrawFlags) :
    ∃ shapes joints pairs boxes centers, E.debugDraw fl w = some (shapes ++ joints ++ pairs ++ boxes ++ centers) ∧
      Asked fl.shape (ShapesShown w) shapes ∧ Asked fl.joint (JointsShown E w) joints ∧ Asked fl.pair (PairsShown w) pairs ∧
      Asked fl.aabb (BoxesShown w) boxes ∧ Asked fl.centerOfMass (CentersShown w) centers := by
  have hw := (whist_inv h).toWInv
  obtain ⟨s, es, hs⟩ := drawShapes_shown hw hp
  obtain ⟨p, ep, hp⟩ := drawPairs_shown hw
  obtain ⟨a, ea, ha⟩ := drawBoxes_shown hw
  refine ⟨if fl.shape then s else [], if fl.joint then (w.g.jointList.map fun j => (E.joint w j).draw w).flatten else [], if fl.pair then p else [], if fl.aabb then a else [],
    if fl.centerOfMass then w.drawCenters else [], ?_, ?_, ?_, ?_, ?_, ?_⟩
  · unfold Engine.debugDraw
    rw [es, ep, ea]
    rcases fl with ⟨_ | _, _ | _, _ | _, _ | _, _ | _⟩ <;> rfl
  · unfold Asked; split <;> simp_all
  · unfold Asked
    split
    · rename_i hf
      intro j hj
      have mem : ∀ d, d ∈ (E.joint w j).draw w → d ∈ (w.g.jointList.map fun j => (E.joint w j).draw w).flatten :=
        fun d hd => List.mem_flatten.mpr ⟨_, List.mem_map.mpr ⟨j, hj, rfl⟩, hd⟩
      have := joint_drawn w (E.joint w j)
      generalize E.joint w j = k at *
      cases k with
      | pulley k => exact ⟨drawn_mono mem this.1, drawn_mono mem this.2⟩
      | _ => exact drawn_mono mem this
    · rfl
  · unfold Asked; split <;> simp_all
  · unfold Asked; split <;> simp_all
  · unfold Asked
    split
    · unfold World.drawCenters CentersShown
      rw [List.forall₂_map_right_iff, List.forall₂_same]
      intro b hb
      rw [(c95_consistent h b hb).center]
      rfl
    · rfl

/-- The boxes drawn are honest: every point of a child of an enabled body lies in one of them. -/
theorem c134_boxes {E : Engine F} {w : World F} (hE : LeavesBodies E.env) (hP : PostSolveLinks E.env) (hj : Seated E) (hm : MouseHasMass E)
    (h : SteadyHist E.env w) : ∃ l, w.drawBoxes = some l ∧ ∀ c x, Child w c → 0 ≤ skin (w.g.fixtures c.1).shape → InChild w c x →
      ∃ vs col, DrawCall.polygon vs col ∈ l ∧ Hull vs x := by
  have hw := (whist_inv h.plain.hist).toWInv
  obtain ⟨l, e, hl⟩ := drawBoxes_shown hw
  refine ⟨l, e, fun c x hc hs hx => ?_⟩
  obtain ⟨fat, box, h1, ⟨b, h2, h3⟩, h4⟩ := c105_boxes hE hP (env_toiForward E) (env_heavyStay hj hm) h c hc
  obtain ⟨b', h5, h6⟩ := hx
  rw [h2] at h5; cases h5
  have ⟨_, _, _, _, n, hn, hi⟩ := hc
  have := c49_contains _ _ n _ _ hs hn hi h3 x h6
  exact ⟨_, _, (hl _).mpr ⟨c, fat, hc, h1, rfl⟩, hull_corners ⟨h4.1.trans this.1, this.2.1.trans h4.2.2.1, h4.2.1.trans this.2.2.1, this.2.2.2.trans h4.2.2.2⟩⟩

/-- A rope in use is drawn as it is. -/
theorem c134_rope [RopeElem F] {d : RopeDef F} {r : Rope F} (h : RopeRun d r) : ∃ l, r.draw = some l ∧ RopeShown r l := by
  have h3 : 3 ≤ d.vertices.length := by
    induction h with
    | create r0 r e => exact (c93_create d r0).mp ⟨r, e⟩
    | setTuning _ _ _ ih => exact ih
    | reset _ _ _ ih => exact ih
    | step _ _ _ _ _ _ _ ih => exact ih
  refine ropeDraw_shown fun e => ?_
  have := (Rope.run_inv h).vert.length_eq
  rw [e] at this
  simp only [List.length_nil] at this
  omega

/-- But a rope that was not created is not drawn: `draw` panics. -/
theorem c134_rope_false : (Rope.new : Rope F).draw = none := rfl

end

namespace DrawEx
open EngineEx
/-- All flags set. -/
def all : DrawFlags := ⟨true, true, true, true, true⟩

theorem e6_small : ∀ b ∈ e6.g.bodyList, ∀ f ∈ (e6.g.bodies b).fixtures, ∀ p, (e6.g.fixtures f).shape = .polygon p → p.verts.length ≤ maxPolygonVertices := by
  intro b hb f hf p hp
  rcases List.mem_cons.mp (show b ∈ [1, 0] from hb) with rfl | hb
  · cases List.mem_singleton.mp (show f ∈ [1] from hf)
    rw [show (e6.g.fixtures 1).shape = hangBall.shape from rfl] at hp
    cases hp
  · cases List.mem_singleton.mp hb
    cases List.mem_singleton.mp (show f ∈ [0] from hf)
    rw [show (e6.g.fixtures 0).shape = hangBox.shape from rfl] at hp
    cases hp
    show 4 ≤ 8
    decide

/-- C134: the hypotheses hold of the ball hung from the box; the picture has the ball in pink. -/
example : WHist exEngine.env e6 ∧ SteadyHist exEngine.env e6 ∧ LeavesBodies exEngine.env ∧ PostSolveLinks exEngine.env ∧ Seated exEngine ∧ MouseHasMass exEngine ∧
    ∃ l, exEngine.debugDraw all e6 = some l ∧ (∃ d ∈ l, Paints d ⟨9, 7, 7⟩ ⟨0, -6⟩) ∧ Drawn l (place (e6.phys 0).xf ⟨0, -3⟩) (place (e6.phys 1).xf ⟨0, 3⟩) := by
  refine ⟨e6_steady.plain.hist, e6_steady, exEngine_quiet.2.2.2, exEngine_quiet.2.2.1, exEngine_seated.1, exEngine_seated.2, ?_⟩
  obtain ⟨s, j, p, a, c, e, h1, h2, -⟩ := c134_draw e6_steady.plain.hist e6_small all
  refine ⟨_, e, ?_, ?_⟩
  · have h1 : ShapesShown e6 s := h1
    obtain ⟨d, hd, hp⟩ := (h1 ⟨9, 7, 7⟩ ⟨0, -6⟩).mpr ⟨1, by decide, .awake rfl rfl one_ne_zero rfl, 1, by decide, 1, 0, rfl, by decide, by
      rw [show (e6.g.fixtures 1).shape = hangBall.shape from rfl]
      show dist2 ⟨0, -6⟩ (place (e6.phys 1).xf ⟨0, 0⟩) ≤ 1 * 1
      have : place (e6.phys 1).xf ⟨0, 0⟩ = ⟨0, -6⟩ := by
        rw [show (e6.phys 1).xf = ⟨⟨0, -6⟩, Rot.ofAngle 0⟩ from rfl]
        ext <;> simp [place]
      rw [this]
      norm_num [dist2]⟩
    exact ⟨d, by simp [hd], hp⟩
  · obtain ⟨k, hk⟩ := (show JointsShown exEngine e6 j from h2) 0 (by decide)
    exact ⟨k, by simp [show DrawCall.segment (place (e6.phys 0).xf ⟨0, -3⟩) (place (e6.phys 1).xf ⟨0, 3⟩) k ∈ j from hk]⟩

/-- C134: a hanging rope is drawn. -/
example : ∃ r : Rope ℝ, RopeRun (exRope exTuning 0 ⟨0, -10⟩) r := by
  obtain ⟨r, hr⟩ := Rope.create_total (exRope exTuning 0 ⟨0, -10⟩) Rope.new (by simp [exRope])
  exact ⟨r, .create _ _ hr⟩
end DrawEx
end B2.Props
