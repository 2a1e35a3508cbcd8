import Verif.Proofs.CollideRectEdge
import Verif.Props.Rectangles

/-!
# C133: a box that an edge goes into touches it
-/
set_option linter.unusedSectionVars false
namespace B2.Props
open B2 Spec World

section
variable {F : Type} [Field F] [LinearOrder F] [IsStrictOrderedRing F] [Elem F] [ElemLaws F]

/-- The edge `a` goes into the rectangle `b`: round some point of the edge there is a disc with radius `LINEAR_SLOP` that is in the rectangle. -/
def GoesInto (a : Edge F) (xfA : Xf F) (b : Polygon F) (xfB : Xf F) : Prop :=
  ∃ p, Hull [a.v1, a.v2] p ∧ ∀ x, dist2 x (place xfA p) ≤ linearSlop * linearSlop → ∃ u, Hull b.verts u ∧ place xfB u = x

/-- A rectangle has a contact point with a two-sided edge that goes into it, however they are turned, unless the skins are more than 0.03 thick (they are 0.02
unless changed). -/
theorem c133_edge (a : Edge F) (h2 : a.oneSided = false) (hl : epsilon * epsilon ≤ dist2 a.v1 a.v2) (b : Polygon F) (z : F) (hb : IsRectangle b z) (hz : z < maxFlt)
    (ra : 0 ≤ a.radius) (rb : 0 ≤ b.radius) (hr : a.radius + b.radius ≤ 3 / 100) (i : Nat) (xfA xfB : Xf F) (rA : IsRot xfA.q) (rB : IsRot xfB.q)
    (h : GoesInto a xfA b xfB) : ∃ m, evaluateShapes (.edge a) i xfA (.polygon b) xfB = some m ∧ m.points ≠ [] := by
  obtain ⟨p, hp, h⟩ := h
  refine collideEdgePolygon_rect h2 hl hb hz rA rB (by linarith) (by linarith) (q := p) hp ?_
  intro i hi
  have hrot : IsRot (xfA.mulT xfB).q := mulT_rot rA rB
  have hs : (linearSlop : F) = 1 / 200 := by norm_num [linearSlop]
  obtain ⟨_, -, -, hn⟩ := hb.proper.face (i := i) (by rw [hb.four]; exact hi)
  obtain ⟨u, hu, e⟩ := h (place xfB (unplace xfB (place xfA p) + (linearSlop : F) * psGet b.normals i)) (by
    have h1 : dist2 (place xfB (unplace xfB (place xfA p) + (linearSlop : F) * psGet b.normals i)) (place xfA p) =
        dist2 (unplace xfB (place xfA p) + (linearSlop : F) * psGet b.normals i) (unplace xfB (place xfA p)) := by
      rw [← dist2_place rB (unplace xfB (place xfA p) + (linearSlop : F) * psGet b.normals i), place_unplace rB]
    rw [h1]
    refine le_of_eq ?_
    simp only [dist2, dot, Vec2.add_x, Vec2.add_y, Vec2.smul_x, Vec2.smul_y] at hn ⊢
    linear_combination (linearSlop * linearSlop) * hn)
  have e' := congrArg (unplace xfB) e
  rw [unplace_place rB, unplace_place rB] at e'
  have hbel := hb.proper.below (i := i) (by rw [hb.four]; exact hi) hu
  have hx : unplace (xfA.mulT xfB) p = unplace xfB (place xfA p) := by
    have := congrArg (unplace xfB) (place_mulT (a := xfA) (b := xfB) rA (unplace (xfA.mulT xfB) p))
    rw [place_unplace hrot, unplace_place rB] at this
    exact this.symm
  rw [hx, ← hs]
  rw [e'] at hbel
  simp only [faceHeight, dot, Vec2.sub_x, Vec2.sub_y, Vec2.add_x, Vec2.add_y, Vec2.smul_x, Vec2.smul_y] at hbel hn ⊢
  have : linearSlop * ((psGet b.normals i).x * (psGet b.normals i).x + (psGet b.normals i).y * (psGet b.normals i).y) = (linearSlop : F) := by rw [hn, mul_one]
  linarith

/-- In a step without time-of-impact events, a box and a two-sided edge that goes into it and with which it may collide, one of the bodies being awake and not
static, get a contact that says that they touch - provided that contacts are looked for at the start of the step, or were at the end of the last one. -/
theorem c133_noticed {E : Engine F} {D : Nat → Nat → Prop} (hs : FilterSteady E.env) (hE : CallbacksTame E.env) (hL : LeavesBodies E.env) (hP : PostSolveLinks E.env)
    (hj : Seated E) (hmm : MouseHasMass E) {w w' : World F} (h : DHist E.env D w) (h' : SteadyHist E.env w) (hsr : Searched E.env D w) {dt : F} {vi pi : Nat}
    (hc : w.continuous = false ∨ ¬ 0 < dt) (e : w.step E.env dt vi pi = some w')
    {x y : Nat × Nat} (hx : Child w x) (hy : Child w y) {ed : Edge F} {b : Polygon F} {z : F}
    (sx : (w.g.fixtures x.1).shape = .edge ed) (sy : (w.g.fixtures y.1).shape = .polygon b)
    (h2 : ed.oneSided = false) (hl : epsilon * epsilon ≤ dist2 ed.v1 ed.v2) (hb : IsRectangle b z) (hz : z < maxFlt)
    (ra : 0 ≤ ed.radius) (rb : 0 ≤ b.radius) (hr : ed.radius + b.radius ≤ 3 / 100)
    (nx : (w.fattr x.1).sensor = false) (ny : (w.fattr y.1).sensor = false) (hxy : MayCollide E.env D w x.1 y.1)
    {bodyX bodyY : Nat} (ex : (w.g.fixtures x.1).body = some bodyX) (ey : (w.g.fixtures y.1).body = some bodyY)
    (hmeet : GoesInto ed (w.phys bodyX).xf b (w.phys bodyY).xf)
    (ha : ((w.phys bodyX).awake = true ∧ (w.g.bodies bodyX).type ≠ .static) ∨ ((w.phys bodyY).awake = true ∧ (w.g.bodies bodyY).type ≠ .static)) :
    HasTouching w' x y := by
  have hw := (whist_inv h.whist).toWInv
  have hid : w.newContacts = true ∨ Idle w := by
    rcases hsr with hsr | ⟨w0, dt0, vi0, pi0, h0, h1, h2, h3⟩
    · exact .inl hsr
    · exact .inr ((step_full hs (whist_inv h0.whist).toWInv (dhist_comp hs h0) h3).idle ⟨h1, h2⟩)
  have hmt : Meet w x y := by
    obtain ⟨p, hp, hd⟩ := hmeet
    have self : ∀ q : Vec2 F, dist2 q q = 0 := fun q => by simp [dist2]
    obtain ⟨u, hu, e⟩ := hd (place (w.phys bodyX).xf p) (by rw [self]; exact mul_self_nonneg _)
    refine ⟨place (w.phys bodyX).xf p, ⟨bodyX, ex, p, ?_, ?_⟩, bodyY, ey, u, ?_, ?_⟩
    · rw [sx]; exact hp
    · rw [sx, self]; exact mul_self_nonneg _
    · rw [sy]; exact hu
    · rw [e, self]; exact mul_self_nonneg _
  have ho := meet_overlap hL hP (env_toiForward E) (env_heavyStay hj hmm) h' hx hy (by rw [sx]; exact ra) (by rw [sy]; exact rb) hmt
  have ha' : ∃ b, (w.phys b).awake = true ∧ (w.g.bodies b).type ≠ .static ∧ ((w.g.fixtures x.1).body = some b ∨ (w.g.fixtures y.1).body = some b) := by
    rcases ha with ⟨a1, a2⟩ | ⟨a1, a2⟩
    · exact ⟨bodyX, a1, a2, .inl ex⟩
    · exact ⟨bodyY, a1, a2, .inr ey⟩
  obtain ⟨c, c1, c2, c3, c4⟩ := step_notice hE hL hs hw (dhist_comp hs h) hid hc e ((live_iff_child hw).mpr hx) ((live_iff_child hw).mpr hy) hxy ho ha'
  refine ⟨c, c1, c3.mpr ?_, c2⟩
  obtain ⟨bx', q1, q2, -⟩ := bodyOf_child hw hx
  rw [ex] at q2; cases q2
  obtain ⟨by', k1, k2, -⟩ := bodyOf_child hw hy
  rw [ey] at k2; cases k2
  have rotx := hist_rot h.whist bodyX q1
  have roty := hist_rot h.whist bodyY k1
  obtain ⟨t, c4⟩ := c4
  have hpair := pair_of_registers c4
  generalize w'.g.contacts c = k at c2 hpair
  rcases c2 with ⟨rfl, rfl⟩ | ⟨rfl, rfl⟩
  · refine ⟨bodyX, bodyY, ex, ey, ?_⟩
    rw [if_neg (by rw [nx, ny]; simp)]
    dsimp only at sx sy
    rw [sx, sy]
    exact c133_edge ed h2 hl b z hb hz ra rb hr _ _ _ rotx roty hmeet
  · exfalso
    dsimp only at sx sy
    rw [sx, sy] at hpair
    exact hpair

end

/-- The depth is needed: a corner of a box has come down over the end of an edge, which is in the box by more than half a millimetre, but the corner itself is
beside the edge, and the box counts as standing on the edge: no contact point. -/
theorem c133_shallow_false : ∃ (a : Edge ℝ) (b : Polygon ℝ) (xfA xfB : Xf ℝ) (m : Manifold ℝ), a.oneSided = false ∧ IsRectangle b (2 * (1 + 1)) ∧
    a.radius = polygonRadius ∧ b.radius = polygonRadius ∧ IsRot xfA.q ∧ IsRot xfB.q ∧
    evaluateShapes (.edge a) 0 xfA (.polygon b) xfB = some m ∧ m.points = [] ∧
    ∀ x, dist2 x (place xfA a.v2) ≤ 1 / 2000 * (1 / 2000) → ∃ u, Hull b.verts u ∧ place xfB u = x := by
  have hR : IsRectangle (Polygon.default.setAsBox 1 1 : Polygon ℝ) (2 * (1 + 1)) :=
    (c132_box_rectangle _ 1 1 ⟨0, 0⟩ 0 (by norm_num [epsilon]) (by norm_num [epsilon])).1
  refine ⟨⟨polygonRadius, ⟨-1, 0⟩, ⟨0, 0⟩, ⟨0, 0⟩, ⟨0, 0⟩, false⟩, Polygon.default.setAsBox 1 1, ⟨⟨0, 0⟩, ⟨0, 1⟩⟩,
    ⟨⟨401 / 2000, 1398 / 1000⟩, ⟨3 / 5, 4 / 5⟩⟩, ⟨[], ⟨0, 0⟩, ⟨0, 0⟩, .faceA⟩, rfl, hR, rfl, rfl, by norm_num [IsRot], by norm_num [IsRot], ?_, rfl, ?_⟩
  · norm_num [evaluateShapes, collideEdgePolygon, computeEdgeSeparation, computePolygonSeparation, edgeAxisStep, deepest, primaryAxis, clipToEdge,
      Polygon.setAsBox, Polygon.default, boxVerts, boxNormals, mostAntiParallel', clipTwice, clipSegmentToLine, clipPush, List.range_succ, List.range', psGet, dot,
      Xf.mulV, Xf.mulTV, Xf.mulT, Rot.mulV, Rot.mulT, Rot.mulTV, epsilon, polygonRadius, linearSlop, maxFlt, nextIndex, Vec2.normalize, Vec2.length,
      Elem.sqrt, eVertex, eFace, b2min, Manifold.default]
  · intro x hx
    have hrot : IsRot (⟨3 / 5, 4 / 5⟩ : Rot ℝ) := by norm_num [IsRot]
    refine ⟨unplace ⟨⟨401 / 2000, 1398 / 1000⟩, ⟨3 / 5, 4 / 5⟩⟩ x, ?_, place_unplace hrot x⟩
    norm_num [dist2, place] at hx
    have hx1 : -(1 / 2000) ≤ x.x := by nlinarith [mul_self_nonneg x.y]
    have hx2 : x.x ≤ 1 / 2000 := by nlinarith [mul_self_nonneg x.y]
    have hy1 : -(1 / 2000) ≤ x.y := by nlinarith [mul_self_nonneg x.x]
    have hy2 : x.y ≤ 1 / 2000 := by nlinarith [mul_self_nonneg x.x]
    have hk : -(1 / 2000) ≤ 4 / 5 * x.x + 3 / 5 * x.y := by nlinarith [mul_self_nonneg (3 / 5 * x.x - 4 / 5 * x.y)]
    refine hR.proper.hull_of_below fun i hi => ?_
    rw [hR.four] at hi
    interval_cases i <;> norm_num [faceHeight, psGet, Polygon.setAsBox, boxVerts, boxNormals, dot, unplace, Rot.mulTV] <;> linarith

/-! A box has sunk half a metre into the ground, an edge. -/
namespace RectEdgeEx
open EngineEx TouchEx
noncomputable def groundEdge : Edge ℝ := ⟨polygonRadius, ⟨-5, 0⟩, ⟨5, 0⟩, ⟨0, 0⟩, ⟨0, 0⟩, false⟩
noncomputable def ground : FixDef ℝ := ⟨.edge groundEdge, ⟨0, 1, 0, 1, false, ⟨1, 0xFFFF, 0⟩⟩⟩
noncomputable def g2 : World ℝ := (fixed e1 0 ground).get (by rfl)
noncomputable def g3 : World ℝ := withBody g2 .dynamic (1 / 2) 0
noncomputable def g4 : World ℝ := (fixed g3 1 hangBox).get (by rfl)
noncomputable def g5 : World ℝ := { g4 with continuous := false }
theorem g2_run : (Call.createFixture 0 ground).run exEngine.env e1 = some g2 :=
  show (World.createFixture e1 0 ground).map _ = some _ from by rw [fixed_eq rfl 0 ground rfl]; rfl
theorem g3_run : (Call.createBody (hangDef .dynamic (1 / 2) 0)).run exEngine.env g2 = some g3 :=
  show (World.createBody g2 _).map _ = some _ from by rw [withBody_eq g2 rfl]; rfl
theorem g4_run : (Call.createFixture 1 hangBox).run exEngine.env g3 = some g4 :=
  show (World.createFixture g3 1 hangBox).map _ = some _ from by rw [fixed_eq rfl 1 hangBox rfl]; rfl
theorem g5_run : (Call.setContinuousPhysics false).run exEngine.env g4 = some g5 := rfl
theorem g5_tame : TameHist exEngine.env g5 := by
  have h1 : TameHist exEngine.env e1 := .call (.createBody (hangDef .static 0 0)) (.new ..) trivial trivial e1_run
  have h2 : TameHist exEngine.env g2 := .call (.createFixture 0 ground) h1 (by decide) trivial g2_run
  have h3 : TameHist exEngine.env g3 := .call (.createBody (hangDef .dynamic (1 / 2) 0)) h2 trivial trivial g3_run
  have h4 : TameHist exEngine.env g4 := .call (.createFixture 1 hangBox) h3 (by decide) trivial g4_run
  exact .call (.setContinuousPhysics false) h4 trivial trivial g5_run
theorem g5_steady : SteadyHist exEngine.env g5 := by
  have h1 : SteadyHist exEngine.env e1 := .call (.createBody (hangDef .static 0 0)) (.new ..) trivial (fun _ _ _ h => by cases h) (fun d hd _ => by cases hd; exact ⟨rfl, rfl⟩) (fun h => by cases h) e1_run
  have h2 : SteadyHist exEngine.env g2 := .call (.createFixture 0 ground) h1 (by decide) (fun _ _ _ h => by cases h) (fun d hd _ => by cases hd) trivial g2_run
  have h3 : SteadyHist exEngine.env g3 := .call (.createBody (hangDef .dynamic (1 / 2) 0)) h2 trivial (fun _ _ _ h => by cases h) (fun d hd ht => by cases hd; cases ht) (fun h => by cases h) g3_run
  have h4 : SteadyHist exEngine.env g4 := .call (.createFixture 1 hangBox) h3 (by decide) (fun _ _ _ h => by cases h) (fun d hd _ => by cases hd) trivial g4_run
  exact .call (.setContinuousPhysics false) h4 trivial (fun _ _ _ h => by cases h) (fun d hd _ => by cases hd) trivial g5_run
theorem g5_dhist : DHist exEngine.env (fun _ _ => False) g5 := by
  have h1 : DHist exEngine.env (fun _ _ => False) e1 := .call (.createBody (hangDef .static 0 0)) (.new ..) trivial (fun _ h => by cases h) e1_run
  have h2 : DHist exEngine.env (fun _ _ => False) g2 := .call (.createFixture 0 ground) h1 (by decide) (fun _ h => by cases h) g2_run
  have h3 : DHist exEngine.env (fun _ _ => False) g3 := .call (.createBody (hangDef .dynamic (1 / 2) 0)) h2 trivial (fun _ h => by cases h) g3_run
  have h4 : DHist exEngine.env (fun _ _ => False) g4 := .call (.createFixture 1 hangBox) h3 (by decide) (fun _ h => by cases h) g4_run
  exact .call (.setContinuousPhysics false) h4 trivial (fun _ h => by cases h) g5_run
theorem groundEdge_long : (epsilon : ℝ) * epsilon ≤ dist2 groundEdge.v1 groundEdge.v2 := by norm_num [epsilon, dist2, groundEdge]
theorem g5_fine : ShapesFine g5 := by
  intro b hb f hf
  rcases List.mem_cons.mp (show b ∈ [1, 0] from hb) with rfl | hb
  · cases List.mem_singleton.mp (show f ∈ [1] from hf)
    exact e6_fine 0 (by decide) 0 (by decide)
  · cases List.mem_singleton.mp hb
    cases List.mem_singleton.mp (show f ∈ [0] from hf)
    intro n hn i hi
    rw [show (g5.g.fixtures 0).shape = ground.shape from rfl] at *
    refine ⟨⟨by norm_num [groundEdge, polygonRadius, linearSlop], groundEdge_long⟩, fun x hx y hy => ?_⟩
    simp only [ground, groundEdge, childPoints, List.mem_cons, List.not_mem_nil, or_false] at hx hy
    rcases hx with rfl | rfl <;> rcases hy with rfl | rfl <;> norm_num [dist2, maxFlt]
theorem g5_edges : EdgesFixed g5 := by
  intro b hb hd f hf
  rcases List.mem_cons.mp (show b ∈ [1, 0] from hb) with rfl | hb
  · cases List.mem_singleton.mp (show f ∈ [1] from hf)
    exact .inr rfl
  · cases List.mem_singleton.mp hb
    cases hd
end RectEdgeEx
open EngineEx TouchEx RectEdgeEx
example : ∃ w', FilterSteady exEngine.env ∧ CallbacksTame exEngine.env ∧ LeavesBodies exEngine.env ∧ PostSolveLinks exEngine.env ∧ Seated exEngine ∧ MouseHasMass exEngine ∧
    DHist exEngine.env (fun _ _ => False) g5 ∧ SteadyHist exEngine.env g5 ∧ Searched exEngine.env (fun _ _ => False) g5 ∧ g5.continuous = false ∧
    g5.step exEngine.env (1/60) 8 3 = some w' ∧ Child g5 (0, 0) ∧ Child g5 (1, 0) ∧ (g5.g.fixtures 0).shape = .edge groundEdge ∧
    (g5.g.fixtures 1).shape = .polygon (Polygon.default.setAsBox 1 1) ∧ MayCollide exEngine.env (fun _ _ => False) g5 0 1 ∧
    GoesInto groundEdge (g5.phys 0).xf (Polygon.default.setAsBox 1 1) (g5.phys 1).xf ∧ g5.g.contactList = [] ∧
    HasTouching w' (0, 0) (1, 0) := by
  obtain ⟨q1, q2, q3, q4⟩ := exEngine_quiet
  obtain ⟨s1, s2⟩ := exEngine_seated
  have h1 : FilterSteady exEngine.env := c90_default_filter_steady rfl
  obtain ⟨w', e, -⟩ := c110_steps g5_tame q1 q2 q3 s1 g5_edges g5_fine (by decide) [(1/60, 8, 3)]
  have e : g5.step exEngine.env (1/60) 8 3 = some w' := by
    unfold steps at e
    rw [List.foldlM_cons, Option.bind_eq_bind, Option.bind_eq_some_iff] at e
    obtain ⟨v, e1, e2⟩ := e
    cases e2
    exact e1
  have k1 : Child g5 (0, 0) := ⟨0, by decide, rfl, by decide, 1, rfl, by decide⟩
  have k2 : Child g5 (1, 0) := ⟨1, by decide, rfl, by decide, 1, rfl, by decide⟩
  have k3 : MayCollide exEngine.env (fun _ _ => False) g5 0 1 := ⟨0, 1, rfl, rfl, by decide, by decide, by decide, rfl, rfl, .inr rfl, fun j hj => (by cases hj), ⟨id, id⟩,
    show filterShouldCollide ⟨1, 0xFFFF, 0⟩ ⟨1, 0xFFFF, 0⟩ = true by decide, show filterShouldCollide ⟨1, 0xFFFF, 0⟩ ⟨1, 0xFFFF, 0⟩ = true by decide⟩
  have k4 : IsRectangle (Polygon.default.setAsBox 1 1 : Polygon ℝ) (2 * (1 + 1)) :=
    (c132_box_rectangle _ 1 1 ⟨0, 0⟩ 0 (by norm_num [epsilon]) (by norm_num [epsilon])).1
  have k5 : GoesInto groundEdge (g5.phys 0).xf (Polygon.default.setAsBox 1 1) (g5.phys 1).xf := by
    refine ⟨onLine ⟨-5, 0⟩ ⟨5, 0⟩ (1 / 2), .between (.vertex (by simp [groundEdge])) (.vertex (by simp [groundEdge])) (by norm_num) (by norm_num), ?_⟩
    intro x hx
    change dist2 x (place ⟨⟨0, 0⟩, Rot.ofAngle 0⟩ _) ≤ _ at hx
    norm_num [dist2, place, onLine, Rot.ofAngle, Elem.sin, Elem.cos, linearSlop] at hx
    have hx1 : -(1 / 200) ≤ x.x := by nlinarith [mul_self_nonneg x.y]
    have hx2 : x.x ≤ 1 / 200 := by nlinarith [mul_self_nonneg x.y]
    have hy1 : -(1 / 200) ≤ x.y := by nlinarith [mul_self_nonneg x.x]
    have hy2 : x.y ≤ 1 / 200 := by nlinarith [mul_self_nonneg x.x]
    refine ⟨⟨x.x, x.y - 1 / 2⟩, ?_, ?_⟩
    · refine k4.proper.hull_of_below fun i hi => ?_
      rw [k4.four] at hi
      interval_cases i <;> norm_num [faceHeight, psGet, Polygon.setAsBox, boxVerts, boxNormals, dot] <;> linarith
    · change place ⟨⟨0, 1 / 2⟩, Rot.ofAngle 0⟩ _ = _
      ext <;> norm_num [place, Rot.ofAngle, Elem.sin, Elem.cos]
  have hpr : groundEdge.radius + (polygonRadius : ℝ) ≤ 3 / 100 := by norm_num [groundEdge, polygonRadius, linearSlop]
  have hp0 : (0 : ℝ) ≤ polygonRadius := by norm_num [polygonRadius, linearSlop]
  exact ⟨w', h1, q2, q4, q3, s1, s2, g5_dhist, g5_steady, .inl rfl, rfl, e, k1, k2, rfl, rfl, k3, k5, rfl,
    c133_noticed h1 q2 q4 q3 s1 s2 g5_dhist g5_steady (.inl rfl) (.inl rfl) e k1 k2 rfl rfl rfl groundEdge_long k4 (by norm_num [maxFlt]) hp0 hp0 hpr rfl rfl k3 rfl rfl k5
      (.inr ⟨rfl, by decide⟩)⟩
end B2.Props
