import Verif.Proofs.CollideRect
import Verif.Props.Box
import Verif.Props.Touch

/-!
# C132: boxes that overlap touch
-/
set_option linter.unusedSectionVars false
namespace B2.Props
open B2 Spec World

section
variable {F : Type} [Field F] [LinearOrder F] [IsStrictOrderedRing F] [Elem F] [ElemLaws F]

private theorem next_map {f : Vec2 F → Vec2 F} {vs : List (Vec2 F)} {a b : Vec2 F} (hf : Function.Injective f) (h : NextTo (vs.map f) (f a) b) :
    ∃ b', b = f b' ∧ NextTo vs a b' := by
  obtain ⟨i, ha, hb⟩ := h
  rw [List.getElem?_map, Option.map_eq_some_iff] at ha hb
  obtain ⟨a', ha, e⟩ := ha
  obtain ⟨b', hb, rfl⟩ := hb
  rw [List.length_map] at hb
  exact ⟨b', rfl, i, by rw [ha, hf e], hb⟩

private theorem box_next {hx hy : F} {a b : Vec2 F} (h : NextTo (boxVerts hx hy) a b) : (a = ⟨-hx, -hy⟩ ∧ b = ⟨hx, -hy⟩) ∨ (a = ⟨hx, -hy⟩ ∧ b = ⟨hx, hy⟩) ∨
      (a = ⟨hx, hy⟩ ∧ b = ⟨-hx, hy⟩) ∨ (a = ⟨-hx, hy⟩ ∧ b = ⟨-hx, -hy⟩) := by
  obtain ⟨i, ha, hb⟩ := h
  simp only [boxVerts, List.length_cons, List.length_nil] at ha hb
  match i with
  | 0 => simp at ha hb; exact .inl ⟨ha.symm, hb.symm⟩
  | 1 => simp at ha hb; exact .inr (.inl ⟨ha.symm, hb.symm⟩)
  | 2 => simp at ha hb; exact .inr (.inr (.inl ⟨ha.symm, hb.symm⟩))
  | 3 => simp at ha hb; exact .inr (.inr (.inr ⟨ha.symm, hb.symm⟩))
  | k + 4 => simp at ha

private theorem box_corner {hx hy : F} {a : Vec2 F} (h : a ∈ boxVerts hx hy) : (a.x = hx ∨ a.x = -hx) ∧ (a.y = hy ∨ a.y = -hy) := by
  simp only [boxVerts, List.mem_cons, List.not_mem_nil, or_false] at h
  rcases h with rfl | rfl | rfl | rfl <;> simp

private theorem box_small {hx hy : F} (px : 0 ≤ hx) (py : 0 ≤ hy) {a b : Vec2 F} (ha : a ∈ boxVerts hx hy) (hb : b ∈ boxVerts hx hy) :
    dist2 a b ≤ 2 * (hx + hy) * (2 * (hx + hy)) := by
  have := mul_nonneg px py
  have := mul_self_nonneg hx
  have := mul_self_nonneg hy
  obtain ⟨h1 | h1, h2 | h2⟩ := box_corner ha <;> obtain ⟨h3 | h3, h4 | h4⟩ := box_corner hb <;> simp only [dist2, h1, h2, h3, h4] <;> nlinarith

/-- What `set_as_box` and `set_as_box_angle` make are rectangles. -/
theorem c132_box_rectangle (p : Polygon F) (hx hy : F) (center : Vec2 F) (angle : F) (h1 : epsilon ≤ 2 * hx) (h2 : epsilon ≤ 2 * hy) :
    IsRectangle (p.setAsBox hx hy) (2 * (hx + hy)) ∧ IsRectangle (p.setAsBoxAngle hx hy center angle) (2 * (hx + hy)) := by
  have he : (0 : F) < epsilon := eps_pos
  have px : 0 < hx := by linarith
  have py : 0 < hy := by linarith
  have hsq : ∀ a b c : Vec2 F, NextTo (boxVerts hx hy) a b → NextTo (boxVerts hx hy) b c → (b.x - a.x) * (c.x - b.x) + (b.y - a.y) * (c.y - b.y) = 0 := by
    intro a b c hab hbc
    rcases box_next hab with ⟨rfl, rfl⟩ | ⟨rfl, rfl⟩ | ⟨rfl, rfl⟩ | ⟨rfl, rfl⟩ <;>
      rcases box_next hbc with ⟨e, rfl⟩ | ⟨e, rfl⟩ | ⟨e, rfl⟩ | ⟨e, rfl⟩ <;> simp only [Vec2.mk.injEq] at e <;> simp <;>
      first | done | (exfalso; obtain ⟨e1, e2⟩ := e; linarith)
  refine ⟨⟨proper_box p hx hy h1 h2, rfl, hsq, by linarith, fun a ha b hb => box_small px.le py.le ha hb⟩,
    ⟨c129_box_angle_proper p hx hy center angle h1 h2, by simp [Polygon.setAsBoxAngle, boxVerts], ?_, by linarith, ?_⟩⟩
  all_goals
    have hr : Elem.sin angle * Elem.sin angle + Elem.cos angle * Elem.cos angle = 1 := ElemLaws.sin_cos angle
    generalize hs : (Elem.sin angle : F) = s at hr
    generalize hc : (Elem.cos angle : F) = c at hr
    have hv : (p.setAsBoxAngle hx hy center angle).verts = (boxVerts hx hy).map (Xf.mulV ⟨center, ⟨s, c⟩⟩) := by
      simp only [Polygon.setAsBoxAngle, Rot.ofAngle, hs, hc]
    have hd : ∀ a b : Vec2 F, dist2 (Xf.mulV ⟨center, ⟨s, c⟩⟩ a) (Xf.mulV ⟨center, ⟨s, c⟩⟩ b) = dist2 a b := by
      intro a b
      simp only [dist2, Xf.mulV]
      linear_combination ((b.x - a.x) * (b.x - a.x) + (b.y - a.y) * (b.y - a.y)) * hr
  · have hinj : Function.Injective (Xf.mulV (⟨center, ⟨s, c⟩⟩ : Xf F)) := by
      intro a b hab
      have h0 : dist2 a b = 0 := by rw [← hd, hab]; simp [dist2]
      simp only [dist2] at h0
      have hx0 : a.x - b.x = 0 := by nlinarith [mul_self_nonneg (a.x - b.x), mul_self_nonneg (a.y - b.y)]
      have hy0 : a.y - b.y = 0 := by nlinarith [mul_self_nonneg (a.x - b.x), mul_self_nonneg (a.y - b.y)]
      ext
      · linarith
      · linarith
    intro a b d hab hbd
    rw [hv] at hab hbd
    obtain ⟨a', -, rfl⟩ : ∃ a' ∈ boxVerts hx hy, Xf.mulV ⟨center, ⟨s, c⟩⟩ a' = a := by
      obtain ⟨i, ha, -⟩ := hab
      exact List.mem_map.mp (List.mem_of_getElem? ha)
    obtain ⟨b', rfl, k1⟩ := next_map hinj hab
    obtain ⟨d', rfl, k2⟩ := next_map hinj hbd
    have := hsq a' b' d' k1 k2
    simp only [Xf.mulV]
    linear_combination this + ((b'.x - a'.x) * (d'.x - b'.x) + (b'.y - a'.y) * (d'.y - b'.y)) * hr
  · rw [hv]
    intro a ha b hb
    obtain ⟨a', k1, rfl⟩ := List.mem_map.mp ha
    obtain ⟨b', k2, rfl⟩ := List.mem_map.mp hb
    rw [hd]
    exact box_small px.le py.le k1 k2

/-- Two rectangles with a common point have a contact point, however they are turned, if their skins together are at least `LINEAR_SLOP` thick (they are four
times that unless changed). -/
theorem c132_overlap (a b : Polygon F) (zA zB : F) (ha : IsRectangle a zA) (hb : IsRectangle b zB) (hz : zA + zB < maxFlt)
    (hr : linearSlop ≤ a.radius + b.radius) (i : Nat) (xfA xfB : Xf F) (rA : IsRot xfA.q) (rB : IsRot xfB.q)
    (h : ∃ u v, Hull a.verts u ∧ Hull b.verts v ∧ place xfA u = place xfB v) :
    ∃ m, evaluateShapes (.polygon a) i xfA (.polygon b) xfB = some m ∧ m.points ≠ [] := by
  obtain ⟨u, v, hu, hv, e⟩ := h
  refine collidePolygons_rect ha hb hz rA rB hr (q := place xfA u) ?_ ?_
  · rw [unplace_place rA]; exact hu
  · rw [e, unplace_place rB]; exact hv

/-- In a step without time-of-impact events, two boxes with a common point that may collide, one of the bodies being awake and not static, get a contact that says
that they touch - provided that contacts are looked for at the start of the step, or were at the end of the last one. -/
theorem c132_noticed {E : Engine F} {D : Nat → Nat → Prop} (hs : FilterSteady E.env) (hE : CallbacksTame E.env) (hL : LeavesBodies E.env) (hP : PostSolveLinks E.env)
    (hj : Seated E) (hmm : MouseHasMass E) {w w' : World F} (h : DHist E.env D w) (h' : SteadyHist E.env w) (hsr : Searched E.env D w) {dt : F} {vi pi : Nat}
    (hc : w.continuous = false ∨ ¬ 0 < dt) (e : w.step E.env dt vi pi = some w')
    {x y : Nat × Nat} (hx : Child w x) (hy : Child w y) {px py : Polygon F} {zx zy : F}
    (sx : (w.g.fixtures x.1).shape = .polygon px) (sy : (w.g.fixtures y.1).shape = .polygon py) (bx : IsRectangle px zx) (bY : IsRectangle py zy)
    (hz : zx + zy < maxFlt) (rx : 0 ≤ px.radius) (ry : 0 ≤ py.radius) (hr : linearSlop ≤ px.radius + py.radius)
    (nx : (w.fattr x.1).sensor = false) (ny : (w.fattr y.1).sensor = false) (hxy : MayCollide E.env D w x.1 y.1)
    {bodyX bodyY : Nat} (ex : (w.g.fixtures x.1).body = some bodyX) (ey : (w.g.fixtures y.1).body = some bodyY)
    (hmeet : ∃ u v, Hull px.verts u ∧ Hull py.verts v ∧ place (w.phys bodyX).xf u = place (w.phys bodyY).xf v)
    (ha : ((w.phys bodyX).awake = true ∧ (w.g.bodies bodyX).type ≠ .static) ∨ ((w.phys bodyY).awake = true ∧ (w.g.bodies bodyY).type ≠ .static)) :
    HasTouching w' x y := by
  have hw := (whist_inv h.whist).toWInv
  have hid : w.newContacts = true ∨ Idle w := by
    rcases hsr with hsr | ⟨w0, dt0, vi0, pi0, h0, h1, h2, h3⟩
    · exact .inl hsr
    · exact .inr ((step_full hs (whist_inv h0.whist).toWInv (dhist_comp hs h0) h3).idle ⟨h1, h2⟩)
  obtain ⟨u, v, hu, hv, huv⟩ := hmeet
  have hmt : Meet w x y := by
    refine ⟨place (w.phys bodyX).xf u, ⟨bodyX, ex, u, ?_, ?_⟩, bodyY, ey, v, ?_, ?_⟩
    · rw [sx]; exact hu
    · rw [sx]; simp only [dist2, sub_self, mul_zero, add_zero]; exact mul_self_nonneg _
    · rw [sy]; exact hv
    · rw [huv]; simp only [dist2, sub_self, mul_zero, add_zero]; exact mul_self_nonneg _
  have ho := meet_overlap hL hP (env_toiForward E) (env_heavyStay hj hmm) h' hx hy (by rw [sx]; exact rx) (by rw [sy]; exact ry) hmt
  have ha' : ∃ b, (w.phys b).awake = true ∧ (w.g.bodies b).type ≠ .static ∧ ((w.g.fixtures x.1).body = some b ∨ (w.g.fixtures y.1).body = some b) := by
    rcases ha with ⟨a1, a2⟩ | ⟨a1, a2⟩
    · exact ⟨bodyX, a1, a2, .inl ex⟩
    · exact ⟨bodyY, a1, a2, .inr ey⟩
  obtain ⟨c, c1, c2, c3, -⟩ := step_notice hE hL hs hw (dhist_comp hs h) hid hc e ((live_iff_child hw).mpr hx) ((live_iff_child hw).mpr hy) hxy ho ha'
  refine ⟨c, c1, c3.mpr ?_, c2⟩
  obtain ⟨bx', q1, q2, -⟩ := bodyOf_child hw hx
  rw [ex] at q2; cases q2
  obtain ⟨by', k1, k2, -⟩ := bodyOf_child hw hy
  rw [ey] at k2; cases k2
  have rotx := hist_rot h.whist bodyX q1
  have roty := hist_rot h.whist bodyY k1
  generalize w'.g.contacts c = k at c2
  rcases c2 with ⟨rfl, rfl⟩ | ⟨rfl, rfl⟩
  · refine ⟨bodyX, bodyY, ex, ey, ?_⟩
    rw [if_neg (by rw [nx, ny]; simp)]
    dsimp only at sx sy
    rw [sx, sy]
    exact c132_overlap px py zx zy bx bY hz hr _ _ _ rotx roty ⟨u, v, hu, hv, huv⟩
  · refine ⟨bodyY, bodyX, ey, ex, ?_⟩
    rw [if_neg (by rw [nx, ny]; simp)]
    dsimp only at sx sy
    rw [sx, sy]
    exact c132_overlap py px zy zx bY bx (by rwa [add_comm]) (by rwa [add_comm]) _ _ _ roty rotx ⟨v, u, hv, hu, huv.symm⟩

end

/-! A box has sunk one metre into another, over the reals. -/
namespace RectEx
open EngineEx TouchEx
noncomputable def b4 : World ℝ := (fixed d3 1 hangBox).get (by rfl)
noncomputable def b5 : World ℝ := { b4 with continuous := false }
theorem b4_run : (Call.createFixture 1 hangBox).run exEngine.env d3 = some b4 :=
  show (World.createFixture d3 1 hangBox).map _ = some _ from by rw [fixed_eq rfl 1 hangBox rfl]; rfl
theorem b5_run : (Call.setContinuousPhysics false).run exEngine.env b4 = some b5 := rfl
theorem b5_tame : TameHist exEngine.env b5 := by
  have h1 : TameHist exEngine.env e1 := .call (.createBody (hangDef .static 0 0)) (.new ..) trivial trivial e1_run
  have h2 : TameHist exEngine.env e2 := .call (.createFixture 0 hangBox) h1 (by decide) trivial e2_run
  have h3 : TameHist exEngine.env d3 := .call (.createBody (hangDef .dynamic 1 0)) h2 trivial trivial d3_run
  have h4 : TameHist exEngine.env b4 := .call (.createFixture 1 hangBox) h3 (by decide) trivial b4_run
  exact .call (.setContinuousPhysics false) h4 trivial trivial b5_run
theorem b5_steady : SteadyHist exEngine.env b5 := by
  have h1 : SteadyHist exEngine.env e1 := .call (.createBody (hangDef .static 0 0)) (.new ..) trivial (fun _ _ _ h => by cases h) (fun d hd _ => by cases hd; exact ⟨rfl, rfl⟩) (fun h => by cases h) e1_run
  have h2 : SteadyHist exEngine.env e2 := .call (.createFixture 0 hangBox) h1 (by decide) (fun _ _ _ h => by cases h) (fun d hd _ => by cases hd) trivial e2_run
  have h3 : SteadyHist exEngine.env d3 := .call (.createBody (hangDef .dynamic 1 0)) h2 trivial (fun _ _ _ h => by cases h) (fun d hd ht => by cases hd; cases ht) (fun h => by cases h) d3_run
  have h4 : SteadyHist exEngine.env b4 := .call (.createFixture 1 hangBox) h3 (by decide) (fun _ _ _ h => by cases h) (fun d hd _ => by cases hd) trivial b4_run
  exact .call (.setContinuousPhysics false) h4 trivial (fun _ _ _ h => by cases h) (fun d hd _ => by cases hd) trivial b5_run
theorem b5_dhist : DHist exEngine.env (fun _ _ => False) b5 := by
  have h1 : DHist exEngine.env (fun _ _ => False) e1 := .call (.createBody (hangDef .static 0 0)) (.new ..) trivial (fun _ h => by cases h) e1_run
  have h2 : DHist exEngine.env (fun _ _ => False) e2 := .call (.createFixture 0 hangBox) h1 (by decide) (fun _ h => by cases h) e2_run
  have h3 : DHist exEngine.env (fun _ _ => False) d3 := .call (.createBody (hangDef .dynamic 1 0)) h2 trivial (fun _ h => by cases h) d3_run
  have h4 : DHist exEngine.env (fun _ _ => False) b4 := .call (.createFixture 1 hangBox) h3 (by decide) (fun _ h => by cases h) b4_run
  exact .call (.setContinuousPhysics false) h4 trivial (fun _ h => by cases h) b5_run
theorem b5_fine : ShapesFine b5 := by
  intro b hb f hf
  rcases List.mem_cons.mp (show b ∈ [1, 0] from hb) with rfl | hb
  · cases List.mem_singleton.mp (show f ∈ [1] from hf)
    exact e6_fine 0 (by decide) 0 (by decide)
  · cases List.mem_singleton.mp hb
    cases List.mem_singleton.mp (show f ∈ [0] from hf)
    exact e6_fine 0 (by decide) 0 (by decide)
theorem b5_edges : EdgesFixed b5 := by
  intro b hb hd f hf
  rcases List.mem_cons.mp (show b ∈ [1, 0] from hb) with rfl | hb
  · cases List.mem_singleton.mp (show f ∈ [1] from hf)
    exact .inr rfl
  · cases List.mem_singleton.mp hb
    cases hd
end RectEx
open EngineEx TouchEx RectEx
example : ∃ w', FilterSteady exEngine.env ∧ CallbacksTame exEngine.env ∧ LeavesBodies exEngine.env ∧ PostSolveLinks exEngine.env ∧ Seated exEngine ∧ MouseHasMass exEngine ∧
    DHist exEngine.env (fun _ _ => False) b5 ∧ SteadyHist exEngine.env b5 ∧ Searched exEngine.env (fun _ _ => False) b5 ∧ b5.continuous = false ∧
    b5.step exEngine.env (1/60) 8 3 = some w' ∧ Child b5 (1, 0) ∧ Child b5 (0, 0) ∧ (b5.g.fixtures 1).shape = .polygon (Polygon.default.setAsBox 1 1) ∧
    IsRectangle (Polygon.default.setAsBox 1 1 : Polygon ℝ) (2 * (1 + 1)) ∧ MayCollide exEngine.env (fun _ _ => False) b5 1 0 ∧ b5.g.contactList = [] ∧
    HasTouching w' (1, 0) (0, 0) := by
  obtain ⟨q1, q2, q3, q4⟩ := exEngine_quiet
  obtain ⟨s1, s2⟩ := exEngine_seated
  have h1 : FilterSteady exEngine.env := c90_default_filter_steady rfl
  obtain ⟨w', e, -⟩ := c110_steps b5_tame q1 q2 q3 s1 b5_edges b5_fine (by decide) [(1/60, 8, 3)]
  have e : b5.step exEngine.env (1/60) 8 3 = some w' := by
    unfold steps at e
    rw [List.foldlM_cons, Option.bind_eq_bind, Option.bind_eq_some_iff] at e
    obtain ⟨v, e1, e2⟩ := e
    cases e2
    exact e1
  have k1 : Child b5 (1, 0) := ⟨1, by decide, rfl, by decide, 1, rfl, by decide⟩
  have k2 : Child b5 (0, 0) := ⟨0, by decide, rfl, by decide, 1, rfl, by decide⟩
  have k3 : MayCollide exEngine.env (fun _ _ => False) b5 1 0 := ⟨1, 0, rfl, rfl, by decide, by decide, by decide, rfl, rfl, .inl rfl, fun j hj => (by cases hj), ⟨id, id⟩,
    show filterShouldCollide ⟨1, 0xFFFF, 0⟩ ⟨1, 0xFFFF, 0⟩ = true by decide, show filterShouldCollide ⟨1, 0xFFFF, 0⟩ ⟨1, 0xFFFF, 0⟩ = true by decide⟩
  have k4 : IsRectangle (Polygon.default.setAsBox 1 1 : Polygon ℝ) (2 * (1 + 1)) :=
    (c132_box_rectangle _ 1 1 ⟨0, 0⟩ 0 (by norm_num [epsilon]) (by norm_num [epsilon])).1
  have k5 : ∃ u v, Hull (Polygon.default.setAsBox 1 1 : Polygon ℝ).verts u ∧ Hull (Polygon.default.setAsBox 1 1 : Polygon ℝ).verts v ∧
      place (b5.phys 1).xf u = place (b5.phys 0).xf v := by
    refine ⟨onLine ⟨1, -1⟩ ⟨1, 1⟩ (1 / 2), ⟨1, 1⟩, .between (.vertex (by simp [Polygon.setAsBox, boxVerts])) (.vertex (by simp [Polygon.setAsBox, boxVerts])) (by norm_num) (by norm_num),
      .vertex (by simp [Polygon.setAsBox, boxVerts]), ?_⟩
    show place ⟨⟨0, 1⟩, Rot.ofAngle 0⟩ _ = place ⟨⟨0, 0⟩, Rot.ofAngle 0⟩ _
    norm_num [onLine, place, Rot.ofAngle, Elem.sin, Elem.cos]
  have hpr : (linearSlop : ℝ) ≤ polygonRadius + polygonRadius := by norm_num [polygonRadius, linearSlop]
  have hp0 : (0 : ℝ) ≤ polygonRadius := by norm_num [polygonRadius, linearSlop]
  exact ⟨w', h1, q2, q4, q3, s1, s2, b5_dhist, b5_steady, .inl rfl, rfl, e, k1, k2, rfl, k4, k3, rfl,
    c132_noticed h1 q2 q4 q3 s1 s2 b5_dhist b5_steady (.inl rfl) (.inl rfl) e k1 k2 rfl rfl k4 k4 (by norm_num [maxFlt]) hp0 hp0 hpr rfl rfl k3 rfl rfl k5
      (.inl ⟨rfl, by decide⟩)⟩
end B2.Props
