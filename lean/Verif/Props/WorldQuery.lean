import Verif.Proofs.WorldQuery
import Verif.Proofs.WorldExample
import Verif.Proofs.CollideSound
import Verif.Props.Collide

/-!
# What is found where

The boxes the broad-phase keeps, and the queries of a world that use them.
-/
namespace B2.Props
set_option linter.unusedSectionVars false
open B2 Spec World

section
variable {F : Type} [Field F] [LinearOrder F] [IsStrictOrderedRing F] [Elem F]

theorem hist_rot [ElemLaws F] {env : Env F} {w : World F} (h : WHist env w) : ∀ b ∈ w.g.bodyList, IsRot (w.phys b).xf.q := by
  intro b hb
  have h1 := (whist_stable consistent_stable h b hb).rotation
  unfold IsRot
  rw [h1]
  have := ElemLaws.sin_cos (F := F) (w.phys b).sweep.a
  simp only [Rot.ofAngle]
  linarith

/-! ## C105 -/

/-- In every reachable world each child of a fixture of an enabled body has a fat box and a box, and the fat box covers the box. -/
theorem c105_boxes {env : Env F} {w : World F} (hE : LeavesBodies env) (hP : PostSolveLinks env) (hT : ToiForward env) (hH : HeavyStay env) (h : SteadyHist env w) :
    ∀ c, Child w c → ∃ fat box, FatOf w c fat ∧ BoxOf w c box ∧ Covers fat box := by
  intro c hc
  have hw := (whist_inv h.plain.hist).toWInv
  obtain ⟨b, h1, h2, -, -⟩ := bodyOf_child hw hc
  have hl := (live_iff_child hw).mpr hc
  obtain ⟨gh, buf, rep, pi⟩ := hw.prox
  obtain ⟨id, p, -, a2, a3⟩ := pi.has c.1 c.2 hl
  have a3 : p.data = c := a3
  have hf : FatOf w c p.fat := a3 ▸ (fatOf_of pi a2).mpr rfl
  have hc' := hc
  obtain ⟨_, _, _, _, n, hn, hi⟩ := hc'
  obtain ⟨box, hb⟩ := c49_total _ c.2 n (w.phys b).xf hn hi
  exact ⟨_, box, hf, ⟨b, h2, hb⟩, covered_child hw (h.covered hE hP hT hH).1 hc hf ⟨b, h2, hb⟩⟩

/-! ## C106 -/

/-- A query reports children whose fat box meets the given box, each once, until the callback answers false; every child whose own box
meets the given box is among them. -/
theorem c106_query {env : Env F} {w : World F} (hE : LeavesBodies env) (hP : PostSolveLinks env) (hT : ToiForward env) (hH : HeavyStay env) (h : SteadyHist env w) (box : AABB F) :
    ∃ cs : List (Nat × Nat), cs.Nodup ∧ (∀ c, c ∈ cs ↔ Child w c ∧ ∃ fat, FatOf w c fat ∧ Meets fat box) ∧
      (∀ c b, Child w c → BoxOf w c b → Meets b box → c ∈ cs) ∧
      ∀ (S : Type) (cb : S → Nat → S × Bool) (s : S), w.queryAabb cb box s = some (callUntil cb s (cs.map (·.1))) := by
  have hw := (whist_inv h.plain.hist).toWInv
  obtain ⟨cs, h1, h2, h3⟩ := queryAabb_spec hw box
  refine ⟨cs, h1, h2, fun c b hc hb hm => ?_, h3⟩
  obtain ⟨fat, b', k1, k2, k3⟩ := c105_boxes hE hP hT hH h c hc
  have : b' = b := by
    obtain ⟨x, x1, x2⟩ := k2
    obtain ⟨y, y1, y2⟩ := hb
    rw [x1] at y1
    cases y1
    rw [x2] at y2
    exact Option.some.inj y2
  subst this
  exact (h2 c).mpr ⟨hc, fat, k1, k3.1.trans hm.1, hm.2.1.trans k3.2.2.1, k3.2.1.trans hm.2.2.1, hm.2.2.2.trans k3.2.2.2⟩

/-- In any reachable world, whatever has happened in it, a query reports exactly the children whose fat box meets the given box. -/
theorem c106_fat {env : Env F} {w : World F} (h : WHist env w) (box : AABB F) :
    ∃ cs : List (Nat × Nat), cs.Nodup ∧ (∀ c, c ∈ cs ↔ Child w c ∧ ∃ fat, FatOf w c fat ∧ Meets fat box) ∧
      ∀ (S : Type) (cb : S → Nat → S × Bool) (s : S), w.queryAabb cb box s = some (callUntil cb s (cs.map (·.1))) :=
  queryAabb_spec (whist_inv h).toWInv box

/-! ## C107 -/
variable [ElemLaws F]

/-- A ray cast visits all children in some order and reports those hit within the current fraction. -/
theorem c107_cast {env : Env F} {w : World F} (hE : LeavesBodies env) (hP : PostSolveLinks env) (hT : ToiForward env) (hH : HeavyStay env) (h : SteadyHist env w)
    (hgood : ∀ c, Child w c → GoodShape (w.g.fixtures c.1).shape) :
    ∃ cs : List (Nat × Nat), cs.Nodup ∧ (∀ c, c ∈ cs ↔ Child w c) ∧
      ∀ (S : Type) (cb : S → Nat → Vec2 F → Vec2 F → F → S × F) (p1 p2 : Vec2 F) (s : S), p1 ≠ p2 → w.rayCast cb p1 p2 s = some (castHits w cb p1 p2 1 s cs) :=
  rayCast_world (whist_inv h.plain.hist).toWInv (h.covered hE hP hT hH).1 (hist_rot h.plain.hist) hgood

/-- A callback that answers 1 or a negative number is told of each child that is hit, once, with the hit point, normal and fraction. -/
theorem c107_all {env : Env F} {w : World F} (hE : LeavesBodies env) (hP : PostSolveLinks env) (hT : ToiForward env) (hH : HeavyStay env) (h : SteadyHist env w)
    (hgood : ∀ c, Child w c → GoodShape (w.g.fixtures c.1).shape) {p1 p2 : Vec2 F} (hp : p1 ≠ p2) :
    ∃ hits : List ((Nat × Nat) × RayOut F), (hits.map (·.1)).Nodup ∧ (∀ x, x ∈ hits ↔ Child w x.1 ∧ Struck w p1 p2 1 x.1 x.2) ∧
      ∀ (S : Type) (cb : S → Nat → Vec2 F → Vec2 F → F → S × F) (s : S), (∀ s f p n r, (cb s f p n r).2 = 1 ∨ (cb s f p n r).2 < 0) →
        w.rayCast cb p1 p2 s = some (hits.foldl (fun s x => (cb s x.1.1 (onLine p1 p2 x.2.fraction) x.2.normal x.2.fraction).1) s) := by
  obtain ⟨cs, h1, h2, h3⟩ := c107_cast hE hP hT hH h hgood
  obtain ⟨hits, k1, k2, k3⟩ := castHits_all (w := w) (p1 := p1) (p2 := p2) cs h1
  exact ⟨hits, k1, fun x => by rw [k2, h2], fun S cb s hcb => by rw [h3 S cb p1 p2 s hp, k3 S cb s hcb]⟩

/-- A callback that answers the fraction of the hit is last told of a nearest hit, and of none only if nothing is hit. -/
theorem c107_closest {env : Env F} {w : World F} (hE : LeavesBodies env) (hP : PostSolveLinks env) (hT : ToiForward env) (hH : HeavyStay env) (h : SteadyHist env w)
    (hgood : ∀ c, Child w c → GoodShape (w.g.fixtures c.1).shape) {p1 p2 : Vec2 F} (hp : p1 ≠ p2) :
    ∃ r : Option (Nat × Vec2 F × Vec2 F × F), w.rayCast (fun _ f p n r => (some (f, p, n, r), r)) p1 p2 none = some r ∧
      ((r = none ∧ ∀ c out, Child w c → ¬ Struck w p1 p2 1 c out) ∨
        ∃ c out, Child w c ∧ Struck w p1 p2 1 c out ∧ r = some (c.1, onLine p1 p2 out.fraction, out.normal, out.fraction) ∧
          ∀ c' out', Child w c' → Struck w p1 p2 1 c' out' → out.fraction ≤ out'.fraction) := by
  have hw := (whist_inv h.plain.hist).toWInv
  have hrot := hist_rot h.plain.hist
  obtain ⟨cs, h1, h2, h3⟩ := c107_cast hE hP hT hH h hgood
  refine ⟨_, h3 _ _ p1 p2 none hp, ?_⟩
  rcases castHits_closest (w := w) (p1 := p1) (p2 := p2) (fun c f g out hc hs hg => struck_shorten hw hrot hgood hc hs hg)
    (fun c f out hc hs => struck_range hw hrot hgood hc hs) cs (fun c hc => (h2 c).mp hc) 1 none with ⟨k1, k2⟩ | ⟨c, hc, out, k1, k2, k3⟩
  · exact .inl ⟨k1, fun c out hc => k2 c ((h2 c).mpr hc) out⟩
  · exact .inr ⟨c, out, (h2 c).mp hc, k1, k2, fun c' out' hc' => k3 c' ((h2 c').mpr hc') out'⟩

/-- A ray of no length is not cast: the assertion fails. -/
theorem c107_short (w : World F) {S : Type} (cb : S → Nat → Vec2 F → Vec2 F → F → S × F) (p : Vec2 F) (s : S) : w.rayCast cb p p s = none := by
  unfold World.rayCast Tree.rayCast
  simp [Vec2.lengthSquared]

/-! ## C108 -/

theorem hull_place {xf : Xf F} {vs : List (Vec2 F)} {y : Vec2 F} (h : Hull vs y) : Hull (vs.map (place xf)) (place xf y) := by
  induction h with
  | vertex hv => exact .vertex (List.mem_map_of_mem hv)
  | between _ _ h0 h1 ih1 ih2 =>
    rw [place_onLine]
    exact .between ih1 ih2 h0 h1

/-- A fixture answers true for exactly the points inside its shape where its body stands. -/
theorem c108_inside {env : Env F} {w : World F} (h : WHist env w) {b f : Nat} (hb : b ∈ w.g.bodyList) (hf : f ∈ (w.g.bodies b).fixtures)
    (hgood : GoodShape (w.g.fixtures f).shape) (q : Vec2 F) :
    ∃ ans, w.testPoint f q = some ans ∧ (ans = true ↔ Inside (w.g.fixtures f).shape (w.phys b).xf q) := by
  have hw := (whist_inv h).toWInv
  have hbf := ((hw.body.fixtures b f).mp hf).2
  have hrot := hist_rot h b hb
  refine ⟨_, by unfold World.testPoint; rw [show w.bodyOf f = some b from hbf]; rfl, ?_⟩
  generalize (w.phys b).xf = xf at *
  cases hs : (w.g.fixtures f).shape with
  | circle c =>
    simp only [Shape.testPoint, Circle.testPoint, Inside, decide_eq_true_eq]
    have : dot (q - (xf.p + xf.q.mulV c.p)) (q - (xf.p + xf.q.mulV c.p)) = dist2 q (place xf c.p) := by
      simp only [dot, dist2, place, Rot.mulV, Vec2.sub_x, Vec2.sub_y, Vec2.add_x, Vec2.add_y]
      ring
    rw [this]
  | edge e => simp [Shape.testPoint, Inside]
  | chain c => simp [Shape.testPoint, Inside]
  | polygon p =>
    rw [hs] at hgood
    have hp := hgood.1
    have key : p.testPoint xf q = true ↔ InPoly p (unplace xf q) := by
      unfold Polygon.testPoint
      simp only [List.all_eq_true, Bool.not_eq_true', decide_eq_false_iff_not, not_lt, InPoly, gt_iff_lt]
      exact Iff.rfl
    simp only [Shape.testPoint, Inside, key]
    constructor
    · intro hi
      rw [← place_unplace hrot q]
      exact hull_place (inPoly_hull hp hi)
    · intro hi vn hvn
      have hu := hull_unplace hrot hi
      obtain ⟨i, hi1, hi2⟩ := List.mem_iff_getElem.mp hvn
      have hlt : i < p.verts.length := by rw [List.length_zip] at hi1; omega
      have hlt' : i < p.normals.length := by rw [hp.len]; exact hlt
      have := hp.below hlt hu
      unfold faceHeight at this
      simp only [psGet, List.getElem?_eq_getElem hlt, List.getElem?_eq_getElem hlt', Option.getD_some, dot, Vec2.sub_x, Vec2.sub_y] at this
      rw [List.getElem_zip] at hi2
      rw [← hi2]
      exact this

/-- A query with a box around a point reports every fixture of an enabled body that has the point inside. -/
theorem c108_found {env : Env F} {w : World F} (hE : LeavesBodies env) (hP : PostSolveLinks env) (hT : ToiForward env) (hH : HeavyStay env) (h : SteadyHist env w) (box : AABB F) {q : Vec2 F} (hq : InBox box q) :
    ∃ fs : List Nat, (∀ (S : Type) (cb : S → Nat → S × Bool) (s : S), w.queryAabb cb box s = some (callUntil cb s fs)) ∧
      ∀ b ∈ w.g.bodyList, (w.g.bodies b).enabled = true → ∀ f ∈ (w.g.bodies b).fixtures, GoodShape (w.g.fixtures f).shape → Inside (w.g.fixtures f).shape (w.phys b).xf q → f ∈ fs := by
  have hw := (whist_inv h.plain.hist).toWInv
  obtain ⟨cs, -, -, h3, h4⟩ := c106_query hE hP hT hH h box
  refine ⟨_, h4, fun b hb hen f hf hgood hin => ?_⟩
  have hbf := ((hw.body.fixtures b f).mp hf).2
  have hn : (w.g.fixtures f).shape.childCount = some 1 := by
    cases hs : (w.g.fixtures f).shape <;> rw [hs] at hin <;> first | rfl | exact hin.elim
  have hc : Child w (f, 0) := ⟨b, hb, hen, hf, 1, hn, Nat.one_pos⟩
  obtain ⟨bx, hbx⟩ := c49_total _ 0 1 (w.phys b).xf hn Nat.one_pos
  have hr : 0 ≤ skin (w.g.fixtures f).shape := by
    cases hs : (w.g.fixtures f).shape <;> rw [hs] at hgood <;> first | exact hgood | exact hgood.2
  have hpt : ShapePoint (w.g.fixtures f).shape 0 (w.phys b).xf q := by
    have hrot := hist_rot h.plain.hist b hb
    cases hs : (w.g.fixtures f).shape with
    | circle c =>
      rw [hs] at hin
      refine ⟨c.p, .vertex (by simp [childPoints]), ?_⟩
      have : dist2 (place (w.phys b).xf c.p) q = dist2 q (place (w.phys b).xf c.p) := by simp only [dist2]; ring
      rw [this]
      exact hin
    | polygon p =>
      rw [hs] at hin
      refine ⟨unplace (w.phys b).xf q, hull_unplace hrot hin, ?_⟩
      rw [place_unplace hrot]
      simp only [dist2, sub_self, mul_zero, add_zero]
      exact mul_self_nonneg _
    | edge e => rw [hs] at hin; exact hin.elim
    | chain c => rw [hs] at hin; exact hin.elim
  have hbq := c49_contains _ 0 1 _ bx hr hn Nat.one_pos hbx q hpt
  exact List.mem_map.mpr ⟨(f, 0), h3 _ bx hc ⟨b, hbf, hbx⟩ ⟨hbq.1.trans hq.2.1, hq.1.trans hbq.2.1, hbq.2.2.1.trans hq.2.2.2, hq.2.2.1.trans hbq.2.2.2⟩, rfl⟩
end

/-! ### A world over the reals: a ball at the origin and a box at (5, 0) -/

noncomputable section
private def rEnv : Env ℝ where
  listener := true
  destruction := true
  react := fun _ _ => []
  filter := none
  evaluate := fun _ _ => some ⟨[⟨⟨0, 0⟩, 0, 0, ⟨⟨0, 0, 0, 0⟩⟩⟩], ⟨1, 0⟩, ⟨0, 0⟩, .circles⟩
  overlap := fun _ _ => some true
  toi := fun _ _ => some (false, 1)
  solvable := fun _ _ _ => true
  toiSolvable := fun _ _ _ => true
  solveVel := fun _ _ _ l i => match l[i]? with | some s => (s.v, s.w) | none => (⟨0, 0⟩, 0)
  impulses := fun _ _ _ _ => []
  solvePos := fun _ _ _ l => (fun i => match l[i]? with | some s => (s.c, s.a) | none => (⟨0, 0⟩, 0), true)
  toiPos := fun w isl _ i => match isl.bodies[i]? with | some b => ((w.phys b).sweep.c, (w.phys b).sweep.a) | none => (⟨0, 0⟩, 0)
  toiVel := fun _ _ _ l i => match l[i]? with | some s => (s.v, s.w) | none => (⟨0, 0⟩, 0)
private def rBody (x : ℝ) : BodyDef ℝ := ⟨.static, ⟨x, 0⟩, 0, ⟨0, 0⟩, 0, 0, 0, true, true, false, false, true, 1⟩
private def rBall : FixDef ℝ := ⟨.circle ⟨1, ⟨0, 0⟩⟩, ⟨0, 1, 0, 1, false, ⟨1, 0xFFFF, 0⟩⟩⟩
private def rBox : FixDef ℝ := ⟨.polygon (Polygon.default.setAsBox 1 1), ⟨0, 1, 0, 1, false, ⟨1, 0xFFFF, 0⟩⟩⟩
private def r0 : World ℝ := World.new ⟨0, -10⟩ ⟨false, false, false, false, false, 0, ⟨⟨0, 0⟩, ⟨0, 0⟩⟩, ⟨⟨0, 0⟩, ⟨0, 0⟩, ⟨0, 0⟩, 0, 0, 0⟩, ⟨0, 0⟩, 0, ⟨0, 0⟩, 0, 0, 0, 0, 0, 0, 0, 0, 0⟩
  (.circle ⟨0, ⟨0, 0⟩⟩) ⟨0, 0, 0, 0, false, ⟨0, 0, 0⟩⟩ ⟨false, false, false, false, false, ⟨[], ⟨0, 0⟩, ⟨0, 0⟩, .circles⟩, 0, 0, 0, 0, 0, 0⟩ ⟨⟨0, 0⟩, ⟨0, 0⟩⟩


/-- What `createBody` makes of `rBody`. -/
private def withBody (w : World ℝ) (x : ℝ) : World ℝ := { w with
      g := { w.g with bodies := upd w.g.bodies w.g.nextBody ⟨.static, true, [], 0, [], []⟩, nextBody := w.g.nextBody + 1
                      bodyList := w.g.nextBody :: w.g.bodyList, bodyCount := w.g.bodyCount + 1 }
      phys := upd w.phys w.g.nextBody
       { awake := false, island := false, autoSleep := true, bullet := false, fixedRotation := false, islandIndex := -1
         xf := ⟨⟨x, 0⟩, Rot.ofAngle 0⟩, sweep := ⟨⟨0, 0⟩, ⟨x, 0⟩, ⟨x, 0⟩, 0, 0, 0⟩, v := ⟨0, 0⟩, w := 0
         force := ⟨0, 0⟩, torque := 0, mass := 0, invMass := 0, i := 0, invI := 0, linearDamping := 0, angularDamping := 0, gravityScale := 1, sleepTime := 0 } }
private theorem withBody_eq (w : World ℝ) (hl : w.locked = false) (x : ℝ) : w.createBody (rBody x) = some (withBody w x, w.g.nextBody) := by
  unfold createBody
  rw [if_neg (by rw [hl]; decide), show Phys.new (rBody x) = some _ from if_pos ⟨le_refl _, le_refl _⟩]
  rfl
/-- `createFixture` without the update of the mass. -/
private def fixed (w : World ℝ) (b : Nat) (d : FixDef ℝ) : Option (World ℝ) := do
    let n ← d.shape.childCount
    let f := w.g.nextFixture
    let w := { w with
      g := { w.g with fixtures := upd w.g.fixtures f ⟨some b, d.shape, List.replicate n ⟨none, 0, none⟩, 0⟩
                      nextFixture := f + 1 }
      fattr := upd w.fattr f d.attr }
    let w ← (if (w.g.bodies b).enabled then w.createProxies f (w.phys b).xf else some w)
    let w := w.setBody b { w.g.bodies b with
      fixtures := f :: (w.g.bodies b).fixtures, fixtureCount := (w.g.bodies b).fixtureCount + 1 }
    return { w with newContacts := true }
private theorem fixed_eq {w : World ℝ} (hl : w.locked = false) (b : Nat) (d : FixDef ℝ) (hd : d.attr.density = 0) : w.createFixture b d = (fixed w b d).map fun v => (v, w.g.nextFixture) := by
  unfold createFixture fixed
  rw [if_neg (by rw [hl]; decide)]
  simp only [hd, gt_iff_lt, lt_irrefl, if_false, Option.bind_eq_bind, Option.bind_some, Option.map_bind]
  congr 1
  funext n
  simp only [Function.comp, Option.map_bind]
  congr 1
private def r1 : World ℝ := withBody r0 0
private def r2 : World ℝ := (fixed r1 0 rBall).get (by rfl)
private def r3 : World ℝ := withBody r2 5
private def r4 : World ℝ := (fixed r3 1 rBox).get (by rfl)
private theorem r4_hist : SteadyHist rEnv r4 := by
  have h1 : SteadyHist rEnv r1 := .call (.createBody (rBody 0)) (.new ..) trivial (fun _ _ _ h => by cases h) (fun d hd _ => by cases hd; exact ⟨rfl, rfl⟩) (fun h => by cases h)
    (show (World.createBody r0 (rBody 0)).map _ = some _ from by rw [withBody_eq r0 rfl]; rfl)
  have h2 : SteadyHist rEnv r2 := .call (.createFixture 0 rBall) h1 (by decide) (fun _ _ _ h => by cases h) (fun d hd _ => by cases hd) trivial
    (show (World.createFixture r1 0 rBall).map _ = some _ from by rw [fixed_eq rfl 0 rBall rfl]; rfl)
  have h3 : SteadyHist rEnv r3 := .call (.createBody (rBody 5)) h2 trivial (fun _ _ _ h => by cases h) (fun d hd _ => by cases hd; exact ⟨rfl, rfl⟩) (fun h => by cases h)
    (show (World.createBody r2 (rBody 5)).map _ = some _ from by rw [withBody_eq r2 rfl]; rfl)
  exact .call (.createFixture 1 rBox) h3 (by decide) (fun _ _ _ h => by cases h) (fun d hd _ => by cases hd) trivial
    (show (World.createFixture r3 1 rBox).map _ = some _ from by rw [fixed_eq rfl 1 rBox rfl]; rfl)
private theorem r4_child (c : Nat × Nat) : Child r4 c ↔ c = (0, 0) ∨ c = (1, 0) := by
  constructor
  · rintro ⟨b, hb, -, hf, n, hn, hi⟩
    rcases List.mem_cons.mp (show b ∈ [1, 0] from hb) with rfl | hb
    · have := List.mem_singleton.mp (show c.1 ∈ [1] from hf)
      rw [this] at hn
      cases hn
      exact .inr (Prod.ext this (by omega))
    · cases List.mem_singleton.mp hb
      have := List.mem_singleton.mp (show c.1 ∈ [0] from hf)
      rw [this] at hn
      cases hn
      exact .inl (Prod.ext this (by omega))
  · rintro (rfl | rfl)
    · exact ⟨0, (show 0 ∈ [1, 0] by decide), rfl, (show 0 ∈ [0] by decide), 1, rfl, Nat.one_pos⟩
    · exact ⟨1, (show 1 ∈ [1, 0] by decide), rfl, (show 1 ∈ [1] by decide), 1, rfl, Nat.one_pos⟩
private theorem r4_shapes : (r4.g.fixtures 0).shape = rBall.shape ∧ (r4.g.fixtures 1).shape = rBox.shape ∧ (r4.phys 0).xf.p = ⟨0, 0⟩ ∧ (r4.phys 1).xf.p = ⟨5, 0⟩ := ⟨rfl, rfl, rfl, rfl⟩

private theorem rEnv_calm : LeavesBodies rEnv ∧ ToiForward rEnv := ⟨fun w k op h => (by cases h), fun _ _ _ h => (by cases h; exact zero_le_one)⟩
private theorem rEnv_heavy : HeavyStay rEnv where
  velocity _ _ _ states i _ s _ _ hs _ _ := by
    show (match states[i]? with | some s => (s.v, s.w) | none => (⟨0, 0⟩, 0)) = _
    rw [hs]
  position _ _ _ states i _ s _ _ hs _ _ := by
    show (match states[i]? with | some s => (s.c, s.a) | none => (⟨0, 0⟩, 0)) = _
    rw [hs]
  toiVelocity _ _ _ states i _ s _ _ hs _ _ := by
    show (match states[i]? with | some s => (s.v, s.w) | none => (⟨0, 0⟩, 0)) = _
    rw [hs]
  toiPosition w isl _ i b _ hb _ _ := by
    show (match isl.bodies[i]? with | some b => ((w.phys b).sweep.c, (w.phys b).sweep.a) | none => (⟨0, 0⟩, 0)) = _
    rw [hb]
private theorem r4_good : ∀ c, Child r4 c → GoodShape (r4.g.fixtures c.1).shape := by
  intro c hc
  rcases (r4_child c).mp hc with rfl | rfl
  · rw [r4_shapes.1]; exact zero_le_one
  · rw [r4_shapes.2.1]
    exact ⟨proper_box _ 1 1 (by norm_num [epsilon]) (by norm_num [epsilon]), by simp only [Polygon.setAsBox, Polygon.default, polygonRadius, linearSlop]; norm_num⟩

example : LeavesBodies rEnv ∧ ToiForward rEnv ∧ HeavyStay rEnv ∧ SteadyHist rEnv r4 ∧ (∀ c, Child r4 c → GoodShape (r4.g.fixtures c.1).shape) ∧
    Child r4 (0, 0) ∧ Child r4 (1, 0) :=
  ⟨rEnv_calm.1, rEnv_calm.2, rEnv_heavy, r4_hist, r4_good, (r4_child _).mpr (.inl rfl), (r4_child _).mpr (.inr rfl)⟩
/-- A ray along the x-axis hits the ball. -/
example : (⟨-10, 0⟩ : Vec2 ℝ) ≠ ⟨10, 0⟩ ∧ ∃ out, Struck r4 ⟨-10, 0⟩ ⟨10, 0⟩ 1 (0, 0) out := by
  refine ⟨by simp only [ne_eq, Vec2.mk.injEq, and_true]; norm_num, ?_⟩
  have hx : (r4.phys 0).xf = ⟨⟨0, 0⟩, Rot.ofAngle 0⟩ := rfl
  obtain ⟨out, ho⟩ := c51_complete (⟨1, ⟨0, 0⟩⟩ : Circle ℝ) (r4.phys 0).xf ⟨⟨-10, 0⟩, ⟨10, 0⟩, 1⟩ (1 / 2) (by norm_num [epsilon, dist2])
    (by rw [hx]; norm_num [dist2, place]) (by norm_num) (by norm_num) (by rw [hx]; norm_num [dist2, place, onLine])
  exact ⟨out, 0, rfl, congrArg some ho⟩
/-- The box has the point (11/2, 1/2) inside. -/
example : 1 ∈ r4.g.bodyList ∧ 1 ∈ (r4.g.bodies 1).fixtures ∧ (r4.g.bodies 1).enabled = true ∧ Inside (r4.g.fixtures 1).shape (r4.phys 1).xf ⟨11/2, 1/2⟩ := by
  refine ⟨(show 1 ∈ [1, 0] by decide), (show 1 ∈ [1] by decide), rfl, ?_⟩
  obtain ⟨ans, h1, h2⟩ := c108_inside (b := 1) (f := 1) r4_hist.plain.hist (show 1 ∈ [1, 0] by decide) (show 1 ∈ [1] by decide) (r4_good (1, 0) ((r4_child _).mpr (.inr rfl))) ⟨11/2, 1/2⟩
  refine h2.mp ?_
  have h3 : r4.testPoint 1 ⟨11/2, 1/2⟩ = some ((Polygon.default.setAsBox 1 1 : Polygon ℝ).testPoint ⟨⟨5, 0⟩, Rot.ofAngle 0⟩ ⟨11/2, 1/2⟩) := rfl
  rw [h3] at h1
  rw [← Option.some.inj h1]
  simp only [Polygon.testPoint, Polygon.setAsBox, boxVerts, boxNormals, Rot.ofAngle, ElemLaws.sin_zero, ElemLaws.cos_zero]
  norm_num [Rot.mulTV, dot]
end

section
variable {F : Type} [Field F] [LinearOrder F] [IsStrictOrderedRing F] [Elem F]

/-- `Steady`, evaluated. -/
private def steady (w : World F) : Call F → Bool
  | .createBody d => decide (d.type = .kinematic → d.awake = true) && decide (d.type = .static → d.linearVelocity.x = 0 ∧ d.linearVelocity.y = 0 ∧ d.angularVelocity = 0)
  | .user (.body b (.setAwake false)) => decide (w.typeOf b ≠ .kinematic)
  | .step dt _ _ => w.g.bodyList.all fun b => decide (w.typeOf b = .kinematic → (w.phys b).awake = true → (w.g.bodies b).enabled = true → 0 < dt →
      (dot (dt * (w.phys b).v) (dt * (w.phys b).v) ≤ maxTranslation * maxTranslation ∧ dt * (w.phys b).w * (dt * (w.phys b).w) ≤ maxRotation * maxRotation) ∧
      linearSleepTolerance * linearSleepTolerance < dot (w.phys b).v (w.phys b).v)
  | _ => true

private theorem steady_spec {w : World F} {c : Call F} (h : steady w c = true) : Steady w c ∧ (∀ d, c = .createBody d → d.type = .static → d.linearVelocity = ⟨0, 0⟩ ∧ d.angularVelocity = 0) := by
  unfold steady at h
  split at h
  · simp only [Bool.and_eq_true, decide_eq_true_eq] at h
    refine ⟨h.1, fun d hd ht => ?_⟩
    cases hd
    exact ⟨Vec2.ext_iff.mpr ⟨(h.2 ht).1, (h.2 ht).2.1⟩, (h.2 ht).2.2⟩
  · exact ⟨by simpa [Spec.Steady] using h, fun d hd => by cases hd⟩
  · refine ⟨fun b hb h1 h2 h3 h4 => ?_, fun d hd => by cases hd⟩
    obtain ⟨k1, k2⟩ := of_decide_eq_true (List.all_eq_true.mp h b hb) h1 h2 h3 h4
    exact ⟨k1, fun _ hs => absurd hs.2.2 (not_le.mpr k2)⟩
  · rename_i h1 h2 h3
    refine ⟨?_, fun d hd => absurd hd (h1 d)⟩
    unfold Spec.Steady
    split
    · exact absurd rfl (h1 _)
    · exact absurd rfl (h2 _)
    · exact absurd rfl (h3 _ _ _)
    · trivial

def runSteady (env : Env F) : List (Call F) → World F → Option (World F)
  | [], w => some w
  | c :: cs, w => if c.Ok w ∧ w.subStepping = false ∧ steady w c = true then (c.run env w).bind (runSteady env cs) else none

theorem runSteady_hist {env : Env F} : ∀ (cs : List (Call F)) {w w' : World F}, SteadyHist env w → runSteady env cs w = some w' → SteadyHist env w' := by
  intro cs
  induction cs with
  | nil => intro w w' h e; cases e; exact h
  | cons c cs ih =>
    intro w w' h e
    unfold runSteady at e
    split at e
    · rename_i hok
      rw [Option.bind_eq_some_iff] at e
      obtain ⟨v, e1, e2⟩ := e
      obtain ⟨k1, k2⟩ := steady_spec hok.2.2
      exact ih (h.call c hok.1 (fun _ _ _ _ => hok.2.1) k2 k1 e1) e2
    · cases e
end

attribute [local instance] exElem

/-- A ball falls on a fixed one, a kinematic one moves through both; two steps. -/
private def qCalls : List (Call ℚ) :=
  [.createBody (Ex.body .dynamic 0 1), .createFixture 0 Ex.ball, .createBody (Ex.body .static 0 0), .createFixture 1 Ex.ball,
   .createBody { Ex.body .kinematic 3 0 with linearVelocity := ⟨-10, 2⟩, angularVelocity := 3 }, .createFixture 2 Ex.ball, .step (1/20) 8 3, .step (1/20) 8 3]
private def qWorld : World ℚ := (runSteady Ex.env qCalls Ex.w0).get (by decide +kernel)

/-- The kinematic body has moved by 1 to the left in two steps. -/
example : SteadyHist Ex.env qWorld ∧ LeavesBodies Ex.env ∧ ToiForward Ex.env ∧ (qWorld.phys 2).xf.p.x = 2 ∧ 2 ∈ qWorld.g.bodyList ∧
    (qWorld.g.bodies 2).fixtures = [2] ∧ (qWorld.g.bodies 2).enabled = true :=
  ⟨runSteady_hist qCalls (.new ..) (by rw [qWorld, Option.some_get]; rfl), fun w k op h => (by cases h), fun _ _ _ h => (by cases h; exact zero_le_one), by decide +kernel, by decide +kernel, by decide +kernel, by decide +kernel⟩
/-- A query for the box around (4/5, 0) finds the three balls. -/
example : qWorld.queryAabb (fun s f => (f :: s, true)) ⟨⟨4/5, 0⟩, ⟨1, 1/10⟩⟩ [] = some [0, 1, 2] := by decide +kernel

end B2.Props
