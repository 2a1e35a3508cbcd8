import Verif.Proofs.RopeRest
import Verif.Proofs.RopeStuck
import Mathlib.Tactic.NormNum

/-!
# Properties of ropes: C91 to C94
-/
namespace B2.Props
open B2 B2.Spec

section
variable {F : Type} [Field F] [LinearOrder F] [IsStrictOrderedRing F] [Elem F] [RopeElem F]

/-- C91: after every step, whatever the models, the tuning, the number of iterations and the history of the rope, a vertex made
without mass is exactly at its place relative to the position given to the step. -/
theorem c91_pinned (d : RopeDef F) (r r' : Rope F) (run : RopeRun d r) (dt : F) (h0 : dt ≠ 0) (n : Nat) (position : Vec2 F)
    (e : r.step dt n position = some r') (i : Nat) (x : RopeDefVertex F) (hx : d.vertices[i]? = some x) (hm : x.mass ≤ 0) :
    ∃ y, r'.vertices[i]? = some y ∧ y.p = x.position + position := by
  have h := Rope.step_pinned (Rope.run_inv run) h0 e
  obtain ⟨hi, rfl⟩ := List.getElem?_eq_some_iff.mp hx
  have hj : i < r'.vertices.length := by rw [← h.length_eq]; exact hi
  exact ⟨r'.vertices[i], List.getElem?_eq_getElem hj, (List.forall₂_iff_get.mp h).2 i hi hj hm⟩

/-- C91: `reset` puts every vertex at its place relative to the given position, without velocity. -/
theorem c91_reset (d : RopeDef F) (r : Rope F) (run : RopeRun d r) (position : Vec2 F) : InPlace d position (r.reset position) := by
  have h := (Rope.run_inv run).vert
  exact Rope.forall₂_map (fun x y h => ⟨by show y.bind + position = _; rw [h.1.bind], rfl⟩) h

/-- C91: and so does `create`. -/
theorem c91_create (d : RopeDef F) (r0 r : Rope F) (e : r0.create d = some r) : InPlace d d.position r := by
  unfold Rope.create at e
  split_ifs at e
  simp only [Option.bind_eq_bind, Option.bind_eq_some_iff] at e
  obtain ⟨ss, -, bs, -, e⟩ := e
  cases e
  exact Rope.forall₂_map (A := fun x y => x = y) (fun x y h => by subst h; exact ⟨rfl, rfl⟩) (List.forall₂_same.mpr fun _ _ => rfl)

/-- C92: the constraints of a rope exert no net force. If all vertices have mass, a step changes the momentum of the rope only by the
damping and by gravity, and moves its centre of mass with the resulting velocity: for all models, tunings and numbers of iterations. (The height
model is to be used with a rope in which no vertex is made on the next or the next but one.) -/
theorem c92_momentum (d : RopeDef F) (r r' : Rope F) (run : RopeRun d r) (hm : ∀ x ∈ d.vertices, 0 < x.mass)
    (hh : r.tuning.bending = .pbdHeight → SegmentsDistinct d ∧ NotFolded d)
    (dt : F) (h0 : dt ≠ 0) (n : Nat) (position : Vec2 F) (e : r.step dt n position = some r') :
    massSum d r' (·.v.x) = RopeElem.exp (-dt * r.tuning.damping) * massSum d r (·.v.x) + dt * (d.gravity.x * ropeMass d) ∧
    massSum d r' (·.v.y) = RopeElem.exp (-dt * r.tuning.damping) * massSum d r (·.v.y) + dt * (d.gravity.y * ropeMass d) ∧
    massSum d r' (·.p.x) = massSum d r (·.p.x) + dt * massSum d r' (·.v.x) ∧
    massSum d r' (·.p.y) = massSum d r (·.p.y) + dt * massSum d r' (·.v.y) := by
  have i := Rope.run_inv run
  have v := i.vert.imp fun _ _ h => h.1
  have v' := (Rope.step_inv i e).vert.imp fun _ _ h => h.1
  have tot : ropeMass d = Rope.wsum (fun _ => 1) r.vertices := by
    rw [← Rope.massSum_wsum v hm]
    unfold ropeMass
    generalize d.vertices = ds at v
    generalize r.vertices = vs at v
    induction v with
    | nil => rfl
    | cons a _ ih => simp only [List.zip_cons_cons, List.map_cons, List.sum_cons, mul_one] at ih ⊢; rw [ih]
  obtain ⟨a, b⟩ := Rope.step_momentum i h0 e hm hh Vec2.x (Or.inl rfl)
  obtain ⟨a', b'⟩ := Rope.step_momentum i h0 e hm hh Vec2.y (Or.inr rfl)
  have w : ∀ f, massSum d r f = Rope.wsum f r.vertices := fun f => Rope.massSum_wsum v hm f
  have w' : ∀ f, massSum d r' f = Rope.wsum f r'.vertices := fun f => Rope.massSum_wsum v' hm f
  rw [w, w, w, w, w', w', w', w', tot]
  exact ⟨a, a', b, b'⟩

/-- C93: a step of a rope never divides by zero, and never panics, if no vertex is made on the next one, of three consecutive vertices the
first or the last has mass, and the springs of the extended models are there. -/
theorem c93_finite [ElemLaws F] (d : RopeDef F) (r : Rope F) (run : RopeRun d r) (hs : SegmentsDistinct d) (hp : Supple d)
    (ht : SpringsSet r.tuning) (dt : F) (hdt : 0 < dt) (n : Nat) (position : Vec2 F) : ∃ r', r.step dt n position = some r' :=
  Rope.step_total hs hp hdt (Rope.run_inv run) ht n position

/-- C93: a rope of three vertices or more can be made. -/
theorem c93_create (d : RopeDef F) (r0 : Rope F) : (∃ r, r0.create d = some r) ↔ 3 ≤ d.vertices.length := by
  refine ⟨fun ⟨r, e⟩ => ?_, fun h => Rope.create_total d r0 h⟩
  unfold Rope.create at e
  split_ifs at e with h
  omega

/-- C93 without its second condition is false: with three consecutive vertices without mass, made apart, every step with the default
bending model divides by zero. -/
theorem c93_fixed_false (d : RopeDef F) (r : Rope F) (run : RopeRun d r) (ht : r.tuning.bending = .pbdAngle) (hi : r.tuning.isometric = false)
    (i : Nat) (x y z : RopeDefVertex F) (hx : d.vertices[i]? = some x) (hy : d.vertices[i + 1]? = some y) (hz : d.vertices[i + 2]? = some z)
    (mx : x.mass ≤ 0) (my : y.mass ≤ 0) (mz : z.mass ≤ 0) (nxy : x.position ≠ y.position) (nyz : y.position ≠ z.position)
    (dt : F) (h0 : dt ≠ 0) (n : Nat) (position : Vec2 F) : r.step dt (n + 1) position = none :=
  Rope.stuck_angle (Rope.run_inv run) ht hi hx hy hz mx my mz nxy nyz h0 n position

/-- C93, the same with the triangle model. -/
theorem c93_fixed_triangle_false (d : RopeDef F) (r : Rope F) (run : RopeRun d r) (ht : r.tuning.bending = .pbdTriangle)
    (i : Nat) (x y z : RopeDefVertex F) (hx : d.vertices[i]? = some x) (hy : d.vertices[i + 1]? = some y) (hz : d.vertices[i + 2]? = some z)
    (mx : x.mass ≤ 0) (my : y.mass ≤ 0) (mz : z.mass ≤ 0)
    (dt : F) (h0 : dt ≠ 0) (n : Nat) (position : Vec2 F) : r.step dt (n + 1) position = none :=
  Rope.stuck_triangle (Rope.run_inv run) ht hx hy hz mx my mz h0 n position

/-- C93 without its third condition is false: with the extended stretching model and the default `stretch_hertz`, which is zero, every step of a
rope with a movable vertex divides by zero. -/
theorem c93_hertz_false (d : RopeDef F) (r : Rope F) (run : RopeRun d r) (ht : r.tuning.stretching = .xpbd) (hh : r.tuning.stretchHertz = 0)
    (i : Nat) (x : RopeDefVertex F) (hx : d.vertices[i]? = some x) (mx : 0 < x.mass)
    (dt : F) (h0 : dt ≠ 0) (n : Nat) (position : Vec2 F) (hn : 3 ≤ d.vertices.length) : r.step dt (n + 1) position = none :=
  Rope.stuck_xpbd (Rope.run_inv run) ht hh hx mx (by omega) h0 n position

/-- C94: a straight rope at its place stays there: without gravity, any number of steps with any time steps and iterations leaves every vertex
where it is, for all models (the triangle model needs segments of equal length). -/
theorem c94_rest [ElemLaws F] [RopeLaws F] (d : RopeDef F) (r r' : Rope F) (run : RopeRun d r) (hs : Straight d) (hg : d.gravity = ⟨0, 0⟩)
    (ht : r.tuning.bending = .pbdTriangle → Even d) (position : Vec2 F) (hp : InPlace d position r) (steps : List (F × Nat))
    (e : stepMany position steps r = some r') : InPlace d position r' := by
  have := Rope.stepMany_rest hs hg steps r r' (Rope.run_inv run) hp ht e
  unfold InPlace
  rw [this]
  exact hp

end

/-! ### Examples over the real numbers -/

noncomputable section

/-- A rope of four vertices hanging from the first. -/
def exRope (t : RopeTuning ℝ) (m : ℝ) (g : Vec2 ℝ) : RopeDef ℝ :=
  ⟨⟨1, 2⟩, [⟨⟨0, 0⟩, m⟩, ⟨⟨1, 0⟩, 1⟩, ⟨⟨2, 0⟩, 1⟩, ⟨⟨3, 0⟩, 1⟩], g, t⟩

theorem exRope_distinct (t : RopeTuning ℝ) (m : ℝ) (g : Vec2 ℝ) : SegmentsDistinct (exRope t m g) := by
  intro i x y hx hy
  match i with
  | 0 => simp [exRope] at hx hy; subst hx; subst hy; simp
  | 1 => simp [exRope] at hx hy; subst hx; subst hy; simp
  | 2 => simp [exRope] at hx hy; subst hx; subst hy; norm_num
  | n + 3 => simp [exRope] at hy

theorem exRope_unfolded (t : RopeTuning ℝ) (m : ℝ) (g : Vec2 ℝ) : NotFolded (exRope t m g) := by
  intro i x y hx hy
  match i with
  | 0 => simp [exRope] at hx hy; subst hx; subst hy; simp
  | 1 => simp [exRope] at hx hy; subst hx; subst hy; norm_num
  | n + 2 => simp [exRope] at hy

theorem exRope_supple (t : RopeTuning ℝ) (m : ℝ) (g : Vec2 ℝ) : Supple (exRope t m g) := by
  intro i x y hx hy
  match i with
  | 0 => simp [exRope] at hx hy; subst hx; subst hy; simp
  | 1 => simp [exRope] at hx hy; subst hx; subst hy; simp
  | n + 2 => simp [exRope] at hy

theorem exRope_straight (t : RopeTuning ℝ) (m : ℝ) (g : Vec2 ℝ) : Straight (exRope t m g) := by
  refine ⟨⟨1, 0⟩, by simp [dot], ?_⟩
  intro i x y hx hy
  refine ⟨1, by norm_num [epsilon], ?_⟩
  match i with
  | 0 => simp [exRope] at hx hy; subst hx; subst hy; ext <;> simp
  | 1 => simp [exRope] at hx hy; subst hx; subst hy; ext <;> norm_num
  | 2 => simp [exRope] at hx hy; subst hx; subst hy; ext <;> norm_num
  | n + 3 => simp [exRope] at hy

theorem exRope_even (t : RopeTuning ℝ) (m : ℝ) (g : Vec2 ℝ) : Even (exRope t m g) := by
  intro i x y z hx hy hz
  match i with
  | 0 => simp [exRope] at hx hy hz; subst hx; subst hy; subst hz; ext <;> norm_num
  | 1 => simp [exRope] at hx hy hz; subst hx; subst hy; subst hz; ext <;> norm_num
  | n + 2 => simp [exRope] at hz

/-- A tuning with both extended models. -/
def exTuning : RopeTuning ℝ := ⟨.xpbd, .xpbdAngle, 1 / 10, 1, 30, 1, 1 / 2, 4, 1 / 5, true, false⟩

/-- The hypotheses of C91 and C93 are met by a hanging rope after any two steps; the fixed vertex follows the position. -/
example : ∃ r r1 r2 : Rope ℝ, RopeRun (exRope exTuning 0 ⟨0, -10⟩) r ∧ r.step (1 / 60) 4 ⟨5, 6⟩ = some r1 ∧ r1.step (1 / 30) 8 ⟨7, 7⟩ = some r2 ∧
    (∃ y, r2.vertices[0]? = some y ∧ y.p = ⟨0, 0⟩ + ⟨7, 7⟩) := by
  obtain ⟨r, hr⟩ := Rope.create_total (exRope exTuning 0 ⟨0, -10⟩) Rope.new (by simp [exRope])
  have run := RopeRun.create _ _ hr
  have ht : r.tuning = exTuning := by
    unfold Rope.create at hr
    split_ifs at hr
    simp only [Option.bind_eq_bind, Option.bind_eq_some_iff] at hr
    obtain ⟨ss, -, bs, -, e⟩ := hr
    cases e; rfl
  have sp : SpringsSet exTuning := ⟨fun _ => by norm_num [exTuning], fun _ => by norm_num [exTuning]⟩
  obtain ⟨r1, e1⟩ := c93_finite _ r run (exRope_distinct _ _ _) (exRope_supple _ _ _) (ht ▸ sp) (1 / 60) (by norm_num) 4 ⟨5, 6⟩
  obtain ⟨_, _, _, _, _, _, _, _, t1, _⟩ := Rope.step_stages (Rope.run_inv run) (by norm_num) e1
  have run1 := RopeRun.step _ _ _ _ _ run e1
  obtain ⟨r2, e2⟩ := c93_finite _ r1 run1 (exRope_distinct _ _ _) (exRope_supple _ _ _) (by rw [t1, ht]; exact sp) (1 / 30) (by norm_num) 8 ⟨7, 7⟩
  exact ⟨r, r1, r2, run, e1, e2, c91_pinned _ r1 r2 run1 _ (by norm_num) _ _ e2 0 ⟨⟨0, 0⟩, 0⟩ rfl le_rfl⟩

/-- The hypotheses of C92 are met by a rope of four masses with the height model, falling for one step. -/
example : ∃ r r1 : Rope ℝ, RopeRun (exRope ⟨.pbd, .pbdHeight, 0, 1, 0, 0, 1 / 2, 1, 0, false, false⟩ 1 ⟨0, -10⟩) r ∧ r.step (1 / 10) 4 ⟨0, 0⟩ = some r1 ∧
    massSum (exRope ⟨.pbd, .pbdHeight, 0, 1, 0, 0, 1 / 2, 1, 0, false, false⟩ 1 ⟨0, -10⟩) r1 (·.v.y) = -4 := by
  obtain ⟨r, hr⟩ := Rope.create_total (exRope ⟨.pbd, .pbdHeight, 0, 1, 0, 0, 1 / 2, 1, 0, false, false⟩ 1 ⟨0, -10⟩) Rope.new (by simp [exRope])
  have run := RopeRun.create _ _ hr
  have h0 := c91_create _ _ _ hr
  have ht : r.tuning = ⟨.pbd, .pbdHeight, 0, 1, 0, 0, 1 / 2, 1, 0, false, false⟩ := by
    unfold Rope.create at hr
    split_ifs at hr
    simp only [Option.bind_eq_bind, Option.bind_eq_some_iff] at hr
    obtain ⟨ss, -, bs, -, e⟩ := hr
    cases e; rfl
  obtain ⟨r1, e1⟩ := c93_finite _ r run (exRope_distinct _ _ _) (exRope_supple _ _ _) (by rw [ht]; exact ⟨fun h => (by cases h), fun h => (by cases h)⟩)
    (1 / 10) (by norm_num) 4 ⟨0, 0⟩
  obtain ⟨-, m, -, -⟩ := c92_momentum _ r r1 run (by simp [exRope]) (fun _ => ⟨exRope_distinct _ _ _, exRope_unfolded _ _ _⟩) _ (by norm_num) _ _ e1
  refine ⟨r, r1, run, e1, ?_⟩
  rw [m]
  have z : massSum (exRope ⟨.pbd, .pbdHeight, 0, 1, 0, 0, 1 / 2, 1, 0, false, false⟩ 1 ⟨0, -10⟩) r (·.v.y) = 0 := by
    unfold massSum
    unfold InPlace at h0
    generalize (exRope ⟨.pbd, .pbdHeight, 0, 1, 0, 0, 1 / 2, 1, 0, false, false⟩ 1 ⟨0, -10⟩).vertices = ds at h0
    generalize r.vertices = vs at h0
    induction h0 with
    | nil => rfl
    | cons a _ ih => simp only [List.zip_cons_cons, List.map_cons, List.sum_cons] at ih ⊢; rw [ih, a.2]; simp
  rw [z]
  norm_num [ropeMass, exRope]

/-- The hypotheses of C94 are met by a straight rope with the default tuning. -/
example : ∃ r : Rope ℝ, RopeRun (exRope (Rope.new (F := ℝ)).tuning 0 ⟨0, 0⟩) r ∧ InPlace (exRope (Rope.new (F := ℝ)).tuning 0 ⟨0, 0⟩) ⟨1, 2⟩ r ∧
    ∃ r', stepMany ⟨1, 2⟩ [(1 / 60, 8)] r = some r' := by
  obtain ⟨r, hr⟩ := Rope.create_total (exRope (Rope.new (F := ℝ)).tuning 0 ⟨0, 0⟩) Rope.new (by simp [exRope])
  have run := RopeRun.create _ _ hr
  have ht : r.tuning = (Rope.new (F := ℝ)).tuning := by
    unfold Rope.create at hr
    split_ifs at hr
    simp only [Option.bind_eq_bind, Option.bind_eq_some_iff] at hr
    obtain ⟨ss, -, bs, -, e⟩ := hr
    cases e; rfl
  obtain ⟨r1, e1⟩ := c93_finite _ r run (exRope_distinct _ _ _) (exRope_supple _ _ _) (by rw [ht]; exact ⟨fun h => (by cases h), fun h => (by cases h)⟩)
    (1 / 60) (by norm_num) 8 ⟨1, 2⟩
  exact ⟨r, run, c91_create _ _ _ hr, r1, by simp only [stepMany, e1, Option.bind_eq_bind, Option.bind_some]⟩

theorem add_lit (a b c d : ℝ) : (⟨a, b⟩ + ⟨c, d⟩ : Vec2 ℝ) = ⟨a + c, b + d⟩ := rfl
theorem sub_lit (a b c d : ℝ) : (⟨a, b⟩ - ⟨c, d⟩ : Vec2 ℝ) = ⟨a - c, b - d⟩ := rfl
theorem neg_lit (a b : ℝ) : (-⟨a, b⟩ : Vec2 ℝ) = ⟨-a, -b⟩ := rfl
theorem smul_lit (k a b : ℝ) : (k * (⟨a, b⟩ : Vec2 ℝ) : Vec2 ℝ) = ⟨k * a, k * b⟩ := rfl
theorem dist01 : distanceV (⟨0, 0⟩ : Vec2 ℝ) ⟨1, 0⟩ = 1 := by
  have : distanceV (⟨0, 0⟩ : Vec2 ℝ) ⟨1, 0⟩ = Real.sqrt ((0 - 1) * (0 - 1) + (0 - 0) * (0 - 0)) := rfl
  rw [this]; norm_num
theorem dist10 : distanceV (⟨1, 0⟩ : Vec2 ℝ) ⟨0, 0⟩ = 1 := by
  have : distanceV (⟨1, 0⟩ : Vec2 ℝ) ⟨0, 0⟩ = Real.sqrt ((1 - 0) * (1 - 0) + (0 - 0) * (0 - 0)) := rfl
  rw [this]; norm_num
theorem dist13 : distanceV (⟨1, 0⟩ : Vec2 ℝ) ⟨3, 0⟩ = 2 := by
  have : distanceV (⟨1, 0⟩ : Vec2 ℝ) ⟨3, 0⟩ = Real.sqrt ((1 - 3) * (1 - 3) + (0 - 0) * (0 - 0)) := rfl
  rw [this, show ((1 : ℝ) - 3) * (1 - 3) + (0 - 0) * (0 - 0) = 2 * 2 by norm_num, Real.sqrt_mul_self (by norm_num)]
theorem length10 : Vec2.length (⟨-1, 0⟩ : Vec2 ℝ) = 1 := by
  have : Vec2.length (⟨-1, 0⟩ : Vec2 ℝ) = Real.sqrt (-1 * -1 + 0 * 0) := rfl
  rw [this]; norm_num

/-- A straight rope whose segments are one and two metres long, with the triangle model. -/
def triDef : RopeDef ℝ := ⟨⟨0, 0⟩, [⟨⟨0, 0⟩, 1⟩, ⟨⟨1, 0⟩, 1⟩, ⟨⟨3, 0⟩, 1⟩], ⟨0, 0⟩, ⟨.pbd, .pbdTriangle, 0, 0, 0, 0, 1 / 2, 1, 0, false, false⟩⟩

set_option maxRecDepth 4000 in
/-- C94 without its condition on the triangle model is false: it moves a straight rope with unequal segments. -/
theorem c94_triangle_false : ∃ r r' : Rope ℝ, RopeRun triDef r ∧ Straight triDef ∧ InPlace triDef ⟨0, 0⟩ r ∧ r.step 1 1 ⟨0, 0⟩ = some r' ∧
    r'.vertices.map (·.p) ≠ r.vertices.map (·.p) := by
  obtain ⟨r, hr⟩ := Rope.create_total triDef Rope.new (by simp [triDef])
  have run := RopeRun.create _ _ hr
  have h0 := c91_create _ _ _ hr
  have st : Straight triDef := by
    refine ⟨⟨1, 0⟩, by simp [dot], ?_⟩
    intro i x y hx hy
    match i with
    | 0 => simp [triDef] at hx hy; subst hx; subst hy; exact ⟨1, by norm_num [epsilon], by ext <;> simp⟩
    | 1 => simp [triDef] at hx hy; subst hx; subst hy; exact ⟨2, by norm_num [epsilon], by ext <;> norm_num⟩
    | n + 2 => simp [triDef] at hy
  have : ∃ r', r.step 1 1 ⟨0, 0⟩ = some r' ∧ r'.vertices.map (·.p) ≠ r.vertices.map (·.p) := by
    norm_num [Rope.create, triDef, Rope.createVertex, Rope.createStretch, Rope.createBend, Rope.setTuning, List.range_succ, add_lit, sub_lit, neg_lit,
      smul_lit, Vec2.lengthSquared, dot, dist01, dist13, Vec2.skew, Rope.tuneBend, Rope.tuneStretch] at hr
    subst hr
    norm_num [Rope.step, Rope.accelerate, Rope.applyBendForces, Rope.iterate, Rope.solveBends, Rope.solveStretches, Rope.stretchPbd,
      Rope.bendPbdTriangle, Rope.setP, fdiv, add_lit, sub_lit, neg_lit, smul_lit, Rope.zero_smul', Rope.sub_zero_smul',
      if_neg (show ¬ (BendModel.pbdTriangle = .springAngle) by decide)]
  obtain ⟨r', a, b⟩ := this
  exact ⟨r, r', run, st, h0, a, b⟩

/-- A rope made folded, its third vertex on the first, with the height model. -/
def foldDef : RopeDef ℝ := ⟨⟨0, 0⟩, [⟨⟨0, 0⟩, 1⟩, ⟨⟨1, 0⟩, 1⟩, ⟨⟨0, 0⟩, 1⟩], ⟨0, 0⟩, ⟨.pbd, .pbdHeight, 0, 0, 0, 0, 1 / 2, 1, 0, false, false⟩⟩

set_option maxRecDepth 4000 in
/-- C92 without its condition on the height model is false: a rope made folded, at rest and without gravity, sets itself in motion. -/
theorem c92_height_false : ∃ r r' : Rope ℝ, RopeRun foldDef r ∧ massSum foldDef r (·.v.x) = 0 ∧ r.step 1 1 ⟨0, 0⟩ = some r' ∧
    massSum foldDef r' (·.v.x) = -(1 / 2) := by
  obtain ⟨r, hr⟩ := Rope.create_total foldDef Rope.new (by simp [foldDef])
  have run := RopeRun.create _ _ hr
  have : massSum foldDef r (·.v.x) = 0 ∧ ∃ r', r.step 1 1 ⟨0, 0⟩ = some r' ∧ massSum foldDef r' (·.v.x) = -(1 / 2) := by
    norm_num [Rope.create, foldDef, Rope.createVertex, Rope.createStretch, Rope.createBend, Rope.setTuning, List.range_succ, add_lit, sub_lit, neg_lit,
      smul_lit, Vec2.lengthSquared, dot, dist01, dist10, Vec2.skew, Rope.tuneBend, Rope.tuneStretch, Rope.new, Rope.blankBend] at hr
    subst hr
    norm_num [Rope.step, Rope.accelerate, Rope.applyBendForces, Rope.iterate, Rope.solveBends, Rope.solveStretches, Rope.stretchPbd,
      Rope.bendPbdHeight, Rope.bendMove, Rope.setP, fdiv, add_lit, sub_lit, neg_lit, smul_lit, Rope.zero_smul', Rope.sub_zero_smul', length10,
      if_neg (show ¬ (BendModel.pbdHeight = .springAngle) by decide), massSum, foldDef]
  obtain ⟨z, r', a, b⟩ := this
  exact ⟨r, r', run, z, a, b⟩

/-- The hypotheses of the negative theorems are met: a rope with three fixed vertices with the default tuning. -/
example : ∃ r : Rope ℝ, RopeRun ⟨⟨0, 0⟩, [⟨⟨0, 0⟩, 0⟩, ⟨⟨1, 0⟩, 0⟩, ⟨⟨2, 0⟩, 0⟩, ⟨⟨3, 0⟩, 1⟩], ⟨0, -10⟩, (Rope.new (F := ℝ)).tuning⟩ r ∧
    r.step (1 / 60) 8 ⟨0, 0⟩ = none := by
  obtain ⟨r, hr⟩ := Rope.create_total (⟨⟨0, 0⟩, [⟨⟨0, 0⟩, 0⟩, ⟨⟨1, 0⟩, 0⟩, ⟨⟨2, 0⟩, 0⟩, ⟨⟨3, 0⟩, 1⟩], ⟨0, -10⟩, (Rope.new (F := ℝ)).tuning⟩ : RopeDef ℝ)
    Rope.new (by simp)
  have run := RopeRun.create _ _ hr
  have ht : r.tuning = (Rope.new (F := ℝ)).tuning := by
    unfold Rope.create at hr
    split_ifs at hr
    simp only [Option.bind_eq_bind, Option.bind_eq_some_iff] at hr
    obtain ⟨ss, -, bs, -, e⟩ := hr
    cases e; rfl
  refine ⟨r, run, c93_fixed_false _ r run (by rw [ht]; rfl) (by rw [ht]; rfl) 0 _ _ _ rfl rfl rfl le_rfl le_rfl le_rfl (by norm_num) (by norm_num) _ (by norm_num) 7 _⟩

/-- The same for the extended stretching model without a frequency. -/
example : ∃ r : Rope ℝ, RopeRun (exRope ⟨.xpbd, .pbdAngle, 0, 1, 0, 0, 1 / 2, 1, 0, false, false⟩ 0 ⟨0, -10⟩) r ∧ r.step (1 / 60) 8 ⟨0, 0⟩ = none := by
  obtain ⟨r, hr⟩ := Rope.create_total (exRope ⟨.xpbd, .pbdAngle, 0, 1, 0, 0, 1 / 2, 1, 0, false, false⟩ 0 ⟨0, -10⟩) Rope.new (by simp [exRope])
  have run := RopeRun.create _ _ hr
  have ht : r.tuning = ⟨.xpbd, .pbdAngle, 0, 1, 0, 0, 1 / 2, 1, 0, false, false⟩ := by
    unfold Rope.create at hr
    split_ifs at hr
    simp only [Option.bind_eq_bind, Option.bind_eq_some_iff] at hr
    obtain ⟨ss, -, bs, -, e⟩ := hr
    cases e; rfl
  exact ⟨r, run, c93_hertz_false _ r run (by rw [ht]) (by rw [ht]) 1 _ rfl (by norm_num) _ (by norm_num) 7 _ (by simp [exRope])⟩

end
end B2.Props
