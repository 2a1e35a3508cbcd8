import Verif.Proofs.WorldBounce
import Verif.Spec.Energy
import Verif.Proofs.JointEnergyStep

/-! # The kinetic energy through a whole step -/
set_option linter.unusedSectionVars false
namespace B2
open Spec World
section
variable {F : Type} [Field F] [LinearOrder F] [IsStrictOrderedRing F] [Elem F]
variable {E : Engine F}

/-! ### The velocity phase -/

theorem setUp_tame_unit {dtRatio : F} {block : Bool} {pos : Arr (Pos F)} {vel : Arr (Vel F)}
    {contacts : List (ContactIn F)} {cs : List (VConstraint F × PConstraint F)}
    (hs : setUp false dtRatio block pos vel contacts = some cs) (hd : 0 ≤ dtRatio) (invM invI : Nat → F)
    (hc : ∀ c ∈ contacts, c.Ok vel.len ∧ c.MassesAre invM invI ∧ Pushing c.manifold)
    (hu : ∀ c ∈ contacts, ∀ wm, c.worldAt pos = some wm → dot wm.normal wm.normal = 1)
    (hplain : ∀ c ∈ contacts, c.friction = 0 ∧ c.restitution = 0) :
    ∀ vc ∈ cs.map (·.1), Tame block invM invI vc := by
  have hsv := setUp_solvable hs hd (fun c h => ⟨(hc c h).1.indexA, (hc c h).1.indexB, (hc c h).2.2⟩)
  have hspec := setUp_spec hs
  intro vc hvc
  obtain ⟨i, hi⟩ := List.mem_iff_getElem?.1 hvc
  obtain ⟨hi', hvc'⟩ := List.getElem?_eq_some_iff.1 hi
  have hlen : i < contacts.length := by rw [hspec.length_eq]; exact hi'
  obtain ⟨hr, q, hq, _, hq1, hq2⟩ := (List.forall₂_iff_get.1 hspec).2 i hlen hi'
  simp only [List.get_eq_getElem] at hr hq hq1 hq2
  rw [hvc'] at hr hq1 hq2
  obtain ⟨hok, ⟨mA, mB, iA, iB⟩, _⟩ := hc _ (List.getElem_mem hlen)
  obtain ⟨pf, pr⟩ := hplain _ (List.getElem_mem hlen)
  obtain ⟨_, _, hcnt, hnn⟩ := hsv vc hvc
  have ht : ∀ q : ManifoldPoint F, (newPoint false dtRatio q).tangentImpulse = 0 := fun q => rfl
  obtain ⟨wm, _, _, hp1, hp2⟩ := hr.wm
  refine ⟨ready_prep_unit hok (hu _ (List.getElem_mem hlen)) hr, hnn, ⟨by rw [hr.friction, pf], by rw [hq1]; exact ht q, fun h2 => ?_, ?_, fun h2 => ?_⟩, hcnt,
    by rw [hr.indexA, hr.indexB]; exact hok.ne, ?_⟩
  · obtain ⟨q2, hq2m, _, hq2e⟩ := hq2 h2
    rw [hq2e]; exact ht q2
  · rw [hp1.bias, hr.restitution, pr]; simp
  · rcases hp2 with hp2 | ⟨_, _, hp2, _⟩
    · omega
    · rw [hp2.bias, hr.restitution, pr]; simp
  · rw [hr.indexA, hr.indexB, hr.massA, hr.massB, hr.inertiaA, hr.inertiaB]
    exact ⟨mA, mB, iA, iB⟩

/-- The velocity phase of an island whose joints only hold. -/
theorem engine_energy [SoftLaws F] {v1 : World F} {isl : Island} {step : TimeStep F} {states : List (BState F)} {r : List (Joint F) × Arr (Vel F) × List (Manifold F)}
    (hwarm : step.warmStarting = false) (hdt : 0 ≤ step.dt) (hinv : 0 ≤ step.invDt) (hd : 0 ≤ step.dtRatio) (M J invM invI : Nat → F)
    (hj : ∀ j ∈ isl.joints, (E.joint v1 j).Ok states.length v1.jbody ∧ (E.joint v1 j).Passive ∧ (E.joint v1 j).Knows v1.jbody invM invI ∧ (E.joint v1 j).startsClean step.jstep)
    (hc : ∀ cs, isl.contacts.mapM v1.contactIn = some cs → ∀ c ∈ cs, (c.Ok states.length ∧ c.MassesAre invM invI ∧ Pushing c.manifold) ∧
      (∀ wm, c.worldAt (World.positionsOf states) = some wm → dot wm.normal wm.normal = 1) ∧ c.friction = 0 ∧ c.restitution = 0)
    (hv : NothingDriven M J invM invI (World.velocitiesOf states)) (e : E.velocity v1 isl step states = some r) :
    energy2 M J r.2.1 ≤ energy2 M J (World.velocitiesOf states) ∧ NothingDriven M J invM invI r.2.1 ∧ r.2.1.len = states.length := by
  have e0 := e
  unfold Engine.velocity at e
  simp only [Option.bind_eq_bind, Option.bind_eq_some_iff] at e
  obtain ⟨cs, e1, e⟩ := e
  have hc := hc cs e1
  have hlen := velocity_len e0
  have hw : step.jstep.warmStarting = false := hwarm
  unfold islandVelocity at e
  obtain ⟨l, h1, k1⟩ := Option.bind_eq_some_iff.1 e
  obtain ⟨v2, h2, k2⟩ := Option.bind_eq_some_iff.1 k1
  obtain ⟨js, h3, k3⟩ := Option.bind_eq_some_iff.1 k2
  obtain ⟨q, h4, k4⟩ := Option.bind_eq_some_iff.1 k3
  simp only [Option.pure_def, Option.some.injEq] at k4
  rw [hw] at h1 h2
  simp only [warmIf, Bool.false_eq_true, if_false, Option.some.injEq] at h2
  subst h2
  have ht := setUp_tame_unit h1 hd invM invI (fun c h => (hc c h).1) (fun c h => (hc c h).2.1) (fun c h => (hc c h).2.2)
  obtain ⟨q1, s1, u1⟩ := initJoints_quiet (n := states.length) (invM := invM) (invI := invI) hw (fun j hj' => by
    obtain ⟨i, hi, rfl⟩ := List.mem_map.1 hj'
    exact hj i hi) h3
  obtain ⟨q2, e2, d2⟩ := islandIterate_quiet hdt q1 ht (by rw [u1]; exact hv) h4
  have h0 : 0 ≤ (q.1.map (·.stored step.jstep)).sum := List.sum_nonneg (by
    intro x hx
    obtain ⟨j, hj', rfl⟩ := List.mem_map.1 hx
    exact stored_nonneg hinv (q2 j hj').calm)
  rw [u1, s1] at e2
  subst k4
  exact ⟨by dsimp only; linarith, d2, hlen⟩

/-! ### Clamping and damping -/

theorem clamp_less [SoftLaws F] {h : F} {v : Vec2 F} {w : F} :
    (clampVelocity h v w).1.x ^ 2 + (clampVelocity h v w).1.y ^ 2 ≤ v.x ^ 2 + v.y ^ 2 ∧ (clampVelocity h v w).2 ^ 2 ≤ w ^ 2 ∧
    (v = ⟨0, 0⟩ → (clampVelocity h v w).1 = ⟨0, 0⟩) ∧ (w = 0 → (clampVelocity h v w).2 = 0) := by
  unfold clampVelocity
  dsimp only
  refine ⟨?_, ?_, ?_, ?_⟩
  · split
    · rename_i hb
      have hmax : (0 : F) < maxTranslation := by unfold maxTranslation; norm_num
      have hpos : 0 < dot (h * v) (h * v) := lt_trans (mul_pos hmax hmax) hb
      have hl : dot (h * v) (h * v) ≤ (h * v).length * (h * v).length := SoftLaws.root _ hpos
      have hl0 : 0 < (h * v).length * (h * v).length := hpos.trans_le hl
      have hk : (maxTranslation / (h * v).length) ^ 2 ≤ 1 := by
        rw [div_pow, div_le_one (by rw [pow_two]; exact hl0), pow_two, pow_two]
        exact hb.le.trans hl
      have : ((maxTranslation / (h * v).length) * v).x ^ 2 + ((maxTranslation / (h * v).length) * v).y ^ 2 = (maxTranslation / (h * v).length) ^ 2 * (v.x ^ 2 + v.y ^ 2) := by
        show ((maxTranslation / (h * v).length) * v.x) ^ 2 + ((maxTranslation / (h * v).length) * v.y) ^ 2 = _
        ring
      rw [this]
      exact mul_le_of_le_one_left (by positivity) hk
    · exact le_refl _
  · split
    · rename_i hb
      have hmax : (0 : F) ≤ maxRotation * maxRotation := mul_self_nonneg _
      have hpos : 0 < (h * w) * (h * w) := hmax.trans_lt hb
      have hk : (maxRotation / |h * w|) ^ 2 ≤ 1 := by
        rw [div_pow, sq_abs, div_le_one (by rw [pow_two]; exact hpos), pow_two, pow_two]
        exact hb.le
      rw [mul_pow]
      exact mul_le_of_le_one_right (by positivity) hk
    · exact le_refl _
  · rintro rfl
    split
    · show (⟨_ * 0, _ * 0⟩ : Vec2 F) = _
      rw [mul_zero]
    · rfl
  · rintro rfl
    split
    · rw [zero_mul]
    · rfl

theorem damp_less {h d : F} (hh : 0 ≤ h) (hd : 0 ≤ d) : 0 ≤ 1 / (1 + h * d) ∧ 1 / (1 + h * d) ≤ 1 := by
  have : (0 : F) ≤ h * d := mul_nonneg hh hd
  exact ⟨by positivity, by rw [div_le_one (by linarith)]; linarith⟩

/-! ### The invariant of the islands -/

/-- What one body has of the kinetic energy, with the mass and inertia of `w1`. -/
def kinOf (w1 w : World F) (b : Nat) : F := (w1.phys b).mass * ((w.phys b).v.x ^ 2 + (w.phys b).v.y ^ 2) + (w1.phys b).i * (w.phys b).w ^ 2

/-- Nothing that no impulse can slow down moves. -/
def NoDrive (w1 w : World F) (b : Nat) : Prop := ((w1.phys b).invMass = 0 → (w.phys b).v = ⟨0, 0⟩) ∧ ((w1.phys b).invI = 0 → (w.phys b).w = 0)

/-- What is needed of the world before its islands are solved. -/
structure Slick (E : Engine F) (w1 : World F) : Prop where
  gravity : w1.gravity = ⟨0, 0⟩
  seated : Seated E
  joints : OnlyHold E w1
  force : ∀ b ∈ w1.g.bodyList, (w1.phys b).force = ⟨0, 0⟩ ∧ (w1.phys b).torque = 0
  damping : ∀ b ∈ w1.g.bodyList, 0 ≤ (w1.phys b).linearDamping ∧ 0 ≤ (w1.phys b).angularDamping
  mass : ∀ b ∈ w1.g.bodyList, 0 ≤ (w1.phys b).mass ∧ 0 ≤ (w1.phys b).i ∧ Inverses (w1.phys b).mass (w1.phys b).invMass ∧ Inverses (w1.phys b).i (w1.phys b).invI
  heavy : ∀ b ∈ w1.g.bodyList, w1.typeOf b ≠ .dynamic → (w1.phys b).mass = 0 ∧ (w1.phys b).invMass = 0 ∧ (w1.phys b).i = 0 ∧ (w1.phys b).invI = 0
  driven : ∀ b ∈ w1.g.bodyList, NoDrive w1 w1 b
  still : ∀ b ∈ w1.g.bodyList, (w1.g.bodies b).type = .static → (w1.phys b).sweep.c0 = (w1.phys b).sweep.c ∧ (w1.phys b).sweep.a0 = (w1.phys b).sweep.a
  posed : ∀ b ∈ w1.g.bodyList, Posed (w1.phys b)
  contacts : ∀ c, Transmits w1 c → (w1.cst c).friction = 0 ∧ (w1.cst c).restitution = 0 ∧ Sound (w1.cst c).manifold ∧ Pushing (w1.cst c).manifold ∧
    ∀ x y, (w1.g.fixtures (w1.g.contacts c).fA).body = some x → (w1.g.fixtures (w1.g.contacts c).fB).body = some y → 0 < (w1.phys x).invMass + (w1.phys y).invMass ∧
      ∀ wm, worldManifold (w1.cst c).manifold (w1.phys x).xf (w1.g.fixtures (w1.g.contacts c).fA).shape.radius (w1.phys y).xf (w1.g.fixtures (w1.g.contacts c).fB).shape.radius = some wm →
        dot wm.normal wm.normal = 1

theorem inverses_nonneg {m i : F} (h : Inverses m i) : 0 ≤ i := by
  rcases h with h | ⟨h1, h2⟩
  · exact h.ge
  · by_contra hn
    push Not at hn
    nlinarith [mul_neg_of_neg_of_pos hn h1]

/-- The state of the world between islands. -/
structure EI (w1 w : World F) : Prop where
  gravity : w.gravity = w1.gravity
  core : ∀ z ∈ w1.g.bodyList, (w1.g.bodies z).type ≠ .static → (w.phys z).island = false → (w.phys z).core = (w1.phys z).core
  still : ∀ z ∈ w1.g.bodyList, (w1.g.bodies z).type = .static → At z (Heavy0 .static True (w1.phys z)) w
  con : ∀ c, (w.cst c).island = false → SameCon c w1 w
  driven : ∀ b ∈ w1.g.bodyList, NoDrive w1 w b
  energy : ∑ b ∈ w1.g.bodyList.toFinset, kinOf w1 w b ≤ ∑ b ∈ w1.g.bodyList.toFinset, kinOf w1 w1 b

theorem sum_part {S T : Finset Nat} (hT : T ⊆ S) {x y : Nat → F} (h1 : ∀ b ∈ S, b ∉ T → x b = y b) (h2 : ∑ b ∈ T, x b ≤ ∑ b ∈ T, y b) : ∑ b ∈ S, x b ≤ ∑ b ∈ S, y b := by
  rw [← Finset.sum_sdiff hT, ← Finset.sum_sdiff hT]
  refine add_le_add (le_of_eq (Finset.sum_congr rfl fun b hb => ?_)) h2
  rw [Finset.mem_sdiff] at hb
  exact h1 b hb.1 hb.2

theorem kin_le {M J : F} (hM : 0 ≤ M) (hJ : 0 ≤ J) {a b c d : F} (h1 : a ≤ b) (h2 : c ≤ d) : M * a + J * c ≤ M * b + J * d :=
  add_le_add (mul_le_mul_of_nonneg_left h1 hM) (mul_le_mul_of_nonneg_left h2 hJ)

/-- What a body of an island is when the solver reads it. -/
structure ReadAs (dt : F) (w1 w : World F) (z : Nat) : Prop where
  c : (w.phys z).sweep.c = (w1.phys z).sweep.c
  a : (w.phys z).sweep.a = (w1.phys z).sweep.a
  center : (w.phys z).sweep.localCenter = (w1.phys z).sweep.localCenter
  invMass : (w.phys z).invMass = (w1.phys z).invMass
  invI : (w.phys z).invI = (w1.phys z).invI
  slower : (w.initState dt z).v.x ^ 2 + (w.initState dt z).v.y ^ 2 ≤ (w.phys z).v.x ^ 2 + (w.phys z).v.y ^ 2 ∧ (w.initState dt z).w ^ 2 ≤ (w.phys z).w ^ 2
  driven : ((w1.phys z).invMass = 0 → (w.initState dt z).v = ⟨0, 0⟩) ∧ ((w1.phys z).invI = 0 → (w.initState dt z).w = 0)

theorem EI.read {dt : F} (hdt : 0 ≤ dt) {w1 w : World F} {z : Nat} (hs : Slick E w1) (m : EI w1 w) (hg : w.g = w1.g) (hz : z ∈ w1.g.bodyList)
    (hf : (w1.g.bodies z).type ≠ .static → (w.phys z).island = false) : ReadAs dt w1 w z := by
  have hty : w.typeOf z = w1.typeOf z := by unfold World.typeOf; rw [hg]
  have hdr := m.driven z hz
  by_cases hd : w1.typeOf z = .dynamic
  · have hns : (w1.g.bodies z).type ≠ .static := by unfold World.typeOf at hd; rw [hd]; decide
    have e := core_eq (m.core z hz hns (hf hns))
    obtain ⟨f1, f2⟩ := hs.force z hz
    obtain ⟨d1, d2⟩ := hs.damping z hz
    obtain ⟨k1, k2⟩ := damp_less hdt d1
    obtain ⟨k3, k4⟩ := damp_less hdt d2
    have hv : (w.initState dt z).v = (1 / (1 + dt * (w1.phys z).linearDamping)) * (w.phys z).v := by
      unfold initState integrateVelocity
      rw [hty, if_pos hd, m.gravity, hs.gravity, e]
      dsimp only
      rw [f1]
      congr 1
      ext
      · show _ + _ * (_ * 0 + 0) = _; ring
      · show _ + _ * (_ * 0 + 0) = _; ring
    have hw : (w.initState dt z).w = (w.phys z).w * (1 / (1 + dt * (w1.phys z).angularDamping)) := by
      unfold initState integrateVelocity
      rw [hty, if_pos hd, e]
      dsimp only
      rw [f2]
      congr 1
      ring
    refine ⟨by rw [e], by rw [e], by rw [e], by rw [e], by rw [e], ⟨?_, ?_⟩, fun h => ?_, fun h => ?_⟩
    · rw [hv]
      set k := 1 / (1 + dt * (w1.phys z).linearDamping)
      show (k * (w.phys z).v.x) ^ 2 + (k * (w.phys z).v.y) ^ 2 ≤ _
      have : (k * (w.phys z).v.x) ^ 2 + (k * (w.phys z).v.y) ^ 2 = k ^ 2 * ((w.phys z).v.x ^ 2 + (w.phys z).v.y ^ 2) := by ring
      rw [this]
      exact mul_le_of_le_one_left (by positivity) (pow_le_one₀ k1 k2)
    · rw [hw, mul_pow]
      exact mul_le_of_le_one_right (by positivity) (pow_le_one₀ k3 k4)
    · rw [hv, hdr.1 h]
      show (⟨_ * 0, _ * 0⟩ : Vec2 F) = _
      rw [mul_zero]
    · rw [hw, hdr.2 h, zero_mul]
  · have hi : (w.initState dt z).v = (w.phys z).v ∧ (w.initState dt z).w = (w.phys z).w := by
      unfold initState integrateVelocity
      rw [hty, if_neg hd]
      exact ⟨rfl, rfl⟩
    have h0 : (w.phys z).sweep.c = (w1.phys z).sweep.c ∧ (w.phys z).sweep.a = (w1.phys z).sweep.a ∧ (w.phys z).sweep.localCenter = (w1.phys z).sweep.localCenter ∧
        (w.phys z).invMass = (w1.phys z).invMass ∧ (w.phys z).invI = (w1.phys z).invI := by
      by_cases hst : (w1.g.bodies z).type = .static
      · obtain ⟨h1, h2, h3⟩ := m.still z hz hst
        obtain ⟨-, q2, -, q4⟩ := hs.heavy z hz hd
        exact ⟨h2, h3, h1.center, h1.invMass.trans q2.symm, h1.invI.trans q4.symm⟩
      · have e := core_eq (m.core z hz hst (hf hst))
        refine ⟨by rw [e], by rw [e], by rw [e], by rw [e], by rw [e]⟩
    obtain ⟨a1, a2, a3, a4, a5⟩ := h0
    exact ⟨a1, a2, a3, a4, a5, by rw [hi.1, hi.2]; exact ⟨le_refl _, le_refl _⟩, by rw [hi.1, hi.2]; exact hdr⟩

theorem EI.seed [SoftLaws F] (hE : LeavesBodies E.env) (hS : Silent E.env) (hH : HeavyStay E.env) {step : TimeStep F} {w1 w v : World F}
    {isls : List Island} {seen : List Nat} {seed : Nat} {s : Search F} (hdt : 0 ≤ step.dt) (hd : 0 ≤ step.dtRatio) (hinv : 0 ≤ step.invDt) (hwarm : step.warmStarting = false)
    (hi : GInv w1.g) (hm : Slick E w1) (h : GI w1 w isls) (t : TI w1 w isls seen) (m : EI w1 w) (s0 : w.isSeed seed = true) (s1 : w.buildIsland seed = some s) (hmem : seed ∈ w1.g.bodyList)
    (a2 : SI w seed (fun _ => False) s) (a3 : s.stack = []) (a4 : s.island.bodies.head? = some seed) (e : s.w.islandSolve E.env s.w.g.bodyCount s.island step = some v) :
    EI w1 (v.releaseStatics s.island.bodies) := by
  have hP := silent_calm hS
  set w2 := v.releaseStatics s.island.bodies with hw2
  have hflag : ∀ b, (s.w.phys b).island = true ↔ (w.phys b).island = true ∨ b ∈ s.island.bodies := by
    intro b; have := a2.flag b; rw [a3, List.append_nil] at this; exact this
  have hnd : s.island.bodies.Nodup := by have := a2.nodup; rw [a3, List.append_nil] at this; exact this
  have hsg : s.w.g = w1.g := a2.kept.g.trans h.g
  have hg : v.g = w1.g := by rw [(islandSolve_mild e).g, hsg]
  have hc := islandSolve_calm0 e
  obtain ⟨r1, r2, r3, r4⟩ := releaseStatics_spec s.island.bodies v
  have hfl : ∀ b, (w1.g.bodies b).type ≠ .static → ((w2.phys b).island = true ↔ ((w.phys b).island = true ∨ b ∈ s.island.bodies)) := by
    intro b hb
    rw [hw2, r4, hc.island, hflag, hg]
    simp [hb]
  have fr0 : WFrame w s.w := by
    have := s1
    unfold buildIsland at this
    exact (setPhys_mild (w := w) (b := seed) (p := { w.phys seed with island := true }) (by intro _; rfl)).toWFrame.trans (search_mild this).toWFrame
  have fr : WFrame w w2 := (fr0.trans (islandSolve_mild e).toWFrame).trans (releaseStatics_mild v s.island.bodies).toWFrame
  have hfit := CI.fitted hi h t.toCI a2 a3
  have hC : ∀ c ∈ s.island.contacts, c ∈ w1.g.contactList := fun c hc => by rw [← h.g]; exact (a2.cfresh c hc).2.1.mem
  have hJ : ∀ j ∈ s.island.joints, j ∈ w1.g.jointList := fun j hj => by
    obtain ⟨-, x, -, -, y, tt⟩ := a2.jfresh j hj
    rw [← h.g]; exact tt.mem
  have hEn : ∀ y ∈ s.island.bodies, (w1.g.bodies y).enabled = true := fun y hy => by rw [← h.g]; exact (a2.fresh y (List.mem_append.mpr (.inl hy))).2.2.1
  have hin : ∀ y ∈ s.island.bodies, y ∈ w1.g.bodyList := fun y hy => by rw [← h.g]; exact (a2.fresh y (List.mem_append.mpr (.inl hy))).2.1
  have sp : ∀ b, b ∉ s.island.bodies → Spares b w w2 := fun b hb =>
    ((buildIsland_spares s1).trans ((islandSolve_track (b := b) (al := True) (G := s.w.gravity) (T := (· ∈ w1.g.contactList)) (triv_solves b) hE hsg rfl (fun _ => trivial) hfit hnd hC hJ hEn e).1 hb)).trans
      (releaseStatics_spares v s.island.bodies)
  have hfresh : ∀ b ∈ s.island.bodies, (w.phys b).island = false := fun b hb => (a2.fresh b (List.mem_append.mpr (.inl hb))).1
  have hstill : ∀ z ∈ w1.g.bodyList, (w1.g.bodies z).type = .static → At z (Heavy0 .static True (w1.phys z)) w2 := by
    intro z hz hs
    have hnd' : w1.typeOf z ≠ .dynamic := by unfold World.typeOf; rw [hs]; decide
    obtain ⟨-, q2, -, q4⟩ := hm.heavy z hz hnd'
    have z1 := (hm.driven z hz).1 q2
    have z2 := (hm.driven z hz).2 q4
    have hsol : Solves E.env step w1.g s.w.gravity True z (fun u => At z (Heavy0 .static True (w1.phys z)) u ∧ (¬ True → (u.phys z).awake = true)) (At z (Heavy1 .static step.dt (w1.phys z)))
        (At z (Heavy1 .static step.dt (w1.phys z))) (· ∈ w1.g.contactList) :=
      heavy_solves hH (by rw [z1, z2]; exact slow_zero _) rfl (by decide) (fun _ => trivial) (fun _ => ⟨z1, z2⟩) (fun h => absurd trivial h) (fun _ => .inr ⟨z1, z2⟩)
    have h0 : At z (Heavy0 .static True (w1.phys z)) s.w := (m.still z hz hs).spares (buildIsland_spares s1) (fun _ _ _ => Heavy0.core)
    by_cases hin : z ∈ s.island.bodies
    · have h1 := (islandSolve_track hsol hE hsg rfl (fun _ => trivial) hfit hnd hC hJ hEn e).2 hin ⟨h0, fun h => absurd trivial h⟩
      exact ((hsol.again (by unfold World.typeOf; rw [hg]; exact hs) h1).1).spares (releaseStatics_spares v s.island.bodies) (fun _ _ _ => Heavy0.core)
    · exact (m.still z hz hs).spares (sp z hin) (fun _ _ _ => Heavy0.core)
  have hcore : ∀ z ∈ w1.g.bodyList, (w1.g.bodies z).type ≠ .static → (w2.phys z).island = false → (w2.phys z).core = (w1.phys z).core := by
    intro z hz hs hf
    have hn : ¬ ((w.phys z).island = true ∨ z ∈ s.island.bodies) := by rw [← hfl z hs, hf]; simp
    rw [not_or] at hn
    rw [(sp z hn.2).core]
    exact m.core z hz hs (by simpa using hn.1)
  obtain ⟨v1, b1, b2, b3, b4, b5, b6, b7, -⟩ := islandSolve_full hE hS hfit hnd e
  have hw2c : w2.cst = v.cst := releaseStatics_cst _ _
  have hconw : ∀ c, (w2.cst c).island = false → SameCon c w1 w2 := by
    intro c hf
    have hcon := buildIsland_con (c := c) s1
    have hfs : (s.w.cst c).island = false := by
      rw [← hf, hw2c]
      exact (congrArg CFlags.island (hc.flags c)).symm
    have hcin : c ∉ s.island.contacts := fun hcin => by
      rw [(a2.cflag c).mpr (.inr hcin)] at hfs; cases hfs
    have hfw : (w.cst c).island = false := by
      by_contra hn
      rw [Bool.not_eq_false] at hn
      rw [(a2.cflag c).mpr (.inl hn)] at hfs; cases hfs
    exact ((m.con c hfw).trans hcon).trans (by unfold SameCon; rw [hw2c, b7 c hcin])
  have hv1g : v1.g = w1.g := b1.trans hsg
  -- the bodies as the solver reads them
  have sread : ∀ z ∈ s.island.bodies, ReadAs step.dt w1 s.w z := by
    intro z hz
    have r := m.read hdt hm h.g (hin z hz) (fun _ => hfresh z hz)
    have ec := core_eq (buildIsland_spares (b := z) s1).core
    have hini : s.w.initState step.dt z = w.initState step.dt z := by
      unfold initState World.typeOf
      rw [a2.kept.g, fr0.gravity, ec]
      rfl
    obtain ⟨q1, q2, q3, q4, q5, q6, q7⟩ := r
    refine ⟨by rw [ec]; exact q1, by rw [ec]; exact q2, by rw [ec]; exact q3, by rw [ec]; exact q4, by rw [ec]; exact q5, ?_, by rw [hini]; exact q7⟩
    rw [hini, show (s.w.phys z).v = (w.phys z).v by rw [ec], show (s.w.phys z).w = (w.phys z).w by rw [ec]]
    exact q6
  have hplace : ∀ z ∈ s.island.bodies, s.island.bodies[(v1.phys z).islandIndex.toNat]? = some z := fun z hz => b3.place hz
  set states : List (BState F) := s.island.bodies.map (s.w.initState step.dt) with hstates
  have hstate : ∀ z ∈ s.island.bodies, states[(v1.phys z).islandIndex.toNat]? = some (s.w.initState step.dt z) := fun z hz => by rw [hstates]; simp [hplace z hz]
  have hlen : states.length = s.island.bodies.length := by rw [hstates]; simp
  have v1z : ∀ z ∈ s.island.bodies, (v1.phys z).invMass = (w1.phys z).invMass ∧ (v1.phys z).invI = (w1.phys z).invI ∧ (v1.phys z).sweep.localCenter = (w1.phys z).sweep.localCenter := by
    intro z hz
    have q := sread z hz
    rw [b4, if_pos hz]
    exact ⟨q.invMass, q.invI, q.center⟩
  have hpos : ∀ z ∈ s.island.bodies, (World.positionsOf states).at' (v1.phys z).islandIndex.toNat = ⟨(w1.phys z).sweep.c, (w1.phys z).sweep.a⟩ := by
    intro z hz
    have q := sread z hz
    unfold World.positionsOf
    dsimp only
    rw [hstate z hz]
    dsimp only
    rw [← q.c, ← q.a]
    rfl
  have hxf : ∀ z ∈ s.island.bodies, Pos.xf ⟨(w1.phys z).sweep.c, (w1.phys z).sweep.a⟩ (w1.phys z).sweep.localCenter = (w1.phys z).xf := fun z hz => (hm.posed z (hin z hz)).symm
  -- what the solver does
  set M : Nat → F := fun i => (w1.phys (s.island.bodies.getD i 0)).mass with hM
  set J : Nat → F := fun i => (w1.phys (s.island.bodies.getD i 0)).i with hJJ
  set iM : Nat → F := fun i => (w1.phys (s.island.bodies.getD i 0)).invMass with hiM
  set iJ : Nat → F := fun i => (w1.phys (s.island.bodies.getD i 0)).invI with hiJ
  have hgd : ∀ i b, s.island.bodies[i]? = some b → s.island.bodies.getD i 0 = b := fun i b hib => by rw [List.getD_eq_getElem?_getD, hib]; rfl
  have hvat : ∀ i b, s.island.bodies[i]? = some b → (World.velocitiesOf states).at' i = ⟨(s.w.initState step.dt b).v, (s.w.initState step.dt b).w⟩ := by
    intro i b hib
    unfold World.velocitiesOf
    dsimp only
    rw [hstates]
    simp only [List.getElem?_map, hib, Option.map_some]
  have fits : ∀ (vel : Arr (Vel F)), vel.len = states.length → (NothingDriven M J iM iJ vel ↔ ∀ i b, s.island.bodies[i]? = some b →
      ((w1.phys b).invMass = 0 → (vel.at' i).v = ⟨0, 0⟩) ∧ ((w1.phys b).invI = 0 → (vel.at' i).w = 0)) := by
    intro vel hvl
    constructor
    · intro hn i b hib
      have hlt : i < vel.len := by rw [hvl, hlen]; exact (List.getElem?_eq_some_iff.mp hib).1
      obtain ⟨n1, n2⟩ := hn i hlt
      simp only [hM, hJJ, hiM, hiJ, hgd i b hib] at n1 n2
      refine ⟨fun h0 => ?_, fun h0 => ?_⟩
      · rcases n1 with n1 | n1
        · rw [h0, mul_zero] at n1; exact absurd n1 zero_ne_one
        · exact n1.2
      · rcases n2 with n2 | n2
        · rw [h0, mul_zero] at n2; exact absurd n2 zero_ne_one
        · exact n2.2
    · intro hn i hlt
      rw [hvl, hlen] at hlt
      have hib := List.getElem?_eq_getElem hlt
      obtain ⟨n1, n2⟩ := hn i _ hib
      simp only [hM, hJJ, hiM, hiJ, hgd i _ hib]
      obtain ⟨-, -, k1, k2⟩ := hm.mass _ (hin _ (List.getElem_mem hlt))
      constructor
      · rcases k1 with k | ⟨-, k⟩
        · exact .inr ⟨k, n1 k⟩
        · exact .inl (by rw [mul_comm]; exact k)
      · rcases k2 with k | ⟨-, k⟩
        · exact .inr ⟨k, n2 k⟩
        · exact .inl (by rw [mul_comm]; exact k)
  have hstart : NothingDriven M J iM iJ (World.velocitiesOf states) := by
    refine (fits _ rfl).mpr fun i b hib => ?_
    rw [hvat i b hib]
    exact (sread b (List.mem_of_getElem? hib)).driven
  have hcs : ∀ cs, s.island.contacts.mapM v1.contactIn = some cs → ∀ ci ∈ cs, (ci.Ok states.length ∧ ci.MassesAre iM iJ ∧ Pushing ci.manifold) ∧
      (∀ wm, ci.worldAt (World.positionsOf states) = some wm → dot wm.normal wm.normal = 1) ∧ ci.friction = 0 ∧ ci.restitution = 0 := by
    intro cs hcs ci hci
    obtain ⟨c, hcm, hcie⟩ := contactsIn_of hcs hci
    obtain ⟨x, hxA, y, hyB, hne, ex, ey⟩ := hfit.contacts c hcm
    obtain ⟨f1, f2, -⟩ := a2.cfresh c hcm
    obtain ⟨k1, k2, k3, k4, k5⟩ := hm.contacts c (t.kept.symm.transmits f2)
    rw [hsg] at ex ey
    obtain ⟨k5, k6⟩ := k5 x y ex ey
    have hcst1 : v1.cst c = { w1.cst c with island := (s.w.cst c).island } := by
      rw [b2]
      exact (m.con c f1).trans (buildIsland_con (c := c) s1)
    obtain ⟨px1, px2, px3⟩ := v1z x hxA
    obtain ⟨py1, py2, py3⟩ := v1z y hyB
    unfold World.contactIn World.bodyOf at hcie
    dsimp only at hcie
    rw [hv1g, ex, ey, hcst1] at hcie
    simp only [Option.bind_eq_bind, Option.bind_some, Option.pure_def, Option.some.injEq] at hcie
    subst hcie
    refine ⟨⟨⟨k3.points, k3.circles, ?_, ?_, ?_, ?_, ?_, ?_, ?_, ?_, k3.normal⟩, ⟨?_, ?_, ?_, ?_⟩, k4⟩, fun wm hwm => ?_, k1, k2⟩
    · dsimp only; rw [hlen]; exact b3.place_lt hxA
    · dsimp only; rw [hlen]; exact b3.place_lt hyB
    · exact fun he => hne (b3.same (hplace y hyB) hxA he)
    · dsimp only; rw [px1]; exact inverses_nonneg (hm.mass x (hin x hxA)).2.2.1
    · dsimp only; rw [py1]; exact inverses_nonneg (hm.mass y (hin y hyB)).2.2.1
    · dsimp only; rw [px1, py1]; exact k5
    · dsimp only; rw [px2]; exact inverses_nonneg (hm.mass x (hin x hxA)).2.2.2
    · dsimp only; rw [py2]; exact inverses_nonneg (hm.mass y (hin y hyB)).2.2.2
    · dsimp only; rw [hiM]; dsimp only; rw [hgd _ _ (hplace x hxA)]; exact px1
    · dsimp only; rw [hiM]; dsimp only; rw [hgd _ _ (hplace y hyB)]; exact py1
    · dsimp only; rw [hiJ]; dsimp only; rw [hgd _ _ (hplace x hxA)]; exact px2
    · dsimp only; rw [hiJ]; dsimp only; rw [hgd _ _ (hplace y hyB)]; exact py2
    · unfold ContactIn.worldAt at hwm
      dsimp only at hwm
      rw [hpos x hxA, hpos y hyB, px3, py3, hxf x hxA, hxf y hyB] at hwm
      exact k6 wm hwm
  have hjs : ∀ j ∈ s.island.joints, (E.joint v1 j).Ok states.length v1.jbody ∧ (E.joint v1 j).Passive ∧ (E.joint v1 j).Knows v1.jbody iM iJ ∧ (E.joint v1 j).startsClean step.jstep := by
    intro j hj
    obtain ⟨p1, p2, p3, p4, p5⟩ := hm.joints j (hJ j hj) v1 (by rw [hv1g])
    obtain ⟨ja, jb⟩ := hfit.joints j hj
    have hseat : ∀ b ∈ (E.joint v1 j).touched, b ∈ s.island.bodies := by
      intro b hb
      have := hm.seated v1 j b hb
      rw [hv1g, ← hsg] at this
      rcases this with h | h <;> rw [h]
      · exact ja
      · exact jb
    have htouch : (E.joint v1 j).bodyA ∈ (E.joint v1 j).touched ∧ (E.joint v1 j).bodyB ∈ (E.joint v1 j).touched := by
      revert p1
      cases E.joint v1 j <;> intro p1 <;> first | exact p1.elim | simp [Joint.touched, Joint.bodyA, Joint.bodyB]
    have iA := hseat _ htouch.1
    have iB := hseat _ htouch.2
    obtain ⟨a1, a2, -⟩ := v1z _ iA
    obtain ⟨b1', b2', -⟩ := v1z _ iB
    refine ⟨⟨?_, ?_, ?_, ?_, ?_, ?_, ?_, ?_⟩, p1, ⟨?_, ?_⟩, ?_⟩
    · show (v1.phys _).islandIndex.toNat < _
      rw [hlen]; exact b3.place_lt iA
    · show (v1.phys _).islandIndex.toNat < _
      rw [hlen]; exact b3.place_lt iB
    · exact fun he => p3 (b3.same (hplace _ iB) iA he)
    · show 0 ≤ (v1.phys _).invMass
      rw [a1]; exact inverses_nonneg (hm.mass _ (hin _ iA)).2.2.1
    · show 0 ≤ (v1.phys _).invMass
      rw [b1']; exact inverses_nonneg (hm.mass _ (hin _ iB)).2.2.1
    · show 0 < (v1.phys _).invMass + (v1.phys _).invMass
      rw [a1, b1']; exact p5
    · show 0 ≤ (v1.phys _).invI
      rw [a2]; exact inverses_nonneg (hm.mass _ (hin _ iA)).2.2.2
    · show 0 ≤ (v1.phys _).invI
      rw [b2']; exact inverses_nonneg (hm.mass _ (hin _ iB)).2.2.2
    · refine p4.imp_of_mem fun {a b} ha hb hab => ?_
      rcases hab with hab | hab
      · exact .inl fun he => hab (b3.same (hplace b (hseat b hb)) (hseat a ha) he)
      · obtain ⟨-, q2, -, q4⟩ := hm.heavy a (hin a (hseat a ha)) hab
        obtain ⟨c1, c2, -⟩ := v1z a (hseat a ha)
        exact .inr ⟨c1.trans q2, c2.trans q4⟩
    · intro b hb
      obtain ⟨c1, c2, -⟩ := v1z b (hseat b hb)
      constructor
      · show (v1.phys b).invMass = iM (v1.phys b).islandIndex.toNat
        rw [hiM]; dsimp only; rw [hgd _ _ (hplace b (hseat b hb))]; exact c1
      · show (v1.phys b).invI = iJ (v1.phys b).islandIndex.toNat
        rw [hiJ]; dsimp only; rw [hgd _ _ (hplace b (hseat b hb))]; exact c2
    · revert p2
      cases E.joint v1 j with
      | distance k => intro p2; exact .inr (p2 k rfl)
      | _ => intro _; trivial
  obtain ⟨vel, hvlen, hsv, hen, hdrv⟩ : ∃ vel : Arr (Vel F), vel.len = states.length ∧ (∀ i, E.env.solveVel v1 s.island step states i = ((vel.at' i).v, (vel.at' i).w)) ∧
      energy2 M J vel ≤ energy2 M J (World.velocitiesOf states) ∧ NothingDriven M J iM iJ vel := by
    cases hv : E.velocity v1 s.island step states with
    | none =>
      refine ⟨World.velocitiesOf states, rfl, fun i => ?_, le_refl _, hstart⟩
      show (match E.velocity v1 s.island step states with
        | some r => fun i => ((r.2.1.at' i).v, (r.2.1.at' i).w)
        | none => fun i => (((World.velocitiesOf states).at' i).v, ((World.velocitiesOf states).at' i).w)) _ = _
      rw [hv]
    | some r =>
      obtain ⟨g1, g2, g3⟩ := engine_energy (E := E) hwarm hdt hinv hd M J iM iJ hjs hcs hstart hv
      refine ⟨r.2.1, g3, fun i => ?_, g1, g2⟩
      show (match E.velocity v1 s.island step states with
        | some r => fun i => ((r.2.1.at' i).v, (r.2.1.at' i).w)
        | none => fun i => (((World.velocitiesOf states).at' i).v, ((World.velocitiesOf states).at' i).w)) _ = _
      rw [hv]
  have hzero : ∀ i b, s.island.bodies[i]? = some b → ((w1.phys b).invMass = 0 → (vel.at' i).v = ⟨0, 0⟩) ∧ ((w1.phys b).invI = 0 → (vel.at' i).w = 0) := (fits vel hvlen).mp hdrv
  have hphys : ∀ b, (w2.phys b).v = (v.phys b).v ∧ (w2.phys b).w = (v.phys b).w := by
    intro b
    have := core_eq (releaseStatics_spares (b := b) v s.island.bodies).core
    rw [hw2, this]
    exact ⟨rfl, rfl⟩
  -- a body of the island moves no faster than the solver says
  have hslow : ∀ i b, s.island.bodies[i]? = some b → (w1.g.bodies b).type ≠ .static → ((w2.phys b).v.x ^ 2 + (w2.phys b).v.y ^ 2 ≤ (vel.at' i).v.x ^ 2 + (vel.at' i).v.y ^ 2 ∧
      (w2.phys b).w ^ 2 ≤ (vel.at' i).w ^ 2) ∧ ((vel.at' i).v = ⟨0, 0⟩ → (w2.phys b).v = ⟨0, 0⟩) ∧ ((vel.at' i).w = 0 → (w2.phys b).w = 0) := by
    intro i b hib hs
    rw [(hphys b).1, (hphys b).2]
    rcases b6 i b hib (by unfold World.typeOf; rw [hsg]; exact hs) with ⟨-, k1, k2⟩ | k
    · rw [k1, k2]
      exact ⟨⟨by simp only [ne_eq, OfNat.ofNat_ne_zero, not_false_eq_true, zero_pow, add_zero]; positivity, by simp only [ne_eq, OfNat.ofNat_ne_zero, not_false_eq_true, zero_pow]; positivity⟩, fun _ => rfl, fun _ => rfl⟩
    · rw [hsv i] at k
      have k1 : (v.phys b).v = (clampVelocity step.dt (vel.at' i).v (vel.at' i).w).1 := by rw [← k]
      have k2 : (v.phys b).w = (clampVelocity step.dt (vel.at' i).v (vel.at' i).w).2 := by rw [← k]
      obtain ⟨c1, c2, c3, c4⟩ := clamp_less (h := step.dt) (v := (vel.at' i).v) (w := (vel.at' i).w)
      rw [k1, k2]
      exact ⟨⟨c1, c2⟩, c3, c4⟩
  have hout : ∀ b, b ∉ s.island.bodies → (w2.phys b).v = (w.phys b).v ∧ (w2.phys b).w = (w.phys b).w := by
    intro b hn
    have := core_eq (sp b hn).core
    rw [this]
    exact ⟨rfl, rfl⟩
  refine ⟨fr.gravity.trans m.gravity, hcore, hstill, hconw, fun b hb => ?_, ?_⟩
  · by_cases hbi : b ∈ s.island.bodies
    · obtain ⟨i, hib⟩ := List.mem_iff_getElem?.mp hbi
      by_cases hs : (w1.g.bodies b).type = .static
      · have q := (hstill b hb hs).toHeavyAs
        unfold NoDrive
        rw [q.v, q.w]
        exact hm.driven b hb
      · obtain ⟨-, k1, k2⟩ := hslow i b hib hs
        exact ⟨fun h0 => k1 ((hzero i b hib).1 h0), fun h0 => k2 ((hzero i b hib).2 h0)⟩
    · unfold NoDrive
      rw [(hout b hbi).1, (hout b hbi).2]
      exact m.driven b hb
  · refine le_trans (sum_part (T := s.island.bodies.toFinset) (fun b hb => List.mem_toFinset.mpr (hin b (List.mem_toFinset.mp hb))) (fun b hb hn => ?_) ?_) m.energy
    · have := hout b (fun hx => hn (List.mem_toFinset.mpr hx))
      unfold kinOf
      rw [this.1, this.2]
    · have key := hen
      unfold energy2 at key
      rw [hvlen, show (World.velocitiesOf states).len = states.length from rfl, hlen] at key
      rw [← sum_places hnd (f := fun i => kinOf w1 w2 (s.island.bodies.getD i 0)) (fun i b hib => by rw [hgd i b hib]),
        ← sum_places hnd (f := fun i => kinOf w1 w (s.island.bodies.getD i 0)) (fun i b hib => by rw [hgd i b hib])]
      refine (Finset.sum_le_sum fun i hi => ?_).trans (key.trans (Finset.sum_le_sum fun i hi => ?_))
      · obtain ⟨b, hib⟩ : ∃ b, s.island.bodies[i]? = some b := ⟨_, List.getElem?_eq_getElem (Finset.mem_range.mp hi)⟩
        have hbm := hin _ (List.mem_of_getElem? hib)
        simp only [hM, hJJ]
        rw [hgd i _ hib]
        unfold kinOf
        by_cases hs : (w1.g.bodies b).type = .static
        · obtain ⟨q1, -, q3, -⟩ := hm.heavy _ hbm (by unfold World.typeOf; rw [hs]; decide)
          rw [q1, q3]
          simp
        · exact kin_le (hm.mass _ hbm).1 (hm.mass _ hbm).2.1 (hslow i _ hib hs).1.1 (hslow i _ hib hs).1.2
      · obtain ⟨b, hib⟩ : ∃ b, s.island.bodies[i]? = some b := ⟨_, List.getElem?_eq_getElem (Finset.mem_range.mp hi)⟩
        have hmi := List.mem_of_getElem? hib
        have hbm := hin _ hmi
        simp only [hM, hJJ]
        rw [hgd i _ hib, hvat i _ hib]
        unfold kinOf
        have q := (sread _ hmi).slower
        have ec := core_eq (buildIsland_spares (b := b) s1).core
        rw [show (s.w.phys b).v = (w.phys b).v by rw [ec], show (s.w.phys b).w = (w.phys b).w by rw [ec]] at q
        exact kin_le (hm.mass _ hbm).1 (hm.mass _ hbm).2.1 q.1 q.2

theorem seeds_energy [SoftLaws F] (hE : LeavesBodies E.env) (hS : Silent E.env) (hH : HeavyStay E.env) {step : TimeStep F} {w1 : World F}
    (hdt : 0 ≤ step.dt) (hd : 0 ≤ step.dtRatio) (hinv : 0 ≤ step.invDt) (hwarm : step.warmStarting = false) (hi : GInv w1.g) (hm : Slick E w1) (l : List Nat) :
    (∀ y ∈ l, y ∈ w1.g.bodyList) → ∀ {w w' : World F} {isls isls' : List Island} {seen : List Nat}, GI w1 w isls → TI w1 w isls seen → EI w1 w →
      l.foldlM (solveSeed E.env step) (w, isls) = some (w', isls') → EI w1 w' := by
  have hP := silent_calm hS
  induction l with
  | nil => intro _ w w' isls isls' seen h t m e; cases e; exact m
  | cons a l ih =>
    intro hl w w' isls isls' seen h t m e
    have hl' : ∀ b ∈ l, b ∈ w1.g.bodyList := fun b hb => hl b (by simp [hb])
    have haa : a ∈ w1.g.bodyList := hl a (by simp)
    rw [List.foldlM_cons] at e
    rcases solveSeed_spec (env := E.env) (step := step) (isls := isls) (by rw [h.g]; exact hi) h.ends (show a ∈ w.g.bodyList by rw [h.g]; exact haa) with ⟨p, q⟩ | ⟨p, s, s1, a2, a3, a4, a5, q⟩
    · rw [q] at e
      exact ih hl' h t m e
    · rw [q] at e
      cases e1 : s.w.islandSolve E.env s.w.g.bodyCount s.island step with
      | none => rw [e1] at e; cases e
      | some v =>
        rw [e1] at e
        exact ih hl' (h.seed a2 a3 e1) (t.seed hP hi h p haa a2 a3 a4 e1) (m.seed hE hS hH hdt hd hinv hwarm hi hm h t p s1 haa a2 a3 a4 e1) e

theorem solveIslands_energy [SoftLaws F] (hE : LeavesBodies E.env) (hS : Silent E.env) (hH : HeavyStay E.env) {step : TimeStep F} {w w' : World F}
    {isls : List Island} (hdt : 0 ≤ step.dt) (hd : 0 ≤ step.dtRatio) (hinv : 0 ≤ step.invDt) (hwarm : step.warmStarting = false) (hw : GInv w.g) (hm : Slick E w) (e : w.solveIslands E.env step = some (w', isls)) :
    EI w w' := by
  have m := (clearIslandFlags_mild w).toWFrame
  unfold solveIslands at e
  have hph : ∀ b, (w.clearIslandFlags.phys b).v = (w.phys b).v ∧ (w.clearIslandFlags.phys b).w = (w.phys b).w := fun b => by
    have := core_eq (clearIslandFlags_spares (b := b) w).core
    rw [this]; exact ⟨rfl, rfl⟩
  have hM : EI w w.clearIslandFlags := by
    refine ⟨m.gravity, fun z _ _ _ => (clearIslandFlags_spares w).core, fun z hz hs => ?_, fun c _ => clearIslandFlags_con c w, fun b hb => ?_, le_of_eq (Finset.sum_congr rfl fun b _ => ?_)⟩
    · obtain ⟨-, k3, -, k4⟩ := hm.heavy z hz (by unfold World.typeOf; rw [hs]; decide)
      have k1 := (hm.driven z hz).1 k3
      have k2 := (hm.driven z hz).2 k4
      have h0 : At z (Heavy0 .static True (w.phys z)) w := ⟨⟨hs, k3, k4, rfl, rfl, rfl, rfl, hm.posed z hz, fun h => absurd ⟨k1, k2⟩ h⟩, rfl, rfl, fun _ => hm.still z hz hs⟩
      exact h0.spares (clearIslandFlags_spares w) (fun _ _ _ => Heavy0.core)
    · unfold NoDrive
      rw [(hph b).1, (hph b).2]
      exact hm.driven b hb
    · unfold kinOf
      rw [(hph b).1, (hph b).2]
  exact seeds_energy hE hS hH hdt hd hinv hwarm hw hm _ (fun y hy => by rw [m.g] at hy; exact hy) (GI.start w) (TI.start w) hM e

/-! ### What islands do to contacts -/

/-- Of contact `c`, at most the flag and the impulses differ. -/
def Restored (c : Nat) (w w' : World F) : Prop :=
  w'.cst c = { w.cst c with island := (w'.cst c).island, manifold := (w'.cst c).manifold } ∧ Restamped (w.cst c).manifold (w'.cst c).manifold

theorem Restored.refl (c : Nat) (w : World F) : Restored c w w := ⟨rfl, .refl _⟩
theorem Restored.trans {c : Nat} {w w' w'' : World F} (h : Restored c w w') (h' : Restored c w' w'') : Restored c w w'' := by
  refine ⟨?_, h.2.trans h'.2⟩
  have := h'.1
  rw [h.1] at this
  exact this
theorem Restored.of_same {c : Nat} {w w' : World F} (h : SameCon c w w') : Restored c w w' := by
  have hm : (w'.cst c).manifold = (w.cst c).manifold := by rw [h]
  refine ⟨?_, by rw [hm]; exact .refl _⟩
  rw [hm]; exact h

theorem islandSolve_restored (hS : Silent E.env) {v v' : World F} {cap : Nat} {isl : Island} {step : TimeStep F} (c : Nat)
    (e : v.islandSolve E.env cap isl step = some v') : Restored c v v' := by
  obtain ⟨u, r, e1, rfl⟩ := islandSolve_inv e
  have m0 : Restored c v u := by
    unfold islandMove at e1
    split at e1
    · cases e1
    simp only [Option.bind_eq_bind, Option.bind_eq_some_iff] at e1
    obtain ⟨v3, e1, e'⟩ := e1
    cases e'
    refine Restored.trans ?_ (.of_same (.of_eq ((report_silent hS e1).trans (writeBack_cst _ _ _))))
    refine foldl_inv (fun x : World F => Restored c v x) ?_ (fun x _ y h => ?_)
    · exact foldl_inv (fun x : World F => Restored c v x) (.refl _ _) (fun _ _ _ h => h)
    · refine h.trans ?_
      unfold Restored World.setCst
      dsimp only
      by_cases hc : c = x.1
      · subst hc
        rw [upd_same]
        exact ⟨rfl, restamped_store _ _⟩
      · rw [upd_other _ _ hc]; exact ⟨rfl, .refl _⟩
  split
  · exact m0.trans (.of_same (.of_eq sleepIsland_cst))
  · exact m0

theorem seeds_restored (hS : Silent E.env) {step : TimeStep F} (c : Nat) (l : List Nat) : ∀ {u u' : World F} {i i' : List Island},
    l.foldlM (solveSeed E.env step) (u, i) = some (u', i') → Restored c u u' := by
  induction l with
  | nil => intro u u' i i' e; cases e; exact .refl _ _
  | cons a l ih =>
    intro u u' i i' e
    rw [List.foldlM_cons] at e
    simp only [Option.bind_eq_bind, Option.bind_eq_some_iff] at e
    obtain ⟨⟨u1, i1⟩, e1, e2⟩ := e
    refine Restored.trans ?_ (ih e2)
    unfold solveSeed at e1
    split at e1
    · cases e1; exact .refl _ _
    simp only [Option.bind_eq_bind, Option.bind_eq_some_iff] at e1
    obtain ⟨s, e3, v, e4, e5⟩ := e1
    cases e5
    exact (Restored.of_same (buildIsland_con (c := c) e3)).trans ((islandSolve_restored hS c e4).trans (.of_same (.of_eq (releaseStatics_cst _ _))))

theorem solve_energy [SoftLaws F] (hE : LeavesBodies E.env) (hS : Silent E.env) (hH : HeavyStay E.env) {step : TimeStep F} {w w' : World F}
    (hdt : 0 ≤ step.dt) (hd : 0 ≤ step.dtRatio) (hinv : 0 ≤ step.invDt) (hwarm : step.warmStarting = false) (hw : WInv w) (e : w.solve E.env step = some w')
    (hm : (∀ c, Transmits w c → Transmits w' c ∧ w'.g.contacts c = w.g.contacts c ∧ w'.g.fixtures = w.g.fixtures ∧ Restored c w w') → Slick E w) :
    (∀ b ∈ w.g.bodyList, NoDrive w w' b) ∧ ∑ b ∈ w.g.bodyList.toFinset, kinOf w w' b ≤ ∑ b ∈ w.g.bodyList.toFinset, kinOf w w b := by
  have hP := silent_calm hS
  have hPL : PostSolveLinks E.env := fun x y c h => (hP x y c h).2
  have htrs : ∀ c, Transmits w c → Transmits w' c ∧ w'.g.contacts c = w.g.contacts c ∧ w'.g.fixtures = w.g.fixtures := fun c hc => solve_transmits hPL hw e hc
  unfold solve at e
  simp only [Option.bind_eq_bind, Option.bind_eq_some_iff] at e
  obtain ⟨⟨w1, isl⟩, e1, w2, e2, e3⟩ := e
  have m1 := (solveIslands_mild e1).toWFrame
  dsimp only at e2
  have b2 : WInv w2 ∧ w2.fattr = w1.fattr ∧ w2.cst = w1.cst ∧ w2.g = w1.g ∧ w2.phys = w1.phys := by
    refine foldlM_inv (fun x : World F => WInv x ∧ x.fattr = w1.fattr ∧ x.cst = w1.cst ∧ x.g = w1.g ∧ x.phys = w1.phys) e2 ⟨hw.frame m1.g m1.bp, rfl, rfl, rfl, rfl⟩ ?_
    intro b _ x x' hx hv
    split at hv
    · cases hv; exact hx
    split at hv
    · cases hv; exact hx
    obtain ⟨w2, k1, k2, k3⟩ := synchronizeFixtures_spec b hx.1.pinv
    rw [k1] at hv
    cases hv
    have g : Good E.env x x' := .bpf hx.1 k2 k3
    exact ⟨g.winv, (by rw [k2.eq]; exact hx.2.1), (by rw [k2.eq]; exact hx.2.2.1), (by rw [k2.eq]; exact hx.2.2.2.1), k2.phys.trans hx.2.2.2.2⟩
  obtain ⟨h2, f2, c2, g2, p2⟩ := b2
  obtain ⟨w3, x3, hw', -⟩ := findNewContacts_spec h2 e3
  have hph : w'.phys = w1.phys := (findNewContacts_phys e3).trans p2
  have hwg : w'.g = w3.g := by rw [hw']
  have hwc : w'.cst = w3.cst := by rw [hw']
  have hg1 : w1.g = w.g := m1.g
  have hM := hm fun c hc => by
    obtain ⟨t1, t2, t3⟩ := htrs c hc
    refine ⟨t1, t2, t3, ?_⟩
    have hlt : c < w2.g.nextContact := by
      rw [g2, hg1]
      exact hw.link.lt c hc.mem
    obtain ⟨o1, o2, o3⟩ := x3.old c hlt
    have hcst : w'.cst c = w1.cst c := by rw [hwc, o2, c2]
    have : Restored c w w1 := (Restored.of_same (clearIslandFlags_con c w)).trans (seeds_restored hS c _ e1)
    unfold Restored at this ⊢
    rw [hcst]; exact this
  have key := solveIslands_energy hE hS hH hdt hd hinv hwarm hw.toGInv hM e1
  constructor
  · intro b hb
    have := key.driven b hb
    unfold NoDrive at this ⊢
    rw [hph]; exact this
  · have := key.energy
    unfold kinOf at this ⊢
    rw [hph]; exact this

/-- A step that feeds no energy. -/
theorem step_energy [SoftLaws F] (hE : LeavesBodies E.env) (hC : CallbacksTame E.env) (hS : Silent E.env) (hH : HeavyStay E.env) (hsd : Seated E)
    {w w' : World F} {dt : F} {vi pi : Nat} (hw : WInv w) (hc : w.stepComplete = true) (hcont : w.continuous = false) (hdt : 0 < dt)
    (hcons : ∀ z ∈ w.g.bodyList, Consistent (w.typeOf z) (w.phys z)) (hrest : ∀ z ∈ w.g.bodyList, Rests (w.typeOf z) (w.phys z)) (hpr : Pressing w)
    (hU : Unfed E w) (e : w.step E.env dt vi pi = some w') (hsl : Slippery w w') :
    (∀ b ∈ w.g.bodyList, NoDrive w w' b) ∧ ∑ b ∈ w.g.bodyList.toFinset, kinOf w w' b ≤ kinetic w := by
  unfold step at e
  simp only [Option.bind_eq_bind, Option.bind_eq_some_iff] at e
  obtain ⟨w1, e1, w2, e2, e3⟩ := e
  unfold stepLocked at e2
  simp only [Option.bind_eq_bind, Option.bind_eq_some_iff] at e2
  obtain ⟨w3, e4, w4, e5, w5, e6, e7⟩ := e2
  have c1 : ∀ b, Calms b w w1 := by
    intro b
    unfold stepBegin at e1
    split at e1
    · simp only [Option.bind_eq_bind, Option.bind_eq_some_iff] at e1
      obtain ⟨v, e1, e1'⟩ := e1
      cases e1'
      exact ((findNewContacts_spares hw e1).trans (.unmoved (w := v) (w' := { v with newContacts := false }) rfl rfl rfl)).calms
    · cases e1; exact (Spares.refl _).calms
  obtain ⟨v, g1, rfl, -⟩ := stepBegin_good hw e1
  have hw1 : WInv { v with newContacts := false, locked := true } := g1.winv.frame rfl rfl
  obtain ⟨g3, -⟩ := collide_good hw1 e4
  have c3 : ∀ b, Calms b w w3 := fun b => ((c1 b).trans (Spares.unmoved (w := { v with newContacts := false }) (w' := { v with newContacts := false, locked := true }) rfl rfl rfl).calms).trans (collide_calms hE hw1 e4)
  have lists : SameLists w.g w3.g := by
    have a1 := g3.body
    have a2 := g3.eq
    dsimp only at a1 a2
    exact ⟨fun y => by rw [a1, g1.body], by rw [a2, g1.eq]⟩
  have hr3 : w3.gravity = w.gravity ∧ w3.allowSleep = w.allowSleep ∧ w3.continuous = w.continuous ∧ w3.stepComplete = w.stepComplete := by
    refine ⟨g3.rest.gravity.trans g1.rest.gravity, g3.rest.allowSleep.trans g1.rest.allowSleep, g3.rest.continuous.trans g1.rest.continuous, g3.rest.stepComplete.trans g1.rest.stepComplete⟩
  have hts : World.timeStep { { v with newContacts := false } with locked := true } dt vi pi = w.timeStep dt vi pi := by
    unfold World.timeStep
    dsimp only
    rw [g1.rest.invDt0, show v.warmStarting = w.warmStarting by rw [g1.rest.eq]]
  rw [hts] at e5 e6 e7
  have hd : (w.timeStep dt vi pi).dt = dt := rfl
  rw [hd] at e5 e6 e7
  rw [if_pos ⟨hr3.2.2.2.trans hc, hdt⟩] at e5
  have g4 := solve_good g3.winv e5
  rw [if_neg (fun h => by
    have := h.1
    rw [g4.rest.continuous, hr3.2.2.1, hcont] at this; cases this)] at e6
  cases e6

  have hb4 : w4.g.bodyList = w.g.bodyList := by rw [g4.bodyList, lists.eq]
  have hnd4 : w4.g.bodyList.Nodup := g4.winv.body.nodup
  have fin : (∀ b ∈ w.g.bodyList, (w'.phys b).v = (w4.phys b).v ∧ (w'.phys b).w = (w4.phys b).w ∧ (w'.phys b).awake = (w4.phys b).awake) ∧ w'.g = w4.g ∧ w'.cst = w4.cst ∧ w'.fattr = w4.fattr := by
    cases e3
    cases e7
    generalize hx : (if dt > 0 then { w4 with invDt0 := (w.timeStep dt vi pi).invDt } else w4) = x
    have hx' : x.phys = w4.phys ∧ x.g = w4.g ∧ x.bp = w4.bp ∧ x.cst = w4.cst ∧ x.fattr = w4.fattr := by rw [← hx]; split <;> exact ⟨rfl, rfl, rfl, rfl, rfl⟩
    obtain ⟨x1, x2, x3, x4, x5⟩ := hx'
    split
    · have hnd : x.g.bodyList.Nodup := by rw [x2]; exact hnd4
      have fc : x.clearForcesAll.cst = x.cst ∧ x.clearForcesAll.fattr = x.fattr ∧ x.clearForcesAll.g = x.g := by
        unfold clearForcesAll
        refine foldl_inv (fun u : World F => u.cst = x.cst ∧ u.fattr = x.fattr ∧ u.g = x.g) ⟨rfl, rfl, rfl⟩ ?_
        intro y _ u h
        exact h
      refine ⟨fun b hb => ?_, fc.2.2.trans x2, fc.1.trans x4, fc.2.1.trans x5⟩
      obtain ⟨t1, t2, t3⟩ := clearForcesAll_phys (w := x) (b := b) hnd (by rw [x2, hb4]; exact hb)
      show (x.clearForcesAll.phys b).v = _ ∧ (x.clearForcesAll.phys b).w = _ ∧ (x.clearForcesAll.phys b).awake = _
      rw [t1, x1]
      exact ⟨rfl, rfl, rfl⟩
    · exact ⟨fun b hb => by show (x.phys b).v = _ ∧ (x.phys b).w = _ ∧ (x.phys b).awake = _; rw [x1]; exact ⟨rfl, rfl, rfl⟩, x2, x4, x5⟩
  obtain ⟨fin, fg, fcst, ffa⟩ := fin
  have hcore : ∀ b, (w3.phys b).core = (w.phys b).core := fun b => (c3 b).core
  have hpr3 : Pressing w3 := by
    have k1 : Pressing { v with newContacts := false } := (stepBegin_keep2 e1).push hpr
    exact (collide_keep2 hC e4).push k1
  have ht3 : ∀ b, w3.typeOf b = w.typeOf b := fun b => by
    unfold World.typeOf
    rw [lists.body]
  have hbl3 : w3.g.bodyList = w.g.bodyList := by rw [lists.eq]
  have hjl : w3.g.jointList = w.g.jointList := by rw [lists.eq]
  have hinv : 0 ≤ (w.timeStep dt vi pi).invDt := by
    show 0 ≤ if dt > 0 then 1 / dt else 0
    rw [if_pos hdt]; positivity
  have key := solve_energy hE hS hH (step := w.timeStep dt vi pi) hdt.le (timeStep_pos hpr.2 hdt).1 hinv hU.cold g3.winv e5 (fun htrs => by
    refine ⟨hr3.1.trans hU.gravity, hsd, fun j hj v hv => ?_, fun b hb => ?_, fun b hb => ?_, fun b hb => ?_, fun b hb hn => ?_, fun b hb => ?_, fun b hb hs => ?_, fun b hb => ?_, fun c ht => ?_⟩
    · obtain ⟨p1, p2, p3, p4, p5⟩ := hU.joints j (hjl ▸ hj) v (hv.trans (by rw [lists.eq]))
      refine ⟨p1, p2, p3, p4.imp fun h => h.imp id (fun h => by rw [ht3]; exact h), ?_⟩
      rw [core_eq (hcore _), core_eq (hcore (E.joint v j).bodyB)]
      exact p5
    · rw [core_eq (hcore b)]; exact hU.force b (hbl3 ▸ hb)
    · rw [core_eq (hcore b)]; exact hU.damping b (hbl3 ▸ hb)
    · rw [core_eq (hcore b)]
      have hz := hcons b (hbl3 ▸ hb)
      exact ⟨(hU.mass b (hbl3 ▸ hb)).1, (hU.mass b (hbl3 ▸ hb)).2, hz.mass, hz.inertia⟩
    · rw [core_eq (hcore b)]
      exact (hcons b (hbl3 ▸ hb)).heavy (by rw [← ht3]; exact hn)
    · unfold NoDrive
      rw [core_eq (hcore b)]
      exact hU.driven b (hbl3 ▸ hb)
    · rw [core_eq (hcore b)]
      exact (hrest b (hbl3 ▸ hb) (by rw [← ht3]; exact hs)).2.2
    · have hcz := hcons b (hbl3 ▸ hb)
      rw [posed_iff, core_eq (hcore b)]
      exact ⟨hcz.rotation, hcz.center⟩
    · obtain ⟨t1, t2, t3, t4, t5⟩ := htrs c ht
      obtain ⟨s1, s2, s3, s4⟩ := hsl c ⟨by rw [fg]; exact t1.mem, by rw [fcst]; exact t1.enabled, by rw [fcst]; exact t1.touching, by rw [fg, ffa]; exact t1.solidA, by rw [fg, ffa]; exact t1.solidB⟩
      rw [fcst] at s1 s2 s3 s4
      rw [fg, t2, t3] at s4
      refine ⟨by rw [t4] at s1; exact s1, by rw [t4] at s2; exact s2, t5.sound s3, hpr3.1 c, fun x y hx hy => ?_⟩
      obtain ⟨u1, u2⟩ := s4 x y hx hy
      rw [show (w3.phys x).xf = (w.phys x).xf by rw [core_eq (hcore x)], show (w3.phys y).xf = (w.phys y).xf by rw [core_eq (hcore y)],
        show (w3.phys x).invMass = (w.phys x).invMass by rw [core_eq (hcore x)], show (w3.phys y).invMass = (w.phys y).invMass by rw [core_eq (hcore y)]]
      refine ⟨u1, fun wm hwm => u2 wm ?_⟩
      rw [t5.world]
      exact hwm)
  rw [hbl3] at key
  have ek : ∀ u b, kinOf w3 u b = kinOf w u b := fun u b => by
    unfold kinOf
    rw [core_eq (hcore b)]
  constructor
  · intro b hb
    have := key.1 b hb
    unfold NoDrive at this ⊢
    rw [(fin b hb).1, (fin b hb).2.1]
    rw [core_eq (hcore b)] at this
    exact this
  · refine le_trans (le_of_eq (Finset.sum_congr rfl fun b hb => ?_)) (key.2.trans (le_of_eq (Finset.sum_congr rfl fun b hb => ?_)))
    · rw [ek]
      have := fin b (List.mem_toFinset.mp hb)
      unfold kinOf
      rw [this.1, this.2.1]
    · rw [ek]
      unfold kinOf
      rw [core_eq (hcore b)]

end
end B2
