import Verif.Proofs.WorldFree
import Verif.Proofs.WorldTouch

/-! A body that no contact pushes, through a step without continuous physics. -/
namespace B2
set_option linter.unusedSectionVars false
open World Spec

section
variable {F : Type} [Field F] [LinearOrder F] [IsStrictOrderedRing F] [Elem F]
variable {env : Env F} {b : Nat} {dt : F} {G : Vec2 F} {p0 : Phys F} {al : Prop}

theorem quiet_solves (hF : FreeStay env) (hs : Slow dt (freeV dt G p0) (freeW dt p0)) {step : TimeStep F} (hdt : step.dt = dt) {g : Graph F} {T : Nat → Prop}
    (hen : (g.bodies b).enabled = true) (hj : ∀ j ∈ g.jointList, (g.joints j).a ≠ b ∧ (g.joints j).b ≠ b) (hT : ∀ c, T c → ∀ u : World F, u.g = g → ¬ OfBody u c b) :
    Solves env step g G al b (fun v => At b (Free0 p0) v ∧ (v.phys b).awake = true) (fun v => At b (Free1 dt G al p0) v) (fun v => At b (Free1 dt G al p0) v) T where
  p0 := by
    rintro v v' hs ⟨h, ha⟩
    exact ⟨by unfold At; rw [hs.type]; exact ⟨h.type, hs.core.trans h.core⟩, hs.awake ha⟩
  p1 := fun hs h => h.spares hs (fun _ _ _ => Free1.core)
  p2 := fun hs h => h.spares hs (fun _ _ _ => Free1.core)
  move := by
    rintro v v1 isl states states' i ⟨h, haw⟩ hvg - hvG hi hx1 hg1 hcs hjs hp1 hst1 hst2
    rw [At.setPhys]
    have hno : ∀ c ∈ isl.contacts, ∀ u : World F, u.g = g → ¬ OfBody u c b := fun c hc => hT c (hcs c hc)
    have hjo : ∀ j ∈ isl.joints, ∀ u : World F, u.g = g → (u.g.joints j).a ≠ b ∧ (u.g.joints j).b ≠ b := by
      intro j hj' u hu
      rw [hu]
      exact hj j (hjs j hj')
    have hv := hF.velocity v1 isl step states i b _ hx1 hi hst1 (fun c hc => hno c hc v1 hg1) (fun j hj' => hjo j hj' v1 hg1)
    have hpe : v.phys b = { p0 with awake := (v.phys b).awake, sleepTime := (v.phys b).sleepTime, island := (v.phys b).island, islandIndex := (v.phys b).islandIndex } := core_eq h.core
    have hi0 : v.initState step.dt b = ⟨p0.sweep.c, p0.sweep.a, freeV dt G p0, freeW dt p0⟩ := by
      unfold initState integrateVelocity
      rw [show v.typeOf b = .dynamic from h.type, if_pos rfl, hpe, hvG, hdt]
      dsimp only
      refine BState.mk.injEq .. ▸ ⟨rfl, rfl, ?_, ?_⟩
      · unfold freeV
        simp only [Vec2.ext_iff, Vec2.smul_x, Vec2.smul_y, Vec2.add_x, Vec2.add_y]
        constructor <;> ring
      · unfold freeW
        ring
    rw [hi0] at hv
    dsimp only at hv
    rw [hv] at hst2 ⊢
    have hint : integratePosition step.dt ⟨(v.phys b).sweep.c, (v.phys b).sweep.a, freeV dt G p0, freeW dt p0⟩ =
        ⟨p0.sweep.c + dt * freeV dt G p0, p0.sweep.a + dt * freeW dt p0, freeV dt G p0, freeW dt p0⟩ := by
      unfold integratePosition
      dsimp only
      rw [hdt, clamp_slow hs, hpe]
    dsimp only at hst2 ⊢
    rw [hint] at hst2 ⊢
    have hpos := hF.position v1 isl step states' i b _ hx1 hi hst2 (fun c hc => hno c hc v1 hg1) (fun j hj' => hjo j hj' v1 hg1)
    rw [hpos, hp1, hpe]
    exact ⟨h.type, rfl, rfl, rfl, .inl ⟨rfl, rfl, haw⟩⟩
  sleep := by
    rintro v ha h hns hr
    unfold World.setAwake
    rw [At.setPhys]
    unfold Phys.setAwake
    rw [if_neg hns]
    refine ⟨h.type, h.c, h.a, h.auto, .inr ⟨ha, ?_, rfl, rfl⟩⟩
    rcases h.vel with ⟨h1, h2, -⟩ | ⟨-, h1, -⟩
    · have := restless_sleepy hr
      rw [h1, h2] at this
      exact ⟨by rw [← h.auto]; exact this.1, this.2⟩
    · exact h1
  again := by
    rintro v hty h
    have : v.typeOf b = .dynamic := h.type
    rw [hty] at this; cases this
  sync := by
    rintro v v' h hw _ e
    obtain ⟨k, -, -⟩ := synchronizeFixtures_track hw e
    have hg : v'.g = v.g := by rw [k.frame]
    have hp : v'.phys = v.phys := by rw [k.frame]
    unfold At World.typeOf at *
    rw [hg, hp]; exact h
  idle := by
    rintro v ⟨h, ha⟩ hg hor
    rcases hor with hor | hor | hor
    · rw [ha] at hor; cases hor
    · rw [hg, hen] at hor; cases hor
    · have : v.typeOf b = .dynamic := h.type
      rw [hor] at this; cases this

/-- A contact that transmits forces when the islands are solved does so afterwards. -/
theorem solve_transmits (hP : PostSolveLinks env) {w w' : World F} {step : TimeStep F} (hw : WInv w) (e : w.solve env step = some w') {c : Nat} (hc : Transmits w c) :
    Transmits w' c ∧ w'.g.contacts c = w.g.contacts c ∧ w'.g.fixtures = w.g.fixtures := by
  obtain ⟨st, -⟩ := solve_touch hw e
  have gd := solve_good hw e
  unfold solve at e
  simp only [Option.bind_eq_bind, Option.bind_eq_some_iff] at e
  obtain ⟨⟨w1, isl⟩, e1, w2, e2, e3⟩ := e
  have m1 := (solveIslands_mild e1).toWFrame
  dsimp only at e2
  have b2 : WInv w2 ∧ w2.fattr = w1.fattr ∧ w2.cst = w1.cst ∧ w2.g = w1.g := by
    refine foldlM_inv (fun x : World F => WInv x ∧ x.fattr = w1.fattr ∧ x.cst = w1.cst ∧ x.g = w1.g) e2 ⟨hw.frame m1.g m1.bp, rfl, rfl, rfl⟩ ?_
    intro b _ x x' hx hv
    split at hv
    · cases hv; exact hx
    split at hv
    · cases hv; exact hx
    obtain ⟨w2, k1, k2, k3⟩ := synchronizeFixtures_spec b hx.1.pinv
    rw [k1] at hv
    cases hv
    have g : Good env x x' := .bpf hx.1 k2 k3
    exact ⟨g.winv, (by rw [k2.eq]; exact hx.2.1), (by rw [k2.eq]; exact hx.2.2.1), (by rw [k2.eq]; exact hx.2.2.2)⟩
  obtain ⟨h2, f2, c2, g2⟩ := b2
  obtain ⟨w3, x3, hw', -⟩ := findNewContacts_spec h2 e3
  have hfa : w'.fattr = w1.fattr := by rw [hw']; exact x3.fattr.trans f2
  have kept : Kept w w1 := by
    have := (seeds_spec (env := env) (step := step) hw.toGInv w.clearIslandFlags.g.bodyList (fun y hy => by rw [(clearIslandFlags_mild w).g] at hy; exact hy) (GI.start w) (fun _ => TI.start w) (fun _ => CI.start w)).2 w1 isl e1
    exact (this.2.2 hP).kept
  obtain ⟨s1, s2, s3⟩ := st c hc.mem
  have hlt : c < w2.g.nextContact := h2.link.lt c (by rw [g2, kept.g]; exact hc.mem)
  obtain ⟨-, o2, -⟩ := x3.old c hlt
  refine ⟨⟨s1, ?_, s3.trans hc.touching, ?_, ?_⟩, s2, by rw [gd.eq]⟩
  · have : w'.cst c = w1.cst c := by rw [hw']; exact o2.trans (by rw [c2])
    rw [this, kept.enabled]; exact hc.enabled
  · rw [s2, hfa, kept.sensor]; exact hc.solidA
  · rw [s2, hfa, kept.sensor]; exact hc.solidB

/-- A body without joints, none of whose contacts transmits a force, moves by the rule of free bodies. -/
theorem quiet_step {w w' : World F} {vi pi : Nat} (hE : LeavesBodies env) (hP : PostSolveLinks env) (hF : FreeStay env)
    (hw : WInv w) (hc : w.stepComplete = true) (hcont : w.continuous = false) (hb : b ∈ w.g.bodyList) (hty : w.typeOf b = .dynamic) (haw : (w.phys b).awake = true) (hen : (w.g.bodies b).enabled = true)
    (hj : ∀ j ∈ w.g.jointList, (w.g.joints j).a ≠ b ∧ (w.g.joints j).b ≠ b)
    (hdt : 0 < dt) (hs : Slow dt (freeV dt w.gravity (w.phys b)) (freeW dt (w.phys b)))
    (e : w.step env dt vi pi = some w') (hq : ∀ c, Transmits w' c → ¬ OfBody w' c b) :
    Free1 dt w.gravity (w.allowSleep = true) (w.phys b) (w'.typeOf b) (w'.phys b) := by
  unfold step at e
  simp only [Option.bind_eq_bind, Option.bind_eq_some_iff] at e
  obtain ⟨w1, e1, w2, e2, e3⟩ := e
  unfold stepLocked at e2
  simp only [Option.bind_eq_bind, Option.bind_eq_some_iff] at e2
  obtain ⟨w3, e4, w4, e5, w5, e6, e7⟩ := e2
  have c1 : Calms b w w1 := by
    unfold stepBegin at e1
    split at e1
    · simp only [Option.bind_eq_bind, Option.bind_eq_some_iff] at e1
      obtain ⟨v, e1, e1'⟩ := e1
      cases e1'
      exact ((findNewContacts_spares hw e1).trans (.unmoved (w := v) (w' := { v with newContacts := false }) rfl rfl rfl)).calms
    · cases e1; exact (Spares.refl _).calms
  obtain ⟨v, g1, rfl, -⟩ := stepBegin_good hw e1
  have hw1 : WInv { v with newContacts := false, locked := true } := g1.winv.frame rfl rfl
  obtain ⟨g3, -⟩ := collide_good hw1 e4
  have c3 : Calms b w w3 := (c1.trans (Spares.unmoved (w := { v with newContacts := false }) (w' := { v with newContacts := false, locked := true }) rfl rfl rfl).calms).trans (collide_calms hE hw1 e4)
  have lists : SameLists w.g w3.g := by
    have a1 := g3.body
    have a2 := g3.eq
    dsimp only at a1 a2
    exact ⟨fun y => by rw [a1, g1.body], by rw [a2, g1.eq]⟩
  have hr3 : w3.gravity = w.gravity ∧ w3.allowSleep = w.allowSleep ∧ w3.continuous = w.continuous ∧ w3.stepComplete = w.stepComplete := by
    refine ⟨g3.rest.gravity.trans g1.rest.gravity, g3.rest.allowSleep.trans g1.rest.allowSleep, g3.rest.continuous.trans g1.rest.continuous, g3.rest.stepComplete.trans g1.rest.stepComplete⟩
  have hts : World.timeStep { { v with newContacts := false } with locked := true } dt vi pi = w.timeStep dt vi pi := by
    unfold World.timeStep
    dsimp only
    rw [g1.rest.invDt0, show v.warmStarting = w.warmStarting by rw [g1.rest.eq]]
  rw [hts] at e5 e6 e7
  have hd : (w.timeStep dt vi pi).dt = dt := rfl
  rw [hd] at e5 e6 e7
  rw [if_pos ⟨hr3.2.2.2.trans hc, hdt⟩] at e5
  have g4 := solve_good g3.winv e5
  rw [if_neg (fun h => by
    have := h.1
    rw [g4.rest.continuous, hr3.2.2.1, hcont] at this; cases this)] at e6
  cases e6
  have hb4 : w4.g.bodyList = w.g.bodyList := by rw [g4.bodyList, lists.eq]
  have fin : (w'.phys b = w4.phys b ∨ w'.phys b = { w4.phys b with force := ⟨0, 0⟩, torque := 0 }) ∧ w'.g = w4.g ∧ w'.cst = w4.cst ∧ w'.fattr = w4.fattr := by
    cases e3
    cases e7
    generalize hx : (if dt > 0 then { w4 with invDt0 := (w.timeStep dt vi pi).invDt } else w4) = x
    have hx' : x.phys = w4.phys ∧ x.g = w4.g ∧ x.bp = w4.bp ∧ x.cst = w4.cst ∧ x.fattr = w4.fattr := by rw [← hx]; split <;> exact ⟨rfl, rfl, rfl, rfl, rfl⟩
    obtain ⟨x1, x2, x3, x4, x5⟩ := hx'
    split
    · have hnd : x.g.bodyList.Nodup := by rw [x2]; exact g4.winv.body.nodup
      have fc : x.clearForcesAll.cst = x.cst ∧ x.clearForcesAll.fattr = x.fattr ∧ x.clearForcesAll.g = x.g := by
        unfold clearForcesAll
        refine foldl_inv (fun u : World F => u.cst = x.cst ∧ u.fattr = x.fattr ∧ u.g = x.g) ⟨rfl, rfl, rfl⟩ ?_
        intro y _ u h
        exact h
      refine ⟨.inr ?_, fc.2.2.trans x2, fc.1.trans x4, fc.2.1.trans x5⟩
      obtain ⟨t1, t2, t3⟩ := clearForcesAll_phys (w := x) (b := b) hnd (by rw [x2, hb4]; exact hb)
      show x.clearForcesAll.phys b = _
      rw [t1, x1]
    · exact ⟨.inl (by show x.phys b = _; rw [x1]), x2, x4, x5⟩
  obtain ⟨fin, fg, fcst, ffa⟩ := fin
  have key : At b (Free1 dt w.gravity (w.allowSleep = true) (w.phys b)) w4 :=
    solve_track (T := fun c => Transmits w3 c) (quiet_solves hF hs hd (by rw [lists.body]; exact hen) (by rw [lists.eq]; exact hj) (fun c hc u hu hof => by
      obtain ⟨t1, t2, t3⟩ := solve_transmits hP g3.winv e5 hc
      refine hq c ⟨by rw [fg]; exact t1.mem, by rw [fcst]; exact t1.enabled, by rw [fcst]; exact t1.touching, by rw [fg, ffa]; exact t1.solidA, by rw [fg, ffa]; exact t1.solidB⟩ ?_
      unfold OfBody at *
      rw [fg, t2, t3, ← hu]; exact hof)) hE hP g3.winv (by rw [lists.eq]; exact hb) rfl (fun _ t => t) hr3.1 (by rw [hr3.2.1]; exact id)
      ⟨by unfold At; rw [c3.type]; exact ⟨hty, c3.core⟩, c3.awake haw⟩ e5
  have htt : w'.typeOf b = w4.typeOf b := by unfold World.typeOf; rw [fg]
  rw [htt]
  rcases fin with h | h <;> rw [h]
  · exact key
  · exact ⟨key.type, key.c, key.a, key.auto, key.vel⟩

end
end B2
