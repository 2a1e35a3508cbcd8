import Verif.Proofs.WorldPlain

/-! A body that nothing touches, through a step. -/
namespace B2
set_option linter.unusedSectionVars false
open World Spec

section
variable {F : Type} [Field F] [LinearOrder F] [IsStrictOrderedRing F] [Elem F]
variable {env : Env F} {b : Nat} {dt : F} {G : Vec2 F} {p0 p q : Phys F} {t : BodyType} {al : Prop}

theorem restless_sleepy {p : Phys F} (h : restless p = false) : Sleepy p p.v p.w := by
  unfold restless at h
  simp only [Bool.or_eq_false_iff, Bool.not_eq_false', decide_eq_false_iff_not, not_lt] at h
  exact ⟨h.1.1, h.1.2, h.2⟩

/-- Before the solution nothing has changed. -/
structure Free0 (p0 : Phys F) (t : BodyType) (p : Phys F) : Prop where
  type : t = .dynamic
  core : p.core = p0.core

/-- After the solution the body has moved freely. -/
structure Free1 (dt : F) (G : Vec2 F) (al : Prop) (p0 : Phys F) (t : BodyType) (p : Phys F) : Prop where
  type : t = .dynamic
  c : p.sweep.c = p0.sweep.c + dt * freeV dt G p0
  a : p.sweep.a = p0.sweep.a + dt * freeW dt p0
  auto : p.autoSleep = p0.autoSleep
  vel : (p.v = freeV dt G p0 ∧ p.w = freeW dt p0 ∧ p.awake = true) ∨ (al ∧ Sleepy p0 (freeV dt G p0) (freeW dt p0) ∧ p.v = ⟨0, 0⟩ ∧ p.w = 0)

theorem Free1.core (h : Free1 dt G al p0 t p) (e : q.core = p.core) (ha : p.awake = true → q.awake = true) : Free1 dt G al p0 t q := by
  have h0 := h.vel.imp_left fun k => And.imp_right (And.imp_right ha) k
  rw [core_eq e]; exact ⟨h.type, h.c, h.a, h.auto, h0⟩

theorem of_met {g : Graph F} (hg : GInv g) {c : Nat} (hc : c ∈ g.contactList) (h : (g.fixtures (g.contacts c).fA).body = some b ∨ (g.fixtures (g.contacts c).fB).body = some b) : Met g b := by
  obtain ⟨bA, bB, hA, hB, -⟩ := hg.ok c hc
  rcases h with h | h
  · rw [hA] at h; cases h
    exact List.ne_nil_of_mem ((hg.link.edges b c bB).mpr ⟨hc, Or.inl ⟨hA, hB⟩⟩)
  · rw [hB] at h; cases h
    exact List.ne_nil_of_mem ((hg.link.edges b c bA).mpr ⟨hc, Or.inr ⟨hB, hA⟩⟩)

theorem free_solves (hF : FreeStay env) (hs : Slow dt (freeV dt G p0) (freeW dt p0)) {step : TimeStep F} (hdt : step.dt = dt) {g : Graph F} (hg : GInv g)
    (hen : (g.bodies b).enabled = true) (hj : ∀ j ∈ g.jointList, (g.joints j).a ≠ b ∧ (g.joints j).b ≠ b) :
    Solves env step g G al b (fun v => Met v.g b ∨ (At b (Free0 p0) v ∧ (v.phys b).awake = true)) (fun v => Met v.g b ∨ At b (Free1 dt G al p0) v) (fun v => Met v.g b ∨ At b (Free1 dt G al p0) v) where
  p0 := by
    rintro v v' hs (h | ⟨h, ha⟩)
    · exact .inl (hs.met h)
    · exact .inr ⟨by unfold At; rw [hs.type]; exact ⟨h.type, hs.core.trans h.core⟩, hs.awake ha⟩
  p1 := by
    rintro v v' hs (h | h)
    · exact .inl (hs.met h)
    · exact .inr (h.spares hs (fun _ _ _ => Free1.core))
  p2 := by
    rintro v v' hs (h | h)
    · exact .inl (hs.met h)
    · exact .inr (h.spares hs (fun _ _ _ => Free1.core))
  move := by
    rintro v v1 isl states states' i h hvg - hvG hi hx1 hg1 hcs hjs hp1 hst1 hst2
    by_cases hm : Met v.g b
    · exact .inl hm
    right
    obtain ⟨h, haw⟩ := h.resolve_left hm
    rw [At.setPhys]
    have hno : ∀ c ∈ isl.contacts, ∀ u : World F, u.g = g → ¬ OfBody u c b := by
      intro c hc u hu hof
      unfold OfBody at hof
      rw [hu] at hof
      refine hm ?_
      rw [hvg]
      exact of_met hg (hcs c hc) hof
    have hjo : ∀ j ∈ isl.joints, ∀ u : World F, u.g = g → (u.g.joints j).a ≠ b ∧ (u.g.joints j).b ≠ b := by
      intro j hj' u hu
      rw [hu]
      exact hj j (hjs j hj')
    have hv := hF.velocity v1 isl step states i b _ hx1 hi hst1 (fun c hc => hno c hc v1 hg1) (fun j hj' => hjo j hj' v1 hg1)
    have hpe : v.phys b = { p0 with awake := (v.phys b).awake, sleepTime := (v.phys b).sleepTime, island := (v.phys b).island, islandIndex := (v.phys b).islandIndex } := core_eq h.core
    have hi0 : v.initState step.dt b = ⟨p0.sweep.c, p0.sweep.a, freeV dt G p0, freeW dt p0⟩ := by
      unfold initState integrateVelocity
      rw [show v.typeOf b = .dynamic from h.type, if_pos rfl, hpe, hvG, hdt]
      dsimp only
      refine BState.mk.injEq .. ▸ ⟨rfl, rfl, ?_, ?_⟩
      · unfold freeV
        simp only [Vec2.ext_iff, Vec2.smul_x, Vec2.smul_y, Vec2.add_x, Vec2.add_y]
        constructor <;> ring
      · unfold freeW
        ring
    rw [hi0] at hv
    dsimp only at hv
    rw [hv] at hst2 ⊢
    have hint : integratePosition step.dt ⟨(v.phys b).sweep.c, (v.phys b).sweep.a, freeV dt G p0, freeW dt p0⟩ =
        ⟨p0.sweep.c + dt * freeV dt G p0, p0.sweep.a + dt * freeW dt p0, freeV dt G p0, freeW dt p0⟩ := by
      unfold integratePosition
      dsimp only
      rw [hdt, clamp_slow hs, hpe]
    dsimp only at hst2 ⊢
    rw [hint] at hst2 ⊢
    have hpos := hF.position v1 isl step states' i b _ hx1 hi hst2 (fun c hc => hno c hc v1 hg1) (fun j hj' => hjo j hj' v1 hg1)
    rw [hpos, hp1, hpe]
    exact ⟨h.type, rfl, rfl, rfl, .inl ⟨rfl, rfl, haw⟩⟩
  sleep := by
    rintro v ha (h | h) hns hr
    · exact .inl h
    right
    unfold World.setAwake
    rw [At.setPhys]
    unfold Phys.setAwake
    rw [if_neg hns]
    refine ⟨h.type, h.c, h.a, h.auto, .inr ⟨ha, ?_, rfl, rfl⟩⟩
    rcases h.vel with ⟨h1, h2, -⟩ | ⟨-, h1, -⟩
    · have := restless_sleepy hr
      rw [h1, h2] at this
      exact ⟨by rw [← h.auto]; exact this.1, this.2⟩
    · exact h1
  again := by
    rintro v hty (h | h)
    · exact .inl h
    · have : v.typeOf b = .dynamic := h.type
      rw [hty] at this; cases this
  sync := by
    rintro v v' h hw _ e
    obtain ⟨k, -, -⟩ := synchronizeFixtures_track hw e
    have hg : v'.g = v.g := by rw [k.frame]
    have hp : v'.phys = v.phys := by rw [k.frame]
    unfold At World.typeOf at *
    rw [hg, hp]; exact h
  idle := by
    rintro v (h | ⟨h, ha⟩) hg hor
    · exact .inl h
    rcases hor with hor | hor | hor
    · rw [ha] at hor; cases hor
    · rw [hg, hen] at hor; cases hor
    · have : v.typeOf b = .dynamic := h.type
      rw [hor] at this; cases this

theorem free_follows : Follows env dt b (fun v => Met v.g b ∨ At b (Free1 dt G al p0) v) (fun _ v => Met v.g b) (fun v => Met v.g b) where
  full := by
    rintro v v' hs (h | h)
    · exact .inl (hs.met h)
    · exact .inr (h.spares hs (fun _ _ _ => Free1.core))
  half hs h := hs.met h
  done hs h := hs.met h
  align := fun _ hm _ _ _ => .inl hm.1
  advance := by
    intro v v' a _ hm _ _ e
    obtain ⟨p, hp, rfl, -⟩ := advance_eq e
    exact hm.1
  restore := by
    intro v v1 v2 a _ hm e hs
    obtain ⟨p, hp, rfl, -⟩ := advance_eq e
    exact .inl (hs.met hm.1)
  resync h := h
  solve := fun h _ _ _ _ _ _ _ _ _ _ _ => h
  release := by
    intro v v' h hw _ e
    obtain ⟨k, -, -⟩ := synchronizeFixtures_track hw e
    left
    rw [k.frame]; exact h
  stay h _ := .inl h

/-- A body without contacts and joints moves by the rule of free bodies. -/
theorem free_step {w w' : World F} {vi pi : Nat} (hE : LeavesBodies env) (hP : PostSolveLinks env) (hT : ToiForward env) (hF : FreeStay env)
    (hw : WInv w) (hc : w.stepComplete = true) (hb : b ∈ w.g.bodyList) (hty : w.typeOf b = .dynamic) (haw : (w.phys b).awake = true) (hen : (w.g.bodies b).enabled = true)
    (hj : ∀ j ∈ w.g.jointList, (w.g.joints j).a ≠ b ∧ (w.g.joints j).b ≠ b)
    (hpos : 0 < dt) (hs : Slow dt (freeV dt w.gravity (w.phys b)) (freeW dt (w.phys b)))
    (e : w.step env dt vi pi = some w') (hm : ¬ Met w'.g b) :
    Free1 dt w.gravity (w.allowSleep = true) (w.phys b) (w'.typeOf b) (w'.phys b) := by
  obtain ⟨u, -, hu, hd, -⟩ := step_track (b := b) hE hP hT hw hc hb
    (P0 := fun v => Met v.g b ∨ (At b (Free0 (w.phys b)) v ∧ (v.phys b).awake = true))
    (P1 := fun v => Met v.g b ∨ At b (Free1 dt w.gravity (w.allowSleep = true) (w.phys b)) v) (P2 := fun v => Met v.g b ∨ At b (Free1 dt w.gravity (w.allowSleep = true) (w.phys b)) v)
    (fun _ g hg hl => free_solves (dt := dt) hF hs rfl hg (by rw [hl.body]; exact hen) (by rw [hl.eq]; exact hj))
    (fun _ => free_follows (dt := dt) (G := w.gravity) (al := w.allowSleep = true) (p0 := w.phys b))
    (fun v hv => .inr ⟨by unfold At; rw [hv.type]; exact ⟨hty, hv.core⟩, hv.awake haw⟩)
    (fun v u hv hs hmet hp => by
      rcases hv with h | h
      · exact .inl (hmet h)
      · right
        unfold At
        rw [hs.type, hp]
        exact ⟨h.type, h.c, h.a, h.auto, h.vel⟩) e
  have hmu : ¬ Met u.g b := by rw [← hu.g]; exact hm
  have key : At b (Free1 dt w.gravity (w.allowSleep = true) (w.phys b)) u := by
    rcases hd hpos with h | ⟨h, -⟩
    · exact h.resolve_left hmu
    · exact h.resolve_left hmu
  have htt : w'.typeOf b = u.typeOf b := by unfold World.typeOf; rw [hu.g]
  rw [htt]
  rcases hu.phys with h | h <;> rw [h]
  · exact key
  · exact ⟨key.type, key.c, key.a, key.auto, key.vel⟩

end
end B2
