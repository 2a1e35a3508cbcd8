import Verif.Proofs.WorldStepTrack

/-! Static and kinematic bodies through a step. -/
namespace B2
set_option linter.unusedSectionVars false
open World Spec

section
variable {F : Type} [Field F] [LinearOrder F] [IsStrictOrderedRing F] [Elem F]

theorem clamp_slow {h : F} {v : Vec2 F} {w : F} (hs : Slow h v w) : clampVelocity h v w = (v, w) := by
  unfold clampVelocity
  dsimp only
  rw [if_neg (not_lt.mpr hs.1), if_neg (not_lt.mpr hs.2)]

theorem slow_part {h a : F} {v : Vec2 F} {w : F} (hs : Slow h v w) (h0 : 0 ≤ a) (h1 : a < 1) : Slow ((1 - a) * h) v w := by
  have k : (1 - a) * (1 - a) ≤ 1 := by nlinarith
  have k0 : 0 ≤ (1 - a) * (1 - a) := mul_self_nonneg _
  constructor
  · have e : dot ((1 - a) * h * v) ((1 - a) * h * v) = (1 - a) * (1 - a) * dot (h * v) (h * v) := by
      simp only [dot, Vec2.smul_x, Vec2.smul_y]; ring
    have p : 0 ≤ dot (h * v) (h * v) := by simp only [dot]; nlinarith [mul_self_nonneg (h * v).x, mul_self_nonneg (h * v).y]
    rw [e]
    exact le_trans (mul_le_of_le_one_left p k) hs.1
  · have e : (1 - a) * h * w * ((1 - a) * h * w) = (1 - a) * (1 - a) * (h * w * (h * w)) := by ring
    rw [e]
    exact le_trans (mul_le_of_le_one_left (mul_self_nonneg _) k) hs.2

/-- What does not change about a heavy body. -/
structure HeavyAs (T : BodyType) (p0 : Phys F) (t : BodyType) (p : Phys F) : Prop where
  type : t = T
  invMass : p.invMass = 0
  invI : p.invI = 0
  v : p.v = p0.v
  w : p.w = p0.w
  auto : p.autoSleep = p0.autoSleep
  center : p.sweep.localCenter = p0.sweep.localCenter
  posed : Posed p
  wake : ¬ (p0.v = ⟨0, 0⟩ ∧ p0.w = 0) → p.awake = true

/-- Before the solution. `S` are the bodies that need no solution. -/
structure Heavy0 (T : BodyType) (S : Prop) (p0 : Phys F) (t : BodyType) (p : Phys F) : Prop extends HeavyAs T p0 t p where
  c : p.sweep.c = p0.sweep.c
  a : p.sweep.a = p0.sweep.a
  still : S → p.sweep.c0 = p0.sweep.c ∧ p.sweep.a0 = p0.sweep.a

/-- After the solution. -/
structure Heavy1 (T : BodyType) (dt : F) (p0 : Phys F) (t : BodyType) (p : Phys F) : Prop extends HeavyAs T p0 t p where
  c : p.sweep.c = p0.sweep.c + dt * p0.v
  a : p.sweep.a = p0.sweep.a + dt * p0.w
  c0 : p.sweep.c0 = p0.sweep.c
  a0 : p.sweep.a0 = p0.sweep.a

/-- In the continuous phase. -/
structure HeavyF (T : BodyType) (dt : F) (p0 : Phys F) (t : BodyType) (p : Phys F) : Prop extends HeavyAs T p0 t p where
  c : p.sweep.c = p0.sweep.c + dt * p0.v
  a : p.sweep.a = p0.sweep.a + dt * p0.w
  c0 : p.sweep.c0 + ((1 - p.sweep.alpha0) * dt) * p0.v = p0.sweep.c + dt * p0.v
  a0 : p.sweep.a0 + ((1 - p.sweep.alpha0) * dt) * p0.w = p0.sweep.a + dt * p0.w

/-- Brought to time `al`. -/
structure HeavyH (T : BodyType) (dt : F) (p0 : Phys F) (al : F) (t : BodyType) (p : Phys F) : Prop extends HeavyAs T p0 t p where
  alpha : p.sweep.alpha0 = al
  c : p.sweep.c = p.sweep.c0
  a : p.sweep.a = p.sweep.a0
  c0 : p.sweep.c0 + ((1 - al) * dt) * p0.v = p0.sweep.c + dt * p0.v
  a0 : p.sweep.a0 + ((1 - al) * dt) * p0.w = p0.sweep.a + dt * p0.w

variable {env : Env F} {b : Nat} {T : BodyType} {p0 : Phys F} {dt al : F} {t : BodyType} {p q : Phys F} {S : Prop}

theorem HeavyAs.core (h : HeavyAs T p0 t p) (e : q.core = p.core) (ha : p.awake = true → q.awake = true) : HeavyAs T p0 t q := by
  have ha' := fun k => ha (h.wake k)
  rw [core_eq e]; exact ⟨h.type, h.invMass, h.invI, h.v, h.w, h.auto, h.center, h.posed, ha'⟩
theorem Heavy0.core (h : Heavy0 T S p0 t p) (e : q.core = p.core) (ha : p.awake = true → q.awake = true) : Heavy0 T S p0 t q := by
  refine ⟨h.toHeavyAs.core e ha, ?_, ?_, ?_⟩ <;> rw [core_eq e]
  exacts [h.c, h.a, h.still]
theorem Heavy1.core (h : Heavy1 T dt p0 t p) (e : q.core = p.core) (ha : p.awake = true → q.awake = true) : Heavy1 T dt p0 t q := by
  refine ⟨h.toHeavyAs.core e ha, ?_, ?_, ?_, ?_⟩ <;> rw [core_eq e]
  exacts [h.c, h.a, h.c0, h.a0]
theorem HeavyF.core (h : HeavyF T dt p0 t p) (e : q.core = p.core) (ha : p.awake = true → q.awake = true) : HeavyF T dt p0 t q := by
  refine ⟨h.toHeavyAs.core e ha, ?_, ?_, ?_, ?_⟩ <;> rw [core_eq e]
  exacts [h.c, h.a, h.c0, h.a0]
theorem HeavyH.core (h : HeavyH T dt p0 al t p) (e : q.core = p.core) (ha : p.awake = true → q.awake = true) : HeavyH T dt p0 al t q := by
  refine ⟨h.toHeavyAs.core e ha, ?_, ?_, ?_, ?_, ?_⟩ <;> rw [core_eq e]
  exacts [h.alpha, h.c, h.a, h.c0, h.a0]

/-- A statement about the numbers of body `b`. -/
def At (b : Nat) (P : BodyType → Phys F → Prop) (w : World F) : Prop := P (w.typeOf b) (w.phys b)

theorem At.setPhys {P : BodyType → Phys F → Prop} {w : World F} {p : Phys F} : At b P (w.setPhys b p) ↔ P (w.typeOf b) p := by
  unfold At
  show P (w.typeOf b) (upd w.phys b p b) ↔ _
  rw [upd_same]

theorem At.spares {P : BodyType → Phys F → Prop} {w w' : World F} (h : At b P w) (hs : Spares b w w') (hP : ∀ t p q, P t p → q.core = p.core → (p.awake = true → q.awake = true) → P t q) : At b P w' := by
  unfold At
  rw [hs.type]
  exact hP _ _ _ h hs.core hs.awake

theorem write_posed (p : Phys F) (s : BState F) : Posed (p.write s) := rfl

theorem restless_same (h : HeavyAs T p0 t p) : restless p = restless p0 := by
  unfold restless; rw [h.auto, h.v, h.w]

theorem Sweep.advance_eq {s s' : Sweep F} {a : F} (e : s.advance a = some s') : s.alpha0 < 1 ∧
    s' = { s with c0 := s.c0 + ((a - s.alpha0) / (1 - s.alpha0)) * (s.c - s.c0), a0 := s.a0 + ((a - s.alpha0) / (1 - s.alpha0)) * (s.a - s.a0), alpha0 := a } := by
  unfold Sweep.advance at e
  dsimp only at e
  split at e
  · rename_i h; cases e; exact ⟨h, rfl⟩
  · cases e

theorem heavy_solves (hH : HeavyStay env) (hs : Slow dt p0.v p0.w) {step : TimeStep F} (hdt : step.dt = dt) {g : Graph F} {G : Vec2 F}
    (hT : T ≠ .dynamic) (hTS : T = .static → S) (hst : S → p0.v = ⟨0, 0⟩ ∧ p0.w = 0) (hk : ¬ S → (g.bodies b).enabled = true)
    {al : Prop} (hr : al → restless p0 = true ∨ (p0.v = ⟨0, 0⟩ ∧ p0.w = 0)) :
    Solves env step g G al b (fun v => At b (Heavy0 T S p0) v ∧ (¬ S → (v.phys b).awake = true)) (At b (Heavy1 T dt p0)) (At b (Heavy1 T dt p0)) where
  p0 hs h := ⟨h.1.spares hs (fun _ _ _ => Heavy0.core), fun hn => hs.awake (h.2 hn)⟩
  p1 hs h := h.spares hs (fun _ _ _ => Heavy1.core)
  p2 hs h := h.spares hs (fun _ _ _ => Heavy1.core)
  move := by
    rintro v v1 isl states states' i ⟨h, -⟩ - - - hi hx1 - - - hp1 hst1 hst2
    rw [At.setPhys]
    have hm1 : (v1.phys b).invMass = 0 ∧ (v1.phys b).invI = 0 := by rw [hp1]; exact ⟨h.invMass, h.invI⟩
    have hty : v.typeOf b ≠ .dynamic := by rw [h.type]; exact hT
    have hv := hH.velocity v1 isl step states i b _ hx1 hi hst1 hm1.1 hm1.2
    have hi0 : v.initState step.dt b = ⟨p0.sweep.c, p0.sweep.a, p0.v, p0.w⟩ := by
      unfold initState integrateVelocity
      rw [if_neg hty, h.c, h.a, h.v, h.w]
    rw [hi0] at hv
    dsimp only at hv
    rw [hv] at hst2 ⊢
    have hint : integratePosition step.dt ⟨(v.phys b).sweep.c, (v.phys b).sweep.a, p0.v, p0.w⟩ = ⟨p0.sweep.c + dt * p0.v, p0.sweep.a + dt * p0.w, p0.v, p0.w⟩ := by
      unfold integratePosition
      dsimp only
      rw [hdt, clamp_slow hs, h.c, h.a]
    dsimp only at hst2 ⊢
    rw [hint] at hst2 ⊢
    have hpos := hH.position v1 isl step states' i b _ hx1 hi hst2 hm1.1 hm1.2
    rw [hpos, hp1]
    exact ⟨⟨h.type, h.invMass, h.invI, rfl, rfl, h.auto, h.center, write_posed _ _, h.wake⟩, rfl, rfl, h.c, h.a⟩
  sleep := by
    intro v ha h hns hr'
    rw [restless_same h.toHeavyAs] at hr'
    rcases hr ha with hr | hr
    · rw [hr] at hr'; cases hr'
    · unfold World.setAwake
      rw [At.setPhys]
      unfold Phys.setAwake
      split
      · exact h
      · rw [if_neg (by decide)]
        exact ⟨⟨h.type, h.invMass, h.invI, hr.1.symm, hr.2.symm, h.auto, h.center, h.posed, fun hn => absurd hr hn⟩, h.c, h.a, h.c0, h.a0⟩
  again := by
    intro v hty h
    have hTs : T = .static := by rw [← h.type]; exact hty
    obtain ⟨z1, z2⟩ := hst (hTS hTs)
    refine ⟨⟨h.toHeavyAs, ?_, ?_, fun _ => ⟨h.c0, h.a0⟩⟩, fun hn => absurd (hTS hTs) hn⟩
    · rw [h.c, z1]; simp [Vec2.ext_iff]
    · rw [h.a, z2]; simp
  sync := by
    intro v v' h hw _ e
    obtain ⟨k, -, -⟩ := synchronizeFixtures_track hw e
    have hg : v'.g = v.g := by rw [k.frame]
    have hp : v'.phys = v.phys := by rw [k.frame]
    unfold At World.typeOf
    rw [hg, hp]; exact h
  idle := by
    rintro v ⟨h, haw⟩ hg hor
    have hTs : S := by
      by_contra hn
      rcases hor with hor | hor | hor
      · rw [haw hn] at hor; cases hor
      · rw [hg, hk hn] at hor; cases hor
      · exact hn (hTS (by rw [← h.type]; exact hor))
    obtain ⟨z1, z2⟩ := hst hTs
    obtain ⟨s1, s2⟩ := h.still hTs
    refine ⟨h.toHeavyAs, ?_, ?_, s1, s2⟩
    · rw [h.c, z1]; simp [Vec2.ext_iff]
    · rw [h.a, z2]; simp

theorem sweep_stay {s : Sweep F} (h1 : s.c = s.c0) (h2 : s.a = s.a0) : { s with c0 := s.c, a0 := s.a } = s := by
  cases s
  dsimp only at h1 h2
  rw [h1, h2]

theorem heavy_advance (h : HeavyF T dt p0 t p) (a : F) (hlt : p.sweep.alpha0 < 1) :
    p.sweep.c0 + ((a - p.sweep.alpha0) / (1 - p.sweep.alpha0)) * (p.sweep.c - p.sweep.c0) + ((1 - a) * dt) * p0.v = p0.sweep.c + dt * p0.v ∧
    p.sweep.a0 + ((a - p.sweep.alpha0) / (1 - p.sweep.alpha0)) * (p.sweep.a - p.sweep.a0) + ((1 - a) * dt) * p0.w = p0.sweep.a + dt * p0.w := by
  have hne : 1 - p.sweep.alpha0 ≠ 0 := ne_of_gt (sub_pos.mpr hlt)
  have hc := h.c
  have hc0 := h.c0
  rw [← hc] at hc0
  have key : ∀ (x0 x u : F), x0 + ((1 - p.sweep.alpha0) * dt) * u = x → x0 + ((a - p.sweep.alpha0) / (1 - p.sweep.alpha0)) * (x - x0) + ((1 - a) * dt) * u = x := by
    rintro x0 x u rfl
    field_simp
    ring
  constructor
  · rw [← hc]
    simp only [Vec2.ext_iff, Vec2.add_x, Vec2.add_y, Vec2.smul_x, Vec2.smul_y, Vec2.sub_x, Vec2.sub_y] at hc0 ⊢
    exact ⟨key _ _ _ hc0.1, key _ _ _ hc0.2⟩
  · have ha0 := h.a0
    rw [← h.a] at ha0 ⊢
    exact key _ _ _ ha0

theorem heavy_follows (hH : HeavyStay env) (hs : Slow dt p0.v p0.w) (hT : T ≠ .dynamic) :
    Follows env dt b (At b (HeavyF T dt p0)) (fun a => At b (HeavyH T dt p0 a)) (At b (HeavyF T dt p0)) where
  full hs h := h.spares hs (fun _ _ _ => HeavyF.core)
  half hs h := h.spares hs (fun _ _ _ => HeavyH.core)
  done hs h := h.spares hs (fun _ _ _ => HeavyF.core)
  align := by
    intro v a s h _ _ _ e
    obtain ⟨hlt, rfl⟩ := Sweep.advance_eq e
    rw [At.setPhys]
    obtain ⟨e1, e2⟩ := heavy_advance h a hlt
    exact ⟨⟨h.type, h.invMass, h.invI, h.v, h.w, h.auto, h.center, h.posed, h.wake⟩, h.c, h.a, e1, e2⟩
  advance := by
    intro v v' a h _ _ _ e
    obtain ⟨p, hp, rfl, -⟩ := advance_eq e
    rw [At.setPhys]
    unfold Phys.advance at hp
    simp only [Option.bind_eq_bind, Option.bind_eq_some_iff] at hp
    obtain ⟨s, hs, hp⟩ := hp
    cases hp
    obtain ⟨hlt, rfl⟩ := Sweep.advance_eq hs
    obtain ⟨e1, e2⟩ := heavy_advance h a hlt
    exact ⟨⟨h.type, h.invMass, h.invI, h.v, h.w, h.auto, h.center, rfl, h.wake⟩, rfl, rfl, rfl, e1, e2⟩
  restore := by
    intro v v1 v2 a h _ e hs
    obtain ⟨p, hp, rfl, -⟩ := advance_eq e
    unfold Phys.advance at hp
    simp only [Option.bind_eq_bind, Option.bind_eq_some_iff] at hp
    obtain ⟨s, -, hp⟩ := hp
    cases hp
    have hc := hs.core
    have hph : (v.setPhys b (Phys.synchronizeTransform { v.phys b with sweep := { s with c := s.c0, a := s.a0 } })).phys b =
      Phys.synchronizeTransform { v.phys b with sweep := { s with c := s.c0, a := s.a0 } } := upd_same _ _ _
    rw [hph] at hc
    have ht : v2.typeOf b = v.typeOf b := hs.type
    unfold World.restore
    have haw := fun k => hs.awake (by rw [hph]; exact h.wake k)
    rw [At.setPhys, ht, core_eq hc]
    exact ⟨⟨h.type, h.invMass, h.invI, h.v, h.w, h.auto, h.center, rfl, haw⟩, h.c, h.a, h.c0, h.a0⟩
  resync := by
    intro v a h
    unfold World.restore
    rw [At.setPhys]
    exact ⟨⟨h.type, h.invMass, h.invI, h.v, h.w, h.auto, h.center, rfl, h.wake⟩, h.alpha, h.c, h.a, h.c0, h.a0⟩
  solve := by
    intro v v1 isl sub states i a h _ h0 h1 hsub hi hx hx1 _ hst hp _
    rw [At.setPhys]
    have htp := hH.toiPosition v isl sub i b hx hi h.invMass h.invI
    rw [htp] at hst hp ⊢
    dsimp only at hst hp ⊢
    have hp' : v1.phys b = v.phys b := by
      rcases hp with hp | hp
      · exact hp
      · rw [hp, sweep_stay h.c h.a]
    have hv := hH.toiVelocity v1 isl sub states i b _ hx1 hi hst (by rw [hp']; exact h.invMass) (by rw [hp']; exact h.invI)
    rw [hv, hp', hsub]
    dsimp only
    have hint : integratePosition ((1 - a) * dt) ⟨(v.phys b).sweep.c, (v.phys b).sweep.a, (v.phys b).v, (v.phys b).w⟩ =
        ⟨p0.sweep.c + dt * p0.v, p0.sweep.a + dt * p0.w, p0.v, p0.w⟩ := by
      unfold integratePosition
      dsimp only
      rw [h.v, h.w, clamp_slow (slow_part hs h0 h1), h.c, h.a]
      dsimp only
      rw [h.c0, h.a0]
    rw [hint]
    refine ⟨⟨h.type, h.invMass, h.invI, rfl, rfl, h.auto, h.center, write_posed _ _, h.wake⟩, rfl, rfl, ?_, ?_⟩
    · show (v.phys b).sweep.c0 + ((1 - (v.phys b).sweep.alpha0) * dt) * p0.v = _
      rw [h.alpha]; exact h.c0
    · show (v.phys b).sweep.a0 + ((1 - (v.phys b).sweep.alpha0) * dt) * p0.w = _
      rw [h.alpha]; exact h.a0
  release h _ hd _ := absurd (h.type ▸ hd) hT
  stay h _ := h

end
end B2
